import Verif.Spec.InStep
/-!
# How big results are
-/

namespace Cifs.Spec

/-- The size of a text: two bytes for each character, the least that UTF-16 needs for it. -/
def textSize (s : Str) : Nat := 2 * s.length

/-- The size of a directory entry: 64 bytes for the fixed fields, and its name. -/
def entrySize (d : DirInfo) : Nat := 64 + textSize d.filename

/-- The size of a change: 12 bytes for the fixed fields, and its name. -/
def changeSize (c : Str × NotifyAction) : Nat := 12 + textSize c.1

/-- The size of a result, counted as the protocol would need it at least. -/
def sizeOfVal : Val → Nat
  | .unit => 0
  | .handle _ => 0
  | .share s => s.service.length + s.filesystem.length
  | .bytes b => b.length
  | .changes l => (l.map changeSize).sum
  | .first r => (r.info.map entrySize).sum
  | .next r => (r.info.map entrySize).sum
  | .entries l => (l.map entrySize).sum

/-- Is it a wait for changes? -/
def isNotify : Op → Bool
  | .notify _ _ => true
  | _ => false

end Cifs.Spec
