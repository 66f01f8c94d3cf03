import Verif.Spec.Entries
import Verif.Spec.Names
/-!
# Names that are no text

Names of files are sequences of 16-bit units, and need not be well-formed UTF-16. Here is what a page of a listing and a notification say about the
names, whatever they are.
-/

namespace Cifs.Spec

/-- The bytes `b` are a directory entry with this name, in bytes. -/
def Named (b nm : Bytes) : Prop := ∃ n, u32At b 60 = some n ∧ sliceAt b 64 n = some nm

/-- A list of entries with these names. Each gives the distance to the next one, the last one gives 0 (if `zero`) or the distance to the end. -/
inductive Laid (zero : Bool) : Bytes → List Bytes → Prop
  | none : Laid zero [] []
  | last {b nm : Bytes} (hz : zero = true) (h : u32At b 0 = some 0) (hn : Named b nm) : Laid zero b [nm]
  | more {b nm : Bytes} {next : Nat} {names : List Bytes} (h : u32At b 0 = some next) (h0 : 0 < next) (hl : next ≤ b.length) (hn : Named (b.take next) nm)
      (hs : Laid zero (b.drop next) names) : Laid zero b (nm :: names)

/-- The bytes `b` start with a record about a change of the file with this name, in bytes. -/
def Touched (b nm : Bytes) : Prop := ∃ a n action, u32At b 4 = some a ∧ actionOf a = some action ∧ u32At b 8 = some n ∧ sliceAt b 12 n = some nm

/-- A list of records about changes of files with these names. -/
inductive Touches : Bytes → List Bytes → Prop
  | none : Touches [] []
  | last {b nm : Bytes} (h : u32At b 0 = some 0) (hc : Touched b nm) : Touches b [nm]
  | more {b nm : Bytes} {next : Nat} {names : List Bytes} (h : u32At b 0 = some next) (h0 : 0 < next) (hl : next ≤ b.length) (hc : Touched b nm)
      (hs : Touches (b.drop next) names) : Touches b (nm :: names)

/-- The name is text. -/
def IsText (nm : Bytes) : Prop := ∃ s, Utf16le s nm

end Cifs.Spec
