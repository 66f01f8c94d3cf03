import Verif.Spec.Service
/-!
# The numbers that a server gives out

Servers denote trees, open files and searches by 16 bit numbers of their own choice. A `Renaming` describes two servers that choose
differently.
-/

namespace Cifs.Spec

variable {α : Type}

/-- The numbers of one server for those of another. -/
structure Renaming where
  tid : UInt16 → UInt16
  fid : UInt16 → UInt16
  sid : UInt16 → UInt16

/-- The same for numbers in calls. -/
def renumber (f : UInt16 → UInt16) (n : Nat) : Nat := if n < 65536 then (f (UInt16.ofNat n)).toNat else n

namespace Renaming
variable (ρ : Renaming)

def share (s : Share) : Share := { s with tid := ρ.tid s.tid }

def handle (h : Handle) : Handle := { h with tid := ρ.tid h.tid, fid := ρ.fid h.fid }

def call : Call → Call
  | .mount password path => .mount password path
  | .umount tid => .umount (renumber ρ.tid tid)
  | .openfile tid path => .openfile (renumber ρ.tid tid) path
  | .opendir tid path => .opendir (renumber ρ.tid tid) path
  | .close tid fid => .close (renumber ρ.tid tid) (renumber ρ.fid fid)
  | .read tid fid offset => .read (renumber ρ.tid tid) (renumber ρ.fid fid) offset
  | .delete tid path => .delete (renumber ρ.tid tid) path
  | .rmdir tid path => .rmdir (renumber ρ.tid tid) path
  | .notify tid fid what => .notify (renumber ρ.tid tid) (renumber ρ.fid fid) what
  | .findFirst tid pattern => .findFirst (renumber ρ.tid tid) pattern
  | .findNext tid sid last => .findNext (renumber ρ.tid tid) (renumber ρ.sid sid) last

def val : Val → Val
  | .share s => .share (ρ.share s)
  | .handle h => .handle (ρ.handle h)
  | .first r => .first { r with sid := ρ.sid r.sid }
  | .unit => .unit
  | .bytes b => .bytes b
  | .changes l => .changes l
  | .next r => .next r
  | .entries l => .entries l

def answer : Answer → Answer
  | .value v => .value (ρ.val v)
  | .refused status => .refused status

def op : Op → Op
  | .mount path password => .mount path password
  | .umount share => .umount (ρ.share share)
  | .openfile share path => .openfile (ρ.share share) path
  | .opendir share path => .opendir (ρ.share share) path
  | .close file => .close (ρ.handle file)
  | .read file offset => .read (ρ.handle file) offset
  | .download k share path => .download k (ρ.share share) path
  | .delete share path => .delete (ρ.share share) path
  | .rmdir share path => .rmdir (ρ.share share) path
  | .notify handle what => .notify (ρ.handle handle) what
  | .findFirst share pattern => .findFirst (ρ.share share) pattern
  | .findNext share sid last => .findNext (ρ.share share) (ρ.sid sid) last
  | .list k share pattern => .list k (ρ.share share) pattern

/-- Two outcomes that differ in the numbers only; or that are both the complaint that a request cannot be made. -/
inductive Agree : Out Error Val → Out Error Val → Prop
  | ok (v : Val) : Agree (.ok v) (.ok (ρ.val v))
  | err (e : Error) : Agree (.err e) (.err e)
  | unmade (e e' : String) : Agree (.err (.SMBError (.CreatePacket e))) (.err (.SMBError (.CreatePacket e')))
  | panic : Agree .panic .panic
  | running : Agree .running .running

/-- Two programs that make the same calls, up to the numbers, as long as they see the same outcomes, up to the numbers; and then have the same
result. -/
inductive Alike : Prog α → Prog α → Prop
  | done (x : α) : Alike (.done x) (.done x)
  | call (op : Op) (next next' : Out Error Val → Prog α) (h : ∀ o o', ρ.Agree o o' → Alike (next o) (next' o')) :
      Alike (.call op next) (.call (ρ.op op) next')

end Renaming

/-- Two services that differ in the numbers only: related states `same` give answers that differ in the numbers only, and related states. -/
def SameService {A B : Type} (ρ : Renaming) (same : A → B → Prop) (step : A → Call → Answer × A) (step' : B → Call → Answer × B) : Prop :=
  ∀ a b c, same a b → (step' b (ρ.call c)).1 = ρ.answer (step a c).1 ∧ same (step a c).2 (step' b (ρ.call c)).2

/-- The service, with other numbers. -/
def renumbered {A : Type} (ρ back : Renaming) (step : A → Call → Answer × A) (a : A) (c : Call) : Answer × A :=
  (ρ.answer (step a (back.call c)).1, (step a (back.call c)).2)

end Cifs.Spec
