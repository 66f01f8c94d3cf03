import Verif.Spec.Service
/-!
# Deleting files by a pattern

[MS-CIFS] 2.2.4.7: the file name in SMB_COM_DELETE may contain wildcards, and the server deletes every file that fits it. Only the last part of
the path is a pattern.
-/

namespace Cifs.Spec

/-- The wildcards of [MS-CIFS] 2.2.1.1.3. -/
def wildcards : List Char := ['*', '?', '<', '>', '"']

/-- Ways to match names: names without wildcards match themselves and nothing else, and `*` matches everything. -/
structure Globs (M : Str → Str → Prop) : Prop where
  plain : ∀ pattern name, (∀ c ∈ pattern, c ∉ wildcards) → (M pattern name ↔ name = pattern)
  star : ∀ name, M ['*'] name

/-- The file at `q` fits the path `path`: both are in the same directory, and the name matches the pattern. -/
def Hits (M : Str → Str → Prop) (path q : Str) : Prop :=
  ∃ dir pattern name, path = dir ++ pattern ∧ q = dir ++ name ∧ '\\' ∉ pattern ∧ '\\' ∉ name ∧ (dir = [] ∨ dir.getLast? = some '\\') ∧ M pattern name

/-- The files on each tree. -/
abbrev Trees := Nat → Str → Option Bytes

/-- `a'` is `a` without these files on the tree `tid`. -/
def Lost (a : Trees) (tid : Nat) (gone : Str → Prop) (a' : Trees) : Prop :=
  ∀ t q, (t = tid ∧ gone q → a' t q = none) ∧ (¬ (t = tid ∧ gone q) → a' t q = a t q)

/-- A service that deletes by patterns. It may refuse to, and may do whatever it likes in other calls. -/
inductive Deletes (M : Str → Str → Prop) : Trees → Call → Answer → Trees → Prop
  | deleted {a a' : Trees} {tid : Nat} {path q : Str} (hq : a tid q ≠ none) (hh : Hits M path q) (hl : Lost a tid (Hits M path) a') :
      Deletes M a (.delete tid path) (.value .unit) a'
  | refused {a : Trees} {tid : Nat} {path : Str} {status : UInt32} : Deletes M a (.delete tid path) (.refused status) a
  | other {a a' : Trees} {c : Call} {r : Answer} (hc : ∀ tid path, c ≠ .delete tid path) : Deletes M a c r a'

end Cifs.Spec
