import Verif.Spec.Service
/-!
# Names of files in a directory
-/

namespace Cifs.Spec

/-- A name of a file or directory, and not a path: it is not empty, and has neither separators nor NULs. -/
def IsName (s : Str) : Prop := s ≠ [] ∧ ∀ c ∈ s, c ≠ '/' ∧ c ≠ '\\' ∧ c ≠ '\x00'

instance (s : Str) : Decidable (IsName s) := inferInstanceAs (Decidable (_ ∧ _))

/-- The names of files that an operation brings. -/
def namesIn : Val → List Str
  | .first r => r.info.map (·.filename)
  | .next r => r.info.map (·.filename)
  | .entries l => l.map (·.filename)
  | .changes l => l.map (·.1)
  | _ => []

end Cifs.Spec
