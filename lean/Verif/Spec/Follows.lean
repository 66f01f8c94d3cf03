import Verif.Spec.Service
/-!
# Programs and histories
-/

namespace Cifs.Spec

variable {α : Type}

/-- If its calls have these outcomes, one after the other, the program makes these calls and ends with this result. -/
inductive Prog.Follows : Prog α → List Op → List (Out Error Val) → α → Prop
  | done (x : α) : Follows (.done x) [] [] x
  | call {op : Op} {next : Out Error Val → Prog α} {o : Out Error Val} {ops : List Op} {os : List (Out Error Val)} {x : α}
      (h : Follows (next o) ops os x) : Follows (.call op next) (op :: ops) (o :: os) x

/-- Whatever the outcomes of its calls, all calls of the program are of this kind. -/
def Prog.Only (P : Op → Prop) : Prog α → Prop
  | .done _ => True
  | .call op next => P op ∧ ∀ o, (next o).Only P

end Cifs.Spec
