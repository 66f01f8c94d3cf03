import Verif.Model.Client
/-! # Servers that do not look at what they are sent -/

namespace Cifs.Spec

/-- From states related by `R` on, what the server says depends on how long the packets it gets are, not on what they contain. A recording of
what some server said, played back, is such a server. -/
structure Deaf {σ : Type} (V : Server σ) (R : σ → σ → Prop) : Prop where
  refl : ∀ v, R v v
  state : ∀ v v' p p', R v v' → p.length = p'.length → R (V.react v p).1 (V.react v' p').1
  bytes : ∀ v v' p p', R v v' → p.length = p'.length → (V.react v p).2.flatten = (V.react v' p').2.flatten
  tail : ∀ v v', R v v' → V.tail v = V.tail v'

end Cifs.Spec
