import Verif.Spec.Turns
import Verif.Spec.Cause
/-!
# Which reply ended a call
-/

namespace Cifs.Spec

variable {σ : Type}

/-- `LastReply V v b ps p c f v' b'`: while the bytes `b` are unread, the requests `ps` reach the server in state `v`, each after the one before it
was granted; when all of them were granted, the request `p`, of type `c`, reaches it, too. `f` is the first reply to `p`, or, if `p` is a search,
the first one after some that granted `p`. The server is in state `v'` then, and the bytes `b'` are unread. -/
def LastReply (V : Server σ) (v : σ) (b : Bytes) (ps : List Bytes) (p : Bytes) (c : Nat) (f : Bytes) (v' : σ) (b' : Bytes) : Prop :=
  ∃ v1 b1 b2 mid, Turns V v b ps v1 b1 ∧ midOf p = some mid ∧ cmdOf p = some c ∧ v' = (V.react v1 p).1 ∧
    (b2 = b1 ++ (V.react v1 p).2.flatten ∨ c = 0x32 ∧ Granted mid c (b1 ++ (V.react v1 p).2.flatten) b2) ∧ Awaits mid b2 f b'

/-- Errors by which the client says something about a reply that it understood: it is of another type, or it refuses. -/
def Judges : Error → Prop
  | .ServerError _ => True
  | .UnexpectedReply _ _ => True
  | _ => False

end Cifs.Spec
