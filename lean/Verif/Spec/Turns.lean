import Verif.Spec.Reassembly
import Verif.Spec.Login
import Verif.Spec.InStep
/-!
# Taking turns

A conversation in which a request is sent only after the request before it was answered.
-/

namespace Cifs.Spec

variable {σ : Type}

/-- A complete reply of the type `c` that does not refuse the request. In a login, the server may ask for more. -/
def Grants (c : Nat) (f : Bytes) : Prop :=
  cmdOf (message f) = some c ∧ (statusOf (message f) = some 0 ∨ c = 0x73 ∧ statusOf (message f) = some moreProcessing) ∧
    ∃ ps ds, ReplyBody (message f) ps ds

/-- The first replies with the multiplex id `mid` in the stream `b` grant a request of type `c`: one, or several if it is a search.
`b'` follows. -/
inductive Granted (mid c : Nat) : Bytes → Bytes → Prop
  | one {b f b' : Bytes} (h : Awaits mid b f b') (hg : Grants c f) : Granted mid c b b'
  | more {b f b' b'' : Bytes} (hc : c = 0x32) (h : Awaits mid b f b') (hg : Grants c f) (hs : Granted mid c b' b'') : Granted mid c b b''

/-- `Turns V v b ps v' b'`: while the bytes `b` are unread, the requests `ps` reach the server in state `v`, each after the one before it was
granted. When the last one was granted, the server is in state `v'`, and the bytes `b'` are unread. -/
inductive Turns (V : Server σ) : σ → Bytes → List Bytes → σ → Bytes → Prop
  | nil (v : σ) (b : Bytes) : Turns V v b [] v b
  | cons {v v' : σ} {b b' b'' p : Bytes} {ps : List Bytes} {mid c : Nat} (hm : midOf p = some mid) (hc : cmdOf p = some c)
      (hg : Granted mid c (b ++ (V.react v p).2.flatten) b') (hs : Turns V (V.react v p).1 b' ps v' b'') : Turns V v b (p :: ps) v' b''

/-- The requests `ps` are sent in turns; at the end there may be one that is not granted. The server is in state `v'` then. -/
def InTurn (V : Server σ) (v : σ) (b : Bytes) (ps : List Bytes) (v' : σ) : Prop :=
  (∃ b', Turns V v b ps v' b') ∨ ∃ qs p v1 b1, ps = qs ++ [p] ∧ Turns V v b qs v1 b1 ∧ v' = (V.react v1 p).1

end Cifs.Spec
