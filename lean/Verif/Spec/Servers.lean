import Verif.Model.Client
import Verif.Spec.Header
/-!
# Comparing servers

Two servers that send the same bytes in different segments; a server and the same server with unrelated packets in between.
-/

namespace Cifs

/-- The same environment with another server. -/
def Env.withV {σ σ' : Type} (E : Env σ) (V : Server σ') : Env σ' :=
  { V, C := E.C, checked := E.checked, now := E.now, random := E.random, random_len := E.random_len }

namespace Spec

variable {σ σ' : Type}

/-- From states related by `R` on, both servers send the same bytes, though perhaps in other segments. -/
structure SameBytes (V : Server σ) (V' : Server σ') (R : σ → σ' → Prop) : Prop where
  state : ∀ a a' p, R a a' → R (V.react a p).1 (V'.react a' p).1
  bytes : ∀ a a' p, R a a' → (V.react a p).2.flatten = (V'.react a' p).2.flatten
  tail : ∀ a a', R a a' → V.tail a = V'.tail a'

/-- Connections that agree in everything except how the unread bytes are cut. -/
structure SameWire (R : σ → σ' → Prop) (w : World σ) (w' : World σ') : Prop where
  out : w.out = w'.out
  wsched : w.wsched = w'.wsched
  srv : R w.srv w'.srv
  bytes : w.inbox.flatten = w'.inbox.flatten

/-- `Noisy P b b'`: the stream of whole packets `b'` is `b` with keep-alives and replies put in between, all of them with a multiplex id
in `P`. -/
inductive Noisy (P : Nat → Prop) : Bytes → Bytes → Prop
  | done : Noisy P [] []
  | same {b b' : Bytes} (ty : UInt8) (d : Bytes) (hd : d.length ≤ maxPayload) (h : Noisy P b b') : Noisy P (packet ty d ++ b) (packet ty d ++ b')
  | keepAlive {b b' : Bytes} (h : Noisy P b b') : Noisy P b (Spec.keepAlive ++ b')
  | reply {b b' : Bytes} (g : Bytes) (hl : g.length ≤ maxPayload) (hg : Genuine g) (m : Nat) (hm : midOf (message g) = some m) (hP : P m)
      (h : Noisy P b b') : Noisy P b (message g ++ b')

/-- The second server sends what the first one sends (whole packets), with such noise in between. -/
structure NoisyServer (P : Nat → Prop) (V : Server σ) (V' : Server σ') (R : σ → σ' → Prop) : Prop where
  state : ∀ a a' p, R a a' → R (V.react a p).1 (V'.react a' p).1
  bytes : ∀ a a' p, R a a' → Noisy P (V.react a p).2.flatten (V'.react a' p).2.flatten
  tail : ∀ a a', R a a' → V.tail a = V'.tail a'

end Spec
end Cifs
