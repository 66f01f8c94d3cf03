import Verif.Spec.Log
import Verif.Spec.Servers
/-!
# Servers that speak at any time

In the model a server speaks when a request has been written completely. A real server may also speak, or change its mind, at any other
moment: it may send a late reply after a call was given up, or see the fragment of a request that a write left behind. `runAnytime` runs
calls in such an environment.
-/

namespace Cifs.Spec

variable {σ : Type}

/-- Something happens at the server between two calls, depending on anything, also on all bytes it has received: it goes to another state, and
more segments arrive. -/
def disturb (d : St σ → σ × List Bytes) (s : St σ) : St σ :=
  { s with w := { s.w with srv := (d s).1, inbox := s.w.inbox ++ (d s).2 } }

/-- Run a history of calls; something happens at the server before each of them. -/
def runAnytime (E : Env σ) : List ((St σ → σ × List Bytes) × Op) → St σ → List (Out Error Val) × St σ
  | [], s => ([], s)
  | step :: steps, s =>
    let r := runOp E step.2 (disturb step.1 s)
    let rest := runAnytime E steps r.2
    (r.1 :: rest.1, rest.2)

/-- What a server will do, written down in advance: what follows the bytes sent so far, and for each coming request the answer and what
follows that. -/
abbrev Script := Tail × List (List Bytes × Tail)

/-- The server that does what is written down, and keeps the requests. -/
def scripted : Server (Script × List Bytes) := logged {
  react := fun v _ => match v.2 with
    | [] => (v, [])
    | a :: rest => ((a.2, rest), a.1)
  tail := fun v => v.1 }

/-- The second server answers like the first, but its answer to a request comes with late replies to requests that were made before that one. -/
structure LateServer {σ' : Type} (V : Server σ) (V' : Server σ') (R : σ → σ' → Prop) : Prop where
  state : ∀ a a' p, R a a' → R (V.react a p).1 (V'.react a' p).1
  bytes : ∀ a a' p m, R a a' → midOf p = some m → Noisy (fun k => k < m) (V.react a p).2.flatten (V'.react a' p).2.flatten
  tail : ∀ a a', R a a' → V.tail a = V'.tail a'

/-- Between two calls, late replies arrive, to requests that were made before. -/
structure LateReplies {σ' : Type} (R : σ → σ' → Prop) (d : St σ' → σ' × List Bytes) : Prop where
  state : ∀ a s', R a s'.w.srv → R a (d s').1
  bytes : ∀ s', Noisy (fun k => k < s'.cli.mid.toNat) [] (d s').2.flatten

end Cifs.Spec
