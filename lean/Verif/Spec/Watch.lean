import Verif.Spec.Notify
import Verif.Spec.Download
/-!
# Watching a directory

What a server does for a client that watches a directory: [MS-CIFS] 2.2.7.4. Each request to be told about changes waits at the server until
there is something to tell; requests for the same directory are answered in the order in which they came.
-/

namespace Cifs.Spec

variable {σ : Type}

/-- A change: a name, and what happened. -/
abbrev News := Str × NotifyAction

/-- A request to be told about changes in the open directory `h`. -/
def WatchRequest (req : Bytes) (h : Handle) : Prop :=
  cmdOf req = some 0xa0 ∧ tidOf req = some h.tid.toNat ∧ ∃ setup what, IsNtTransact req 4 setup [] [] ∧ IsNotify setup what h.fid.toNat

/-- A successful reply to the request with the multiplex id `m`, that tells the changes `l`. -/
def TellsChanges (f : Bytes) (m : Nat) (l : List News) : Prop :=
  f.length ≤ maxPayload ∧ Genuine f ∧ midOf (message f) = some m ∧
    ∃ ps ds pb db, Succeeds f 0xa0 ps ds ∧ IsNtReply ps ds pb db ∧ Changes pb l

/-- A stream of such replies, with keep-alives in between: to which requests, and what they tell. -/
inductive Tidings : Bytes → List (Nat × List News) → Prop
  | nil : Tidings [] []
  | keepAlive {b : Bytes} {rs : List (Nat × List News)} (h : Tidings b rs) : Tidings (Spec.keepAlive ++ b) rs
  | reply {b f : Bytes} {m : Nat} {l : List News} {rs : List (Nat × List News)} (hf : TellsChanges f m l) (h : Tidings b rs) :
      Tidings (message f ++ b) ((m, l) :: rs)

/-- A server on which the directory `h` can be watched. `waiting v`: the multiplex ids of the requests that are not answered yet, the oldest
one first. `reported v`: all changes that it has told so far. From one request to the next, it answers as many of the oldest requests as it likes,
and it keeps the connection open. -/
structure Watches (V : Server σ) (h : Handle) (waiting : σ → List Nat) (reported : σ → List News) : Prop where
  answers : ∀ v req m, WatchRequest req h → midOf req = some m →
    ∃ rs, Tidings (V.react v req).2.flatten rs ∧ waiting v ++ [m] = rs.map Prod.fst ++ waiting (V.react v req).1 ∧
      reported (V.react v req).1 = reported v ++ rs.flatMap Prod.snd
  stays : ∀ v, V.tail v = .blocked

/-- The changes that a program was told by its calls. -/
def told : List (Out Error Val) → List News
  | [] => []
  | .ok (.changes l) :: os => l ++ told os
  | _ :: os => told os

end Cifs.Spec
