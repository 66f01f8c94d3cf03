import Verif.Spec.Service
/-!
# What a server has said, whatever server it is

For a server that offers a service, `Implements` says what it answers. Any server at all is a source of answers in the following sense: what
it sends in reaction to a request for a call, taken together with what is unread then, starts with a reply that says something.
-/

namespace Cifs.Spec

variable {σ α : Type}

/-- The reply refuses a request with this command code. -/
def Refuses (f : Bytes) (code : Nat) (status : UInt32) : Prop :=
  status ≠ 0 ∧ cmdOf (message f) = some code ∧ statusOf (message f) = some status.toNat

/-- The request `req` for a search reaches the server in state `v` while the bytes `b` are unread. The first replies to it are pieces, but not
yet the whole of any blocks; the next one refuses the request. -/
def SearchRefused (V : Server σ) (v : σ) (b req : Bytes) (status : UInt32) (v' : σ) (b' : Bytes) : Prop :=
  v' = (V.react v req).1 ∧ ∃ mid l b1 f, midOf req = some mid ∧ Pieces Brings mid (b ++ (V.react v req).2.flatten) l b1 ∧
    (∀ pre post P D, l = pre ++ post → ¬ Cuts pre P D) ∧ Awaits mid b1 f b' ∧ Refuses f 0x32 status

/-- In the state `v`, with the bytes `b` unread, the server answers the request `req` for the call `c` in this way. The server is in state `v'`
then, and the bytes `b'` are unread. -/
def Tells (V : Server σ) (v : σ) (b req : Bytes) (c : Call) (r : Answer) (v' : σ) (b' : Bytes) : Prop :=
  match c, r with
  | .findFirst .., .refused status => SearchRefused V v b req status v' b'
  | .findNext .., .refused status => SearchRefused V v b req status v' b'
  | c, .refused status => ∃ f, Round V v b req f v' b' ∧ Refuses f c.code status
  | .findFirst .., .value (.first r) => ∃ P D, SearchRound V v b req P D v' b' ∧ FirstPage P D r.sid.toNat r.done r.info
  | .findNext .., .value (.next r) => ∃ P D, SearchRound V v b req P D v' b' ∧ NextPage P D r.done r.info
  | c, .value x => ∃ f, Round V v b req f v' b' ∧ Gives f c x

/-- The service that any server `V` offers to a client that uses `unicode` names and was given the user id `uid`: for a call, the server gets
one request for it and answers. A state of this service is a state of the server and the bytes that are unread. -/
def Told (V : Server σ) (unicode : Bool) (uid : Nat) (a : σ × Bytes) (c : Call) (r : Answer) (a' : σ × Bytes) : Prop :=
  ∃ req, IsCall unicode req c ∧ uidOf req = some uid ∧ Tells V a.1 a.2 req c r a'.1 a'.2

/-- The outcome says something about the service: it is a value, or a refusal with the status that the server has sent. -/
def Conclusive : Out Error Val → Prop
  | .ok _ => True
  | .err (.ServerError _) => True
  | _ => False

/-- All operations of the program have such an outcome. -/
def Prog.Concludes (E : Env σ) : Prog α → St σ → Prop
  | .done _, _ => True
  | .call op next, s => Conclusive (runOp E op s).1 ∧ (next (runOp E op s).1).Concludes E (runOp E op s).2

/-- The state of the service that the server offers. -/
def service (s : St σ) : σ × Bytes := (s.w.srv, s.w.inbox.flatten)

end Cifs.Spec
