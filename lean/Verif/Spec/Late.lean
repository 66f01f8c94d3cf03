import Verif.Spec.Service
/-!
# Servers that take their time, and calls that are given up

A caller may lose patience and give a call up while it waits (`.pending`), and make the next call on the same connection. The server has
the request nevertheless: it carries it out, and its answer may arrive during any later call. `ImplementsLate` describes such servers in
terms of a service, as `Implements` does for servers that answer at once; `BehavesLate` says what a call means for the user then.
-/

namespace Cifs.Spec

variable {σ A α : Type}

/-- The server sends some of the replies that make up its answer to a search, but for now not all that are needed. -/
def Halfway (V : Server σ) (own : Nat → Prop) (v : σ) (req : Bytes) : Prop :=
  cmdOf req = some 0x32 ∧ ∃ mid l l' P D, midOf req = some mid ∧ Brought own mid (V.react v req).2.flatten l ∧ Cuts (l ++ l') P D ∧
    ∀ pre P' D', pre <+: l → ¬ Cuts pre P' D'

/-- For now, the server sends nothing that has one of the multiplex ids `own`, or only a part of its answer, and the client has to wait. -/
def Silent (V : Server σ) (own : Nat → Prop) (v : σ) (req : Bytes) : Prop :=
  (Foreign own (V.react v req).2.flatten ∨ Halfway V own v req) ∧ V.tail (V.react v req).1 = .blocked

/-- The server `V` offers the service `Does`, but takes its time: it carries out each request at once, but either it answers at once, or
for now it is silent, or breaks off between two replies to a search. In all cases it may send whatever it likes under the ids of earlier requests, in particular the answers to them.
`rel m a v`: the service is in the state `a` if the server is in the state `v`, and all requests so far had ids below `m`. -/
def ImplementsLate (V : Server σ) (unicode : Bool) (uid : Nat) (Does : A → Call → Answer → A → Prop) (rel : Nat → A → σ → Prop) : Prop :=
  ∀ m n a v req c, rel m a v → m ≤ n → midOf req = some n → IsCall unicode req c → uidOf req = some uid →
    ∃ r a', Does a c r a' ∧ (Answers V (n ≤ ·) v req c r ∨ Silent V (n ≤ ·) v req) ∧ rel (n + 1) a' (V.react v req).1

/-- A download of the open file `h` that was given up, after `data` was read: the service has carried out every request that was made. -/
inductive FetchesUp (Does : A → Call → Answer → A → Prop) (h : Handle) : Nat → Bytes → A → A → Prop
  | read {k : Nat} {data : Bytes} {a a' : A} {r : Answer} (hl : data.length < h.size.toNat)
      (hr : Does a (.read h.tid.toNat h.fid.toNat data.length) r a') : FetchesUp Does h (k + 1) data a a'
  | chunk {k : Nat} {data chunk : Bytes} {a a1 a' : A} (hl : data.length < h.size.toNat)
      (hr : Does a (.read h.tid.toNat h.fid.toNat data.length) (.value (.bytes chunk)) a1) (hs : FetchesUp Does h k (data ++ chunk) a1 a') :
      FetchesUp Does h (k + 1) data a a'
  | close {k : Nat} {data : Bytes} {a a' : A} {r : Answer} (hl : h.size.toNat ≤ data.length)
      (hr : Does a (.close h.tid.toNat h.fid.toNat) r a') : FetchesUp Does h (k + 1) data a a'

/-- A listing that was given up, after the entries `got` of the search `sid` were received. -/
inductive ContinuesUp (Does : A → Call → Answer → A → Prop) (unicode : Bool) (share : Share) (sid : UInt16) : Nat → List DirInfo → A → A → Prop
  | page {k : Nat} {got : List DirInfo} {last : DirInfo} {a a' : A} {r : Answer} (hl : got.getLast? = some last)
      (hr : Does a (.findNext share.tid.toNat sid.toNat last.filename) r a') (hf : Fits unicode (.findNext share sid last.filename)) :
      ContinuesUp Does unicode share sid (k + 1) got a a'
  | more {k : Nat} {got page : List DirInfo} {last : DirInfo} {a a1 a' : A} (hl : got.getLast? = some last)
      (hr : Does a (.findNext share.tid.toNat sid.toNat last.filename) (.value (.next { done := false, info := page })) a1)
      (hs : ContinuesUp Does unicode share sid k (got ++ page) a1 a') (hf : Fits unicode (.findNext share sid last.filename)) :
      ContinuesUp Does unicode share sid (k + 1) got a a'

/-- `GivenUp Does unicode a op a'`: with the service in state `a`, the operation `op` may be given up and leave the service in state `a'`.
Every request that was made is carried out, once; only the answer to the last one is lost. -/
inductive GivenUp (Does : A → Call → Answer → A → Prop) (unicode : Bool) : A → Op → A → Prop
  | single {a a' : A} {op : Op} {c : Call} {r : Answer} (hc : callOf op = some c) (hr : Does a c r a') (hf : Fits unicode op) :
      GivenUp Does unicode a op a'
  | opening {a a' : A} {k : Nat} {share : Share} {path : Str} {r : Answer}
      (hr : Does a (.openfile share.tid.toNat (backslashed path)) r a') (hf : Fits unicode (.download k share path)) :
      GivenUp Does unicode a (.download k share path) a'
  | fetching {a a1 a' : A} {k : Nat} {share : Share} {path : Str} {h : Handle}
      (hr : Does a (.openfile share.tid.toNat (backslashed path)) (.value (.handle h)) a1) (hs : FetchesUp Does h k [] a1 a')
      (hf : Fits unicode (.download k share path)) : GivenUp Does unicode a (.download k share path) a'
  | searching {a a' : A} {k : Nat} {share : Share} {pattern : Str} {r : Answer}
      (hr : Does a (.findFirst share.tid.toNat (backslashed pattern)) r a') (hf : Fits unicode (.list k share pattern)) :
      GivenUp Does unicode a (.list k share pattern) a'
  | listing {a a1 a' : A} {k : Nat} {share : Share} {pattern : Str} {r : FindFirst2} (hd : r.done = false)
      (hr : Does a (.findFirst share.tid.toNat (backslashed pattern)) (.value (.first r)) a1)
      (hs : ContinuesUp Does unicode share r.sid k r.info a1 a') (hf : Fits unicode (.list k share pattern)) :
      GivenUp Does unicode a (.list k share pattern) a'

/-- What an operation means if it may be given up. -/
def BehavesLate (Does : A → Call → Answer → A → Prop) (unicode : Bool) (a : A) (op : Op) (o : Out Error Val) (a' : A) : Prop :=
  Behaves Does unicode a op o a' ∨ o = .pending ∧ GivenUp Does unicode a op a'

/-- Running a program with a service, if calls may be given up. -/
inductive Prog.RunsLate (Does : A → Call → Answer → A → Prop) (unicode : Bool) : Prog α → A → α → A → Prop
  | done (x : α) (a : A) : RunsLate Does unicode (.done x) a x a
  | call {op : Op} {next : Out Error Val → Prog α} {a a1 a' : A} {o : Out Error Val} {x : α} (hb : BehavesLate Does unicode a op o a1)
      (hr : RunsLate Does unicode (next o) a1 x a') : RunsLate Does unicode (.call op next) a x a'

/-- The server `V` behind a device that holds some of its answers back, as `hold` says, until it lets the answer to a later request pass. -/
def delayed (V : Server σ) (hold : σ → Bytes → Bool) : Server (σ × List Bytes) where
  react v req :=
    if hold v.1 req then (((V.react v.1 req).1, v.2 ++ (V.react v.1 req).2), [])
    else (((V.react v.1 req).1, []), v.2 ++ (V.react v.1 req).2)
  tail _ := .blocked

/-- The first `k` packets of a stream, and what follows them. -/
def splitPackets : Nat → Bytes → Bytes × Bytes
  | 0, b => ([], b)
  | k + 1, b =>
    let n := 4 + (u24beAt b 1).getD 0
    (b.take n ++ (splitPackets k (b.drop n)).1, (splitPackets k (b.drop n)).2)

/-- The server `V` behind a device that passes its packets on one after the other, but slowly: with each request as many of them as `count`
says, be they parts of the same answer or of different ones. -/
def metered (V : Server σ) (count : σ → Bytes → Bytes → Nat) : Server (σ × Bytes) where
  react v req :=
    let cut := splitPackets (count v.1 v.2 req) (v.2 ++ (V.react v.1 req).2.flatten)
    (((V.react v.1 req).1, cut.2), if cut.1 = [] then [] else [cut.1])
  tail _ := .blocked

end Cifs.Spec
