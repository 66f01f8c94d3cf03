import Verif.Spec.Listing
import Verif.Spec.Notify
import Verif.Props.Requests
/-!
# A file service, and what it means that a server offers it over the wire

A *service* is any relation `Does a c r a'`: in the state `a`, the call `c` may be answered by `r`, and the state is `a'` then. Calls and
answers know nothing about packets. `Implements` says that a server offers a service over the wire; `Behaves` says what a call of the
client's API means for the user of a service; `Prog` are programs that make such calls, each of which may depend on the outcomes of all
earlier ones.
-/

namespace Cifs.Spec

variable {σ A α : Type}

/-- A call to a file service. Trees, open files and searches are denoted by the numbers that the service has given them. -/
inductive Call where
  | mount (password : Bytes) (path : Str)
  | umount (tid : Nat)
  | openfile (tid : Nat) (path : Str)
  | opendir (tid : Nat) (path : Str)
  | close (tid fid : Nat)
  | read (tid fid offset : Nat)
  | delete (tid : Nat) (path : Str)
  | rmdir (tid : Nat) (path : Str)
  | notify (tid fid what : Nat)
  | findFirst (tid : Nat) (pattern : Str)
  | findNext (tid sid : Nat) (last : Str)

/-- What a service answers. -/
inductive Answer where
  | value (v : Val)
  | refused (status : UInt32)

/-- The packet `req` is a request for this call. -/
def IsCall (unicode : Bool) (req : Bytes) : Call → Prop
  | .mount password path => cmdOf req = some 0x75 ∧ IsTreeConnect req unicode password path
  | .umount tid => cmdOf req = some 0x71 ∧ tidOf req = some tid ∧ IsTreeDisconnect req
  | .openfile tid path => cmdOf req = some 0xa2 ∧ tidOf req = some tid ∧ IsOpen req path accessFile 1 optNonDirectory
  | .opendir tid path => cmdOf req = some 0xa2 ∧ tidOf req = some tid ∧ IsOpen req path accessDir 7 optDirectory
  | .close tid fid => cmdOf req = some 0x04 ∧ tidOf req = some tid ∧ IsClose req fid
  | .read tid fid offset => cmdOf req = some 0x2e ∧ tidOf req = some tid ∧ IsRead req fid offset
  | .delete tid path => cmdOf req = some 0x06 ∧ tidOf req = some tid ∧ IsDelete req 6 path
  | .rmdir tid path => cmdOf req = some 0x01 ∧ tidOf req = some tid ∧ IsRmdir req path
  | .notify tid fid what => cmdOf req = some 0xa0 ∧ tidOf req = some tid ∧ ∃ setup, IsNtTransact req 4 setup [] [] ∧ IsNotify setup what fid
  | .findFirst tid pattern => cmdOf req = some 0x32 ∧ tidOf req = some tid ∧ ∃ ps, IsTransact2 req 1 ps [] ∧ IsFindFirst ps 0x16 pattern
  | .findNext tid sid last => cmdOf req = some 0x32 ∧ tidOf req = some tid ∧ ∃ ps, IsTransact2 req 2 ps [] ∧ IsFindNext ps sid last

/-- The command code of the reply to a call. -/
def Call.code : Call → Nat
  | .mount .. => 0x75
  | .umount .. => 0x71
  | .openfile .. => 0xa2
  | .opendir .. => 0xa2
  | .close .. => 0x04
  | .read .. => 0x2e
  | .delete .. => 0x06
  | .rmdir .. => 0x01
  | .notify .. => 0xa0
  | .findFirst .. => 0x32
  | .findNext .. => 0x32

/-- The reply to a mount request. -/
def Mounts (f : Bytes) (share : Share) : Prop :=
  ∃ ps ds unicode, Succeeds f 0x75 ps ds ∧ LastAndX ps ∧ 6 ≤ ps.length ∧ unicodeOf (message f) = some unicode ∧
    tidOf (message f) = some share.tid.toNat ∧ IsRights ps 6 share.accessRights ∧ IsRights ps 10 share.guestRights ∧
    IsTreeConnectData unicode ps ds share.service share.filesystem

/-- The reply to a request for changes. -/
def Notifies (f : Bytes) (l : List (Str × NotifyAction)) : Prop :=
  ∃ ps ds pb db, Succeeds f 0xa0 ps ds ∧ IsNtReply ps ds pb db ∧ Changes pb l

/-- The reply `f` to the call brings this value. (The results of a search may need several replies, see `Answers`.) -/
def Gives (f : Bytes) : Call → Val → Prop
  | .mount .., .share share => Mounts f share
  | .umount .., .unit => ∃ ps ds, Succeeds f 0x71 ps ds
  | .openfile .., .handle h => Opens f h
  | .opendir .., .handle h => Opens f h
  | .close .., .unit => Closes f
  | .read .., .bytes chunk => Yields f chunk
  | .delete .., .unit => ∃ ps ds, Succeeds f 0x06 ps ds
  | .rmdir .., .unit => ∃ ps ds, Succeeds f 0x01 ps ds
  | .notify .., .changes l => Notifies f l
  | _, _ => False

/-- In the state `v`, the server reacts to the request `req` with this answer to the call. -/
def Answers (V : Server σ) (own : Nat → Prop) (v : σ) (req : Bytes) : Call → Answer → Prop
  | c, .refused status => status ≠ 0 ∧ ∃ f, Serves V own v req f ∧ cmdOf (message f) = some c.code ∧ statusOf (message f) = some status.toNat
  | .findFirst .., .value (.first r) => ∃ P D, ServesPage V own v req P D ∧ FirstPage P D r.sid.toNat r.done r.info
  | .findNext .., .value (.next r) => ∃ P D, ServesPage V own v req P D ∧ NextPage P D r.done r.info
  | c, .value x => ∃ f, Serves V own v req f ∧ Gives f c x

/-- The server `V` offers the service `Does` to a client that uses `unicode` names and was given the user id `uid`: it answers every
request for a call that bears this id as the service may answer the call. `rel` relates the states of the service to those of the server. -/
def Implements (V : Server σ) (own : Nat → Prop) (unicode : Bool) (uid : Nat) (Does : A → Call → Answer → A → Prop) (rel : A → σ → Prop) : Prop :=
  ∀ a v req c, rel a v → IsCall unicode req c → uidOf req = some uid → ∃ r a', Does a c r a' ∧ Answers V own v req c r ∧ rel a' (V.react v req).1

/-- What the user of the API gets to see of an answer. -/
def Answer.outcome : Answer → Out Error Val
  | .value v => .ok v
  | .refused status => .err (.ServerError (Status.ofU32 status))

/-- The call that an operation stands for, if it is only one. -/
def callOf : Op → Option Call
  | .mount path password => some (.mount (passwordField password) (backslashed path))
  | .umount share => some (.umount share.tid.toNat)
  | .openfile share path => some (.openfile share.tid.toNat (backslashed path))
  | .opendir share path => some (.opendir share.tid.toNat (backslashed path))
  | .close file => some (.close file.tid.toNat file.fid.toNat)
  | .read file offset => some (.read file.tid.toNat file.fid.toNat offset.toNat)
  | .delete share path => some (.delete share.tid.toNat (backslashed path))
  | .rmdir share path => some (.rmdir share.tid.toNat (backslashed path))
  | .notify handle what => some (.notify handle.tid.toNat handle.fid.toNat what.toNat)
  | .findFirst share pattern => some (.findFirst share.tid.toNat (backslashed pattern))
  | .findNext share sid last => some (.findNext share.tid.toNat sid.toNat last)
  | .download .. => none
  | .list .. => none

/-- A download of the open file `h`, after `data` was read, with at most `k` further steps. -/
inductive Fetches (Does : A → Call → Answer → A → Prop) (h : Handle) : Nat → Bytes → A → Out Error Val → A → Prop
  /-- The budget is used up. -/
  | budget (data : Bytes) (a : A) : Fetches Does h 0 data a .running a
  | refused {k : Nat} {data : Bytes} {a a' : A} {status : UInt32} (hl : data.length < h.size.toNat)
      (hr : Does a (.read h.tid.toNat h.fid.toNat data.length) (.refused status) a') :
      Fetches Does h (k + 1) data a (Answer.refused status).outcome a'
  | chunk {k : Nat} {data chunk : Bytes} {a a1 a' : A} {o : Out Error Val} (hl : data.length < h.size.toNat)
      (hr : Does a (.read h.tid.toNat h.fid.toNat data.length) (.value (.bytes chunk)) a1) (hs : Fetches Does h k (data ++ chunk) a1 o a') :
      Fetches Does h (k + 1) data a o a'
  | closed {k : Nat} {data : Bytes} {a a' : A} (hl : h.size.toNat ≤ data.length)
      (hr : Does a (.close h.tid.toNat h.fid.toNat) (.value .unit) a') : Fetches Does h (k + 1) data a (.ok (.bytes data)) a'
  | unclosed {k : Nat} {data : Bytes} {a a' : A} {status : UInt32} (hl : h.size.toNat ≤ data.length)
      (hr : Does a (.close h.tid.toNat h.fid.toNat) (.refused status) a') : Fetches Does h (k + 1) data a (Answer.refused status).outcome a'

/-- An operation whose arguments do not fit into a request. -/
def TooLong (unicode : Bool) (op : Op) (o : Out Error Val) : Prop :=
  ¬ Fits unicode op ∧ (Panics op ∧ o = .panic ∨ ¬ Panics op ∧ ∃ e, o = .err (.SMBError (.CreatePacket e)))

/-- A listing, after the entries `got` of the search `sid` were received, with at most `k` further steps. -/
inductive Continues (Does : A → Call → Answer → A → Prop) (unicode : Bool) (share : Share) (sid : UInt16) :
    Nat → List DirInfo → A → Out Error Val → A → Prop
  /-- The budget is used up. -/
  | budget (got : List DirInfo) (a : A) : Continues Does unicode share sid 0 got a .running a
  /-- The last name is too long for a request. -/
  | long {k : Nat} {got : List DirInfo} {last : DirInfo} {a : A} {o : Out Error Val} (hl : got.getLast? = some last)
      (ho : TooLong unicode (.findNext share sid last.filename) o) : Continues Does unicode share sid (k + 1) got a o a
  | refused {k : Nat} {got : List DirInfo} {last : DirInfo} {a a' : A} {status : UInt32} (hl : got.getLast? = some last)
      (hr : Does a (.findNext share.tid.toNat sid.toNat last.filename) (.refused status) a') (hf : Fits unicode (.findNext share sid last.filename)) :
      Continues Does unicode share sid (k + 1) got a (Answer.refused status).outcome a'
  | ended {k : Nat} {got page : List DirInfo} {last : DirInfo} {a a' : A} (hl : got.getLast? = some last)
      (hr : Does a (.findNext share.tid.toNat sid.toNat last.filename) (.value (.next { done := true, info := page })) a')
      (hf : Fits unicode (.findNext share sid last.filename)) :
      Continues Does unicode share sid (k + 1) got a (.ok (.entries (got ++ page))) a'
  | more {k : Nat} {got page : List DirInfo} {last : DirInfo} {a a1 a' : A} {o : Out Error Val} (hl : got.getLast? = some last)
      (hr : Does a (.findNext share.tid.toNat sid.toNat last.filename) (.value (.next { done := false, info := page })) a1)
      (hs : Continues Does unicode share sid k (got ++ page) a1 o a') (hf : Fits unicode (.findNext share sid last.filename)) :
      Continues Does unicode share sid (k + 1) got a o a'

/-- `Behaves Does unicode a op o a'`: with the service in state `a`, the operation `op` may have the outcome `o` and leave the service in
state `a'`. -/
inductive Behaves (Does : A → Call → Answer → A → Prop) (unicode : Bool) : A → Op → Out Error Val → A → Prop
  /-- The arguments do not fit into a request: nothing happens. -/
  | long {a : A} {op : Op} {o : Out Error Val} (ho : TooLong unicode op o) : Behaves Does unicode a op o a
  | single {a a' : A} {op : Op} {c : Call} {r : Answer} (hc : callOf op = some c) (hr : Does a c r a') (hf : Fits unicode op) :
      Behaves Does unicode a op r.outcome a'
  | unopened {a a' : A} {k : Nat} {share : Share} {path : Str} {status : UInt32}
      (hr : Does a (.openfile share.tid.toNat (backslashed path)) (.refused status) a') (hf : Fits unicode (.download k share path)) :
      Behaves Does unicode a (.download k share path) (Answer.refused status).outcome a'
  | opened {a a1 a' : A} {k : Nat} {share : Share} {path : Str} {h : Handle} {o : Out Error Val}
      (hr : Does a (.openfile share.tid.toNat (backslashed path)) (.value (.handle h)) a1) (hs : Fetches Does h k [] a1 o a')
      (hf : Fits unicode (.download k share path)) :
      Behaves Does unicode a (.download k share path) o a'
  | unlisted {a a' : A} {k : Nat} {share : Share} {pattern : Str} {status : UInt32}
      (hr : Does a (.findFirst share.tid.toNat (backslashed pattern)) (.refused status) a') (hf : Fits unicode (.list k share pattern)) :
      Behaves Does unicode a (.list k share pattern) (Answer.refused status).outcome a'
  | listed {a a' : A} {k : Nat} {share : Share} {pattern : Str} {r : FindFirst2} (hd : r.done = true)
      (hr : Does a (.findFirst share.tid.toNat (backslashed pattern)) (.value (.first r)) a') (hf : Fits unicode (.list k share pattern)) :
      Behaves Does unicode a (.list k share pattern) (.ok (.entries r.info)) a'
  | listing {a a1 a' : A} {k : Nat} {share : Share} {pattern : Str} {r : FindFirst2} {o : Out Error Val} (hd : r.done = false)
      (hr : Does a (.findFirst share.tid.toNat (backslashed pattern)) (.value (.first r)) a1)
      (hs : Continues Does unicode share r.sid k r.info a1 o a') (hf : Fits unicode (.list k share pattern)) :
      Behaves Does unicode a (.list k share pattern) o a'

/-- A program that uses the client: it ends with a result, or makes a call and goes on depending on the outcome. -/
inductive Prog (α : Type) where
  | done (x : α)
  | call (op : Op) (next : Out Error Val → Prog α)

/-- Running a program with the client, against a server. -/
def Prog.run (E : Env σ) : Prog α → St σ → α × St σ
  | .done x, s => (x, s)
  | .call op next, s => (next (runOp E op s).1).run E (runOp E op s).2

/-- Running a program with a service. -/
inductive Prog.Runs (Does : A → Call → Answer → A → Prop) (unicode : Bool) : Prog α → A → α → A → Prop
  | done (x : α) (a : A) : Runs Does unicode (.done x) a x a
  | call {op : Op} {next : Out Error Val → Prog α} {a a1 a' : A} {o : Out Error Val} {x : α} (hb : Behaves Does unicode a op o a1)
      (hr : Runs Does unicode (next o) a1 x a') : Runs Does unicode (.call op next) a x a'

/-- How many requests an operation makes at most. -/
def cost : Op → Nat
  | .download k .. => k + 1
  | .list k .. => k + 1
  | _ => 1

/-- The program makes at most `n` requests. -/
def Prog.Within : Nat → Prog α → Prop
  | _, .done _ => True
  | n, .call op next => cost op ≤ n ∧ ∀ o, (next o).Within (n - cost op)

end Cifs.Spec
