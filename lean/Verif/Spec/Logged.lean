import Verif.Model.Logged
import Verif.Spec.Service
/-! # Programs and what the client logs while they run -/

namespace Cifs.Spec

variable {σ α : Type}

/-- Running a program with the client, with the log. -/
def Prog.logged (E : Env σ) : Prog α → St σ × Log → α × (St σ × Log)
  | .done x, s => (x, s)
  | .call op next, s => (next (Logged.runOp E op s).1).logged E (Logged.runOp E op s).2

/-! ## What the log is about -/

/-- A packet that was sent or received as a whole. -/
inductive Transfer where
  | sent (packet : Bytes)
  | got (kind : UInt8) (payload : Bytes)

/-- The lines that are logged for it. -/
def Transfer.lines : Transfer → Log
  | .sent p => [.writing p.length]
  | .got t d => [.msgType t, .msgLength d.length, .reading d.length]

/-- One end of a connection: the server, what it said that was not read yet, and all that was written to it. -/
structure Wire (σ : Type) where
  srv : σ
  unread : Bytes
  written : Bytes

/-- These packets went over the connection, in this order. -/
inductive Transfers (V : Server σ) : Wire σ → List Transfer → Wire σ → Prop
  | none (x : Wire σ) : Transfers V x [] x
  | sent {x y : Wire σ} {ts : List Transfer} (p : Bytes)
      (h : Transfers V ⟨(V.react x.srv p).1, x.unread ++ (V.react x.srv p).2.flatten, x.written ++ p⟩ ts y) : Transfers V x (.sent p :: ts) y
  | got {x y : Wire σ} {ts : List Transfer} (t : UInt8) (d rest : Bytes) (hu : x.unread = packet t d ++ rest) (hd : d.length ≤ maxPayload)
      (h : Transfers V ⟨x.srv, rest, x.written⟩ ts y) : Transfers V x (.got t d :: ts) y

/-- The lines logged for a packet that was not sent or received as a whole: nothing could be written further; there was no packet; it broke off in its header;
it is announced to be bigger than allowed; it broke off in its payload. -/
inductive Broken : Bytes → Log → Prop
  | write (unread : Bytes) (n : Nat) : Broken unread [.writing n]
  | none : Broken [] []
  | header (t : UInt8) (d : Bytes) (h : d.length < 3) : Broken (t :: d) [.msgType t]
  | big (t a b c : UInt8) (d : Bytes) (h : maxPayload < a.toNat * 65536 + b.toNat * 256 + c.toNat) : Broken (t :: a :: b :: c :: d) [.msgType t]
  | payload (t a b c : UInt8) (d : Bytes) (n : Nat) (hn : n = a.toNat * 65536 + b.toNat * 256 + c.toNat) (h : d.length < n) :
      Broken (t :: a :: b :: c :: d) [.msgType t, .msgLength n, .reading n]

/-- The lines are those for the packets that went over the connection, followed, if the call broke off, by those for the packet where it did. -/
def Accounted (V : Server σ) (x y : Wire σ) (more : Log) (broke : Prop) : Prop :=
  ∃ ts mid rest, Transfers V x ts mid ∧ more = ts.flatMap Transfer.lines ++ rest ∧ (rest = [] ∧ y = mid ∨ broke ∧ Broken mid.unread rest)

/-- The connection of a client. -/
def wireOf (w : World σ) : Wire σ := ⟨w.srv, w.inbox.flatten, w.out⟩

/-- The call ended because the connection failed, or is still waiting for it. -/
def Interrupted (o : Out Error α) : Prop := o = .pending ∨ ∃ e, o = .err (.NetBios e)

/-- What a call logs before anything else. -/
def announced : Op → Log
  | .notify _ what => [.waiting what]
  | _ => []

end Cifs.Spec
