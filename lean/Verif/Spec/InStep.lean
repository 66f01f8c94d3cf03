import Verif.Spec.Stream
import Verif.Spec.Log
/-!
# Staying in step: the two byte streams of a connection, seen as packets
-/

namespace Cifs.Spec

variable {σ : Type}

/-- These bytes are whole packets, none of them too big. -/
def Whole (b : Bytes) : Prop := ∃ l : List (UInt8 × Bytes), (∀ p ∈ l, p.2.length ≤ maxPayload) ∧ b = (l.map fun p => packet p.1 p.2).flatten

/-- These are session messages, none of them too big. -/
def AllMessages (l : List Bytes) : Prop := ∀ p ∈ l, ∃ f, f.length ≤ maxPayload ∧ p = message f

/-- `fed` is everything that the server has sent so far. -/
def Feeds (V : Server σ) (fed : σ → Bytes) : Prop := ∀ v req, fed (V.react v req).1 = fed v ++ (V.react v req).2.flatten

/-- A server extended by a record of what it has sent. -/
def feeding (V : Server σ) : Server (σ × Bytes) where
  react := fun s b => (((V.react s.1 b).1, s.2 ++ (V.react s.1 b).2.flatten), (V.react s.1 b).2)
  tail := fun s => V.tail s.1

theorem feeds_feeding (V : Server σ) : Feeds (feeding V) Prod.snd := fun _ _ => rfl

/-- Between two states the client has consumed whole packets: if it had consumed `c` of what the server had sent before, then it has
consumed `c` and whole packets of what the server has sent by now. -/
def Consumed (fed : σ → Bytes) (s s' : St σ) : Prop :=
  ∀ c, fed s.w.srv = c ++ s.w.inbox.flatten → ∃ p, Whole p ∧ fed s'.w.srv = c ++ p ++ s'.w.inbox.flatten

/-- Outcomes that tell of trouble with the connection: it failed, it ended, it keeps the client waiting, or a packet was too big. -/
def Trouble {α : Type} : Out Error α → Prop
  | .pending => True
  | .err (.NetBios (.IoError _)) => True
  | .err (.NetBios .UnexpectedEOF) => True
  | .err (.NetBios .FrameTooBig) => True
  | _ => False

/-- Outcomes of a write that was not completed. -/
def Unwritten {α : Type} (o : Out Error α) : Prop := o = .pending ∨ ∃ e, o = .err (.NetBios (.IoError e))

end Cifs.Spec
