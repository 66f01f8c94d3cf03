import Verif.Spec.Cause
/-!
# Connections that have ended
-/

namespace Cifs.Spec

variable {σ : Type}

/-- When the stream of the server has ended, it stays so: nothing comes any more, whatever is sent. -/
def StaysOver (V : Server σ) : Prop :=
  ∀ v, V.tail v ≠ .blocked → ∀ b, (V.react v b).2.flatten = [] ∧ V.tail (V.react v b).1 ≠ .blocked

/-- The connection is lost: there is nothing left to read, and nothing comes any more. -/
def IsLost (V : Server σ) (w : World σ) : Prop := w.inbox.flatten = [] ∧ V.tail w.srv ≠ .blocked

/-- No coming write blocks for ever. -/
def NoBlock (w : World σ) : Prop := .block ∉ w.wsched

/-- The error says that the stream has ended or broken, within a packet or between packets. (The last condition is for errors of writing.) -/
def SaysLost (w : World σ) (e : Error) : Prop :=
  e = .NetBios .UnexpectedEOF ∨ ∃ x, e = .NetBios (.IoError x) ∧ .fail x ∉ w.wsched

end Cifs.Spec
