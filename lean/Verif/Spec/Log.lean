import Verif.Model.Client
/-!
# Observing what the server is sent

`Logs V log`: the server keeps, in its own state, the list `log` of everything it was sent, oldest first. Any server can be extended so
that it does (`logged`), without changing how it behaves, so a theorem about every server that logs is a theorem about every server.
-/

namespace Cifs.Spec

/-- `log` is the list of all buffers the server was sent so far. -/
def Logs {σ : Type} (V : Server σ) (log : σ → List Bytes) : Prop := ∀ s b, log (V.react s b).1 = log s ++ [b]

/-- A server extended by a log. -/
def logged {σ : Type} (V : Server σ) : Server (σ × List Bytes) where
  react := fun s b => ((((V.react s.1 b).1, s.2 ++ [b])), (V.react s.1 b).2)
  tail := fun s => V.tail s.1

theorem logs_logged {σ : Type} (V : Server σ) : Logs (logged V) Prod.snd := fun _ _ => rfl

/-- Between server states `s` and `s'` the packet `p` was sent. -/
def Sent {σ : Type} (log : σ → List Bytes) (s s' : σ) (p : Bytes) : Prop := ∃ new, log s' = log s ++ new ∧ p ∈ new

end Cifs.Spec
