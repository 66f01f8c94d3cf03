import Verif.Spec.Door
import Verif.Spec.Servers
import Verif.Spec.Service
/-!
# Somebody on the way

The bytes between a client and a server pass through other hands: a switch, a proxy, or somebody who would like to read and to write
them. Here that party leaves the requests alone and may put anything in the place of what the server sends.
-/

namespace Cifs.Spec

variable {σ τ A : Type}

/-- A party on the way from the server to the client. It sees each request and what the server says to it, and decides what arrives. -/
structure Between (τ : Type) where
  step : τ → (req : Bytes) → (said : List Bytes) → τ × List Bytes

/-- The server as it looks through this party. It hears every request as the client makes it. -/
def behind (V : Server σ) (B : Between τ) : Server (σ × τ) where
  react := fun v req => (((V.react v.1 req).1, (B.step v.2 req (V.react v.1 req).2).1), (B.step v.2 req (V.react v.1 req).2).2)
  tail := fun v => V.tail v.1

/-- The party may cut the bytes of the server into other pieces, but does not change them. -/
def OnlyCuts (B : Between τ) : Prop := ∀ t req said, (B.step t req said).2.flatten = said.flatten

/-- A request of a login: the negotiation, or a session setup. -/
def OfLogin (req : Bytes) : Prop := cmdOf req = some 0x72 ∨ cmdOf req = some 0x73

instance (req : Bytes) : Decidable (OfLogin req) := inferInstanceAs (Decidable (_ ∨ _))

/-- A party that leaves the login to the server, and then answers all requests in the manner of another one. -/
def hijacker (W : Server τ) : Between τ where
  step := fun t req said => if OfLogin req then (t, said) else W.react t req

end Cifs.Spec
