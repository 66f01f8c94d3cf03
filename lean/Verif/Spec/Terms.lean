import Verif.Spec.Door
import Verif.Spec.Servers
/-!
# The terms on which a server talks

[MS-CIFS] 2.2.4.52.2: the reply to the negotiation says what the server demands (`SecurityMode`) and what it can do (`Capabilities`).
-/

namespace Cifs.Spec

variable {σ : Type}

/-- A bit of `SecurityMode`: 0 user-level access, 1 challenge and response, 2 signatures possible, 3 signatures required. -/
def Mode (ps : Bytes) (k : Nat) : Prop := ∃ n, u8At ps 2 = some n ∧ n / 2 ^ k % 2 = 1

/-- A bit of `Capabilities`. -/
def Capable (ps : Bytes) (k : Nat) : Prop := ∃ n, u32At ps 19 = some n ∧ n / 2 ^ k % 2 = 1

/-- Terms that a client can keep which logs in as a user, by challenge and response, does not sign its requests, opens files with NT
requests (`CAP_NT_SMBS`, bit 4) and reads statuses of 32 bits (`CAP_STATUS32`, bit 6). -/
structure Keepable (ps : Bytes) : Prop where
  users : Mode ps 0
  challenges : Mode ps 1
  unsigned : ¬ Mode ps 3
  nt : Capable ps 4
  status : Capable ps 6

/-- Two replies to the negotiation that agree in the size of the buffer, in the encoding and the form of the login, and, in the older form,
in the challenge. -/
structure SameTerms (ps ds ps' ds' : Bytes) : Prop where
  buffer : u32At ps 7 = u32At ps' 7
  unicode : OffersUnicode ps ↔ OffersUnicode ps'
  extended : OffersExtended ps ↔ OffersExtended ps'
  challenge : ¬ OffersExtended ps → ∃ n, u8At ps 33 = some n ∧ u8At ps' 33 = some n ∧ ds.take n = ds'.take n

/-- The server answers the request with `f` and nothing else. -/
def Replies (V : Server σ) (v : σ) (req f : Bytes) : Prop :=
  (V.react v req).2.flatten = message f ∧ f.length ≤ maxPayload ∧ Genuine f ∧ midOf (message f) = midOf req

end Cifs.Spec
