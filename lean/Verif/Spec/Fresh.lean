import Verif.Spec.Connect
import Verif.Spec.LoginHeaders
/-!
# What a client begins with
-/

namespace Cifs.Spec

variable {σ : Type}

/-- The names and the password under which a client logs in: those its user gives, or else no user and no password, in the domain
`WORKGROUP`, from the workstation `ANONYMOUS`. -/
def Presents (auth : Option Auth) (user password domain workstation : Str) : Prop :=
  auth = some { user, password, domain, workstation } ∨
    auth = none ∧ user = [] ∧ password = [] ∧ domain = "WORKGROUP".toList ∧ workstation = "ANONYMOUS".toList

/-- No session: port 445 could not be reached, port 139 could; the request for a session was not sent, or the response was not a positive one. -/
def Sessionless (V : Server σ) (log : σ → List Bytes) (dial : Dial σ) (calling : Bytes) (port : Option UInt16) (after : List Bytes) : Prop :=
  port = none ∧ ∃ e w, dial 445 = .error e ∧ dial 139 = .ok w ∧
    (after = log w.srv ∨ ∃ p, IsSessionRequest p (netbiosName "*SMBSERVER".toList) calling ∧ after = log w.srv ++ [p] ∧
      ¬ ∃ rest, w.inbox.flatten ++ (V.react w.srv p).2.flatten = [0x82, 0, 0, 0] ++ rest)

end Cifs.Spec
