import Verif.Spec.Disk
import Verif.Spec.Connect
import Verif.Spec.Uri
/-!
# Fetching a file by its URI

What a user of the library does who has the URI of a file: resolve it, open a connection to the host, mount the share, and download the file.
These steps are calls of the library; how they are put together here, `account`, `shareName` and `fileName` included, is the user's code and not in the repository.
-/

namespace Cifs.Spec

variable {σ : Type}

/-- The network: for every host, what comes of dialling its ports. -/
abbrev Net (σ : Type) := Str → Dial σ

/-- The account that the URI names; without a user, the library's own choice. -/
def account (c : CifsConfig) : Option Auth :=
  c.user.map fun user =>
    { user, password := c.password.getD [], domain := c.domain.getD "WORKGROUP".toList, workstation := "ANONYMOUS".toList }

/-- The name of the share, `//host/share`. -/
def shareName (c : CifsConfig) : Str := ['/', '/'] ++ c.hostname ++ ['/'] ++ c.share

/-- The name of the file, which begins with the slash. -/
def fileName (c : CifsConfig) : Str := '/' :: c.path.getD []

/-- Mount the share and download the file, with at most `k` steps. -/
def fetching (k : Nat) (c : CifsConfig) : Prog (Out Error Val) :=
  .call (.mount (shareName c) []) fun m =>
    match m with
    | .ok (.share share) => .call (.download k share (fileName c)) .done
    | o => .done o

/-- The host that was contacted, on which ports, under which account, and the outcome. -/
structure Fetched where
  host : Str
  ports : List UInt16
  account : Option Auth
  outcome : Out Error Val

/-- Fetch the file that a URI names. -/
def fetch (K : CharClass) (E : Env σ) (net : Net σ) (k : Nat) (uri : Str) : Option Fetched :=
  (resolveSmbUri K uri).map fun c =>
    let opened := openCifs E (net c.hostname) c.port (account c)
    { host := c.hostname, ports := opened.ports, account := account c
      outcome := match opened.outcome, opened.state with
        | .ok (), some s => ((fetching k c).run E s).1
        | .err e, _ => .err e
        | .panic, _ => .panic
        | .pending, _ => .pending
        | _, _ => .running }

/-- A host that can be reached: on the port that was asked for; or, if none was, on port 445; or on port 139, where it accepts session requests.
`ready` holds for its state and for the bytes that it has sent and the client has not read. -/
inductive Reached (V : Server σ) (dial : Dial σ) (calling : Bytes) (ready : σ → Bytes → Prop) : Option UInt16 → List UInt16 → Prop
  | raw {p : UInt16} {w : World σ} (h : dial p = .ok w) (hw : ∀ ev ∈ w.wsched, ∃ n, ev = .accept n) (hr : ready w.srv w.inbox.flatten) :
      Reached V dial calling ready (some p) [p]
  | direct {w : World σ} (h : dial 445 = .ok w) (hw : ∀ ev ∈ w.wsched, ∃ n, ev = .accept n) (hr : ready w.srv w.inbox.flatten) :
      Reached V dial calling ready none [445]
  | session {w : World σ} {e : IoErr} (h : dial 445 = .error e) (h' : dial 139 = .ok w) (hw : ∀ ev ∈ w.wsched, ∃ n, ev = .accept n)
      (hr : ∀ p, IsSessionRequest p (netbiosName "*SMBSERVER".toList) calling →
        ∃ rest, w.inbox.flatten ++ (V.react w.srv p).2.flatten = [0x82, 0, 0, 0] ++ rest ∧ ready (V.react w.srv p).1 rest) :
      Reached V dial calling ready none [445, 139]

/-- What fetching the file should bring: its contents, or why there is nothing to bring. -/
def worth (a : Store) (c : CifsConfig) : Out Error Val :=
  match a.disk (backslashed (shareName c)) with
  | none => .err (.ServerError (Status.ofU32 0xC00000CC))
  | some vol =>
    match vol (backslashed (fileName c)) with
    | some (.file contents) => .ok (.bytes contents)
    | some .dir => .err (.ServerError (.Known .FILE_IS_DIRECTORY))
    | none => .err (.ServerError (.Known .NAME_NOT_FOUND))

/-- Nothing is too long: the names fit into requests, and the file has less than `k` bytes. -/
structure Fetchable (a : Store) (k : Nat) (c : CifsConfig) : Prop where
  share : ∀ unicode, Fits unicode (.mount (shareName c) [])
  file : utf16Len (fileName c) ≤ nameLimit
  size : ∀ vol contents, a.disk (backslashed (shareName c)) = some vol → vol (backslashed (fileName c)) = some (.file contents) → contents.length < k

end Cifs.Spec
