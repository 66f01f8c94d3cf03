import Verif.Spec.Download
import Verif.Spec.Ntlm
/-!
# A server that lets users in by their passwords

What a server of the protocol does with the packets of a login: it greets, with extended security or without; it challenges; and it lets
the user in exactly if the response proves the password of the account. Its states are described by predicates, so that it may do
whatever else it likes.
-/

namespace Cifs.Spec

variable {σ : Type}

/-- A reply to the negotiation that accepts the dialect. -/
def Greets (f ps ds : Bytes) : Prop :=
  Succeeds f 0x72 ps ds ∧ 34 ≤ ps.length ∧ u16At ps 0 = some 0 ∧ ∃ n, u8At ps 33 = some n ∧ n ≤ ds.length

/-- A reply to a session setup that asks for more, with a security blob, and assigns a user id. -/
def Prompts (f : Bytes) (uid : Nat) (blob : Bytes) : Prop :=
  cmdOf (message f) = some 0x73 ∧ statusOf (message f) = some moreProcessing ∧ uidOf (message f) = some uid ∧
    ∃ ps more, ReplyBody (message f) ps (blob ++ more) ∧ LastAndX ps ∧ u16At ps 6 = some blob.length

/-- A reply to a session setup that lets the user in, with three words or more; a security blob may follow. -/
def Admits (f : Bytes) (uid : Nat) : Prop :=
  ∃ ps ds, Succeeds f 0x73 ps ds ∧ uidOf (message f) = some uid ∧ LastAndX ps ∧ 6 ≤ ps.length ∧ ∀ n, u16At ps 6 = some n → n ≤ ds.length

/-- A reply to a session setup that does not. -/
def Rejects (f : Bytes) (status : UInt32) : Prop :=
  cmdOf (message f) = some 0x73 ∧ statusOf (message f) = some status.toNat ∧ status ≠ 0 ∧ status.toNat ≠ moreProcessing

/-- [MS-NLMP] 3.3.1: the legacy response is the challenge encrypted under the three parts of the NT hash. -/
def ClassicProves (md4 : Bytes → Bytes) (des : Bytes → Bytes → Bytes) (password : Str) (challenge response : Bytes) : Prop :=
  ∃ p k1 k2 k3, Utf16le password p ∧ IsDesKey ((md4 p).take 7) k1 ∧ IsDesKey (((md4 p).drop 7).take 7) k2 ∧ IsDesKey ((md4 p).drop 14) k3 ∧
    response = des k1 challenge ++ des k2 challenge ++ des k3 challenge

/-- What the server does with a session setup without extended security: it reads user and domain, which end with the first NUL, and checks
the response. -/
def ClassicAccepts (md4 : Bytes → Bytes) (des : Bytes → Bytes → Bytes) (password : Str → Str → Option Str) (challenge req : Bytes) : Prop :=
  ∃ response user domain pw, IsClassicSetup req response user domain ∧ '\x00' ∉ user ∧ '\x00' ∉ domain ∧ password user domain = some pw ∧
    ClassicProves md4 des pw challenge response

/-- A server with accounts. Its states: `fresh` before the negotiation; `asked` after one with extended security; `challenged` after the
challenge, which has at most `room` bytes of target information; `legacy` after a negotiation without extended security; `inside` after a
login, under a user id; `outside` after a refusal. The Unicode setting is that of the negotiation. -/
structure Doorkeeper (V : Server σ) (own : Nat → Prop) (H : NtlmHashes) (des : Bytes → Bytes → Bytes) (password : Str → Str → Option Str)
    (room : Nat) (fresh : σ → Prop) (asked : Bool → σ → Prop) (challenged : Bool → Nat → Bytes → Nat → σ → Prop) (legacy : Bool → Bytes → σ → Prop)
    (inside : Bool → Nat → σ → Prop) (outside : σ → Prop) : Prop where
  greets : ∀ v req, fresh v → IsNegotiate req → ∃ f ps ds unicode, Serves V own v req f ∧ Greets f ps ds ∧ (unicode = true ↔ OffersUnicode ps) ∧
    ((OffersExtended ps ∧ asked unicode (V.react v req).1) ∨
      (¬ OffersExtended ps ∧ ∃ challenge more, u8At ps 33 = some 8 ∧ ds = challenge ++ more ∧ challenge.length = 8 ∧
        legacy unicode challenge (V.react v req).1))
  challenges : ∀ unicode v req blob flags domain workstation, asked unicode v → IsExtendedSetup req blob →
    IsNtlmNegotiate blob flags domain workstation → ∃ f uid m target flags challenge info, Serves V own v req f ∧ Prompts f uid m ∧
      IsNtlmChallenge m target flags challenge info ∧ info.length ≤ room ∧ challenged unicode flags challenge uid (V.react v req).1
  checks : ∀ unicode flags challenge uid v req blob, challenged unicode flags challenge uid v → IsExtendedSetup req blob → uidOf req = some uid →
    (NtlmAccepts H password flags challenge blob → ∃ f uid', Serves V own v req f ∧ Admits f uid' ∧ inside unicode uid (V.react v req).1) ∧
    (¬ NtlmAccepts H password flags challenge blob → ∃ f status, Serves V own v req f ∧ Rejects f status ∧ outside (V.react v req).1)
  checksLegacy : ∀ unicode challenge v req response user domain, legacy unicode challenge v → IsClassicSetup req response user domain →
    (ClassicAccepts H.md4 des password challenge req → ∃ f uid, Serves V own v req f ∧ Admits f uid ∧ inside unicode uid (V.react v req).1) ∧
    (¬ ClassicAccepts H.md4 des password challenge req → ∃ f status, Serves V own v req f ∧ Rejects f status ∧ outside (V.react v req).1)

/-- The names of an account fit into the packets of a login, with `room` bytes of target information, and have no NUL in them. -/
structure NamesFit (user workstation domain : Str) (room : Nat) : Prop where
  first : 45 + (utf8Bytes domain).length + (utf8Bytes workstation).length < 65536
  third : ∀ flags d u w, NtlmText flags domain d → NtlmText flags user u → NtlmText flags workstation w →
    129 + room + d.length + u.length + w.length < 65536
  classic : ∀ u d, Utf16le user u → Utf16le domain d → 57 + u.length + d.length < 65536
  user : '\x00' ∉ user
  domain : '\x00' ∉ domain

/-- The state of the server after these requests. -/
def afterAll (V : Server σ) (v : σ) (reqs : List Bytes) : σ := reqs.foldl (fun v req => (V.react v req).1) v

/-- In the state `v`, the request `req` answers the server's challenge with a response that is right for both passwords. -/
inductive BothRight (H : NtlmHashes) (des : Bytes → Bytes → Bytes) (challenged : Bool → Nat → Bytes → Nat → σ → Prop)
    (legacy : Bool → Bytes → σ → Prop) (user domain pw pw' : Str) (v : σ) (req : Bytes) : Prop
  | extended {unicode : Bool} {flags uid : Nat} {challenge blob lm nt d u w : Bytes} (hc : challenged unicode flags challenge uid v)
      (hq : IsExtendedSetup req blob) (hm : IsNtlmAuthenticate blob lm nt d u w)
      (hp : NtlmProves H user domain pw challenge nt) (hp' : NtlmProves H user domain pw' challenge nt) : BothRight H des challenged legacy user domain pw pw' v req
  | classic {unicode : Bool} {challenge response : Bytes} (hc : legacy unicode challenge v) (hq : IsClassicSetup req response user domain)
      (hp : ClassicProves H.md4 des pw challenge response) (hp' : ClassicProves H.md4 des pw' challenge response) :
      BothRight H des challenged legacy user domain pw pw' v req

/-- What there is to say about the end `o`, in the state `v'` of the server, of a login whose last request is `req`, sent in the state `v`:
either the user is let in, `account` has a password, and the response is right for it; or the refusal is reported, and `account` does not
have the password of the login. -/
def Decided (H : NtlmHashes) (des : Bytes → Bytes → Bytes) (account : Option Str) (challenged : Bool → Nat → Bytes → Nat → σ → Prop)
    (legacy : Bool → Bytes → σ → Prop) (inside : σ → Prop) (outside : σ → Prop) (user domain password : Str) (v : σ) (req : Bytes)
    (o : Out Error Unit) (v' : σ) : Prop :=
  (o = .ok () ∧ inside v' ∧ ∃ pw, account = some pw ∧ BothRight H des challenged legacy user domain pw password v req) ∨
    (∃ status, o = .err (.ServerError (Status.ofU32 status)) ∧ status ≠ 0 ∧ outside v' ∧ account ≠ some password)

end Cifs.Spec
