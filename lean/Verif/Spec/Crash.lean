import Verif.Spec.Login
import Verif.Spec.Ntlm
import Verif.Spec.Download
/-!
# Replies that crash a login or a download
-/

namespace Cifs.Spec

variable {σ : Type}

/-- A reply of type `c` with an accepted status that is shorter than its own counts say, or whose parameter and data bytes are bad. -/
def BadReply (c : Nat) (accepted : Nat → Prop) (bad : Bytes → Bytes → Prop) (f : Bytes) : Prop :=
  cmdOf (message f) = some c ∧ (∃ st, statusOf (message f) = some st ∧ accepted st) ∧
    ((¬ ∃ ps ds, ReplyBody (message f) ps ds) ∨ ∃ ps ds, ReplyBody (message f) ps ds ∧ bad ps ds)

/-- A reply to the negotiation with 9 to 16 words for the dialect "NT LM 0.12". -/
def BadNegotiate (ps _ : Bytes) : Prop := 17 ≤ ps.length ∧ ps.length < 34 ∧ u16At ps 0 = some 0

/-- A reply to a session setup that is cut short or announces a longer blob than it has. -/
def BadSetup (ps ds : Bytes) : Prop :=
  ps.length < 4 ∨ LastAndX ps ∧ (ps.length < 6 ∨ ∃ n, u16At ps 6 = some n ∧ ds.length < n)

/-- Statuses with which a session setup is answered unless it is refused. -/
def SetupAccepted (st : Nat) : Prop := st = 0 ∨ st = moreProcessing

/-- The reply to the session setup `p` is bad. -/
def SetupCrash (V : Server σ) (v : σ) (b p : Bytes) : Prop :=
  ∃ f v' b', Round V v b p f v' b' ∧ BadReply 0x73 SetupAccepted BadSetup f

/-- The authentications with extended security that crash the client, by what has been sent: the reply to the first session setup is bad, or
the challenge in it is; or the reply to the response is. -/
inductive AuthCrash (V : Server σ) (v : σ) (b : Bytes) : List Bytes → Prop
  | setup {p : Bytes} (h : SetupCrash V v b p) : AuthCrash V v b [p]
  | challenge {p ps ds b' m : Bytes} {v' : σ} {st uid : Nat} (h : SetupRound V v b p st uid ps ds v' b') (hs : SetupAccepted st) (hl : LastAndX ps)
      (hm : ps.length < 8 ∧ m = [] ∨ u16At ps 6 = some m.length ∧ ∃ more, ds = m ++ more) (hb : BadChallenge m) : AuthCrash V v b [p]
  | response {p p' ps ds b' : Bytes} {v' : σ} {st uid : Nat} (h : SetupRound V v b p st uid ps ds v' b') (h' : SetupCrash V v' b' p') :
      AuthCrash V v b [p, p']

/-- The logins that crash the client, by what has been sent: the reply to the negotiation is bad, or has a key that is not 8 bytes long
without offering extended security; or the authentication that follows crashes the client. -/
inductive LoginCrash (V : Server σ) (v : σ) (b : Bytes) : List Bytes → Prop
  | negotiate {p f b' : Bytes} {v' : σ} (h : Round V v b p f v' b') (hf : BadReply 0x72 (· = 0) BadNegotiate f) : LoginCrash V v b [p]
  | key {p ps ds b' : Bytes} {v' : σ} {n : Nat} (h : NegotiateRound V v b p ps ds v' b') (hx : ¬ OffersExtended ps)
      (hn : u8At ps 33 = some n) (hd : n ≤ ds.length) (h8 : n ≠ 8) : LoginCrash V v b [p]
  | classic {p p' ps ds b' : Bytes} {v' : σ} (h : NegotiateRound V v b p ps ds v' b') (hx : ¬ OffersExtended ps)
      (h' : SetupCrash V v' b' p') : LoginCrash V v b [p, p']
  | extended {p ps ds b' : Bytes} {v' : σ} {l : List Bytes} (h : NegotiateRound V v b p ps ds v' b') (hx : OffersExtended ps)
      (h' : AuthCrash V v' b' l) : LoginCrash V v b (p :: l)

/-- A reply to a request to open a file that is cut short. -/
def BadOpen (ps _ : Bytes) : Prop := ps.length < 4 ∨ LastAndX ps ∧ ps.length < 68

/-- A reply to a request to read that is cut short. -/
def BadRead (ps _ : Bytes) : Prop := ps.length < 4 ∨ LastAndX ps ∧ ps.length < 12

/-- The downloads of the open file `h` that crash the client, by what is sent from the moment on when `data` is received: a reply to a request
to read is bad, or the reply to the request to close the file is cut short. -/
inductive ReadingCrash (V : Server σ) (h : Handle) : σ → Bytes → Bytes → List Bytes → Prop
  | read {v v' : σ} {b b' data p f : Bytes} (hl : data.length < h.size.toNat) (hr : Round V v b p f v' b')
      (hf : BadReply 0x2e (· = 0) BadRead f) : ReadingCrash V h v b data [p]
  | more {v v' : σ} {b b' data p f chunk : Bytes} {l : List Bytes} (hl : data.length < h.size.toNat) (hr : Round V v b p f v' b')
      (hf : Yields f chunk) (hs : ReadingCrash V h v' b' (data ++ chunk) l) : ReadingCrash V h v b data (p :: l)
  | close {v v' : σ} {b b' data p f : Bytes} (hl : h.size.toNat ≤ data.length) (hr : Round V v b p f v' b')
      (hf : BadReply 0x04 (· = 0) (fun _ _ => False) f) : ReadingCrash V h v b data [p]

/-- The downloads that crash the client: the reply to the request to open the file is bad, or the rest crashes it. -/
inductive DownloadCrash (V : Server σ) (v : σ) (b : Bytes) : List Bytes → Prop
  | unopened {v' : σ} {b' p f : Bytes} (hr : Round V v b p f v' b') (hf : BadReply 0xa2 (· = 0) BadOpen f) : DownloadCrash V v b [p]
  | opened {v' : σ} {b' p f : Bytes} {h : Handle} {l : List Bytes} (hr : Round V v b p f v' b') (hf : Opens f h)
      (hs : ReadingCrash V h v' b' [] l) : DownloadCrash V v b (p :: l)

end Cifs.Spec
