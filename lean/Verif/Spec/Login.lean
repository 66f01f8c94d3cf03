import Verif.Spec.Replies
import Verif.Spec.Header
/-!
# Negotiation and login on the wire
-/

namespace Cifs.Spec

variable {σ : Type}

/-- Status "more processing required". -/
def moreProcessing : Nat := 0xc0000016

/-- The step `m`, made in state `s`, sends one request and gets the reply `f` to it, with command code `c`, status `st`, parameter bytes
`ps` and data bytes `ds`. -/
def Replied {α : Type} (E : Env σ) (log : σ → List Bytes) (m : CM σ α) (s : St σ) (c st : Nat) (f ps ds : Bytes) : Prop :=
  ∃ req v' rest, log (m s).2.w.srv = log s.w.srv ++ [req] ∧ Round E.V s.w.srv s.w.inbox.flatten req f v' rest ∧
    cmdOf (message f) = some c ∧ statusOf (message f) = some st ∧ ReplyBody (message f) ps ds

/-- Capabilities the client declares. -/
def capabilityMask : Nat := 0xE281F3FF

/-- 2.2.4.52.2 SMB_COM_NEGOTIATE response for the dialect "NT LM 0.12": where the fields stand. The time is in nanoseconds since 1601,
cut to microseconds. -/
structure IsNegotiateReply (ps ds : Bytes) (v : ServerSetup) : Prop where
  dialect : u16At ps 0 = some v.dialect
  securityMode : u8At ps 2 = some v.securityMode.toNat
  maxMpxCount : u16At ps 3 = some v.maxMpxCount.toNat
  maxNumberVcs : u16At ps 5 = some v.maxNumberVcs.toNat
  maxBufferSize : u32At ps 7 = some v.maxBufferSize.toNat
  maxRawSize : u32At ps 11 = some v.maxRawSize.toNat
  sessionKey : u32At ps 15 = some v.sessionKey.toNat
  capabilities : ∃ n, u32At ps 19 = some n ∧ v.capabilities.toNat = n &&& capabilityMask
  systemTime : ∃ n : Nat, u64At ps 23 = some n ∧ v.systemTime = ((n / 10 : Nat) : Int) * 1000
  timezone : u16At ps 31 = some v.timezone.toNat
  challenge : u8At ps 33 = some v.challenge.length ∧ ∃ more, ds = v.challenge ++ more

/-- 2.2.4.53.2 SMB_COM_SESSION_SETUP_ANDX response, with or without a security blob; `uid` is the user id of its header. -/
structure IsSessionReply (ps ds : Bytes) (uid : Nat) (v : SessionSetupReply) : Prop where
  action : ∃ n, u16At ps 4 = some n ∧ (v.guestMode = true ↔ n % 2 = 1)
  uid : v.uid.toNat = uid
  blob : (ps.length < 8 ∧ v.securityBlob = []) ∨ (u16At ps 6 = some v.securityBlob.length ∧ ∃ more, ds = v.securityBlob ++ more)

/-- 2.2.4.52.1 SMB_COM_NEGOTIATE request, offering "NT LM 0.12" alone. -/
def IsNegotiate (p : Bytes) : Prop :=
  cmdOf p = some 0x72 ∧ paramsOf p = some [] ∧ dataOf p = some ([0x02, 0x4e, 0x54, 0x20, 0x4c, 0x4d, 0x20, 0x30, 0x2e, 0x31, 0x32, 0x00])

/-- The words of a session setup in front of the lengths: no further command; MaxBufferSize 65535; MaxMpxCount, VcNumber and SessionKey zero. -/
def setupWords : Bytes := [0xff, 0, 0, 0] ++ [0xff, 0xff] ++ [0, 0] ++ [0, 0] ++ [0, 0, 0, 0]

/-- The capabilities a client declares without extended security: Unicode (bit 2), large files (3), NT SMBs (4), NT status codes (6). -/
def classicCapabilities : Nat := 2 ^ 2 + 2 ^ 3 + 2 ^ 4 + 2 ^ 6

/-- With extended security: in addition, that (bit 31). -/
def extendedCapabilities : Nat := classicCapabilities + 2 ^ 31

/-- Two empty texts (the names of system and LAN manager), by the Unicode bit of the header. -/
def emptyNames (p : Bytes) : Bytes := if unicodeOf p = some true then [0, 0, 0, 0] else [0, 0]

/-- 2.2.4.53.1 SMB_COM_SESSION_SETUP_ANDX request without extended security: 13 words, the length of the response twice; in the data the
response twice, then (aligned) user and domain and two empty names. -/
def IsClassicSetup (p response : Bytes) (user domain : Str) : Prop :=
  cmdOf p = some 0x73 ∧ ∃ ps u d, paramsOf p = some ps ∧ ps.length = 26 ∧ sliceAt ps 0 14 = some setupWords ∧
    u16At ps 14 = some response.length ∧ u16At ps 16 = some response.length ∧ u32At ps 18 = some 0 ∧ u32At ps 22 = some classicCapabilities ∧
    Utf16le user u ∧ Utf16le domain d ∧
    dataOf p = some (response ++ response ++ [0] ++ u ++ [0, 0] ++ d ++ [0, 0] ++ emptyNames p)

/-- The same with extended security: 12 words and a security blob; the data, which begin at an odd offset, are aligned behind the blob. -/
def IsExtendedSetup (p blob : Bytes) : Prop :=
  cmdOf p = some 0x73 ∧ ∃ ps, paramsOf p = some ps ∧ ps.length = 24 ∧ sliceAt ps 0 14 = some setupWords ∧ u16At ps 14 = some blob.length ∧
    u32At ps 16 = some 0 ∧ u32At ps 20 = some extendedCapabilities ∧
    dataOf p = some (blob ++ (if blob.length % 2 = 0 then [0] else []) ++ emptyNames p)

/-- Does the reply to the negotiation offer extended security (capability bit 31)? -/
def OffersExtended (ps : Bytes) : Prop := ∃ n, u32At ps 19 = some n ∧ n / 2 ^ 31 % 2 = 1

/-- Does it offer Unicode (capability bit 2)? -/
def OffersUnicode (ps : Bytes) : Prop := ∃ n, u32At ps 19 = some n ∧ n / 2 ^ 2 % 2 = 1

/-- One round of the negotiation: request `p`, reply with parameters `ps` and data `ds`. -/
def NegotiateRound (V : Server σ) (v : σ) (b p : Bytes) (ps ds : Bytes) (v' : σ) (b' : Bytes) : Prop :=
  IsNegotiate p ∧ ∃ f, Round V v b p f v' b' ∧ cmdOf (message f) = some 0x72 ∧ statusOf (message f) = some 0 ∧ ReplyBody (message f) ps ds ∧
    u16At ps 0 = some 0

/-- One round of session setup: request `p`, reply with status `st`, user id `uid`, parameters `ps` and data `ds`. -/
def SetupRound (V : Server σ) (v : σ) (b p : Bytes) (st uid : Nat) (ps ds : Bytes) (v' : σ) (b' : Bytes) : Prop :=
  ∃ f, Round V v b p f v' b' ∧ cmdOf (message f) = some 0x73 ∧ statusOf (message f) = some st ∧ uidOf (message f) = some uid ∧
    ReplyBody (message f) ps ds

/-- What a client may send to log in, by how far it comes: nothing; a negotiation; after a reply to it that does not offer extended
security, a legacy response of 24 bytes for this user; after a reply that does, a security blob; after a reply to that, another one, under
the user id just assigned. -/
inductive LoginPackets (V : Server σ) (user domain : Str) (v : σ) (b : Bytes) : List Bytes → Prop
  | nothing : LoginPackets V user domain v b []
  | negotiate {p : Bytes} (h : IsNegotiate p) : LoginPackets V user domain v b [p]
  | classic {p p' ps ds b' response : Bytes} {v' : σ} (h : NegotiateRound V v b p ps ds v' b') (hx : ¬ OffersExtended ps)
      (hl : response.length = 24) (h' : IsClassicSetup p' response user domain) : LoginPackets V user domain v b [p, p']
  | extended {p p' ps ds b' blob : Bytes} {v' : σ} (h : NegotiateRound V v b p ps ds v' b') (hx : OffersExtended ps)
      (h' : IsExtendedSetup p' blob) : LoginPackets V user domain v b [p, p']
  | response {p p' p'' ps ds ps' ds' b' b'' blob blob' : Bytes} {v' v'' : σ} {st uid : Nat} (h : NegotiateRound V v b p ps ds v' b')
      (hx : OffersExtended ps) (h' : IsExtendedSetup p' blob) (hr : SetupRound V v' b' p' st uid ps' ds' v'' b'')
      (h'' : IsExtendedSetup p'' blob') (hu : uidOf p'' = some uid) : LoginPackets V user domain v b [p, p', p'']

/-- A complete login: the packets, the parameters `ps` of the reply to the negotiation, the status of the last reply, the user id assigned,
and the connection afterwards. -/
inductive LoggedIn (V : Server σ) (user domain : Str) (v : σ) (b : Bytes) : List Bytes → Bytes → Nat → Nat → σ → Bytes → Prop
  | classic {p p' ps ds ps' ds' b' b'' response : Bytes} {v' v'' : σ} {st uid : Nat} (h : NegotiateRound V v b p ps ds v' b')
      (hx : ¬ OffersExtended ps) (hl : response.length = 24) (h' : IsClassicSetup p' response user domain)
      (hr : SetupRound V v' b' p' st uid ps' ds' v'' b'') : LoggedIn V user domain v b [p, p'] ps st uid v'' b''
  | extended {p p' p'' ps ds ps' ds' ps'' ds'' b' b'' b3 blob blob' : Bytes} {v' v'' v3 : σ} {st st' uid uid' : Nat}
      (h : NegotiateRound V v b p ps ds v' b') (hx : OffersExtended ps) (h' : IsExtendedSetup p' blob)
      (hr : SetupRound V v' b' p' st uid ps' ds' v'' b'') (h'' : IsExtendedSetup p'' blob') (hu : uidOf p'' = some uid)
      (hr' : SetupRound V v'' b'' p'' st' uid' ps'' ds'' v3 b3) : LoggedIn V user domain v b [p, p', p''] ps st' uid v3 b3

end Cifs.Spec
