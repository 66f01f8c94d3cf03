import Verif.Spec.Cause
import Verif.Spec.Crash
import Verif.Spec.Connect
/-!
# The causes of all outcomes of a login
-/

namespace Cifs.Spec

variable {σ : Type}

/-! ## Replies -/

/-- A reply that settles the negotiation, with these parameter bytes and this key. -/
def Negotiated (f ps key : Bytes) : Prop :=
  Accepted 0x72 f ∧ 34 ≤ ps.length ∧ u16At ps 0 = some 0 ∧ u8At ps 33 = some key.length ∧ ∃ more, ReplyBody (message f) ps (key ++ more)

/-- The outcomes that the other replies to the negotiation give. -/
inductive NegotiateFails (f : Bytes) : Out Error Unit → Prop
  | declined {e : Error} (h : Declined 0x72 f e) : NegotiateFails f (.err e)
  | bad (h : BadReply 0x72 (· = 0) BadNegotiate f) : NegotiateFails f .panic
  /-- Fewer than 17 parameter bytes. -/
  | few {ps ds : Bytes} (ha : Accepted 0x72 f) (hb : ReplyBody (message f) ps ds) (hl : ps.length < 17) :
      NegotiateFails f (.err (.SMBError (.Unsupported "negotiate header with too few parameter")))
  /-- None of the offered dialects. -/
  | none {ps ds : Bytes} (ha : Accepted 0x72 f) (hb : ReplyBody (message f) ps ds) (hl : 17 ≤ ps.length) (hd : u16At ps 0 = some 0xffff) :
      NegotiateFails f (.err (.SMBError .NoDialect))
  /-- A dialect that was not offered. -/
  | other {ps ds : Bytes} {d : Nat} (ha : Accepted 0x72 f) (hb : ReplyBody (message f) ps ds) (hl : 17 ≤ ps.length) (hd : u16At ps 0 = some d)
      (h0 : d ≠ 0) (h1 : d ≠ 0xffff) : NegotiateFails f (.err (.SMBError .InvalidHeader))
  /-- Fewer data bytes than the key is said to have. -/
  | key {ps ds : Bytes} {n : Nat} (ha : Accepted 0x72 f) (hb : ReplyBody (message f) ps ds) (hl : 34 ≤ ps.length) (hd : u16At ps 0 = some 0)
      (hn : u8At ps 33 = some n) (hk : ds.length < n) : NegotiateFails f (.err (.SMBError .InvalidData))

/-- A reply to a session setup that does not refuse it. -/
def SetupGranted (f : Bytes) : Prop := cmdOf (message f) = some 0x73 ∧ ∃ st, statusOf (message f) = some st ∧ SetupAccepted st

/-- Such a reply with the security blob `m`, which may be missing. -/
def SetUp (f m : Bytes) : Prop :=
  SetupGranted f ∧ ∃ ps ds, ReplyBody (message f) ps ds ∧ LastAndX ps ∧ 6 ≤ ps.length ∧
    (ps.length < 8 ∧ m = [] ∨ u16At ps 6 = some m.length ∧ ∃ more, ds = m ++ more)

/-- The outcomes that the other replies to a session setup give. -/
inductive SetupFails (f : Bytes) : Out Error Unit → Prop
  | other {got : Cmd} (hg : cmdOf (message f) = some got.code.toNat) (hne : got ≠ .SessionSetup) : SetupFails f (.err (.UnexpectedReply .SessionSetup got))
  | refused {status : UInt32} (h : Refuses f 0x73 status) (hm : status.toNat ≠ moreProcessing) : SetupFails f (.err (.ServerError (Status.ofU32 status)))
  | bad (h : BadReply 0x73 SetupAccepted BadSetup f) : SetupFails f .panic
  | chained {ps ds : Bytes} {c : Nat} (ha : SetupGranted f) (hb : ReplyBody (message f) ps ds) (hl : 4 ≤ ps.length) (h : u8At ps 0 = some c)
      (hc : c ≠ 0xff) (hk : c ∈ knownCodes) : SetupFails f (.err (.SMBError (.Unsupported "AndX chaining is currently not supported")))
  | unknown {ps ds : Bytes} {c : UInt8} (ha : SetupGranted f) (hb : ReplyBody (message f) ps ds) (hl : 4 ≤ ps.length) (h : u8At ps 0 = some c.toNat)
      (hk : c.toNat ∉ knownCodes) : SetupFails f (.err (.SMBError (.InvalidCommand c)))

/-! ## Requests -/

/-- A request `p` of a login ends it, with `l` sent: it is not written to its end; or there is no reply; or there is one that ends it. -/
inductive Halts (V : Server σ) (ws : List WriteEv) (v : σ) (b p : Bytes) (Ending : Bytes → Out Error Unit → Prop) : List Bytes → Out Error Unit → Prop
  | unsent {x : Option IoErr} (h : WriteTrouble ws x) : Halts V ws v b p Ending [] (stopped (x.map fun e => .NetBios (.IoError e)))
  | silent {mid : Nat} {x : Option Error} (hm : midOf p = some mid) (h : NoReply (V.tail (V.react v p).1) mid (b ++ (V.react v p).2.flatten) x) :
      Halts V ws v b p Ending [p] (stopped x)
  | ends {f b' : Bytes} {v' : σ} {o : Out Error Unit} (hr : Round V v b p f v' b') (h : Ending f o) : Halts V ws v b p Ending [p] o

/-- What the client says about a session setup with `n` bytes of blob and, in addition, two empty names, in Unicode (`u`) or not, that is too long. -/
inductive LongSetup (u : Bool) (n : Nat) : String → Prop
  | blob (h : 65536 ≤ n) : LongSetup u n "blob in SessionSetup too big"
  | data (h : n < 65536) (hd : 65536 ≤ n + (if n % 2 = 0 then 1 else 0) + (if u then 4 else 2)) : LongSetup u n "data length too big"

/-- The number of data bytes of a session setup without extended security. -/
def classicSize (u : Bool) (a : Auth) : Nat := 53 + 2 * utf16Len a.user + 2 * utf16Len a.domain + (if u then 4 else 2)

/-- The login without extended security, after the negotiation. -/
inductive ClassicEnds (V : Server σ) (a : Auth) (u : Bool) (ws : List WriteEv) (v : σ) (b key : Bytes) : List Bytes → Out Error Unit → Prop
  | key (h : key.length ≠ 8) : ClassicEnds V a u ws v b key [] .panic
  | long (h : key.length = 8) (hl : 65536 ≤ classicSize u a) :
      ClassicEnds V a u ws v b key [] (.err (.SMBError (.CreatePacket "data length too big")))
  | halts {p : Bytes} {l : List Bytes} {o : Out Error Unit} (h : key.length = 8) (hl : classicSize u a < 65536)
      (hh : Halts V ws v b p SetupFails l o) : ClassicEnds V a u ws v b key l o
  | done {p f b' m : Bytes} {v' : σ} (h : key.length = 8) (hl : classicSize u a < 65536) (hr : Round V v b p f v' b') (hf : SetUp f m) :
      ClassicEnds V a u ws v b key [p] (.ok ())

/-- The time, in nanoseconds since 1601, cannot be written as a number of units of 100 ns: the client crashes. Without checks for overflow, it
does so only if the microseconds do not fit into 64 bits with a sign. -/
def ClockFails (checked : Bool) (now : Instant) : Prop :=
  Int.tdiv now 1000 < -2 ^ 63 ∨ 2 ^ 63 ≤ Int.tdiv now 1000 ∨ checked = true ∧ (Int.tdiv now 1000 < 0 ∨ 2 ^ 64 ≤ 10 * Int.tdiv now 1000)

/-- The login with extended security, after the security blob `m` was received. -/
inductive ResponseEnds (E : Env σ) (a : Auth) (u : Bool) (ws : List WriteEv) (v : σ) (b m : Bytes) : List Bytes → Out Error Unit → Prop
  | bad (h : BadChallenge m) : ResponseEnds E a u ws v b m [] .panic
  | foreign (h : ¬ BadChallenge m) (hn : ¬ ∃ target flags challenge info, IsNtlmChallenge m target flags challenge info) :
      ResponseEnds E a u ws v b m [] (.err (.NTLMError .InvalidPacket))
  | clock {target : Str} {flags : Nat} {challenge info : Bytes} (h : IsNtlmChallenge m target flags challenge info)
      (hc : ClockFails E.checked E.now) : ResponseEnds E a u ws v b m [] .panic
  | names {target : Str} {flags : Nat} {challenge info d us w : Bytes} (h : IsNtlmChallenge m target flags challenge info)
      (hc : ¬ ClockFails E.checked E.now) (hd : NtlmText flags a.domain d) (hu : NtlmText flags a.user us) (hw : NtlmText flags a.workstation w)
      (hl : ¬ (48 + info.length < 65536 ∧ d.length < 65536 ∧ us.length < 65536 ∧ w.length < 65536)) :
      ResponseEnds E a u ws v b m [] (.err (.NTLMError .InputParameter))
  | long {target : Str} {flags : Nat} {challenge info d us w : Bytes} {t : String} (h : IsNtlmChallenge m target flags challenge info)
      (hc : ¬ ClockFails E.checked E.now) (hd : NtlmText flags a.domain d) (hu : NtlmText flags a.user us) (hw : NtlmText flags a.workstation w)
      (hl : 48 + info.length < 65536 ∧ d.length < 65536 ∧ us.length < 65536 ∧ w.length < 65536)
      (ht : LongSetup u (124 + info.length + d.length + us.length + w.length) t) :
      ResponseEnds E a u ws v b m [] (.err (.SMBError (.CreatePacket t)))
  | halts {target : Str} {flags : Nat} {challenge info d us w p : Bytes} {l : List Bytes} {o : Out Error Unit}
      (h : IsNtlmChallenge m target flags challenge info)
      (hc : ¬ ClockFails E.checked E.now) (hd : NtlmText flags a.domain d) (hu : NtlmText flags a.user us) (hw : NtlmText flags a.workstation w)
      (hl : 48 + info.length < 65536 ∧ d.length < 65536 ∧ us.length < 65536 ∧ w.length < 65536)
      (ht : ∀ t, ¬ LongSetup u (124 + info.length + d.length + us.length + w.length) t) (hh : Halts E.V ws v b p SetupFails l o) :
      ResponseEnds E a u ws v b m l o
  | done {target : Str} {flags : Nat} {challenge info d us w p f b' m' : Bytes} {v' : σ} (h : IsNtlmChallenge m target flags challenge info)
      (hc : ¬ ClockFails E.checked E.now) (hd : NtlmText flags a.domain d) (hu : NtlmText flags a.user us) (hw : NtlmText flags a.workstation w)
      (hl : 48 + info.length < 65536 ∧ d.length < 65536 ∧ us.length < 65536 ∧ w.length < 65536)
      (ht : ∀ t, ¬ LongSetup u (124 + info.length + d.length + us.length + w.length) t) (hr : Round E.V v b p f v' b') (hf : SetUp f m') :
      ResponseEnds E a u ws v b m [p] (.ok ())

/-- The same, after the negotiation. -/
inductive ExtendedEnds (E : Env σ) (a : Auth) (u : Bool) (ws : List WriteEv) (v : σ) (b : Bytes) : List Bytes → Out Error Unit → Prop
  | names (h : ¬ ((utf8Bytes a.domain).length < 65536 ∧ (utf8Bytes a.workstation).length < 65536)) :
      ExtendedEnds E a u ws v b [] (.err (.NTLMError .InputParameter))
  | long {t : String} (h : (utf8Bytes a.domain).length < 65536 ∧ (utf8Bytes a.workstation).length < 65536)
      (ht : LongSetup u (40 + (utf8Bytes a.domain).length + (utf8Bytes a.workstation).length) t) :
      ExtendedEnds E a u ws v b [] (.err (.SMBError (.CreatePacket t)))
  | halts {p : Bytes} {l : List Bytes} {o : Out Error Unit} (h : (utf8Bytes a.domain).length < 65536 ∧ (utf8Bytes a.workstation).length < 65536)
      (ht : ∀ t, ¬ LongSetup u (40 + (utf8Bytes a.domain).length + (utf8Bytes a.workstation).length) t) (hh : Halts E.V ws v b p SetupFails l o) :
      ExtendedEnds E a u ws v b l o
  | next {p f b' m : Bytes} {v' : σ} {l : List Bytes} {o : Out Error Unit}
      (h : (utf8Bytes a.domain).length < 65536 ∧ (utf8Bytes a.workstation).length < 65536)
      (ht : ∀ t, ¬ LongSetup u (40 + (utf8Bytes a.domain).length + (utf8Bytes a.workstation).length) t) (hr : Round E.V v b p f v' b')
      (hf : SetUp f m) (hs : ResponseEnds E a u ws v' b' m l o) : ExtendedEnds E a u ws v b (p :: l) o

/-- The login of `a`, with server and connection in the state `v`, `b` is unread, `ws` the coming writes: what is sent, and how it ends. -/
inductive LoginEnds (E : Env σ) (a : Auth) (ws : List WriteEv) (v : σ) (b : Bytes) : List Bytes → Out Error Unit → Prop
  | halts {p : Bytes} {l : List Bytes} {o : Out Error Unit} (h : Halts E.V ws v b p NegotiateFails l o) : LoginEnds E a ws v b l o
  | classic {p f ps key b' : Bytes} {v' : σ} {u : Bool} {l : List Bytes} {o : Out Error Unit} (hr : Round E.V v b p f v' b')
      (hf : Negotiated f ps key) (hx : ¬ OffersExtended ps) (hu : u = true ↔ OffersUnicode ps) (hs : ClassicEnds E.V a u ws v' b' key l o) :
      LoginEnds E a ws v b (p :: l) o
  | extended {p f ps key b' : Bytes} {v' : σ} {u : Bool} {l : List Bytes} {o : Out Error Unit} (hr : Round E.V v b p f v' b')
      (hf : Negotiated f ps key) (hx : OffersExtended ps) (hu : u = true ↔ OffersUnicode ps) (hs : ExtendedEnds E a u ws v' b' l o) :
      LoginEnds E a ws v b (p :: l) o

/-! ## Opening -/

/-- `NoSession t b x`: the stream `b`, which ends in the way `t`, does not begin with a positive response to a session request; `x` is what comes
of it. -/
inductive NoSession (t : Tail) : Bytes → Option NbError → Prop
  /-- It ends within the header of a packet. -/
  | header {b : Bytes} (hl : b.length < 4) : NoSession t b (ranDry (.IoError .unexpectedEof) t)
  /-- It ends within the payload. -/
  | payload {b : Bytes} {n : Nat} (hn : u24beAt b 1 = some n) (hm : n ≤ maxPayload) (hl : b.length < 4 + n) : NoSession t b (ranDry .UnexpectedEOF t)
  /-- A packet that is announced to be too big. -/
  | big {b : Bytes} {n : Nat} (hn : u24beAt b 1 = some n) (hm : maxPayload < n) : NoSession t b (some .FrameTooBig)
  /-- A packet of an unknown type. -/
  | unknown {ty : UInt8} {d rest : Bytes} (hl : d.length ≤ maxPayload) (h0 : ty ≠ 0x00) (hc : controlSize ty = none) :
      NoSession t (packet ty d ++ rest) (some (.InvalidFrameType ty))
  /-- A negative response, with its error code. -/
  | negative {code : UInt8} {rest : Bytes} : NoSession t (packet 0x83 [code] ++ rest) (some (.CreateSession code))
  /-- A response of a wrong size. -/
  | size {ty : UInt8} {d rest : Bytes} (hl : d.length ≤ maxPayload) (h : ty = 0x82 ∧ d.length ≠ 0 ∨ ty = 0x83 ∧ d.length ≠ 1) :
      NoSession t (packet ty d ++ rest) (some .InvalidFrame)
  /-- A packet of another type. -/
  | other {ty : UInt8} {d rest : Bytes} (hl : d.length ≤ maxPayload) (h : ty = 0x00 ∨ ty = 0x81 ∨ ty = 0x84 ∨ ty = 0x85) :
      NoSession t (packet ty d ++ rest) (some .InvalidFrame)

/-- The server cannot be reached: not on the given port, or, without one, neither on port 445 nor on port 139, whose error it is. -/
inductive Unreachable (dial : Dial σ) : Option UInt16 → IoErr → Prop
  | port {p : UInt16} {e : IoErr} (h : dial p = .error e) : Unreachable dial (some p) e
  | both {e e' : IoErr} (h : dial 445 = .error e) (h' : dial 139 = .error e') : Unreachable dial none e'

/-- Opening a connection for `a`: the connection that was established, what is sent on it, and how it ends. -/
inductive OpenEnds (E : Env σ) (dial : Dial σ) (a : Auth) : Option UInt16 → World σ → List Bytes → Out Error Unit → Prop
  | raw {p : UInt16} {w : World σ} {l : List Bytes} {o : Out Error Unit} (hd : dial p = .ok w)
      (h : LoginEnds E a w.wsched w.srv w.inbox.flatten l o) : OpenEnds E dial a (some p) w l o
  | direct {w : World σ} {l : List Bytes} {o : Out Error Unit} (hd : dial 445 = .ok w)
      (h : LoginEnds E a w.wsched w.srv w.inbox.flatten l o) : OpenEnds E dial a none w l o
  | unsent {w : World σ} {e : IoErr} {x : Option IoErr} (hd : dial 445 = .error e) (hd' : dial 139 = .ok w) (h : WriteTrouble w.wsched x) :
      OpenEnds E dial a none w [] (stopped (x.map fun e => .NetBios (.IoError e)))
  | denied {w : World σ} {e : IoErr} {p : Bytes} {x : Option NbError} (hd : dial 445 = .error e) (hd' : dial 139 = .ok w)
      (hp : IsSessionRequest p (netbiosName "*SMBSERVER".toList) (netbiosName a.workstation))
      (h : NoSession (E.V.tail (E.V.react w.srv p).1) (w.inbox.flatten ++ (E.V.react w.srv p).2.flatten) x) :
      OpenEnds E dial a none w [p] (stopped (x.map .NetBios))
  | session {w : World σ} {e : IoErr} {p rest : Bytes} {l : List Bytes} {o : Out Error Unit} (hd : dial 445 = .error e) (hd' : dial 139 = .ok w)
      (hp : IsSessionRequest p (netbiosName "*SMBSERVER".toList) (netbiosName a.workstation))
      (hr : w.inbox.flatten ++ (E.V.react w.srv p).2.flatten = [0x82, 0, 0, 0] ++ rest)
      (h : LoginEnds E a w.wsched (E.V.react w.srv p).1 rest l o) : OpenEnds E dial a none w (p :: l) o

end Cifs.Spec
