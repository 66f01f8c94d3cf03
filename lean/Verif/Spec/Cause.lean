import Verif.Spec.Told
import Verif.Spec.Panic
/-!
# The causes of all outcomes

For every outcome of a call that is made of one request - a value, every error, a crash, waiting - the condition on the arguments, the
connection and the bytes the server sends under which it occurs. Then the same for downloads and listings, which are made of such calls.
-/

namespace Cifs.Spec

variable {σ : Type}

/-- The client gets no further: with an error, or, if there is none, because it waits. -/
def stopped {α : Type} : Option Error → Out Error α
  | some e => .err e
  | none => .pending

/-! ## Reading packets -/

/-- What becomes of a read for which the bytes do not suffice; `eof` is the error if the server has closed the connection. -/
def ranDry (eof : NbError) : Tail → Option NbError
  | .eof => some eof
  | .blocked => none
  | .ioErr e => some (.IoError e)

/-- The sizes that a packet of each type may have, except for session messages. -/
def controlSize : UInt8 → Option (Nat → Prop)
  | 0x81 => some fun _ => True
  | 0x82 => some (· = 0)
  | 0x83 => some (· = 1)
  | 0x84 => some (· = 6)
  | 0x85 => some (· = 0)
  | _ => none

/-- `NoMessage t b x`: the stream `b`, which ends in the way `t`, does not continue with a session message, but, after any number of
keep-alives, with something that ends the call with `x`. -/
inductive NoMessage (t : Tail) : Bytes → Option NbError → Prop
  | keepAlive {b : Bytes} {x : Option NbError} (h : NoMessage t b x) : NoMessage t (Spec.keepAlive ++ b) x
  /-- It ends within the header of a packet. -/
  | header {b : Bytes} (hl : b.length < 4) : NoMessage t b (ranDry (.IoError .unexpectedEof) t)
  /-- It ends within the payload. -/
  | payload {b : Bytes} {n : Nat} (hn : u24beAt b 1 = some n) (hm : n ≤ maxPayload) (hl : b.length < 4 + n) : NoMessage t b (ranDry .UnexpectedEOF t)
  /-- A packet that is announced to be too big. -/
  | big {b : Bytes} {n : Nat} (hn : u24beAt b 1 = some n) (hm : maxPayload < n) : NoMessage t b (some .FrameTooBig)
  /-- A packet of an unknown type. -/
  | unknown {ty : UInt8} {d rest : Bytes} (hl : d.length ≤ maxPayload) (h0 : ty ≠ 0x00) (hc : controlSize ty = none) :
      NoMessage t (packet ty d ++ rest) (some (.InvalidFrameType ty))
  /-- A packet of a wrong size for its type. -/
  | size {ty : UInt8} {d rest : Bytes} {P : Nat → Prop} (hl : d.length ≤ maxPayload) (hc : controlSize ty = some P) (hs : ¬ P d.length) :
      NoMessage t (packet ty d ++ rest) (some .InvalidFrame)
  /-- A packet that is neither a session message nor a keep-alive. -/
  | control {ty : UInt8} {d rest : Bytes} {P : Nat → Prop} (hl : d.length ≤ maxPayload) (hc : controlSize ty = some P) (hs : P d.length)
      (hk : ty ≠ 0x85) : NoMessage t (packet ty d ++ rest) (some .UnexpectedFrame)

/-- What is wrong with a message that is not a genuine reply. -/
inductive NotGenuine (f : Bytes) : SmbError → Prop
  | header (h : ¬ (32 ≤ f.length ∧ magicOf (message f) = some smbMagic)) : NotGenuine f .InvalidHeader
  | command {c : UInt8} (hl : 32 ≤ f.length) (hm : magicOf (message f) = some smbMagic) (hc : cmdOf (message f) = some c.toNat)
      (hk : c.toNat ∉ knownCodes) : NotGenuine f (.InvalidCommand c)
  | request {c n : Nat} (hl : 32 ≤ f.length) (hm : magicOf (message f) = some smbMagic) (hc : cmdOf (message f) = some c) (hk : c ∈ knownCodes)
      (hf : flags1Of (message f) = some n) (hb : n / 128 % 2 = 0) : NotGenuine f .ReplyExpected

/-- `NoReply t mid b x`: after replies with other multiplex ids than `mid`, the stream `b` does not continue with a genuine reply, which ends
the call with `x`. -/
def NoReply (t : Tail) (mid : Nat) (b : Bytes) (x : Option Error) : Prop :=
  ∃ b', Skips mid b b' ∧ ((∃ y, NoMessage t b' y ∧ x = y.map Error.NetBios) ∨
    ∃ f rest e, Delivers b' f rest ∧ NotGenuine f e ∧ x = some (.SMBError e))

/-! ## Reading a reply -/

/-- The operations whose replies may announce a further command (AndX). -/
def chainable : Op → Bool
  | .mount .. => true
  | .openfile .. => true
  | .opendir .. => true
  | .read .. => true
  | _ => false

/-- An NT transaction response that says that more of it is to come. -/
def SplitNtReply (ps : Bytes) : Prop :=
  ∃ totalP totalD countP countD, u32At ps 3 = some totalP ∧ u32At ps 7 = some totalD ∧ u32At ps 11 = some countP ∧ u32At ps 23 = some countD ∧
    (countP < totalP ∨ countD < totalD)

/-- What the client says about parameter bytes `ps` of a successful reply to `op` that brings no value. -/
inductive Complaint : Op → Bytes → SmbError → Prop
  | chained {op : Op} {ps : Bytes} {c : Nat} (ho : chainable op = true) (h : u8At ps 0 = some c) (hc : c ≠ 0xff) (hk : c ∈ knownCodes) :
      Complaint op ps (.Unsupported "AndX chaining is currently not supported")
  | unknown {op : Op} {ps : Bytes} {c : UInt8} (ho : chainable op = true) (h : u8At ps 0 = some c.toNat) (hk : c.toNat ∉ knownCodes) :
      Complaint op ps (.InvalidCommand c)
  | split {hd : Handle} {what : UInt32} {ps : Bytes} (h : SplitNtReply ps) :
      Complaint (.notify hd what) ps (.Unsupported "transaction message split to multiple packets")
  | data {op : Op} {ps : Bytes} (hx : chainable op = true → u8At ps 0 = some 0xff) (hs : ∀ hd what, op = .notify hd what → ¬ SplitNtReply ps) :
      Complaint op ps .InvalidData

/-- A reply of another type, or one that refuses the call. -/
inductive Declined (code : Nat) (f : Bytes) : Error → Prop
  | other {want got : Cmd} (hw : want.code.toNat = code) (hg : cmdOf (message f) = some got.code.toNat) (hne : got ≠ want) :
      Declined code f (.UnexpectedReply want got)
  | refused {status : UInt32} (h : Refuses f code status) : Declined code f (.ServerError (Status.ofU32 status))

/-- A successful reply of the right type. -/
def Accepted (code : Nat) (f : Bytes) : Prop := cmdOf (message f) = some code ∧ statusOf (message f) = some 0

/-- The reply `f` to the call `c` of the operation `op` gives it this outcome. -/
inductive Means (op : Op) (c : Call) (f : Bytes) : Out Error Val → Prop
  | declined {e : Error} (h : Declined c.code f e) : Means op c f (.err e)
  /-- It is shorter than its own counts say. -/
  | short (ha : Accepted c.code f) (h : ¬ ∃ ps ds, ReplyBody (message f) ps ds) : Means op c f .panic
  | bad {ps ds : Bytes} {u : Bool} (ha : Accepted c.code f) (hb : ReplyBody (message f) ps ds) (hu : unicodeOf (message f) = some u)
      (h : BadBody u op ps ds) : Means op c f .panic
  | unread {ps ds : Bytes} {u : Bool} {e : SmbError} (ha : Accepted c.code f) (hb : ReplyBody (message f) ps ds) (hu : unicodeOf (message f) = some u)
      (hn : ¬ BadBody u op ps ds) (hv : ∀ v, ¬ Gives f c v) (he : Complaint op ps e) : Means op c f (.err (.SMBError e))
  | value {v : Val} (h : Gives f c v) : Means op c f (.ok v)

/-! ## Reading the replies to a search -/

/-- What the client says about a fragment of a block of size `t`, to be put at the displacement `o`, that does not go together with the
fragments `l` of a block of this size. -/
inductive Clash (l : List (Nat × Bytes)) (size : Option Nat) (o : Nat) (d : Bytes) (t : Nat) : ReassembleErr → Prop
  | size {n : Nat} (h : size = some n) (hne : n ≠ t) : Clash l size o d t (.totalChanged n t)
  | twice (h : ∀ n, size = some n → n = t) (hd : d ≠ []) (ho : o ∈ (fragments l).map (·.1)) : Clash l size o d t (.duplicate o)

/-- The same for both blocks. -/
inductive Clashes (l : List Piece) (p : Piece) : ReassembleErr → Prop
  | params {r : ReassembleErr} (h : Clash (l.map fun q => (q.paramsAt, q.params)) (l.head?.map (·.paramsTotal)) p.paramsAt p.params p.paramsTotal r) :
      Clashes l p r
  | data {r : ReassembleErr}
      (hp : ∀ r, ¬ Clash (l.map fun q => (q.paramsAt, q.params)) (l.head?.map (·.paramsTotal)) p.paramsAt p.params p.paramsTotal r)
      (h : Clash (l.map fun q => (q.dataAt, q.data)) (l.head?.map (·.dataTotal)) p.dataAt p.data p.dataTotal r) : Clashes l p r

/-- What the client says about fragments that are enough for a block of size `t`, but are not a cut of it: they are too long, or, put in order,
there comes a first one that does not start where the one before it ends. -/
inductive Gap (l : List (Nat × Bytes)) (t : Nat) : ReassembleErr → Prop
  | length {n : Nat} (h : n = (l.map fun x => x.2.length).sum) (hne : n ≠ t) : Gap l t (.lengthMismatch t n)
  | place {l' pre post : List (Nat × Bytes)} {o : Nat} {d b : Bytes} (h : (l.map fun x => x.2.length).sum = t) (hp : (fragments l).Perm l')
      (hs : l'.Pairwise (fun x y => x.1 < y.1)) (hl : l' = pre ++ (o, d) :: post) (ht : Tiling 0 pre b) (hne : b.length ≠ o) :
      Gap l t (.offsetMismatch o b.length)

/-- The same for both blocks. -/
inductive Gaps : List Piece → ReassembleErr → Prop
  | params {p : Piece} {l : List Piece} {r : ReassembleErr} (h : Gap ((p :: l).map fun q => (q.paramsAt, q.params)) p.paramsTotal r) : Gaps (p :: l) r
  | data {p : Piece} {l : List Piece} {P : Bytes} {r : ReassembleErr} (hp : Cut ((p :: l).map fun q => (q.paramsAt, q.params)) P)
      (hl : p.paramsTotal = P.length) (h : Gap ((p :: l).map fun q => (q.dataAt, q.data)) p.dataTotal r) : Gaps (p :: l) r

/-- The first replies with multiplex id `mid` in the stream `b` bring the pieces `l`, which go together but do not suffice; `b'` follows. -/
def Collecting (mid : Nat) (b : Bytes) (l : List Piece) (b' : Bytes) : Prop := Pieces Brings mid b l b' ∧ Agree l ∧ (l ≠ [] → ¬ Enough l)

/-- The page that a search call gives for a parameter block and a data block. -/
def IsPage : Op → Bytes → Bytes → Val → Prop
  | .findFirst .., P, D, .first r => FirstPage P D r.sid.toNat r.done r.info
  | .findNext .., P, D, .next r => NextPage P D r.done r.info
  | _, _, _, _ => False

/-- The replies in the stream `b`, which ends in the way `t`, give this outcome to a search. -/
inductive Finds (op : Op) (t : Tail) (mid : Nat) (b : Bytes) : Out Error Val → Prop
  | silent {l : List Piece} {b' : Bytes} {x : Option Error} (hl : Collecting mid b l b') (h : NoReply t mid b' x) : Finds op t mid b (stopped x)
  | declined {l : List Piece} {b' f rest : Bytes} {e : Error} (hl : Collecting mid b l b') (hf : Awaits mid b' f rest) (h : Declined 0x32 f e) :
      Finds op t mid b (.err e)
  | bad {l : List Piece} {b' f rest : Bytes} (hl : Collecting mid b l b') (hf : Awaits mid b' f rest) (h : BadPiece f) : Finds op t mid b .panic
  /-- A block starts before the data bytes. -/
  | outside {l : List Piece} {b' f rest ps ds : Bytes} (hl : Collecting mid b l b') (hf : Awaits mid b' f rest) (ha : Accepted 0x32 f)
      (hb : ReplyBody (message f) ps ds) (hn : ¬ ShortPiece ps ds) (hv : ∀ p, ¬ IsPiece ps ds p) : Finds op t mid b (.err (.SMBError .InvalidData))
  | clash {l : List Piece} {b' f rest : Bytes} {p : Piece} {r : ReassembleErr} (hl : Collecting mid b l b') (hf : Awaits mid b' f rest)
      (hp : Brings f p) (h : Clashes l p r) : Finds op t mid b (.err (.SMBError (.Reassemble r)))
  /-- The pieces suffice now. -/
  | gap {l : List Piece} {b' f rest : Bytes} {p : Piece} {r : ReassembleErr} (hl : Collecting mid b l b') (hf : Awaits mid b' f rest)
      (hp : Brings f p) (ha : Agree (l ++ [p])) (he : Enough (l ++ [p])) (h : Gaps (l ++ [p]) r) : Finds op t mid b (.err (.SMBError (.Reassemble r)))
  | badPage {l : List Piece} {b' f rest P D : Bytes} {p : Piece} (hl : Collecting mid b l b') (hf : Awaits mid b' f rest)
      (hp : Brings f p) (hc : Cuts (l ++ [p]) P D) (h : BadPage op P D) : Finds op t mid b .panic
  | unread {l : List Piece} {b' f rest P D : Bytes} {p : Piece} (hl : Collecting mid b l b') (hf : Awaits mid b' f rest)
      (hp : Brings f p) (hc : Cuts (l ++ [p]) P D) (hn : ¬ BadPage op P D) (hv : ∀ v, ¬ IsPage op P D v) : Finds op t mid b (.err (.SMBError .InvalidData))
  | value {l : List Piece} {b' f rest P D : Bytes} {p : Piece} {v : Val} (hl : Collecting mid b l b') (hf : Awaits mid b' f rest)
      (hp : Brings f p) (hc : Cuts (l ++ [p]) P D) (h : IsPage op P D v) : Finds op t mid b (.ok v)

/-! ## A whole call -/

/-- The first of the coming writes that is not accepted: it fails, or, if there is no error, it never ends. -/
inductive WriteTrouble : List WriteEv → Option IoErr → Prop
  | fail (e : IoErr) (ws : List WriteEv) : WriteTrouble (.fail e :: ws) (some e)
  | block (ws : List WriteEv) : WriteTrouble (.block :: ws) none
  | accept {ws : List WriteEv} {x : Option IoErr} (n : Nat) (h : WriteTrouble ws x) : WriteTrouble (.accept n :: ws) x

/-- What the client says about arguments that do not fit into a request. -/
def tooLongText : Op → String
  | .mount _ password => if 65536 ≤ (passwordField password).length then "password too long" else "data length too big"
  | .openfile .. => "filename too long"
  | .opendir .. => "filename too long"
  | .download .. => "filename too long"
  | .delete .. => "data length too big"
  | .rmdir .. => "data length too big"
  | _ => "parameter transaction2 sub-command is too large"

/-- The multiplex ids are exhausted, which stops a client that checks for overflow. -/
def Exhausted (E : Env σ) (s : St σ) : Prop := E.checked = true ∧ s.cli.mid.toNat = 65535

/-- The call `c` that the operation `op` stands for, made in state `s`, has the outcome `o`. -/
inductive Ends (E : Env σ) (log : σ → List Bytes) (op : Op) (c : Call) (s : St σ) : Out Error Val → Prop
  | exhausted (h : Exhausted E s) : Ends E log op c s .panic
  | long (hx : ¬ Exhausted E s) (hf : ¬ Fits s.cli.useUnicode op) (hp : ¬ Panics op) :
      Ends E log op c s (.err (.SMBError (.CreatePacket (tooLongText op))))
  | offset (hx : ¬ Exhausted E s) (hp : Panics op) : Ends E log op c s .panic
  /-- The request is not written to its end. -/
  | unsent {x : Option IoErr} (hx : ¬ Exhausted E s) (hf : Fits s.cli.useUnicode op) (hl : log (runOp E op s).2.w.srv = log s.w.srv)
      (h : WriteTrouble s.w.wsched x) : Ends E log op c s (stopped (x.map fun e => .NetBios (.IoError e)))
  /-- The request is sent, and there is no reply to it. -/
  | silent {req : Bytes} {mid : Nat} {x : Option Error} (ho : oneReply op = true) (hl : log (runOp E op s).2.w.srv = log s.w.srv ++ [req])
      (hm : midOf req = some mid)
      (h : NoReply (E.V.tail (E.V.react s.w.srv req).1) mid (s.w.inbox.flatten ++ (E.V.react s.w.srv req).2.flatten) x) : Ends E log op c s (stopped x)
  /-- There is a reply. -/
  | reply {f rest : Bytes} {o : Out Error Val} (ho : oneReply op = true) (hf : Exchange E log op s f rest) (h : Means op c f o) : Ends E log op c s o
  /-- A search. -/
  | search {req : Bytes} {mid : Nat} {o : Out Error Val} (ho : oneReply op = false) (hl : log (runOp E op s).2.w.srv = log s.w.srv ++ [req])
      (hm : midOf req = some mid)
      (h : Finds op (E.V.tail (E.V.react s.w.srv req).1) mid (s.w.inbox.flatten ++ (E.V.react s.w.srv req).2.flatten) o) : Ends E log op c s o

/-! ## Operations of several calls -/

/-- An outcome that is not a value. -/
def Fails (o : Out Error Val) : Prop := ∀ v, o ≠ .ok v

/-- The client makes the call that `op` stands for, which has the outcome `o`, for its cause, and leaves the state `s'`. -/
def Makes (E : Env σ) (log : σ → List Bytes) (op : Op) (s : St σ) (o : Out Error Val) (s' : St σ) : Prop :=
  (∃ c, callOf op = some c ∧ Ends E log op c s o) ∧ (runOp E op s).2 = s'

/-- The outcome of a download of the open file `h`, after `data` was read, with at most `k` further steps. -/
inductive Fetching (E : Env σ) (log : σ → List Bytes) (h : Handle) : Nat → Bytes → St σ → Out Error Val → St σ → Prop
  /-- The budget is used up. -/
  | budget (data : Bytes) (s : St σ) : Fetching E log h 0 data s .running s
  | unread {k : Nat} {data : Bytes} {s s' : St σ} {o : Out Error Val} (hl : data.length < h.size.toNat)
      (hr : Makes E log (.read h (UInt64.ofNat data.length)) s o s') (ho : Fails o) : Fetching E log h (k + 1) data s o s'
  | chunk {k : Nat} {data chunk : Bytes} {s s1 s' : St σ} {o : Out Error Val} (hl : data.length < h.size.toNat)
      (hr : Makes E log (.read h (UInt64.ofNat data.length)) s (.ok (.bytes chunk)) s1) (hs : Fetching E log h k (data ++ chunk) s1 o s') :
      Fetching E log h (k + 1) data s o s'
  | unclosed {k : Nat} {data : Bytes} {s s' : St σ} {o : Out Error Val} (hl : h.size.toNat ≤ data.length) (hr : Makes E log (.close h) s o s')
      (ho : Fails o) : Fetching E log h (k + 1) data s o s'
  | closed {k : Nat} {data : Bytes} {s s' : St σ} (hl : h.size.toNat ≤ data.length) (hr : Makes E log (.close h) s (.ok .unit) s') :
      Fetching E log h (k + 1) data s (.ok (.bytes data)) s'

/-- The outcome of a download. -/
inductive DownloadEnds (E : Env σ) (log : σ → List Bytes) (k : Nat) (share : Share) (path : Str) (s : St σ) : Out Error Val → St σ → Prop
  | unopened {s' : St σ} {o : Out Error Val} (hr : Makes E log (.openfile share path) s o s') (ho : Fails o) : DownloadEnds E log k share path s o s'
  | opened {s1 s' : St σ} {h : Handle} {o : Out Error Val} (hr : Makes E log (.openfile share path) s (.ok (.handle h)) s1)
      (hs : Fetching E log h k [] s1 o s') : DownloadEnds E log k share path s o s'

/-- The outcome of a listing, after the entries `got` of the search `sid` were received, with at most `k` further steps. -/
inductive Paging (E : Env σ) (log : σ → List Bytes) (share : Share) (sid : UInt16) : Nat → List DirInfo → St σ → Out Error Val → St σ → Prop
  /-- The budget is used up. -/
  | budget (got : List DirInfo) (s : St σ) : Paging E log share sid 0 got s .running s
  /-- There is no last name to go on with. -/
  | empty (k : Nat) (s : St σ) : Paging E log share sid (k + 1) [] s .panic s
  | failed {k : Nat} {got : List DirInfo} {last : DirInfo} {s s' : St σ} {o : Out Error Val} (hl : got.getLast? = some last)
      (hr : Makes E log (.findNext share sid last.filename) s o s') (ho : Fails o) : Paging E log share sid (k + 1) got s o s'
  | ended {k : Nat} {got page : List DirInfo} {last : DirInfo} {s s' : St σ} (hl : got.getLast? = some last)
      (hr : Makes E log (.findNext share sid last.filename) s (.ok (.next { done := true, info := page })) s') :
      Paging E log share sid (k + 1) got s (.ok (.entries (got ++ page))) s'
  | more {k : Nat} {got page : List DirInfo} {last : DirInfo} {s s1 s' : St σ} {o : Out Error Val} (hl : got.getLast? = some last)
      (hr : Makes E log (.findNext share sid last.filename) s (.ok (.next { done := false, info := page })) s1)
      (hs : Paging E log share sid k (got ++ page) s1 o s') : Paging E log share sid (k + 1) got s o s'

/-- The outcome of a listing. -/
inductive ListingEnds (E : Env σ) (log : σ → List Bytes) (k : Nat) (share : Share) (pattern : Str) (s : St σ) : Out Error Val → St σ → Prop
  | failed {s' : St σ} {o : Out Error Val} (hr : Makes E log (.findFirst share pattern) s o s') (ho : Fails o) : ListingEnds E log k share pattern s o s'
  | ended {s' : St σ} {r : FindFirst2} (hd : r.done = true) (hr : Makes E log (.findFirst share pattern) s (.ok (.first r)) s') :
      ListingEnds E log k share pattern s (.ok (.entries r.info)) s'
  | more {s1 s' : St σ} {r : FindFirst2} {o : Out Error Val} (hd : r.done = false) (hr : Makes E log (.findFirst share pattern) s (.ok (.first r)) s1)
      (hs : Paging E log share r.sid k r.info s1 o s') : ListingEnds E log k share pattern s o s'

end Cifs.Spec
