import Verif.Spec.Servers
import Verif.Spec.Text
/-!
# Requests and the replies to them, as seen on the wire
-/

namespace Cifs.Spec

variable {σ : Type}

/-- `Skips mid b b'`: the stream `b` starts with replies that carry another multiplex id than `mid`; `b'` follows. -/
inductive Skips (mid : Nat) : Bytes → Bytes → Prop
  | done (b : Bytes) : Skips mid b b
  | skip {b g b' b'' : Bytes} (h : Delivers b g b') (hg : Genuine g) (m : Nat) (hm : midOf (message g) = some m) (hne : m ≠ mid)
      (hs : Skips mid b' b'') : Skips mid b b''

/-- `Awaits mid b f rest`: `f` is the first reply in the stream `b` that carries the multiplex id `mid`; `rest` follows. -/
def Awaits (mid : Nat) (b f rest : Bytes) : Prop :=
  ∃ b', Skips mid b b' ∧ Delivers b' f rest ∧ Genuine f ∧ midOf (message f) = some mid

/-- One round: the request `req` reaches the server in state `v` while the bytes `b` are unread. Among `b` and what the server sends in
reaction, `f` is the first reply with the multiplex id of the request. The server is in state `v'` then, and the bytes `b'` are unread. -/
def Round (V : Server σ) (v : σ) (b req f : Bytes) (v' : σ) (b' : Bytes) : Prop :=
  v' = (V.react v req).1 ∧ ∃ mid, midOf req = some mid ∧ Awaits mid (b ++ (V.react v req).2.flatten) f b'

/-- The call `op`, made in state `s`, sends exactly one request. Among the bytes that are unread then or sent in reaction to the request,
`f` is the first reply with the multiplex id of the request; the bytes `rest` follow. -/
def Exchange (E : Env σ) (log : σ → List Bytes) (op : Op) (s : St σ) (f rest : Bytes) : Prop :=
  ∃ req mid, log (runOp E op s).2.w.srv = log s.w.srv ++ [req] ∧ midOf req = some mid ∧
    Awaits mid (s.w.inbox.flatten ++ (E.V.react s.w.srv req).2.flatten) f rest

/-- The same, but the next message that is not a reply to another request is `f`, which is no genuine reply. -/
def Garbled (E : Env σ) (log : σ → List Bytes) (op : Op) (s : St σ) (f rest : Bytes) : Prop :=
  ∃ req mid b', log (runOp E op s).2.w.srv = log s.w.srv ++ [req] ∧ midOf req = some mid ∧
    Skips mid (s.w.inbox.flatten ++ (E.V.react s.w.srv req).2.flatten) b' ∧ Delivers b' f rest ∧ ¬ Genuine f

/-- Operations answered by a single reply. -/
def oneReply : Op → Bool
  | .download .. => false
  | .list .. => false
  | .findFirst .. => false
  | .findNext .. => false
  | _ => true

/-- The parameter bytes `ps` and the data bytes `ds` of the reply `p`, as announced by its counts; more bytes may follow. -/
def ReplyBody (p ps ds : Bytes) : Prop :=
  paramsOf p = some ps ∧ ∃ n, byteCountOf p = some n ∧ sliceAt p (39 + ps.length) n = some ds

/-- The call `op`, made in state `s`, is answered by the reply `f` of the right type, with status 0, parameter bytes `ps` and data
bytes `ds`. -/
def Answered (E : Env σ) (log : σ → List Bytes) (op : Op) (s : St σ) (f ps ds : Bytes) : Prop :=
  ∃ rest c, Exchange E log op s f rest ∧ cmdOf (message f) = some c ∧ c ∈ codes op ∧ statusOf (message f) = some 0 ∧
    ReplyBody (message f) ps ds

/-- The parameter bytes of a reply without a further (AndX) command. -/
def LastAndX (ps : Bytes) : Prop := u8At ps 0 = some 0xff ∧ 4 ≤ ps.length

instance (ps : Bytes) : Decidable (LastAndX ps) := inferInstanceAs (Decidable (_ ∧ _))

/-- Extended file attributes the client declares ([MS-CIFS] 2.2.1.2.3 and the flags of 2.2.1.2.3's high bits). -/
def attrMask : Nat := 0xBF0009B7
/-- Access rights the client declares. -/
def rightsMask : Nat := 0xF31F01FF

/-- 2.2.4.64.2 SMB_COM_NT_CREATE_ANDX response: where the fields of a handle stand in the parameter bytes. Fields that are sets of bits are
cut to the bits that have a meaning for the client; `tid` is the tree id of the reply. -/
structure IsOpenReply (ps : Bytes) (tid : Nat) (h : Handle) : Prop where
  tid : h.tid.toNat = tid
  oplock : ∃ n, u8At ps 4 = some n ∧ h.oplock.toNat = n % 4
  fid : u16At ps 5 = some h.fid.toNat
  disposition : ∃ n, u32At ps 7 = some n ∧ h.disposition.toNat = n % 8
  createTime : u64At ps 11 = some h.createTime.toNat
  accessTime : u64At ps 19 = some h.accessTime.toNat
  writeTime : u64At ps 27 = some h.writeTime.toNat
  changeTime : u64At ps 35 = some h.changeTime.toNat
  attributes : ∃ n, u32At ps 43 = some n ∧ h.attributes.toNat = n &&& attrMask
  allocationSize : u64At ps 47 = some h.allocationSize.toNat
  size : u64At ps 55 = some h.size.toNat
  fileType : ∃ n, u16At ps 63 = some n ∧ h.fileType.toNat = n % 8
  directory : u8At ps 67 = some (if h.directory then 1 else 0)

/-- A rights field of a tree connect response, if there is one at this position. -/
def IsRights (ps : Bytes) (o : Nat) (r : Option UInt32) : Prop :=
  match r with
  | none => ps.length < o + 4
  | some x => ∃ n, u32At ps o = some n ∧ x.toNat = n &&& rightsMask

/-- 2.2.4.55.2 SMB_COM_TREE_CONNECT_ANDX response, data bytes: the service name (always bytes) and its NUL, then the file system name with
its NUL. A Unicode file system name starts at an even distance from the SMB header, after one padding byte if needed; the data bytes start
at distance 35 + (number of parameter bytes) from the SMB header. -/
def IsTreeConnectData (unicode : Bool) (ps ds : Bytes) (service filesystem : Str) : Prop :=
  ∃ pad name more, '\x00' ∉ service ∧ '\x00' ∉ filesystem ∧
    if unicode then pad.length ≤ 1 ∧ (35 + ps.length + (utf8Bytes service).length + 1 + pad.length) % 2 = 0 ∧ Utf16le filesystem name ∧
      ds = utf8Bytes service ++ [0] ++ pad ++ name ++ [0, 0] ++ more
    else pad = [] ∧ name = utf8Bytes filesystem ∧ ds = utf8Bytes service ++ [0] ++ name ++ [0] ++ more

end Cifs.Spec
