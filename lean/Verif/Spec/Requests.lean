import Verif.Spec.Smb
import Verif.Spec.Ops
import Verif.Spec.Text
/-!
# The requests of [MS-CIFS] 2.2.4, as seen on the wire

Each definition says what a packet `p` of one kind contains, by positions inside the parameter words (`paramsOf`) and data bytes
(`dataOf`). AndX commands start with 4 bytes "no further command".
-/

namespace Cifs.Spec

/-- "No further command": 0xff, reserved 0, offset 0. -/
def NoAndX (params : Bytes) : Prop := sliceAt params 0 4 = some [0xff, 0, 0, 0]

/-- 2.2.4.42 SMB_COM_READ_ANDX, 12-word form. -/
structure IsRead (p : Bytes) (fid offset : Nat) : Prop where
  words : wordCountOf p = some 12
  noData : dataOf p = some []
  fields : ∃ ps, paramsOf p = some ps ∧ NoAndX ps ∧ u16At ps 4 = some fid ∧
    (∃ lo hi, u32At ps 6 = some lo ∧ u32At ps 20 = some hi ∧ hi * 2 ^ 32 + lo = offset) ∧
    (∃ max, u16At ps 10 = some max ∧ 0 < max ∧ max ≤ 65534) ∧
    (∃ min max, u16At ps 12 = some min ∧ u16At ps 10 = some max ∧ min ≤ max) ∧ u32At ps 14 = some 0 ∧ u16At ps 18 = some 0

/-- 2.2.4.64 SMB_COM_NT_CREATE_ANDX: what is opened and how. The name stands after one padding byte and is terminated by a NUL that its
length includes. -/
structure IsOpen (p : Bytes) (path : Str) (access share options : Nat) : Prop where
  words : wordCountOf p = some 24
  name : ∃ name, dataOf p = some (0 :: name ++ [0, 0]) ∧ Utf16le path name ∧
    ∃ ps, paramsOf p = some ps ∧ NoAndX ps ∧ u8At ps 4 = some 0 ∧ u16At ps 5 = some (name.length + 2)
  /-- No oplocks, no root directory, no allocation, no attributes; disposition 1 is "open, fail if it does not exist". -/
  fields : ∃ ps, paramsOf p = some ps ∧ u32At ps 7 = some 0 ∧ u32At ps 11 = some 0 ∧ u32At ps 15 = some access ∧ u64At ps 19 = some 0 ∧
    u32At ps 27 = some 0 ∧ u32At ps 31 = some share ∧ u32At ps 35 = some 1 ∧ u32At ps 39 = some options ∧ u32At ps 43 = some 2 ∧
    u8At ps 47 = some 0

/-- FILE_READ_DATA, FILE_READ_EA, SYNCHRONIZE. -/
def accessFile : Nat := 0x1 + 0x8 + 0x100000
/-- FILE_READ_DATA (of a directory: FILE_LIST_DIRECTORY). -/
def accessDir : Nat := 0x1
/-- FILE_NON_DIRECTORY_FILE. -/
def optNonDirectory : Nat := 0x40
/-- FILE_DIRECTORY_FILE. -/
def optDirectory : Nat := 0x1

/-- 2.2.4.5 SMB_COM_CLOSE: the file, and last write time 0 ("leave it"). -/
structure IsClose (p : Bytes) (fid : Nat) : Prop where
  words : wordCountOf p = some 3
  noData : dataOf p = some []
  fields : ∃ ps, paramsOf p = some ps ∧ u16At ps 0 = some fid ∧ u32At ps 2 = some 0

/-- 2.2.4.51 SMB_COM_TREE_DISCONNECT: nothing but the header. -/
structure IsTreeDisconnect (p : Bytes) : Prop where
  words : wordCountOf p = some 0
  noData : dataOf p = some []

/-- 2.2.4.7 SMB_COM_DELETE: search attributes, then the buffer format byte 4 and the name. -/
structure IsDelete (p : Bytes) (attributes : Nat) (path : Str) : Prop where
  words : wordCountOf p = some 1
  attributes : ∃ ps, paramsOf p = some ps ∧ u16At ps 0 = some attributes
  name : ∃ name, dataOf p = some (4 :: name ++ [0, 0]) ∧ Utf16le path name

/-- 2.2.4.2 SMB_COM_DELETE_DIRECTORY: buffer format byte 4 and the name. -/
structure IsRmdir (p : Bytes) (path : Str) : Prop where
  words : wordCountOf p = some 0
  name : ∃ name, dataOf p = some (4 :: name ++ [0, 0]) ∧ Utf16le path name

/-- 2.2.4.55 SMB_COM_TREE_CONNECT_ANDX. The data bytes are the password `pw`, then (Unicode only) a padding byte if needed to start the
path at an even distance from the SMB header, the path with its NUL, and the service name `?????` with its NUL. The data bytes start at
distance 43 = 32 + 1 + 8 + 2 from the SMB header. -/
structure IsTreeConnect (p : Bytes) (unicode : Bool) (pw : Bytes) (path : Str) : Prop where
  words : wordCountOf p = some 4
  passwordLength : ∃ ps, paramsOf p = some ps ∧ NoAndX ps ∧ u16At ps 4 = some 8 ∧ u16At ps 6 = some pw.length
  data : ∃ pad name nul, dataOf p = some (pw ++ pad ++ name ++ nul ++ [0x3f, 0x3f, 0x3f, 0x3f, 0x3f, 0]) ∧
    (if unicode then (pad = [] ∨ pad = [0]) ∧ (43 + pw.length + pad.length) % 2 = 0 ∧ Utf16le path name ∧ nul = [0, 0]
     else pad = [] ∧ name = utf8Bytes path ∧ nul = [0])

/-- The password field of a tree connect request: a single NUL if there is no password. -/
def passwordField (password : Str) : Bytes := if password = [] then [0] else utf8Bytes password

/-- 2.2.4.46 SMB_COM_TRANSACTION2 with one setup word: `setup` is the sub-command. `params` and `data` stand where the request says they
are, relative to the SMB header (which starts 4 bytes into the packet), 4-byte aligned and inside the packet, after the byte count. -/
structure IsTransact2 (p : Bytes) (setup : Nat) (params data : Bytes) : Prop where
  words : wordCountOf p = some 15
  fields : ∃ ps, paramsOf p = some ps ∧ u8At ps 26 = some 1 ∧ u16At ps 28 = some setup ∧
    u16At ps 0 = some params.length ∧ u16At ps 18 = some params.length ∧ u16At ps 2 = some data.length ∧ u16At ps 22 = some data.length ∧
    ∃ po dO, u16At ps 20 = some po ∧ u16At ps 24 = some dO ∧ po % 4 = 0 ∧ dO % 4 = 0 ∧ 65 ≤ po ∧ po + params.length ≤ dO ∧
      sliceAt p (4 + po) params.length = some params ∧ sliceAt p (4 + dO) data.length = some data ∧
      4 + dO + data.length = p.length
  /-- What the client is prepared to take: 10 bytes of parameters, which is what the largest of these replies has, 65535 of data, and no
  setup words. No flags; no time limit. -/
  limits : ∃ ps, paramsOf p = some ps ∧ u16At ps 4 = some 10 ∧ u16At ps 6 = some 65535 ∧ u8At ps 8 = some 0 ∧ u16At ps 10 = some 0 ∧
    u32At ps 12 = some 0

/-- 2.2.4.62 SMB_COM_NT_TRANSACT with 4 setup words: `function` is the sub-command, `setup` its setup bytes. -/
structure IsNtTransact (p : Bytes) (function : Nat) (setup params data : Bytes) : Prop where
  words : wordCountOf p = some (19 + setup.length / 2)
  fields : ∃ ps, paramsOf p = some ps ∧ u8At ps 35 = some (setup.length / 2) ∧ u16At ps 36 = some function ∧
    sliceAt ps 38 setup.length = some setup ∧ setup.length % 2 = 0 ∧
    u32At ps 3 = some params.length ∧ u32At ps 19 = some params.length ∧ u32At ps 7 = some data.length ∧ u32At ps 27 = some data.length ∧
    ∃ po dO, u32At ps 23 = some po ∧ u32At ps 31 = some dO ∧ po % 4 = 0 ∧ dO % 4 = 0 ∧ 32 + 1 + 38 + setup.length + 2 ≤ po ∧
      po + params.length ≤ dO ∧
      sliceAt p (4 + po) params.length = some params ∧ sliceAt p (4 + dO) data.length = some data ∧
      4 + dO + data.length = p.length
  /-- What the client is prepared to take: 1000 bytes of parameters, no data, no setup words. -/
  limits : ∃ ps, paramsOf p = some ps ∧ u8At ps 0 = some 0 ∧ u32At ps 11 = some 1000 ∧ u32At ps 15 = some 0

/-- 2.2.6.2 TRANS2_FIND_FIRST2 parameters: attributes, count, flags, level, storage type, pattern with NUL. -/
structure IsFindFirst (ps : Bytes) (attributes : Nat) (pattern : Str) : Prop where
  attributes : u16At ps 0 = some attributes
  count : ∃ n, u16At ps 2 = some n ∧ 0 < n
  /-- Close the search when the end is reached; do not close it after this request. -/
  flags : u16At ps 4 = some 2
  /-- SMB_FIND_FILE_DIRECTORY_INFO. -/
  level : u16At ps 6 = some 0x101
  storage : u32At ps 8 = some 0
  pattern : ∃ name, ps.drop 12 = name ++ [0, 0] ∧ Utf16le pattern name

/-- 2.2.6.3 TRANS2_FIND_NEXT2 parameters: search id, count, level, resume key, flags, last name with NUL. -/
structure IsFindNext (ps : Bytes) (sid : Nat) (last : Str) : Prop where
  sid : u16At ps 0 = some sid
  count : ∃ n, u16At ps 2 = some n ∧ 0 < n
  level : u16At ps 4 = some 0x101
  resumeKey : u32At ps 6 = some 0
  flags : u16At ps 10 = some 2
  last : ∃ name, ps.drop 12 = name ++ [0, 0] ∧ Utf16le last name

/-- 2.2.7.4 NT_TRANSACT_NOTIFY_CHANGE setup: what to watch, the handle, and whether to watch the whole tree. -/
structure IsNotify (setup : Bytes) (what fid : Nat) : Prop where
  length : setup.length = 8
  what : u32At setup 0 = some what
  fid : u16At setup 4 = some fid
  notRecursive : u8At setup 6 = some 0

end Cifs.Spec
