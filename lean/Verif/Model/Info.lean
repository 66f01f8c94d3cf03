import Verif.Model.Win
import Verif.Model.Utils
/-!
# `src/smb/error.rs`, `src/smb/info.rs`, `src/smb/common.rs`
-/

namespace Cifs

/-- Why reassembly of a split transaction failed: the four messages of /repo/src/smb/trans2/collector.rs:64,77,99,106 as data. -/
inductive ReassembleErr where
  | totalChanged (saved total : Nat)
  | duplicate (offset : Nat)
  | lengthMismatch (want got : Nat)
  | offsetMismatch (got expected : Nat)
  deriving Repr, DecidableEq

/-- /repo/src/smb/error.rs:12-22 `smb::Error`. `Reassemble` carries data instead of formatted text. -/
inductive SmbError where
  | InvalidHeader
  | InvalidData
  | InvalidCommand (n : UInt8)
  | NoDialect
  | NeedSecurityExt
  | ReplyExpected
  | CreatePacket (what : String)
  | Reassemble (why : ReassembleErr)
  | Unsupported (what : String)
  deriving Repr, DecidableEq

/-- /repo/src/smb/common.rs:12 `SMB_HEADER_LEN`. -/
def SMB_HEADER_LEN : Nat := 32
/-- /repo/src/smb/common.rs:13 `SMB_MAGIC`. -/
def SMB_MAGIC : Bytes := [0xff, 0x53, 0x4d, 0x42]
/-- /repo/src/smb/common.rs:14 `SMB_SUPPORTED_DIALECTS`. -/
def SMB_SUPPORTED_DIALECTS : List Str := ["NT LM 0.12".toList]
/-- /repo/src/smb/common.rs:15 `SMB_READ_MIN`. -/
def SMB_READ_MIN : UInt16 := 32768
/-- /repo/src/smb/common.rs:16 `SMB_READ_MAX`. -/
def SMB_READ_MAX : UInt16 := 65534

/-- /repo/src/smb/info.rs:151-154 `enum Status`. -/
inductive Status where
  | Known (s : NTStatus)
  | Unknown (n : UInt32)
  deriving Repr, DecidableEq

/-- /repo/src/smb/info.rs:156-163 `From<u32> for Status`. -/
def Status.ofU32 (n : UInt32) : Status :=
  match NTStatus.tryFrom n with
  | some s => .Known s
  | none => .Unknown n

/-- /repo/src/smb/info.rs:165-172 `From<Status> for u32`. -/
def Status.toU32 : Status → UInt32
  | .Known s => s.code
  | .Unknown n => n

/-- /repo/src/smb/info.rs:13-22 `struct Info`: the SMB header. Flag types are their raw bits. -/
structure Info where
  cmd : Cmd
  status : Status
  flags1 : UInt8
  flags2 : UInt16
  pid : UInt32
  tid : UInt16
  uid : UInt16
  mid : UInt16
  deriving Repr, DecidableEq

/-- /repo/src/smb/info.rs:25-36 `Info::default`. -/
def Info.default (cmd : Cmd) : Info :=
  { cmd, flags1 := Flags1.default, flags2 := Flags2.default, status := .Known .SUCCESS
    pid := 0xfeff, tid := 0xffff, uid := 0, mid := 0 }

/-- /repo/src/smb/info.rs:38-83 `Info::parse`. -/
def Info.parse : Rd SmbError Info := do
  if (← Rd.remaining) < SMB_HEADER_LEN then Rd.fail .InvalidHeader
  else
    let magic ← Rd.copyToBytes 4
    if magic ≠ SMB_MAGIC then Rd.fail .InvalidHeader
    else
      let rawCmd ← Rd.getU8
      match Cmd.tryFrom rawCmd with
      | none => Rd.fail (.InvalidCommand rawCmd)
      | some cmd =>
        let status := Status.ofU32 (← Rd.getU32)
        let flags1 := Flags1.truncate (← Rd.getU8)
        let flags2 := Flags2.truncate (← Rd.getU16)
        let pidHigh ← Rd.getU16
        Rd.advance 8
        Rd.advance 2
        let tid ← Rd.getU16
        let pidLow ← Rd.getU16
        let uid ← Rd.getU16
        let mid ← Rd.getU16
        let pid := (pidHigh.toUInt32 <<< 16) ||| pidLow.toUInt32
        if flags1 &&& Flags1.REPLY ≠ Flags1.REPLY then Rd.fail .ReplyExpected
        else return { cmd, status, flags1, flags2, pid, tid, uid, mid }

/-- /repo/src/smb/info.rs:85-102 `Info::write`: the 32 bytes appended. -/
def Info.write (i : Info) : Bytes :=
  SMB_MAGIC ++ [i.cmd.code] ++ putU32 i.status.toU32 ++ [i.flags1] ++ putU16 i.flags2
    ++ putU16 (i.pid >>> 16).toUInt16 ++ zeros 8 ++ zeros 2
    ++ putU16 i.tid ++ putU16 (i.pid &&& 0xffff).toUInt16 ++ putU16 i.uid ++ putU16 i.mid

/-- /repo/src/smb/common.rs:52-67 `AndX::parse`: `some _` when another command is chained. -/
def AndX.parse : Rd SmbError (Option (Cmd × UInt16)) := do
  let cmd ← Rd.getU8
  Rd.advance 1
  let offset ← Rd.getU16
  if cmd = 0xff then return none
  else match Cmd.tryFrom cmd with
    | some c => return some (c, offset)
    | none => Rd.fail (.InvalidCommand cmd)

/-- /repo/src/smb/common.rs:69-73 `AndX::write`. -/
def AndX.write (cmd : Cmd) (offset : UInt16) : Bytes := [cmd.code] ++ [0] ++ putU16 offset

/-- /repo/src/smb/common.rs:82-90 `struct DirInfo`. -/
structure DirInfo where
  creationTime : Instant
  accessTime : Instant
  writeTime : Instant
  changeTime : Instant
  filename : Str
  filesize : UInt64
  attributes : UInt32
  deriving Repr, DecidableEq

/-- /repo/src/smb/common.rs:93-133 `DirInfo::parse` (the "next entry offset" was already consumed by the caller). -/
def DirInfo.parse (data : Bytes) : Res SmbError DirInfo :=
  if data.length < 60 then .err .InvalidData
  else
    let rd : Rd SmbError DirInfo := do
      Rd.advance 4
      let creationTime ← Rd.lift (decodeWindowsTime (← Rd.getU64))
      let accessTime ← Rd.lift (decodeWindowsTime (← Rd.getU64))
      let writeTime ← Rd.lift (decodeWindowsTime (← Rd.getU64))
      let changeTime ← Rd.lift (decodeWindowsTime (← Rd.getU64))
      let filesize ← Rd.getU64
      Rd.advance 8
      let attributes := ExtFileAttr.truncate (← Rd.getU32)
      let filenameLength := (← Rd.getU32).toNat
      if (← Rd.remaining) < filenameLength then Rd.fail .InvalidData
      else
        let raw ← Rd.copyToBytes filenameLength
        let filename ← Rd.lift (decodeUtf16le .InvalidData raw)
        return { creationTime, accessTime, writeTime, changeTime, filename, filesize, attributes }
    (rd data).bind (fun p => .ok p.1)

end Cifs
