import Verif.Model.Reply
/-!
# `src/smb/msg.rs`, `src/smb/trans.rs` (sub-commands), `src/smb/trans2/msg.rs`, `src/smb/trans2/subcmd/*`
-/

namespace Cifs

/-- /repo/src/smb/msg.rs:13-27 the `Msg` trait: command code, presence of an AndX block, `fix_header`, and `body`. `body` returns the
bytes it appends to the two buffers (no implementation reads what is already in the parameter buffer, and the data buffer starts empty). -/
structure Msg where
  cmd : Cmd
  andx : Bool
  fixHeader : Info → Info
  body : Info → Res SmbError (Bytes × Bytes)

/-- /repo/src/smb/msg.rs:32-74 `Msg::write`: the bytes appended to a buffer that already holds `len` bytes.
`BytesMut::remaining_mut()` is `usize::MAX - len`. -/
def Msg.write (m : Msg) (info : Info) (len : Nat) : Res SmbError Bytes := do
  let (p, data) ← m.body info
  let parameter := (if m.andx then AndX.write .NoCommand 0 else []) ++ p
  let parameterLen ← tryInto 256 (parameter.length / 2) (.CreatePacket "parameter length too big")
  if parameter.length > usizeMax - len then .err (.CreatePacket "packet buffer too small for parameter")
  else
    let dataLen ← tryInto 65536 data.length (.CreatePacket "data length too big")
    if data.length > usizeMax - (len + 1 + parameter.length) then .err (.CreatePacket "packet buffer too small for data")
    else .ok ([UInt8.ofNat parameterLen] ++ parameter ++ putU16 (UInt16.ofNat dataLen) ++ data)

/-- The `fix_header` shared by every message bound to a share, e.g. /repo/src/smb/msg.rs:318-320. -/
def setTid (tid : UInt16) (info : Info) : Info := { info with tid := tid }

/-- /repo/src/smb/msg.rs:80-97 `Negotiate`. -/
def negotiateMsg : Msg where
  cmd := .Negotiate
  andx := false
  fixHeader := id
  body := fun _ => .ok ([], SMB_SUPPORTED_DIALECTS.flatMap (fun d => [0x02] ++ utf8 d ++ [0x00]))

/-- /repo/src/smb/msg.rs:111-119 `SessionSetupMode`. `secret` is a `[u8; 24]` in the code; its length is a theorem here
(`ntlmv1Authenticate`), not part of the type. -/
inductive SessionSetupMode where
  | Classic (user domain : Str) (secret : Bytes)
  | Extended (blob : Bytes)

/-- /repo/src/smb/msg.rs:102-109 `SessionSetup`. -/
structure SessionSetupMsg where
  maxBufferSize : UInt16
  maxMpxCount : UInt16
  vcNumber : UInt16
  sessionKey : UInt32
  capabilities : UInt32
  mode : SessionSetupMode

/-- /repo/src/smb/msg.rs:122-139 `SessionSetup::with_auth`. -/
def SessionSetupMsg.withAuth (user domain : Str) (secret : Bytes) : SessionSetupMsg :=
  { maxBufferSize := 65535, maxMpxCount := 0, vcNumber := 0, sessionKey := 0
    capabilities := Capabilities.UNICODE ||| Capabilities.LARGE_FILES ||| Capabilities.NT_SMBS ||| Capabilities.NTSTATUS
    mode := .Classic user domain secret }

/-- /repo/src/smb/msg.rs:140-158 `SessionSetup::with_blob`. -/
def SessionSetupMsg.withBlob (blob : Bytes) : SessionSetupMsg :=
  { maxBufferSize := 65535, maxMpxCount := 0, vcNumber := 0, sessionKey := 0
    capabilities := Capabilities.UNICODE ||| Capabilities.LARGE_FILES ||| Capabilities.NT_SMBS ||| Capabilities.NTSTATUS
      ||| Capabilities.EXTENDED_SECURITY
    mode := .Extended blob }

/-- The data block of a session setup, /repo/src/smb/msg.rs:198-225. -/
def SessionSetupMsg.dataBlock (m : SessionSetupMsg) (info : Info) : Bytes :=
  (match m.mode with
    | .Classic user domain secret =>
      (secret ++ secret) ++ (if (secret ++ secret).length % 2 = 0 then [0] else []) ++ encodeUtf16le0 user ++ encodeUtf16le0 domain
    | .Extended blob => blob ++ (if blob.length % 2 = 0 then [0] else []))
  ++ (if Flags2.contains info.flags2 Flags2.UNICODE then putU16 0 ++ putU16 0 else zeros 2)

/-- The length words of a session setup, /repo/src/smb/msg.rs:174-193. -/
def SessionSetupMsg.lengths (m : SessionSetupMsg) : Res SmbError Bytes :=
  match m.mode with
  | .Classic _ _ secret => do
    let n ← tryInto 65536 secret.length (.CreatePacket "secret in SessionSetup too big")
    .ok (putU16 (UInt16.ofNat n) ++ putU16 (UInt16.ofNat n))
  | .Extended blob => do
    let n ← tryInto 65536 blob.length (.CreatePacket "blob in SessionSetup too big")
    .ok (putU16 (UInt16.ofNat n))

/-- /repo/src/smb/msg.rs:161-229 `impl Msg for SessionSetup`. -/
def SessionSetupMsg.msg (m : SessionSetupMsg) : Msg where
  cmd := .SessionSetup
  andx := true
  fixHeader := id
  body := fun info => do
    let lens ← m.lengths
    .ok (putU16 m.maxBufferSize ++ putU16 m.maxMpxCount ++ putU16 m.vcNumber ++ putU32 m.sessionKey ++ lens
          ++ putU32 0 ++ putU32 m.capabilities,
         m.dataBlock info)

/-- /repo/src/smb/msg.rs:235-298 `TreeConnect` (constructor and `impl Msg`). -/
def treeConnectMsg (path password : Str) : Msg where
  cmd := .TreeConnect
  andx := true
  fixHeader := id
  body := fun info => do
    let pw := if (utf8 password).length > 0 then utf8 password else [0x00]
    let passwordLength ← tryInto 65536 pw.length (.CreatePacket "password too long")
    .ok (putU16 TreeConnectFlags.EXTENDED_RESPONSE ++ putU16 (UInt16.ofNat passwordLength),
         pw ++ (if Flags2.contains info.flags2 Flags2.UNICODE then
                  (if pw.length % 2 = 0 then [0] else []) ++ encodeUtf16le path ++ putU16 0
                else utf8 path ++ [0])
            ++ List.replicate 5 0x3f ++ [0])

/-- /repo/src/smb/msg.rs:302-321 `TreeDisconnect`. -/
def treeDisconnectMsg (tid : UInt16) : Msg where
  cmd := .TreeDisconnect
  andx := false
  fixHeader := setTid tid
  body := fun _ => .ok ([], [])

/-- /repo/src/smb/msg.rs:326-339 `Open`. -/
structure OpenMsg where
  tid : UInt16
  filename : Str
  createFlags : UInt32
  directory : UInt32
  access : UInt32
  allocationSize : UInt64
  attributes : UInt32
  shareAccess : UInt32
  disposition : UInt32
  options : UInt32
  impersonation : UInt32
  security : UInt8

/-- /repo/src/smb/msg.rs:342-357 `Open::file_ro`. -/
def OpenMsg.fileRo (tid : UInt16) (filename : Str) : OpenMsg :=
  { tid, filename, createFlags := 0, directory := 0
    access := FileAccessMask.READ ||| FileAccessMask.READ_EA ||| FileAccessMask.SYNCHRONIZE
    allocationSize := 0, attributes := 0, shareAccess := ShareAccess.READ, disposition := CreateDisposition.OPEN
    options := CreateOptions.NON_DIRECTORY, impersonation := ImpersonationLevel.IMPERSONATE, security := 0 }

/-- /repo/src/smb/msg.rs:359-374 `Open::dir`. -/
def OpenMsg.dir (tid : UInt16) (filename : Str) : OpenMsg :=
  { tid, filename, createFlags := 0, directory := 0, access := FileAccessMask.READ
    allocationSize := 0, attributes := 0, shareAccess := ShareAccess.READ ||| ShareAccess.WRITE ||| ShareAccess.DELETE
    disposition := CreateDisposition.OPEN, options := CreateOptions.DIRECTORY
    impersonation := ImpersonationLevel.IMPERSONATE, security := 0 }

/-- /repo/src/smb/msg.rs:377-414 `impl Msg for Open`. -/
def OpenMsg.msg (m : OpenMsg) : Msg where
  cmd := .Create
  andx := true
  fixHeader := setTid m.tid
  body := fun _ => do
    let encoded := encodeUtf16le0 m.filename
    let filenameLength ← tryInto 65536 encoded.length (.CreatePacket "filename too long")
    .ok ([0] ++ putU16 (UInt16.ofNat filenameLength) ++ putU32 m.createFlags ++ putU32 m.directory ++ putU32 m.access
          ++ putU64 m.allocationSize ++ putU32 m.attributes ++ putU32 m.shareAccess ++ putU32 m.disposition
          ++ putU32 m.options ++ putU32 m.impersonation ++ [m.security],
         [0] ++ encoded)

/-- /repo/src/smb/msg.rs:418-453 `Close` (`Close::handle` takes tid and fid from the handle). -/
def closeMsg (tid fid : UInt16) : Msg where
  cmd := .Close
  andx := false
  fixHeader := setTid tid
  body := fun _ => .ok (putU16 fid ++ putU32 0, [])

/-- /repo/src/smb/msg.rs:457-505 `Read` (`Read::handle` takes tid and fid from the handle). -/
def readMsg (tid fid : UInt16) (offset : UInt64) : Msg where
  cmd := .Read
  andx := true
  fixHeader := setTid tid
  body := fun _ =>
    .ok (putU16 fid ++ putU32 (offset &&& 0xffffffff).toUInt32 ++ putU16 SMB_READ_MAX ++ putU16 SMB_READ_MIN
          ++ putU32 0 ++ putU16 0 ++ putU32 (offset >>> 32).toUInt32, [])

/-- /repo/src/smb/msg.rs:510-544 `Delete`. -/
def deleteMsg (tid : UInt16) (filename : Str) : Msg where
  cmd := .Delete
  andx := false
  fixHeader := setTid tid
  body := fun _ => .ok (putU16 (FileAttr.HIDDEN ||| FileAttr.SYSTEM), [0x04] ++ encodeUtf16le0 filename)

/-- /repo/src/smb/msg.rs:547-574 `Rmdir`. -/
def rmdirMsg (tid : UInt16) (dirname : Str) : Msg where
  cmd := .Rmdir
  andx := false
  fixHeader := setTid tid
  body := fun _ => .ok ([], [0x04] ++ encodeUtf16le0 dirname)

/-- /repo/src/smb/trans.rs:9-27 the `trans::SubCmd` trait. -/
structure SubCmd where
  id : UInt16
  maxSetupCount : UInt8
  maxParamCount : UInt32
  maxDataCount : UInt32
  setup : Res SmbError Bytes
  parameter : Res SmbError Bytes
  data : Res SmbError Bytes

/-- /repo/src/smb/trans.rs:41-90 `NotifySetup`. -/
def notifySetup (fid : UInt16) (mode : UInt32) (recursive : Bool) : SubCmd where
  id := 4
  maxSetupCount := 0
  maxParamCount := 1000
  maxDataCount := 0
  setup := .ok (putU32 mode ++ putU16 fid ++ [if recursive then 1 else 0] ++ [0])
  parameter := .ok []
  data := .ok []

/-- `x.try_into().expect(..)`: panics when the number does not fit. -/
def tryIntoExpect {ε : Type} (bound n : Nat) : Res ε Nat := if n < bound then .ok n else .panic

/-- /repo/src/smb/msg.rs:578-665 `Transact`. -/
def transactMsg (tid : UInt16) (sub : SubCmd) : Msg where
  cmd := .Transact
  andx := false
  fixHeader := setTid tid
  body := fun _ => do
    let subSetup ← sub.setup
    let subSetupWords ← tryInto 256 (subSetup.length / 2) (.CreatePacket "setup of transaction sub-command is too large")
    let subParameter ← sub.parameter
    let subParameterLen ←
      tryInto (2 ^ 32) subParameter.length (.CreatePacket "parameter of transaction sub-command is too large")
    let subData ← sub.data
    let subDataLen ← tryInto (2 ^ 32) subData.length (.CreatePacket "data of transaction sub-command is too large")
    let dataStart := SMB_HEADER_LEN + 1 + 38 + subSetup.length + 2
    let subParameterOffset := 4 * ((dataStart + 3) / 4)
    let subDataOffset := 4 * ((subParameterOffset + subParameter.length + 3) / 4)
    let parameterOffset32 ← tryIntoExpect (2 ^ 32) subParameterOffset
    let dataOffset32 ← tryIntoExpect (2 ^ 32) subDataOffset
    let d1 := zeros ((4 - dataStart % 4) % 4) ++ subParameter
    .ok ([sub.maxSetupCount] ++ putU16 0
          ++ putU32 (UInt32.ofNat subParameterLen) ++ putU32 (UInt32.ofNat subDataLen)
          ++ putU32 sub.maxParamCount ++ putU32 sub.maxDataCount
          ++ putU32 (UInt32.ofNat subParameterLen) ++ putU32 (UInt32.ofNat parameterOffset32)
          ++ putU32 (UInt32.ofNat subDataLen) ++ putU32 (UInt32.ofNat dataOffset32)
          ++ [UInt8.ofNat subSetupWords] ++ putU16 sub.id ++ subSetup,
         d1 ++ zeros ((4 - (dataStart + d1.length) % 4) % 4) ++ subData)

/-- /repo/src/smb/trans2.rs:10-23 the `trans2::SubCmd` trait. -/
structure SubCmd2 where
  setup : UInt16
  maxSetupCount : UInt8
  maxParamCount : UInt16
  maxDataCount : UInt16
  parameter : Res SmbError Bytes
  data : Res SmbError Bytes

/-- /repo/src/smb/trans2/subcmd/findfirst2.rs:14-63 `FindFirst2`. -/
def findFirst2Cmd (filename : Str) (search : UInt16) : SubCmd2 where
  setup := 0x0001
  maxSetupCount := 0
  maxParamCount := 10
  maxDataCount := 65535
  parameter := .ok (putU16 search ++ putU16 1024 ++ putU16 FindFlags.CLOSE_ON_EOS ++ putU16 FindInfoLevel.DIRECTORY_INFO
    ++ putU32 0 ++ encodeUtf16le0 filename)
  data := .ok []

/-- /repo/src/smb/trans2/subcmd/findnext2.rs:11-55 `FindNext2`. -/
def findNext2Cmd (sid : UInt16) (filename : Str) : SubCmd2 where
  setup := 0x0002
  maxSetupCount := 0
  maxParamCount := 10
  maxDataCount := 65535
  parameter := .ok (putU16 sid ++ putU16 1024 ++ putU16 FindInfoLevel.DIRECTORY_INFO ++ putU32 0
    ++ putU16 FindFlags.CLOSE_ON_EOS ++ encodeUtf16le0 filename)
  data := .ok []

/-- /repo/src/smb/trans2/msg.rs:12-97 `Transact2`. -/
def transact2Msg (tid : UInt16) (sub : SubCmd2) : Msg where
  cmd := .Transact2
  andx := false
  fixHeader := setTid tid
  body := fun _ => do
    let subParameter ← sub.parameter
    let subParameterLen ←
      tryInto 65536 subParameter.length (.CreatePacket "parameter transaction2 sub-command is too large")
    let subData ← sub.data
    let subDataLen ← tryInto 65536 subData.length (.CreatePacket "data of transaction2 sub-command is too large")
    let dataStart := SMB_HEADER_LEN + 1 + 30 + 2
    let subParameterOffset := roundUp4n (dataStart + 1)
    let subDataOffset := roundUp4n (subParameterOffset + subParameter.length)
    let parameterOffset16 ← tryIntoExpect 65536 subParameterOffset
    let dataOffset16 ← tryIntoExpect 65536 subDataOffset
    let d1 := [0]
    let d2 := d1 ++ zeros (fillUp4n (dataStart + d1.length)) ++ subParameter
    .ok (putU16 (UInt16.ofNat subParameterLen) ++ putU16 (UInt16.ofNat subDataLen)
          ++ putU16 sub.maxParamCount ++ putU16 sub.maxDataCount ++ [sub.maxSetupCount] ++ [0]
          ++ putU16 0 ++ putU32 0 ++ putU16 0
          ++ putU16 (UInt16.ofNat subParameterLen) ++ putU16 (UInt16.ofNat parameterOffset16)
          ++ putU16 (UInt16.ofNat subDataLen) ++ putU16 (UInt16.ofNat dataOffset16)
          ++ [1] ++ [0] ++ putU16 sub.setup,
         d2 ++ zeros (fillUp4n (dataStart + d2.length)) ++ subData)

end Cifs
