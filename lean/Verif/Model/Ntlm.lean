import Verif.Model.Win
import Verif.Model.Utils
/-!
# `src/ntlm/*`

MD4, HMAC-MD5, DES and Unicode upper-casing are external; the model is parametric in them (`Crypto`). Their only assumed
properties are the lengths forced by the Rust types `[u8; 16]` and `[u8; 8]`.
-/

namespace Cifs

/-- /repo/src/ntlm/error.rs:4-9 `ntlm::Error` (the variants that are ever constructed, plus `NeedAuth`). The `String` of
`InputParameter` is a fixed rendering of `TryFromIntError` and carries no information. -/
inductive NtlmError where
  | InputParameter
  | InvalidPacket
  | NeedAuth
  deriving Repr, DecidableEq

/-- The external primitives of /repo/src/utils.rs:47-59,164-170 and `str::to_uppercase`. -/
structure Crypto where
  md4 : Bytes → Bytes
  md4_len : ∀ b, (md4 b).length = 16
  /-- `hmacMd5 key data`; HMAC accepts keys of every length, so `new_from_slice(..).expect(..)` never panics. -/
  hmacMd5 : Bytes → Bytes → Bytes
  hmacMd5_len : ∀ k b, (hmacMd5 k b).length = 16
  /-- `des key block` with an 8-byte key and an 8-byte block. -/
  des : Bytes → Bytes → Bytes
  des_len : ∀ k b, (des k b).length = 8
  toUpper : Str → Str

/-- /repo/src/ntlm.rs:14 `NTLMSSP_MAGIC` = `b"NTLMSSP\0"`. -/
def NTLMSSP_MAGIC : Bytes := [0x4e, 0x54, 0x4c, 0x4d, 0x53, 0x53, 0x50, 0x00]
/-- /repo/src/ntlm.rs:15 `NTLM_MSG_INIT`. -/
def NTLM_MSG_INIT : UInt32 := 1
/-- /repo/src/ntlm.rs:16 `NTLM_MSG_CHALLENGE`. -/
def NTLM_MSG_CHALLENGE : UInt32 := 2
/-- /repo/src/ntlm.rs:17 `NTLM_MSG_RESPONSE`. -/
def NTLM_MSG_RESPONSE : UInt32 := 3
/-- /repo/src/ntlm.rs:18 `NTLM_REVISION`. -/
def NTLM_REVISION : UInt8 := 15

/-- /repo/src/ntlm/auth.rs:10-15 `Auth`. -/
structure Auth where
  user : Str
  workstation : Str
  domain : Str
  password : Str
  deriving Repr, DecidableEq

/-- /repo/src/ntlm/buffer.rs:6-10 `Buffer`. -/
structure NtlmBuffer where
  length : Nat
  capacity : Nat
  position : Nat
  deriving Repr, DecidableEq

/-- /repo/src/ntlm/buffer.rs:13-21 `Buffer::parse`. -/
def NtlmBuffer.parse : Rd NtlmError NtlmBuffer := do
  let length := (← Rd.getU16).toNat
  let capacity := (← Rd.getU16).toNat
  let position := (← Rd.getU32).toNat
  return { length, capacity, position }

/-- /repo/src/ntlm/buffer.rs:23-30 `Buffer::write`: the 8 bytes appended. -/
def NtlmBuffer.write (b : NtlmBuffer) (offset : Nat) : Res NtlmError Bytes := do
  let position := offset + b.position
  let l ← tryInto 65536 b.length .InputParameter
  let c ← tryInto 65536 b.capacity .InputParameter
  let p ← tryInto (2 ^ 32) position .InputParameter
  .ok (putU16 (UInt16.ofNat l) ++ putU16 (UInt16.ofNat c) ++ putU32 (UInt32.ofNat p))

/-- /repo/src/ntlm/buffer.rs:32-37 `Buffer::extract`. -/
def NtlmBuffer.extract (b : NtlmBuffer) (buffer : Bytes) : Res NtlmError Bytes :=
  sliceRange buffer b.position (b.position + b.length)

/-- /repo/src/ntlm/buffer.rs:39-52 `Buffer::extract_string`. -/
def NtlmBuffer.extractString (b : NtlmBuffer) (buffer : Bytes) (unicode : Bool) : Res NtlmError Str := do
  let raw ← b.extract buffer
  if unicode then decodeUtf16le .InvalidPacket raw
  else Res.ofOption .InvalidPacket (fromUtf8 raw)

/-- /repo/src/ntlm/packet.rs:7-10 `PacketEntry`. -/
inductive PacketEntry where
  | Binary (v : Bytes)
  | Buffer (b : NtlmBuffer)

/-- /repo/src/ntlm/packet.rs:13-18 `PacketEntry::len`. -/
def PacketEntry.len : PacketEntry → Nat
  | .Binary v => v.length
  | .Buffer _ => 8

/-- /repo/src/ntlm/packet.rs:22-25 `Packet`. -/
structure Packet where
  entries : List PacketEntry
  extra : Bytes

/-- /repo/src/ntlm/packet.rs:28-33 `Packet::new`. -/
def Packet.new : Packet := { entries := [], extra := [] }

/-- /repo/src/ntlm/packet.rs:35-37 `append_binary`. -/
def Packet.appendBinary (p : Packet) (data : Bytes) : Packet := { p with entries := p.entries ++ [.Binary data] }

/-- /repo/src/ntlm/packet.rs:39-41 `append_u32`. -/
def Packet.appendU32 (p : Packet) (value : UInt32) : Packet := { p with entries := p.entries ++ [.Binary (putU32 value)] }

/-- /repo/src/ntlm/packet.rs:43-54 `append_buffer`. -/
def Packet.appendBuffer (p : Packet) (data : Bytes) : Packet :=
  { entries := p.entries ++ [.Buffer { length := data.length, capacity := data.length, position := p.extra.length }]
    extra := p.extra ++ data }

/-- /repo/src/ntlm/packet.rs:56-62 `append_string`. -/
def Packet.appendString (p : Packet) (msg : Str) (unicode : Bool) : Packet :=
  if unicode then p.appendBuffer (encodeUtf16le msg) else p.appendBuffer (utf8 msg)

/-- /repo/src/ntlm/packet.rs:80-85 `base_len`. -/
def Packet.baseLen (p : Packet) : Nat := (p.entries.map PacketEntry.len).sum

/-- The loop of `to_bytes`, /repo/src/ntlm/packet.rs:68-73. -/
def writeEntries (offset : Nat) : List PacketEntry → Res NtlmError Bytes
  | [] => .ok []
  | .Binary data :: rest => do
    let r ← writeEntries offset rest
    .ok (data ++ r)
  | .Buffer b :: rest => do
    let w ← b.write offset
    let r ← writeEntries offset rest
    .ok (w ++ r)

/-- /repo/src/ntlm/packet.rs:64-78 `to_bytes`. -/
def Packet.toBytes (p : Packet) : Res NtlmError Bytes := do
  let out ← writeEntries p.baseLen p.entries
  .ok (out ++ p.extra)

/-- /repo/src/ntlm/init.rs:39-43 `Version`. -/
structure NtlmVersion where
  major : UInt8
  minor : UInt8
  build : UInt16
  deriving Repr, DecidableEq

/-- /repo/src/ntlm/init.rs:46-52 `Version::default`. -/
def NtlmVersion.default : NtlmVersion := { major := 5, minor := 0, build := 2195 }

/-- /repo/src/ntlm/init.rs:54-62 `Version::as_bytes`. -/
def NtlmVersion.asBytes (v : NtlmVersion) : Bytes := [v.major] ++ [v.minor] ++ putU16 v.build ++ zeros 3 ++ [NTLM_REVISION]

/-- /repo/src/ntlm/init.rs:65-68 `Origin`. -/
structure NtlmOrigin where
  workstation : Str
  domain : Str
  deriving Repr, DecidableEq

/-- /repo/src/ntlm/init.rs:71-75 `InitMsg`. -/
structure InitMsg where
  flags : UInt32
  origin : Option NtlmOrigin
  version : Option NtlmVersion
  deriving Repr, DecidableEq

/-- /repo/src/ntlm/init.rs:78-84 `InitMsg::new`. -/
def InitMsg.new (flags : UInt32) : InitMsg := { flags, origin := none, version := none }

/-- /repo/src/ntlm/init.rs:86-93 `set_origin`. -/
def InitMsg.setOrigin (m : InitMsg) (domain workstation : Str) : InitMsg := { m with origin := some { domain, workstation } }

/-- /repo/src/ntlm/init.rs:95-98 `set_version`. -/
def InitMsg.setVersion (m : InitMsg) (major minor : UInt8) (build : UInt16) : InitMsg := { m with version := some { major, minor, build } }

/-- /repo/src/ntlm/init.rs:100-102 `set_default_version`. -/
def InitMsg.setDefaultVersion (m : InitMsg) : InitMsg := { m with version := some .default }

/-- /repo/src/ntlm/init.rs:105-121 `to_bytes`. -/
def InitMsg.toBytes (m : InitMsg) : Res NtlmError Bytes :=
  let packet := ((Packet.new.appendBinary NTLMSSP_MAGIC).appendU32 NTLM_MSG_INIT).appendU32 m.flags
  let packet := match m.origin with
    | some o => (packet.appendBuffer (utf8 o.domain)).appendBuffer (utf8 o.workstation)
    | none => packet
  let packet := match m.version with
    | some v => packet.appendBinary v.asBytes
    | none => packet
  packet.toBytes

/-- `InitMsg` as it is used by /repo/src/lib.rs:264-277: with an origin and the default version. -/
def ntlmInit (flags : UInt32) (domain workstation : Str) : Res NtlmError Bytes :=
  ((InitMsg.new flags).setOrigin domain workstation).setDefaultVersion.toBytes

/-- The flags of /repo/src/lib.rs:266-271. -/
def ntlmInitFlags : UInt32 :=
  NtlmFlags.UNICODE ||| NtlmFlags.OEM ||| NtlmFlags.REQUEST_TARGET ||| NtlmFlags.NTLM ||| NtlmFlags.DOMAIN_SUPPLIED
    ||| NtlmFlags.WORKSTATION_SUPPLIED

/-- /repo/src/ntlm/challenge.rs:9-14 `ChallengeMsg`. -/
structure ChallengeMsg where
  target : Str
  flags : UInt32
  challenge : Bytes
  info : Bytes
  deriving Repr, DecidableEq

/-- /repo/src/ntlm/challenge.rs:18-49 `ChallengeMsg::parse`. -/
def ChallengeMsg.parse (msg : Bytes) : Res NtlmError ChallengeMsg := do
  let (magic, b) ← Rd.copyToBytes 8 msg
  if magic ≠ NTLMSSP_MAGIC then .err .InvalidPacket
  else
    let (msgtype, b) ← Rd.getU32 b
    if msgtype ≠ NTLM_MSG_CHALLENGE then .err .InvalidPacket
    else
      let (targetBuffer, b) ← NtlmBuffer.parse b
      let (rawFlags, b) ← Rd.getU32 b
      let (challenge, b) ← Rd.copyToBytes 8 b
      let (_, b) ← Rd.advance 8 b
      let (infoBuffer, _) ← NtlmBuffer.parse b
      let flags := NtlmFlags.truncate rawFlags
      let target ← targetBuffer.extractString msg (NtlmFlags.contains flags NtlmFlags.UNICODE)
      let info ← infoBuffer.extract msg
      .ok { target, flags, challenge, info }

/-- /repo/src/ntlm/auth.rs:67-70 `ntlm_hash`. -/
def ntlmHash (C : Crypto) (a : Auth) : Bytes := C.md4 (encodeUtf16le a.password)

/-- /repo/src/ntlm/auth.rs:72-77 `ntlmv2_hash`. -/
def ntlmv2Hash (C : Crypto) (a : Auth) : Bytes :=
  C.hmacMd5 (ntlmHash C a) (encodeUtf16le (C.toUpper a.user ++ a.domain))

/-- /repo/src/utils.rs:164-170 `des_oneshot`: `GenericArray::from_slice` panics unless the block has 8 bytes. -/
def desOneshot {ε : Type} (C : Crypto) (secret input : Bytes) : Res ε Bytes := do
  let key ← expandDesKey secret
  if input.length ≠ 8 then .panic else .ok (C.des key input)

/-- /repo/src/ntlm/auth.rs:27-36 `ntlmv1_authenticate`. -/
def ntlmv1Authenticate {ε : Type} (C : Crypto) (a : Auth) (challenge : Bytes) : Res ε Bytes := do
  let hash := ntlmHash C a
  let r1 ← desOneshot C ((hash.take 7).drop 0) challenge
  let r2 ← desOneshot C ((hash.take 14).drop 7) challenge
  let r3 ← desOneshot C ((hash.take 16).drop 14) challenge
  .ok (r1 ++ r2 ++ r3)

/-- The blob of /repo/src/ntlm/auth.rs:43-49, from the FILETIME `time` and the 8 random bytes `random`. -/
def ntlmv2Blob (time : UInt64) (random info : Bytes) : Bytes :=
  [0x01, 0x01, 0x00, 0x00, 0x00, 0x00, 0x00, 0x00] ++ putU64 time ++ random ++ putU32 0 ++ info ++ putU32 0

/-- /repo/src/ntlm/auth.rs:38-65 `ntlmv2_authenticate`: session key and response. `time` is `get_windows_time()`, `random` the 8 bytes
from `OsRng`. -/
def ntlmv2Authenticate (C : Crypto) (a : Auth) (m : ChallengeMsg) (time : UInt64) (random : Bytes) : Bytes × Bytes :=
  let blob := ntlmv2Blob time random m.info
  let key := ntlmv2Hash C a
  let tag := C.hmacMd5 key (m.challenge ++ blob)
  let sk := C.hmacMd5 key tag
  (sk, tag ++ blob)

/-- /repo/src/ntlm/challenge.rs:51-73 `ChallengeMsg::response`. -/
def ChallengeMsg.response (C : Crypto) (m : ChallengeMsg) (a : Auth) (time : UInt64) (random : Bytes) : Res NtlmError Bytes :=
  let response := (ntlmv2Authenticate C a m time random).2
  let unicode := NtlmFlags.contains m.flags NtlmFlags.UNICODE
  (((((((Packet.new.appendBinary NTLMSSP_MAGIC).appendU32 NTLM_MSG_RESPONSE).appendBuffer (zeros 24)).appendBuffer
    response).appendString a.domain unicode).appendString a.user unicode).appendString a.workstation unicode).toBytes

end Cifs
