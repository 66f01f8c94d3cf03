import Verif.Spec.Smb
import Verif.Spec.Ops
/-!
# What makes a frame the header of a reply; the DES keys of the legacy login
-/

namespace Cifs.Spec

/-- The protocol bytes `0xff 'S' 'M' 'B'`. -/
def smbMagic : Bytes := [0xff, 0x53, 0x4d, 0x42]

/-- The command codes the client knows: its eleven commands and "no further command". -/
def knownCodes : List Nat :=
  [comRmdir, comClose, comDelete, comRead, comTransact2, comTreeDisconnect, comNegotiate, comSessionSetup, comTreeConnect, comNtTransact,
   comCreate, 0xff]

/-- An SMB frame that may be taken for a reply: a whole header, with the magic, a known command code and the reply bit (bit 7 of the
flags). -/
def Genuine (f : Bytes) : Prop :=
  32 ≤ f.length ∧ magicOf (message f) = some smbMagic ∧ (∃ c ∈ knownCodes, cmdOf (message f) = some c) ∧
    ∃ n, flags1Of (message f) = some n ∧ n / 128 % 2 = 1

/-- The second flag field of a request: long names allowed (bit 0), extended attributes (1), long names used (6), extended security (11), NT
status codes (14); Unicode (15) or not. -/
def requestFlags2 (unicode : Bool) : Nat := 2 ^ 0 + 2 ^ 1 + 2 ^ 6 + 2 ^ 11 + 2 ^ 14 + if unicode then 2 ^ 15 else 0

/-- The header of a request made under a user id and a tree id: the magic, status zero, the flags, the ids, nothing in the signature. -/
structure IsRequestHeader (p : Bytes) (uid tid : Nat) (unicode : Bool) : Prop where
  magic : magicOf p = some smbMagic
  status : statusOf p = some 0
  /-- Paths are canonical (bit 4) and not case sensitive (bit 3); not a reply. -/
  flags1 : flags1Of p = some 0x18
  flags2 : flags2Of p = some (requestFlags2 unicode)
  pidHigh : pidHighOf p = some 0
  pidLow : pidLowOf p = some 0xfeff
  signature : signatureOf p = some (List.replicate 10 0)
  uid : uidOf p = some uid
  tid : tidOf p = some tid

/-- The bits of the second flag field that the client declares. -/
def flags2Mask : Nat := 0xF857

/-- `key` is the DES key made of at most seven bytes of key material: eight bytes, each with seven bits of the (zero padded) material in
order and a zero parity bit. -/
def IsDesKey (material key : Bytes) : Prop :=
  key.length = 8 ∧ ∀ i < 8, (∀ j < 7, bitAt key (8 * i + j) = bitAt material (7 * i + j)) ∧ bitAt key (8 * i + 7) = false

end Cifs.Spec
