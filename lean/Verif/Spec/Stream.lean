import Verif.Model.Basic
/-!
# Independent specifications: fields of byte strings, NetBIOS session service framing (RFC 1002, 4.3)

Nothing here uses the model's own readers, writers or parsers.
-/

namespace Cifs.Spec

/-- The byte at an offset, as a number. -/
def u8At (f : Bytes) (o : Nat) : Option Nat := (f[o]?).map UInt8.toNat

/-- The little-endian 16-bit number at an offset. -/
def u16At (f : Bytes) (o : Nat) : Option Nat := do
  let a ← u8At f o
  let b ← u8At f (o + 1)
  return a + 256 * b

/-- The little-endian 32-bit number at an offset. -/
def u32At (f : Bytes) (o : Nat) : Option Nat := do
  let a ← u16At f o
  let b ← u16At f (o + 2)
  return a + 65536 * b

/-- The little-endian 64-bit number at an offset. -/
def u64At (f : Bytes) (o : Nat) : Option Nat := do
  let a ← u32At f o
  let b ← u32At f (o + 4)
  return a + 4294967296 * b

/-- The `n` bytes at offset `o`, if they are all there. -/
def sliceAt (f : Bytes) (o n : Nat) : Option Bytes := if o + n ≤ f.length then some ((f.drop o).take n) else none

/-- The big-endian 24-bit number at an offset. -/
def u24beAt (f : Bytes) (o : Nat) : Option Nat := do
  let a ← u8At f o
  let b ← u8At f (o + 1)
  let c ← u8At f (o + 2)
  return 65536 * a + 256 * b + c

/-- A session service packet: type, 24-bit big-endian length, payload. -/
def packet (ty : UInt8) (payload : Bytes) : Bytes :=
  [ty, UInt8.ofNat (payload.length / 65536), UInt8.ofNat (payload.length / 256 % 256), UInt8.ofNat (payload.length % 256)]
    ++ payload

/-- The biggest payload of a session message. -/
def maxPayload : Nat := 0x1ffff

/-- The keep-alive packet. -/
def keepAlive : Bytes := [0x85, 0, 0, 0]

/-- The session message packet carrying `m`. -/
def message (m : Bytes) : Bytes := packet 0x00 m

/-- `Delivers stream m rest`: after any number of keep-alives the stream continues with a session message `m`; `rest` follows. -/
inductive Delivers : Bytes → Bytes → Bytes → Prop
  | message (m rest : Bytes) (h : m.length ≤ maxPayload) : Delivers (Spec.message m ++ rest) m rest
  | keepAlive {stream m rest : Bytes} (h : Delivers stream m rest) : Delivers (Spec.keepAlive ++ stream) m rest

/-- A stream that consists of whole packets: messages `ms` interspersed with keep-alives, then `rest`. -/
inductive Messages : Bytes → List Bytes → Bytes → Prop
  | done (rest : Bytes) : Messages rest [] rest
  | cons {s s' rest m : Bytes} {ms : List Bytes} (h : Delivers s m s') (hs : Messages s' ms rest) : Messages s (m :: ms) rest

/-- RFC 1001 half-ASCII ("first level") decoding of a NetBIOS name: two letters `A`..`P` per byte. -/
def decodeHalfAscii : Bytes → Option Bytes
  | [] => some []
  | [_] => none
  | a :: b :: r =>
    if 65 ≤ a.toNat ∧ a.toNat < 81 ∧ 65 ≤ b.toNat ∧ b.toNat < 81 then
      (decodeHalfAscii r).map (UInt8.ofNat ((a.toNat - 65) * 16 + (b.toNat - 65)) :: ·)
    else none

/-- The ASCII bytes of a name, blank padded or cut to 16. -/
def netbiosName (s : Str) : Bytes :=
  let ascii := (s.filter (fun c => decide (c.toNat < 128))).map (fun c => UInt8.ofNat c.toNat)
  (ascii ++ List.replicate (16 - ascii.length) 32).take 16

/-- Bit `n` of a byte string, most significant bit of the first byte first; false beyond the end. -/
def bitAt (b : Bytes) (n : Nat) : Bool := ((b[n / 8]?).map (fun x => x.toNat.testBit (7 - n % 8))).getD false

end Cifs.Spec
