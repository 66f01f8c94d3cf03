import Verif.Spec.Stream
/-!
# Where things are in an SMB request, as seen on the wire

All positions count from the start of the NetBIOS packet: 4 bytes session header, 32 bytes SMB header ([MS-CIFS] 2.2.3.1), then the word
count, the parameter words, the byte count and the data bytes.
-/

namespace Cifs.Spec

/-- Protocol bytes. -/
def magicOf (p : Bytes) : Option Bytes := sliceAt p 4 4
/-- Command code. -/
def cmdOf (p : Bytes) : Option Nat := u8At p 8
/-- Status. -/
def statusOf (p : Bytes) : Option Nat := u32At p 9
/-- Flags. -/
def flags1Of (p : Bytes) : Option Nat := u8At p 13
/-- Flags2. -/
def flags2Of (p : Bytes) : Option Nat := u16At p 14
/-- High half of the process id. -/
def pidHighOf (p : Bytes) : Option Nat := u16At p 16
/-- Security signature (8 bytes) and reserved field (2 bytes). -/
def signatureOf (p : Bytes) : Option Bytes := sliceAt p 18 10
/-- Tree id. -/
def tidOf (p : Bytes) : Option Nat := u16At p 28
/-- Low half of the process id. -/
def pidLowOf (p : Bytes) : Option Nat := u16At p 30
/-- User id. -/
def uidOf (p : Bytes) : Option Nat := u16At p 32
/-- Multiplex id. -/
def midOf (p : Bytes) : Option Nat := u16At p 34
/-- Does the request say that its strings are Unicode? -/
def unicodeOf (p : Bytes) : Option Bool := (flags2Of p).map (fun n => n / 0x8000 % 2 = 1)

/-- Word count. -/
def wordCountOf (p : Bytes) : Option Nat := u8At p 36
/-- The parameter words, as bytes. -/
def paramsOf (p : Bytes) : Option Bytes := (wordCountOf p).bind (fun n => sliceAt p 37 (2 * n))
/-- Byte count. -/
def byteCountOf (p : Bytes) : Option Nat := (wordCountOf p).bind (fun n => u16At p (37 + 2 * n))
/-- The data bytes: everything after the byte count. -/
def dataOf (p : Bytes) : Option Bytes := (wordCountOf p).map (fun n => p.drop (39 + 2 * n))

/-- The body consists of exactly the announced words and the announced bytes. -/
def BodyConsistent (p : Bytes) : Prop :=
  ∃ w b params data, wordCountOf p = some w ∧ byteCountOf p = some b ∧ paramsOf p = some params ∧ dataOf p = some data ∧
    params.length = 2 * w ∧ data.length = b ∧ p.length = 36 + 1 + 2 * w + 2 + b

end Cifs.Spec
