import Verif.Model.Ntlm
/-!
# The hash functions and the cipher used by `src/utils.rs`

The client calls the crates `md4`, `md-5`, `hmac` and `des`. Their code is not in /repo; what they compute is fixed by RFC 1320 (MD4),
RFC 1321 (MD5), RFC 2104 (HMAC) and FIPS 46-3 (DES), and is written down here. The theorems about logins hold for every `Crypto`; this
one is used to replay the unit tests of /repo.
-/

namespace Cifs

/-- Rotation to the left by `n` bits, 0 < n < 32. -/
def rotl (x n : UInt32) : UInt32 := (x <<< n) ||| (x >>> (32 - n))

/-- RFC 1320, 1321: a 1 bit, zeros, and the length in bits as 64-bit little-endian number. -/
def mdPad (data : Bytes) : Bytes :=
  data ++ 0x80 :: zeros ((119 - data.length % 64) % 64) ++ putU64 (UInt64.ofNat (8 * data.length))

/-- The 32-bit little-endian words of a block. -/
def mdWords : Bytes → List UInt32
  | a :: b :: c :: d :: rest => (a.toUInt32 ||| b.toUInt32 <<< 8 ||| c.toUInt32 <<< 16 ||| d.toUInt32 <<< 24) :: mdWords rest
  | _ => []

/-- The four words of state. -/
structure MdState where
  a : UInt32
  b : UInt32
  c : UInt32
  d : UInt32

/-- The initial state of MD4 and MD5. -/
def MdState.init : MdState := { a := 0x67452301, b := 0xefcdab89, c := 0x98badcfe, d := 0x10325476 }

/-- The digest. -/
def MdState.bytes (s : MdState) : Bytes := putU32 s.a ++ putU32 s.b ++ putU32 s.c ++ putU32 s.d

/-- The sum of two states. -/
def MdState.add (s t : MdState) : MdState := { a := s.a + t.a, b := s.b + t.b, c := s.c + t.c, d := s.d + t.d }

/-- The data in blocks of 64 bytes; `n` blocks. -/
def mdBlocks (compress : MdState → List UInt32 → MdState) : Nat → MdState → Bytes → MdState
  | 0, s, _ => s
  | n + 1, s, data => mdBlocks compress n (compress s (mdWords (data.take 64))) (data.drop 64)

/-- RFC 1320: one step; `k` the word, `r` the rotation, `t` the constant. Afterwards the registers are renamed. -/
def md4Step (f : UInt32 → UInt32 → UInt32 → UInt32) (t : UInt32) (s : MdState) (x : UInt32 × UInt32) : MdState :=
  { a := s.d, b := rotl (s.a + f s.b s.c s.d + x.1 + t) x.2, c := s.b, d := s.c }

/-- The words of a round with their rotations. -/
def mdRound (words : List UInt32) (order : List Nat) (rot : List UInt32) : List (UInt32 × UInt32) :=
  (order.map fun i => words.getD i 0).zip (rot ++ rot ++ rot ++ rot)

/-- RFC 1320: one block. -/
def md4Compress (s : MdState) (w : List UInt32) : MdState :=
  let f := fun x y z : UInt32 => (x &&& y) ||| ((x ^^^ 0xffffffff) &&& z)
  let g := fun x y z : UInt32 => (x &&& y) ||| (x &&& z) ||| (y &&& z)
  let h := fun x y z : UInt32 => x ^^^ y ^^^ z
  let s1 := (mdRound w [0, 1, 2, 3, 4, 5, 6, 7, 8, 9, 10, 11, 12, 13, 14, 15] [3, 7, 11, 19]).foldl (md4Step f 0) s
  let s2 := (mdRound w [0, 4, 8, 12, 1, 5, 9, 13, 2, 6, 10, 14, 3, 7, 11, 15] [3, 5, 9, 13]).foldl (md4Step g 0x5a827999) s1
  let s3 := (mdRound w [0, 8, 4, 12, 2, 10, 6, 14, 1, 9, 5, 13, 3, 11, 7, 15] [3, 9, 11, 15]).foldl (md4Step h 0x6ed9eba1) s2
  s.add s3

/-- MD4, RFC 1320. -/
def md4 (data : Bytes) : Bytes := (mdBlocks md4Compress ((mdPad data).length / 64) .init (mdPad data)).bytes

/-- RFC 1321: `T[i] = floor(2^32 * |sin i|)`. -/
def md5Table : List UInt32 :=
  [0xd76aa478, 0xe8c7b756, 0x242070db, 0xc1bdceee, 0xf57c0faf, 0x4787c62a, 0xa8304613, 0xfd469501,
   0x698098d8, 0x8b44f7af, 0xffff5bb1, 0x895cd7be, 0x6b901122, 0xfd987193, 0xa679438e, 0x49b40821,
   0xf61e2562, 0xc040b340, 0x265e5a51, 0xe9b6c7aa, 0xd62f105d, 0x02441453, 0xd8a1e681, 0xe7d3fbc8,
   0x21e1cde6, 0xc33707d6, 0xf4d50d87, 0x455a14ed, 0xa9e3e905, 0xfcefa3f8, 0x676f02d9, 0x8d2a4c8a,
   0xfffa3942, 0x8771f681, 0x6d9d6122, 0xfde5380c, 0xa4beea44, 0x4bdecfa9, 0xf6bb4b60, 0xbebfbc70,
   0x289b7ec6, 0xeaa127fa, 0xd4ef3085, 0x04881d05, 0xd9d4d039, 0xe6db99e5, 0x1fa27cf8, 0xc4ac5665,
   0xf4292244, 0x432aff97, 0xab9423a7, 0xfc93a039, 0x655b59c3, 0x8f0ccc92, 0xffeff47d, 0x85845dd1,
   0x6fa87e4f, 0xfe2ce6e0, 0xa3014314, 0x4e0811a1, 0xf7537e82, 0xbd3af235, 0x2ad7d2bb, 0xeb86d391]

/-- RFC 1321: one step. -/
def md5Step (f : UInt32 → UInt32 → UInt32 → UInt32) (s : MdState) (x : (UInt32 × UInt32) × UInt32) : MdState :=
  { a := s.d, b := s.b + rotl (s.a + f s.b s.c s.d + x.1.1 + x.2) x.1.2, c := s.b, d := s.c }

/-- RFC 1321: one block. -/
def md5Compress (s : MdState) (w : List UInt32) : MdState :=
  let f := fun x y z : UInt32 => (x &&& y) ||| ((x ^^^ 0xffffffff) &&& z)
  let g := fun x y z : UInt32 => (x &&& z) ||| (y &&& (z ^^^ 0xffffffff))
  let h := fun x y z : UInt32 => x ^^^ y ^^^ z
  let i := fun x y z : UInt32 => y ^^^ (x ||| (z ^^^ 0xffffffff))
  let s1 := ((mdRound w [0, 1, 2, 3, 4, 5, 6, 7, 8, 9, 10, 11, 12, 13, 14, 15] [7, 12, 17, 22]).zip (md5Table.take 16)).foldl (md5Step f) s
  let s2 := ((mdRound w [1, 6, 11, 0, 5, 10, 15, 4, 9, 14, 3, 8, 13, 2, 7, 12] [5, 9, 14, 20]).zip ((md5Table.drop 16).take 16)).foldl (md5Step g) s1
  let s3 := ((mdRound w [5, 8, 11, 14, 1, 4, 7, 10, 13, 0, 3, 6, 9, 12, 15, 2] [4, 11, 16, 23]).zip ((md5Table.drop 32).take 16)).foldl (md5Step h) s2
  let s4 := ((mdRound w [0, 7, 14, 5, 12, 3, 10, 1, 8, 15, 6, 13, 4, 11, 2, 9] [6, 10, 15, 21]).zip (md5Table.drop 48)).foldl (md5Step i) s3
  s.add s4

/-- MD5, RFC 1321. -/
def md5 (data : Bytes) : Bytes := (mdBlocks md5Compress ((mdPad data).length / 64) .init (mdPad data)).bytes

/-- HMAC-MD5, RFC 2104: blocks of 64 bytes. -/
def hmacMd5 (key data : Bytes) : Bytes :=
  let k := if key.length > 64 then md5 key else key
  let k := k ++ zeros (64 - k.length)
  md5 (k.map (· ^^^ 0x5c) ++ md5 (k.map (· ^^^ 0x36) ++ data))

/-! DES: bits are numbered from 1, most significant first, as in FIPS 46-3. -/

/-- The bits of a byte, most significant first. -/
def byteBits (b : UInt8) : List Bool := [7, 6, 5, 4, 3, 2, 1, 0].map fun i => b.toNat.testBit i

/-- The byte with these eight bits. -/
def bitsByte (l : List Bool) : UInt8 := UInt8.ofNat (l.foldl (fun n b => 2 * n + b.toNat) 0)

/-- Eight bytes from 64 bits. -/
def bitsBytes : Nat → List Bool → Bytes
  | 0, _ => []
  | n + 1, l => bitsByte (l.take 8) :: bitsBytes n (l.drop 8)

/-- The bits at these positions. -/
def desPick (table : List Nat) (l : List Bool) : List Bool := table.map fun i => l.getD (i - 1) false

/-- FIPS 46-3, IP. -/
def desIP : List Nat :=
  [58, 50, 42, 34, 26, 18, 10, 2, 60, 52, 44, 36, 28, 20, 12, 4,
   62, 54, 46, 38, 30, 22, 14, 6, 64, 56, 48, 40, 32, 24, 16, 8,
   57, 49, 41, 33, 25, 17, 9, 1, 59, 51, 43, 35, 27, 19, 11, 3,
   61, 53, 45, 37, 29, 21, 13, 5, 63, 55, 47, 39, 31, 23, 15, 7]

/-- FIPS 46-3, the inverse of IP. -/
def desFP : List Nat :=
  [40, 8, 48, 16, 56, 24, 64, 32, 39, 7, 47, 15, 55, 23, 63, 31,
   38, 6, 46, 14, 54, 22, 62, 30, 37, 5, 45, 13, 53, 21, 61, 29,
   36, 4, 44, 12, 52, 20, 60, 28, 35, 3, 43, 11, 51, 19, 59, 27,
   34, 2, 42, 10, 50, 18, 58, 26, 33, 1, 41, 9, 49, 17, 57, 25]

/-- FIPS 46-3, E. -/
def desE : List Nat :=
  [32, 1, 2, 3, 4, 5, 4, 5, 6, 7, 8, 9, 8, 9, 10, 11, 12, 13, 12, 13, 14, 15, 16, 17,
   16, 17, 18, 19, 20, 21, 20, 21, 22, 23, 24, 25, 24, 25, 26, 27, 28, 29, 28, 29, 30, 31, 32, 1]

/-- FIPS 46-3, P. -/
def desP : List Nat :=
  [16, 7, 20, 21, 29, 12, 28, 17, 1, 15, 23, 26, 5, 18, 31, 10,
   2, 8, 24, 14, 32, 27, 3, 9, 19, 13, 30, 6, 22, 11, 4, 25]

/-- FIPS 46-3, PC-1. -/
def desPC1 : List Nat :=
  [57, 49, 41, 33, 25, 17, 9, 1, 58, 50, 42, 34, 26, 18, 10, 2, 59, 51, 43, 35, 27, 19, 11, 3, 60, 52, 44, 36,
   63, 55, 47, 39, 31, 23, 15, 7, 62, 54, 46, 38, 30, 22, 14, 6, 61, 53, 45, 37, 29, 21, 13, 5, 28, 20, 12, 4]

/-- FIPS 46-3, PC-2. -/
def desPC2 : List Nat :=
  [14, 17, 11, 24, 1, 5, 3, 28, 15, 6, 21, 10, 23, 19, 12, 4, 26, 8, 16, 7, 27, 20, 13, 2,
   41, 52, 31, 37, 47, 55, 30, 40, 51, 45, 33, 48, 44, 49, 39, 56, 34, 53, 46, 42, 50, 36, 29, 32]

/-- FIPS 46-3, S1 to S8, each row by row. -/
def desS : List (List Nat) :=
  [[14, 4, 13, 1, 2, 15, 11, 8, 3, 10, 6, 12, 5, 9, 0, 7, 0, 15, 7, 4, 14, 2, 13, 1, 10, 6, 12, 11, 9, 5, 3, 8,
    4, 1, 14, 8, 13, 6, 2, 11, 15, 12, 9, 7, 3, 10, 5, 0, 15, 12, 8, 2, 4, 9, 1, 7, 5, 11, 3, 14, 10, 0, 6, 13],
   [15, 1, 8, 14, 6, 11, 3, 4, 9, 7, 2, 13, 12, 0, 5, 10, 3, 13, 4, 7, 15, 2, 8, 14, 12, 0, 1, 10, 6, 9, 11, 5,
    0, 14, 7, 11, 10, 4, 13, 1, 5, 8, 12, 6, 9, 3, 2, 15, 13, 8, 10, 1, 3, 15, 4, 2, 11, 6, 7, 12, 0, 5, 14, 9],
   [10, 0, 9, 14, 6, 3, 15, 5, 1, 13, 12, 7, 11, 4, 2, 8, 13, 7, 0, 9, 3, 4, 6, 10, 2, 8, 5, 14, 12, 11, 15, 1,
    13, 6, 4, 9, 8, 15, 3, 0, 11, 1, 2, 12, 5, 10, 14, 7, 1, 10, 13, 0, 6, 9, 8, 7, 4, 15, 14, 3, 11, 5, 2, 12],
   [7, 13, 14, 3, 0, 6, 9, 10, 1, 2, 8, 5, 11, 12, 4, 15, 13, 8, 11, 5, 6, 15, 0, 3, 4, 7, 2, 12, 1, 10, 14, 9,
    10, 6, 9, 0, 12, 11, 7, 13, 15, 1, 3, 14, 5, 2, 8, 4, 3, 15, 0, 6, 10, 1, 13, 8, 9, 4, 5, 11, 12, 7, 2, 14],
   [2, 12, 4, 1, 7, 10, 11, 6, 8, 5, 3, 15, 13, 0, 14, 9, 14, 11, 2, 12, 4, 7, 13, 1, 5, 0, 15, 10, 3, 9, 8, 6,
    4, 2, 1, 11, 10, 13, 7, 8, 15, 9, 12, 5, 6, 3, 0, 14, 11, 8, 12, 7, 1, 14, 2, 13, 6, 15, 0, 9, 10, 4, 5, 3],
   [12, 1, 10, 15, 9, 2, 6, 8, 0, 13, 3, 4, 14, 7, 5, 11, 10, 15, 4, 2, 7, 12, 9, 5, 6, 1, 13, 14, 0, 11, 3, 8,
    9, 14, 15, 5, 2, 8, 12, 3, 7, 0, 4, 10, 1, 13, 11, 6, 4, 3, 2, 12, 9, 5, 15, 10, 11, 14, 1, 7, 6, 0, 8, 13],
   [4, 11, 2, 14, 15, 0, 8, 13, 3, 12, 9, 7, 5, 10, 6, 1, 13, 0, 11, 7, 4, 9, 1, 10, 14, 3, 5, 12, 2, 15, 8, 6,
    1, 4, 11, 13, 12, 3, 7, 14, 10, 15, 6, 8, 0, 5, 9, 2, 6, 11, 13, 8, 1, 4, 10, 7, 9, 5, 0, 15, 14, 2, 3, 12],
   [13, 2, 8, 4, 6, 15, 11, 1, 10, 9, 3, 14, 5, 0, 12, 7, 1, 15, 13, 8, 10, 3, 7, 4, 12, 5, 6, 11, 0, 14, 9, 2,
    7, 11, 4, 1, 9, 12, 14, 2, 0, 6, 10, 13, 15, 3, 5, 8, 2, 1, 14, 7, 4, 10, 8, 13, 15, 12, 9, 0, 3, 5, 6, 11]]

/-- One substitution: the outer bits select the row, the inner ones the column. -/
def desSub (s : List Nat) (l : List Bool) : List Bool :=
  match l with
  | [a, b, c, d, e, f] =>
    let n := s.getD (32 * a.toNat + 16 * f.toNat + 8 * b.toNat + 4 * c.toNat + 2 * d.toNat + e.toNat) 0
    [n.testBit 3, n.testBit 2, n.testBit 1, n.testBit 0]
  | _ => []

/-- All substitutions. -/
def desSubs : List (List Nat) → List Bool → List Bool
  | [], _ => []
  | s :: rest, l => desSub s (l.take 6) ++ desSubs rest (l.drop 6)

/-- The function f. -/
def desF (r k : List Bool) : List Bool := desPick desP (desSubs desS (List.zipWith xor (desPick desE r) k))

/-- The sixteen keys. -/
def desKeys : List Nat → List Bool → List Bool → List (List Bool)
  | [], _, _ => []
  | n :: rest, c, d =>
    let c := c.drop n ++ c.take n
    let d := d.drop n ++ d.take n
    desPick desPC2 (c ++ d) :: desKeys rest c d

/-- The rounds. -/
def desRounds : List (List Bool) → List Bool → List Bool → List Bool
  | [], l, r => r ++ l
  | k :: rest, l, r => desRounds rest r (List.zipWith xor l (desF r k))

/-- DES encryption of one block, FIPS 46-3. -/
def desEncrypt (key block : Bytes) : Bytes :=
  let k := desPick desPC1 (key.flatMap byteBits)
  let keys := desKeys [1, 1, 2, 2, 2, 2, 2, 2, 1, 2, 2, 2, 2, 2, 2, 1] (k.take 28) (k.drop 28)
  let b := desPick desIP (block.flatMap byteBits)
  bitsBytes 8 (desPick desFP (desRounds keys (b.take 32) (b.drop 32)))

theorem length_md4 (b : Bytes) : (md4 b).length = 16 := rfl
theorem length_md5 (b : Bytes) : (md5 b).length = 16 := rfl
theorem length_hmacMd5 (k b : Bytes) : (hmacMd5 k b).length = 16 := rfl
theorem length_desEncrypt (k b : Bytes) : (desEncrypt k b).length = 8 := rfl

/-- The primitives the client is linked with. Upper-casing is that of ASCII; `str::to_uppercase` agrees on ASCII names. -/
def Crypto.real : Crypto where
  md4 := Cifs.md4
  md4_len := length_md4
  hmacMd5 := Cifs.hmacMd5
  hmacMd5_len := length_hmacMd5
  des := desEncrypt
  des_len := length_desEncrypt
  toUpper := fun s => s.map fun c => if 'a'.toNat ≤ c.toNat ∧ c.toNat ≤ 'z'.toNat then Char.ofNat (c.toNat - 32) else c

end Cifs
