import Verif.Model.Basic
/-!
# `src/utils.rs`: text codecs, NetBIOS names, FILETIME, alignment helpers, DES key expansion

MD4, HMAC-MD5 and the DES block function are external crates; they enter the model as parameters (see `Model/Ntlm.lean`).
-/

namespace Cifs

/-! ## UTF-16 (the Rust standard library's `encode_utf16` and `char::decode_utf16`) -/

/-- `char::encode_utf16` for one character, as code units. -/
def utf16Units (c : Char) : List Nat :=
  if c.toNat < 0x10000 then [c.toNat]
  else [0xD800 + (c.toNat - 0x10000) / 0x400, 0xDC00 + (c.toNat - 0x10000) % 0x400]

/-- `str::encode_utf16`. -/
def encodeUtf16 (s : Str) : List Nat := s.flatMap utf16Units

/-- `std::char::decode_utf16(iter).collect::<Result<String, _>>()`: `none` stands for the first `DecodeUtf16Error`.
A unit outside D800..DFFF is a character; a unit in DC00..DFFF is an error; a unit in D800..DBFF must be followed by one in DC00..DFFF. -/
def decodeUtf16 : List Nat → Option Str
  | [] => some []
  | u :: us =>
    if u < 0xD800 ∨ 0xDFFF < u then (decodeUtf16 us).map (Char.ofNat u :: ·)
    else if 0xDC00 ≤ u then none
    else match us with
      | [] => none
      | u2 :: us' =>
        if u2 < 0xDC00 ∨ 0xDFFF < u2 then none
        else (decodeUtf16 us').map (Char.ofNat ((u - 0xD800) * 0x400 + (u2 - 0xDC00) + 0x10000) :: ·)

/-- /repo/src/utils.rs:70-75 `encode_utf16le`. -/
def encodeUtf16le (s : Str) : Bytes := (encodeUtf16 s).flatMap (putLE 2)

/-- /repo/src/utils.rs:77-82 `encode_utf16le_0`. -/
def encodeUtf16le0 (s : Str) : Bytes := encodeUtf16le s ++ [0, 0]

/-- /repo/src/utils.rs:62-68 `decode_utf16le`. The iterator is lazy, so a decoding error found before the odd last byte is returned
before the out-of-bounds access happens: `decode_utf16` looks at one unit at a time (and, after a high surrogate, one more), and
`collect` stops at the first error. The model follows that order. -/
def decodeUtf16le {ε : Type} (e : ε) : Bytes → Res ε Str
  | [] => .ok []
  | [_] => .panic
  | a :: b :: r =>
    let u := leVal [a, b]
    if u < 0xD800 ∨ 0xDFFF < u then (decodeUtf16le e r).bind (fun s => .ok (Char.ofNat u :: s))
    else if 0xDC00 ≤ u then .err e
    else match r with
      | [] => .err e
      | [_] => .panic
      | a2 :: b2 :: r' =>
        let u2 := leVal [a2, b2]
        if u2 < 0xDC00 ∨ 0xDFFF < u2 then .err e
        else (decodeUtf16le e r').bind
          (fun s => .ok (Char.ofNat ((u - 0xD800) * 0x400 + (u2 - 0xDC00) + 0x10000) :: s))

/-! ## UTF-8 (`str::as_bytes`, `String::from_utf8`) -/

/-- UTF-8 encoding of one character (`str::as_bytes`). -/
def utf8Char (c : Char) : Bytes :=
  let n := c.toNat
  if n < 0x80 then [UInt8.ofNat n]
  else if n < 0x800 then [UInt8.ofNat (0xC0 + n / 0x40), UInt8.ofNat (0x80 + n % 0x40)]
  else if n < 0x10000 then
    [UInt8.ofNat (0xE0 + n / 0x1000), UInt8.ofNat (0x80 + n / 0x40 % 0x40), UInt8.ofNat (0x80 + n % 0x40)]
  else
    [UInt8.ofNat (0xF0 + n / 0x40000), UInt8.ofNat (0x80 + n / 0x1000 % 0x40), UInt8.ofNat (0x80 + n / 0x40 % 0x40),
     UInt8.ofNat (0x80 + n % 0x40)]

/-- `str::as_bytes`. -/
def utf8 (s : Str) : Bytes := s.flatMap utf8Char

/-- Is `b` a UTF-8 continuation byte `10xxxxxx`? -/
def isCont (b : UInt8) : Bool := 0x80 ≤ b.toNat && b.toNat < 0xC0

/-- `String::from_utf8`: strict decoding; `none` on any malformed, over-long, surrogate or out-of-range sequence. -/
def fromUtf8 : Bytes → Option Str
  | [] => some []
  | a :: r =>
    let x := a.toNat
    if x < 0x80 then (fromUtf8 r).map (Char.ofNat x :: ·)
    else if x < 0xC2 then none
    else if x < 0xE0 then
      match r with
      | b :: r' =>
        if isCont b then (fromUtf8 r').map (Char.ofNat ((x - 0xC0) * 0x40 + (b.toNat - 0x80)) :: ·) else none
      | _ => none
    else if x < 0xF0 then
      match r with
      | b :: c :: r' =>
        let n := (x - 0xE0) * 0x1000 + (b.toNat - 0x80) * 0x40 + (c.toNat - 0x80)
        if isCont b && isCont c && 0x800 ≤ n && !(0xD800 ≤ n && n ≤ 0xDFFF) then (fromUtf8 r').map (Char.ofNat n :: ·)
        else none
      | _ => none
    else if x < 0xF5 then
      match r with
      | b :: c :: d :: r' =>
        let n := (x - 0xF0) * 0x40000 + (b.toNat - 0x80) * 0x1000 + (c.toNat - 0x80) * 0x40 + (d.toNat - 0x80)
        if isCont b && isCont c && isCont d && 0x10000 ≤ n && n ≤ 0x10FFFF then (fromUtf8 r').map (Char.ofNat n :: ·)
        else none
      | _ => none
    else none

/-! ## NUL-terminated strings -/

/-- /repo/src/utils.rs:89-103 `parse_str_0`: the loop, with the bytes pushed so far. Both `ParseStrError`s become `Error::InvalidData`
(/repo/src/smb/error.rs:64-68); `e` is that error. -/
def parseStr0Loop {ε : Type} (e : ε) (acc : Bytes) : Bytes → Res ε (Str × Bytes)
  | [] => .err e
  | c :: r =>
    if c = 0 then
      match fromUtf8 acc with
      | some s => .ok (s, r)
      | none => .err e
    else parseStr0Loop e (acc ++ [c]) r

/-- /repo/src/utils.rs:89-103 `parse_str_0`. -/
def parseStr0 {ε : Type} (e : ε) : Rd ε Str := fun b => parseStr0Loop e [] b

/-- /repo/src/utils.rs:105-120 `parse_utf16le_0`: the loop, with the units pushed so far. -/
def parseUtf16le0Loop {ε : Type} (e : ε) (acc : List Nat) : Bytes → Res ε (Str × Bytes)
  | [] => .err e
  | [_] => .err e
  | a :: b :: r =>
    if leVal [a, b] = 0 then
      match decodeUtf16 acc with
      | some s => .ok (s, r)
      | none => .err e
    else parseUtf16le0Loop e (acc ++ [leVal [a, b]]) r

/-- /repo/src/utils.rs:105-120 `parse_utf16le_0`. -/
def parseUtf16le0 {ε : Type} (e : ε) : Rd ε Str := fun b => parseUtf16le0Loop e [] b

/-! ## Paths, alignment -/

/-- /repo/src/utils.rs:125-127 `sanitize_path`: `path.replace('/', "\\")`. -/
def sanitizePath (p : Str) : Str := p.map (fun c => if c = '/' then '\\' else c)

/-- /repo/src/utils.rs:130-132 `round_up_4n`. -/
def roundUp4n (n : Nat) : Nat := 4 * ((n + 3) / 4)

/-- /repo/src/utils.rs:135-137 `fill_up_4n`. -/
def fillUp4n (n : Nat) : Nat := (4 - n % 4) % 4

/-- /repo/src/utils.rs:140-146 `try_sub`. -/
def trySub (a b : Nat) : Option Nat := if a < b then none else some (a - b)

/-! ## NetBIOS names -/

/-- /repo/src/utils.rs:10-21 `encode_netbios_name`: ASCII characters, padded with blanks to exactly 16, each character as two
characters `'A' + high nibble`, `'A' + low nibble`. -/
def encodeNetbiosName (name : Str) : Str :=
  ((name.filter (fun c => c.toNat < 128) ++ List.replicate 16 ' ').take 16).flatMap
    (fun c => [Char.ofNat (65 + c.toNat / 16), Char.ofNat (65 + c.toNat % 16)])

/-! ## FILETIME -/

/-- A `chrono::DateTime`, as nanoseconds since 1601-01-01T00:00:00Z. (`DateTime<Local>` differs from `DateTime<Utc>` only in how it is
displayed, not in the instant.) -/
abbrev Instant := Int

/-- A lower bound for the largest instant chrono can represent (end of year 262142), in nanoseconds since 1601. -/
def chronoMax : Int := (262142 - 1601) * 365 * 86400 * 1000000000

/-- `u64 as i64`. -/
def asI64 (n : Nat) : Int := if n % 2 ^ 64 < 2 ^ 63 then (n % 2 ^ 64 : Nat) else (n % 2 ^ 64 : Nat) - (2 ^ 64 : Nat)

/-- /repo/src/utils.rs:26-30 `decode_windows_time`; `base_time + delta` panics when the result is not representable. -/
def decodeWindowsTime {ε : Type} (t : UInt64) : Res ε Instant :=
  let ns := asI64 (t.toNat / 10) * 1000
  if ns < -chronoMax ∨ chronoMax < ns then .panic else .ok ns

/-- /repo/src/utils.rs:32-41 `encode_windows_time`. `checked` is the build profile: with overflow checks the final multiplication
panics on overflow, without them it wraps. `num_microseconds` truncates toward zero and is `None` outside the `i64` range (`expect`). -/
def encodeWindowsTime {ε : Type} (checked : Bool) (t : Instant) : Res ε UInt64 :=
  let us := t.tdiv 1000
  if us < -(2 ^ 63) ∨ 2 ^ 63 ≤ us then .panic
  else
    let d := (us % 2 ^ 64).toNat          -- `duration as u64`
    if checked ∧ 2 ^ 64 ≤ 10 * d then .panic else .ok (UInt64.ofNat (10 * d))

/-! ## DES key expansion -/

/-- `u64::from_be_bytes`, for any length. -/
def beVal (b : Bytes) : Nat := b.foldl (fun acc x => acc * 256 + x.toNat) 0

/-- `u64::to_be_bytes`. -/
def toBe64 (n : Nat) : Bytes := (putLE 8 n).reverse

/-- One iteration of the loop /repo/src/utils.rs:156-159: `(value, result)` at index `i`. -/
def desKeyStep (s : Nat × Nat) (i : Nat) : Nat × Nat :=
  (s.1 >>> 7, s.2 ||| ((s.1 &&& 0x7f) <<< (i * 8 + 1)))

/-- /repo/src/utils.rs:149-162 `expand_des_key`; panics (slice index) when `data` is longer than 7 bytes. -/
def expandDesKey {ε : Type} (data : Bytes) : Res ε Bytes :=
  if 7 < data.length then .panic
  else
    let padded := [0] ++ data ++ zeros (7 - data.length)
    .ok (toBe64 ((List.range 8).foldl desKeyStep (beVal padded, 0)).2)

end Cifs
