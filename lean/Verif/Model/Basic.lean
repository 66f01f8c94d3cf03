/-!
# Basic vocabulary of the model

* `Bytes`, `Str`  : Rust `Bytes`/`BytesMut`/`&[u8]`/`Vec<u8>` and `String`/`&str`.
* `Res ε α`       : a Rust `Result<α, ε>` whose evaluation may panic.
* `Rd ε α`        : code that consumes a `bytes::Bytes` cursor through the `bytes::Buf` trait.
* `put*`          : the `bytes::BufMut` writers, as the list of bytes they append.

The semantics of the `bytes` crate (version 1.x, /repo/Cargo.toml:15) used here:
`get_*`, `copy_to_bytes(n)` and `advance(n)` panic when fewer bytes remain; `slice(a..b)` panics unless `a ≤ b ≤ len`;
`BytesMut` grows on demand and `BytesMut::remaining_mut()` is `usize::MAX - len`.
-/

namespace Cifs

/-- Byte strings: Rust `Bytes`, `BytesMut`, `&[u8]`, `Vec<u8>`. -/
abbrev Bytes := List UInt8

/-- Rust `String`/`&str`: a sequence of Unicode scalar values (Lean's `Char` is exactly a scalar value). -/
abbrev Str := List Char

/-- `usize::MAX` on the 64-bit targets the model assumes. -/
def usizeMax : Nat := 2 ^ 64 - 1

/-- Result of Rust code returning `Result<α, ε>`: a value, an error value, or a panic. -/
inductive Res (ε : Type) (α : Type) where
  | ok (a : α)
  | err (e : ε)
  | panic
  deriving Repr, DecidableEq

namespace Res

@[inline] def bind {ε α β : Type} (x : Res ε α) (f : α → Res ε β) : Res ε β :=
  match x with
  | .ok a => f a
  | .err e => .err e
  | .panic => .panic

instance {ε : Type} : Monad (Res ε) where
  pure := .ok
  bind := Res.bind

/-- `Result::map_err`. -/
def mapErr {ε ε' α : Type} (f : ε → ε') : Res ε α → Res ε' α
  | .ok a => .ok a
  | .err e => .err (f e)
  | .panic => .panic

/-- `Option::ok_or`. -/
def ofOption {ε α : Type} (e : ε) : Option α → Res ε α
  | some a => .ok a
  | none => .err e

@[simp] theorem pure_eq {ε α : Type} (a : α) : (pure a : Res ε α) = .ok a := rfl
@[simp] theorem ok_bind {ε α β : Type} (a : α) (f : α → Res ε β) : (Res.ok a >>= f) = f a := rfl
@[simp] theorem err_bind {ε α β : Type} (e : ε) (f : α → Res ε β) : ((Res.err e : Res ε α) >>= f) = .err e := rfl
@[simp] theorem panic_bind {ε α β : Type} (f : α → Res ε β) : ((Res.panic : Res ε α) >>= f) = .panic := rfl

end Res

/-- Code reading from a `bytes::Bytes` cursor: from the unread bytes to a result and the bytes left. -/
def Rd (ε α : Type) := Bytes → Res ε (α × Bytes)

namespace Rd

instance {ε : Type} : Monad (Rd ε) where
  pure a := fun b => .ok (a, b)
  bind m f := fun b => (m b).bind (fun p => f p.1 p.2)

@[simp] theorem pure_apply {ε α : Type} (a : α) (b : Bytes) : (pure a : Rd ε α) b = .ok (a, b) := rfl
@[simp] theorem bind_apply {ε α β : Type} (m : Rd ε α) (f : α → Rd ε β) (b : Bytes) :
    (m >>= f) b = (m b).bind (fun p => f p.1 p.2) := rfl

/-- Fail with an error value (`return Err(e)`). -/
def fail {ε α : Type} (e : ε) : Rd ε α := fun _ => .err e

/-- Lift a computation that does not touch the cursor. -/
def lift {ε α : Type} (x : Res ε α) : Rd ε α := fun b => x.bind (fun a => .ok (a, b))

@[simp] theorem fail_apply {ε α : Type} (e : ε) (b : Bytes) : (fail e : Rd ε α) b = .err e := rfl
@[simp] theorem lift_apply {ε α : Type} (x : Res ε α) (b : Bytes) :
    (lift x : Rd ε α) b = x.bind (fun a => .ok (a, b)) := rfl

/-- `Buf::remaining`. -/
def remaining {ε : Type} : Rd ε Nat := fun b => .ok (b.length, b)

/-- `Buf::copy_to_bytes(n)`: panics when fewer than `n` bytes remain. -/
def copyToBytes {ε : Type} (n : Nat) : Rd ε Bytes := fun b =>
  if b.length < n then .panic else .ok (b.take n, b.drop n)

/-- `Buf::advance(n)`: panics when fewer than `n` bytes remain. -/
def advance {ε : Type} (n : Nat) : Rd ε Unit := fun b =>
  if b.length < n then .panic else .ok ((), b.drop n)

end Rd

/-- Value of a little-endian byte string. -/
def leVal : Bytes → Nat
  | [] => 0
  | b :: bs => b.toNat + 256 * leVal bs

/-- The `k` low-order bytes of `n`, little endian. -/
def putLE : Nat → Nat → Bytes
  | 0, _ => []
  | k + 1, n => UInt8.ofNat n :: putLE k (n / 256)

/-- Common part of `Buf::get_u8/get_u16_le/get_u32_le/get_u64_le`: `k` bytes, panicking on underflow. -/
def Rd.getLE {ε : Type} (k : Nat) : Rd ε Nat := fun b =>
  if b.length < k then .panic else .ok (leVal (b.take k), b.drop k)

/-- `Buf::get_u8`. -/
def Rd.getU8 {ε : Type} : Rd ε UInt8 := do return UInt8.ofNat (← Rd.getLE 1)
/-- `Buf::get_u16_le`. -/
def Rd.getU16 {ε : Type} : Rd ε UInt16 := do return UInt16.ofNat (← Rd.getLE 2)
/-- `Buf::get_u32_le`. -/
def Rd.getU32 {ε : Type} : Rd ε UInt32 := do return UInt32.ofNat (← Rd.getLE 4)
/-- `Buf::get_u64_le`. -/
def Rd.getU64 {ε : Type} : Rd ε UInt64 := do return UInt64.ofNat (← Rd.getLE 8)

/-- `BufMut::put_u16_le`. -/
def putU16 (x : UInt16) : Bytes := putLE 2 x.toNat
/-- `BufMut::put_u32_le`. -/
def putU32 (x : UInt32) : Bytes := putLE 4 x.toNat
/-- `BufMut::put_u64_le`. -/
def putU64 (x : UInt64) : Bytes := putLE 8 x.toNat
/-- `BufMut::put_bytes(0, n)`. -/
def zeros (n : Nat) : Bytes := List.replicate n 0

/-- `Bytes::slice(a..b)`: panics unless `a ≤ b ≤ len`. -/
def sliceRange {ε : Type} (d : Bytes) (a b : Nat) : Res ε Bytes :=
  if a ≤ b ∧ b ≤ d.length then .ok ((d.take b).drop a) else .panic

/-- `usize::try_into::<u8>()` and friends: the value if it fits below `bound`, else the error. -/
def tryInto {ε : Type} (bound : Nat) (n : Nat) (e : ε) : Res ε Nat :=
  if n < bound then .ok n else .err e

end Cifs
