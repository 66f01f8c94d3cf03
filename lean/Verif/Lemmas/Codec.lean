import Verif.Model.Utils
/-! # Little-endian codec and cursor lemmas -/

namespace Cifs

theorem leVal_lt (b : Bytes) : leVal b < 256 ^ b.length := by
  induction b with
  | nil => simp [leVal]
  | cons x xs ih =>
    have := x.toNat_lt
    simp only [leVal, List.length_cons, Nat.pow_succ]
    omega

@[simp] theorem length_putLE (k n : Nat) : (putLE k n).length = k := by
  induction k generalizing n with
  | zero => rfl
  | succ k ih => simp [putLE, ih]

theorem leVal_putLE (k n : Nat) : leVal (putLE k n) = n % 256 ^ k := by
  induction k generalizing n with
  | zero => simp [putLE, leVal, Nat.mod_one]
  | succ k ih =>
    simp only [putLE, leVal, ih, UInt8.toNat_ofNat']
    rw [show 256 ^ (k + 1) = 256 * 256 ^ k by rw [Nat.pow_succ, Nat.mul_comm], Nat.mod_mul]

theorem putLE_leVal (b : Bytes) : putLE b.length (leVal b) = b := by
  induction b with
  | nil => rfl
  | cons x xs ih =>
    have hx := x.toNat_lt
    simp only [List.length_cons, putLE, leVal]
    congr 1
    · apply UInt8.toNat_inj.mp; simp
    · rw [show (x.toNat + 256 * leVal xs) / 256 = leVal xs by omega]; exact ih

theorem leVal_append (a b : Bytes) : leVal (a ++ b) = leVal a + 256 ^ a.length * leVal b := by
  induction a with
  | nil => simp [leVal]
  | cons x xs ih => simp only [List.cons_append, leVal, ih, List.length_cons, Nat.pow_succ]; grind

theorem leVal_zeros (n : Nat) : leVal (zeros n) = 0 := by
  induction n with
  | zero => rfl
  | succ n ih => simp only [zeros, List.replicate_succ, leVal] at *; simp [ih]

@[simp] theorem length_putU16 (x : UInt16) : (putU16 x).length = 2 := length_putLE ..
@[simp] theorem length_putU32 (x : UInt32) : (putU32 x).length = 4 := length_putLE ..
@[simp] theorem length_putU64 (x : UInt64) : (putU64 x).length = 8 := length_putLE ..
@[simp] theorem length_zeros (n : Nat) : (zeros n).length = n := List.length_replicate ..

theorem leVal_putU16 (x : UInt16) : leVal (putU16 x) = x.toNat := by
  have := x.toNat_lt; rw [putU16, leVal_putLE]; omega
theorem leVal_putU32 (x : UInt32) : leVal (putU32 x) = x.toNat := by
  have := x.toNat_lt; rw [putU32, leVal_putLE]; omega
theorem leVal_putU64 (x : UInt64) : leVal (putU64 x) = x.toNat := by
  have := x.toNat_lt; rw [putU64, leVal_putLE]; omega

theorem putU16_ofNat (n : Nat) (h : n < 65536) : leVal (putU16 (UInt16.ofNat n)) = n := by
  rw [leVal_putU16]; simp; omega

/-! ## Cursor primitives -/
namespace Rd
variable {ε : Type}

theorem getLE_append (k : Nat) (a r : Bytes) (h : a.length = k) : (getLE k (a ++ r) : Res ε _) = .ok (leVal a, r) := by
  subst h; simp [getLE]

theorem getU8_eq (b : Bytes) :
    (getU8 b : Res ε _) = if b.length < 1 then .panic else .ok (UInt8.ofNat (leVal (b.take 1)), b.drop 1) := by
  simp only [getU8, bind_apply, getLE]; split <;> rfl
theorem getU16_eq (b : Bytes) :
    (getU16 b : Res ε _) = if b.length < 2 then .panic else .ok (UInt16.ofNat (leVal (b.take 2)), b.drop 2) := by
  simp only [getU16, bind_apply, getLE]; split <;> rfl
theorem getU32_eq (b : Bytes) :
    (getU32 b : Res ε _) = if b.length < 4 then .panic else .ok (UInt32.ofNat (leVal (b.take 4)), b.drop 4) := by
  simp only [getU32, bind_apply, getLE]; split <;> rfl
theorem getU64_eq (b : Bytes) :
    (getU64 b : Res ε _) = if b.length < 8 then .panic else .ok (UInt64.ofNat (leVal (b.take 8)), b.drop 8) := by
  simp only [getU64, bind_apply, getLE]; split <;> rfl

@[simp] theorem getU8_cons (x : UInt8) (r : Bytes) : (getU8 (x :: r) : Res ε _) = .ok (x, r) := by
  simp [getU8_eq, leVal]
@[simp] theorem getU8_nil : (getU8 [] : Res ε _) = .panic := by simp [getU8_eq]
@[simp] theorem getU16_put (x : UInt16) (r : Bytes) : (getU16 (putU16 x ++ r) : Res ε _) = .ok (x, r) := by
  rw [getU16_eq, if_neg (by simp), List.take_left' (by simp), List.drop_left' (by simp), leVal_putU16]; simp
@[simp] theorem getU32_put (x : UInt32) (r : Bytes) : (getU32 (putU32 x ++ r) : Res ε _) = .ok (x, r) := by
  rw [getU32_eq, if_neg (by simp), List.take_left' (by simp), List.drop_left' (by simp), leVal_putU32]; simp
@[simp] theorem getU64_put (x : UInt64) (r : Bytes) : (getU64 (putU64 x ++ r) : Res ε _) = .ok (x, r) := by
  rw [getU64_eq, if_neg (by simp), List.take_left' (by simp), List.drop_left' (by simp), leVal_putU64]; simp

theorem copyToBytes_append (n : Nat) (a r : Bytes) (h : a.length = n) : (copyToBytes n (a ++ r) : Res ε _) = .ok (a, r) := by
  subst h; simp [copyToBytes]
theorem advance_append (n : Nat) (a r : Bytes) (h : a.length = n) : (advance n (a ++ r) : Res ε _) = .ok ((), r) := by
  subst h; simp [advance]
@[simp] theorem copyToBytes_all (a : Bytes) : (copyToBytes a.length a : Res ε _) = .ok (a, []) := by
  simpa using copyToBytes_append (ε := ε) a.length a [] rfl
end Rd

@[simp] theorem Res.bind_ok {ε α β : Type} (a : α) (f : α → Res ε β) : Res.bind (.ok a) f = f a := rfl
@[simp] theorem Res.bind_err {ε α β : Type} (e : ε) (f : α → Res ε β) : Res.bind (.err e) f = .err e := rfl
@[simp] theorem Res.bind_panic {ε α β : Type} (f : α → Res ε β) : Res.bind .panic f = .panic := rfl

theorem Res.bind_eq_ok {ε α β : Type} {x : Res ε α} {f : α → Res ε β} {b : β} :
    x.bind f = .ok b ↔ ∃ a, x = .ok a ∧ f a = .ok b := by cases x <;> simp
theorem Res.bindM_eq_ok {ε α β : Type} {x : Res ε α} {f : α → Res ε β} {b : β} :
    (x >>= f) = .ok b ↔ ∃ a, x = .ok a ∧ f a = .ok b := by cases x <;> simp

/-! ## Big endian -/

theorem foldl_be (b : Bytes) (acc : Nat) :
    b.foldl (fun acc x => acc * 256 + x.toNat) acc = acc * 256 ^ b.length + beVal b := by
  induction b generalizing acc with
  | nil => simp [beVal]
  | cons x xs ih =>
    simp only [List.foldl_cons, beVal, List.length_cons, Nat.pow_succ] at *
    rw [ih, ih (0 * 256 + x.toNat)]; grind

theorem beVal_cons (x : UInt8) (xs : Bytes) : beVal (x :: xs) = x.toNat * 256 ^ xs.length + beVal xs := by
  simp only [beVal, List.foldl_cons]; rw [foldl_be]; simp [beVal]

theorem beVal_lt (b : Bytes) : beVal b < 256 ^ b.length := by
  induction b with
  | nil => simp [beVal]
  | cons x xs ih =>
    have := x.toNat_lt
    rw [beVal_cons, List.length_cons, Nat.pow_succ]
    have : x.toNat * 256 ^ xs.length ≤ 255 * 256 ^ xs.length := Nat.mul_le_mul_right _ (by omega)
    omega

theorem beVal_append (a b : Bytes) : beVal (a ++ b) = beVal a * 256 ^ b.length + beVal b := by
  simp only [beVal, List.foldl_append]; rw [foldl_be]; rfl

theorem beVal_reverse (b : Bytes) : beVal b.reverse = leVal b := by
  induction b with
  | nil => rfl
  | cons x xs ih =>
    rw [List.reverse_cons, beVal_append, ih]; simp [leVal, beVal]; omega

end Cifs
