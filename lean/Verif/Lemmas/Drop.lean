import Verif.Lemmas.Decode
/-! # Reading fields at known positions -/

namespace Cifs
open Spec

namespace Rd
variable {ε : Type}

theorem getU8_at (b : Bytes) (o : Nat) (h : o + 1 ≤ b.length) :
    ∃ x : UInt8, u8At b o = some x.toNat ∧ (getU8 (b.drop o) : Res ε _) = .ok (x, b.drop (o + 1)) := by
  obtain ⟨a, r, ha, rfl⟩ := split_n o b (by omega)
  rw [List.length_append, ha] at h
  obtain ⟨x, r, rfl⟩ := split_u8 r (by omega)
  refine ⟨x, ?_, ?_⟩
  · rw [u8At_append_right _ _ _ (by omega), ha, Nat.sub_self]; rfl
  · rw [List.drop_left' ha, getU8_cons, show a ++ x :: r = (a ++ [x]) ++ r by simp, List.drop_left' (by simp [ha])]

theorem getU16_at (b : Bytes) (o : Nat) (h : o + 2 ≤ b.length) :
    ∃ x : UInt16, u16At b o = some x.toNat ∧ (getU16 (b.drop o) : Res ε _) = .ok (x, b.drop (o + 2)) := by
  obtain ⟨a, r, ha, rfl⟩ := split_n o b (by omega)
  rw [List.length_append, ha] at h
  obtain ⟨x, r, rfl⟩ := split_u16 r (by omega)
  refine ⟨x, ?_, ?_⟩
  · rw [u16At_append_right _ _ _ (by omega), ha, Nat.sub_self, u16At_put]
  · rw [List.drop_left' ha, getU16_put, ← List.append_assoc, List.drop_left' (by simp [ha])]

theorem getU32_at (b : Bytes) (o : Nat) (h : o + 4 ≤ b.length) :
    ∃ x : UInt32, u32At b o = some x.toNat ∧ (getU32 (b.drop o) : Res ε _) = .ok (x, b.drop (o + 4)) := by
  obtain ⟨a, r, ha, rfl⟩ := split_n o b (by omega)
  rw [List.length_append, ha] at h
  obtain ⟨x, r, rfl⟩ := split_u32 r (by omega)
  refine ⟨x, ?_, ?_⟩
  · rw [u32At_append_right _ _ _ (by omega), ha, Nat.sub_self, u32At_put]
  · rw [List.drop_left' ha, getU32_put, ← List.append_assoc, List.drop_left' (by simp [ha])]

theorem getU64_at (b : Bytes) (o : Nat) (h : o + 8 ≤ b.length) :
    ∃ x : UInt64, u64At b o = some x.toNat ∧ (getU64 (b.drop o) : Res ε _) = .ok (x, b.drop (o + 8)) := by
  obtain ⟨a, r, ha, rfl⟩ := split_n o b (by omega)
  rw [List.length_append, ha] at h
  obtain ⟨x, r, rfl⟩ := split_u64 r (by omega)
  refine ⟨x, ?_, ?_⟩
  · rw [u64At_append_right _ _ _ (by omega), ha, Nat.sub_self, u64At_put]
  · rw [List.drop_left' ha, getU64_put, ← List.append_assoc, List.drop_left' (by simp [ha])]

theorem advance_at (b : Bytes) (o n : Nat) (h : o + n ≤ b.length) : (advance n (b.drop o) : Res ε _) = .ok ((), b.drop (o + n)) := by
  rw [advance, if_neg (by simp; omega), List.drop_drop]

theorem copyToBytes_at (b : Bytes) (o n : Nat) (h : o + n ≤ b.length) :
    ∃ a, sliceAt b o n = some a ∧ (copyToBytes n (b.drop o) : Res ε _) = .ok (a, b.drop (o + n)) := by
  refine ⟨(b.drop o).take n, ?_, ?_⟩
  · rw [sliceAt, if_pos h]
  · rw [copyToBytes, if_neg (by simp; omega), List.drop_drop]

end Rd

theorem sliceRange_eq {ε : Type} (b : Bytes) (o n : Nat) :
    (sliceRange b o (o + n) : Res ε _) = match sliceAt b o n with | some a => .ok a | none => .panic := by
  unfold sliceRange sliceAt
  by_cases h : o + n ≤ b.length
  · rw [if_pos ⟨by omega, h⟩, if_pos h]
    simp only [List.drop_take]
    rw [Nat.add_sub_cancel_left]
  · rw [if_neg (fun hh => h hh.2), if_neg h]

theorem u32At_none {b : Bytes} {o : Nat} (h : b.length < o + 4) : u32At b o = none := by
  cases hx : u32At b o with
  | none => rfl
  | some n => have := u32At_length hx; omega

end Cifs
