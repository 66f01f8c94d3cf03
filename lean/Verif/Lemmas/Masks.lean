import Verif.Spec.Replies
import Verif.Lemmas.Codec
/-! # Bit masks -/

namespace Cifs
open Spec

theorem mask_oplock (x : UInt8) : (OpLockLevel.truncate x).toNat = x.toNat % 4 := by
  rw [OpLockLevel.truncate, UInt8.toNat_and, show (OpLockLevel.all).toNat = 2 ^ 2 - 1 by decide, Nat.and_two_pow_sub_one_eq_mod]
theorem mask_disposition (x : UInt32) : (CreateDisposition.truncate x).toNat = x.toNat % 8 := by
  rw [CreateDisposition.truncate, UInt32.toNat_and, show (CreateDisposition.all).toNat = 2 ^ 3 - 1 by decide, Nat.and_two_pow_sub_one_eq_mod]
theorem mask_type (x : UInt16) : (ResourceType.truncate x).toNat = x.toNat % 8 := by
  rw [ResourceType.truncate, UInt16.toNat_and, show (ResourceType.all).toNat = 2 ^ 3 - 1 by decide, Nat.and_two_pow_sub_one_eq_mod]
theorem mask_attr (x : UInt32) : (ExtFileAttr.truncate x).toNat = x.toNat &&& attrMask := by
  rw [ExtFileAttr.truncate, UInt32.toNat_and]; rfl
theorem mask_rights (x : UInt32) : (DirAccessMask.truncate x).toNat = x.toNat &&& rightsMask := by
  rw [DirAccessMask.truncate, UInt32.toNat_and]; rfl

theorem and_two_pow (n k : Nat) : (n &&& 2 ^ k = 2 ^ k) ↔ n / 2 ^ k % 2 = 1 := by
  constructor
  · intro h
    have := congrArg (·.testBit k) h
    simp only [Nat.testBit_and, Nat.testBit_two_pow_self, Bool.and_true] at this
    rw [Nat.testBit_eq_decide_div_mod_eq] at this
    exact of_decide_eq_true this
  · intro h
    apply Nat.eq_of_testBit_eq
    intro i
    rw [Nat.testBit_and, Nat.testBit_two_pow]
    by_cases hi : k = i
    · subst hi
      rw [Nat.testBit_eq_decide_div_mod_eq]
      simp [h]
    · simp [hi]

/-- A single bit of a 16-bit flag field. -/
theorem contains16 (f x : UInt16) (k : Nat) (hx : x.toNat = 2 ^ k) : Flags2.contains f x = decide (f.toNat / 2 ^ k % 2 = 1) := by
  rw [Flags2.contains, Bool.eq_iff_iff, beq_iff_eq, decide_eq_true_iff, ← UInt16.toNat_inj, UInt16.toNat_and, hx]
  exact and_two_pow _ _
/-- A single bit of a 32-bit flag field. -/
theorem contains32 (f x : UInt32) (k : Nat) (hx : x.toNat = 2 ^ k) : Capabilities.contains f x = decide (f.toNat / 2 ^ k % 2 = 1) := by
  rw [Capabilities.contains, Bool.eq_iff_iff, beq_iff_eq, decide_eq_true_iff, ← UInt32.toNat_inj, UInt32.toNat_and, hx]
  exact and_two_pow _ _

/-- Masking keeps the bits of the mask. -/
theorem mask_bit (n m k : Nat) (h : m / 2 ^ k % 2 = 1) : (n &&& m) / 2 ^ k % 2 = n / 2 ^ k % 2 := by
  have e : (n &&& m).testBit k = n.testBit k := by
    rw [Nat.testBit_and, Nat.testBit_eq_decide_div_mod_eq (x := m)]; simp [h]
  rw [Nat.testBit_eq_decide_div_mod_eq, Nat.testBit_eq_decide_div_mod_eq, decide_eq_decide] at e
  omega

end Cifs
