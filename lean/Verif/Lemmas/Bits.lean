import Verif.Lemmas.Codec
import Verif.Spec.Stream
/-! # Bits of byte strings -/

namespace Cifs

theorem testBit_leVal (b : Bytes) (k : Nat) : (leVal b).testBit k = ((b[k / 8]?).map (fun x => x.toNat.testBit (k % 8))).getD false := by
  induction b generalizing k with
  | nil => simp [leVal]
  | cons x xs ih =>
    have hx := x.toNat_lt
    simp only [leVal]
    rw [Nat.add_comm, show (256 : Nat) = 2 ^ 8 from rfl, Nat.testBit_two_pow_mul_add _ (by omega)]
    by_cases h : k < 8
    · rw [if_pos h, show k / 8 = 0 by omega, show k % 8 = k by omega]; simp
    · rw [if_neg h, ih, show k / 8 = (k - 8) / 8 + 1 by omega, show (k - 8) % 8 = k % 8 by omega]; simp

theorem testBit_beVal (b : Bytes) (n : Nat) (h : n < 8 * b.length) : (beVal b).testBit (8 * b.length - 1 - n) = Spec.bitAt b n := by
  have e : beVal b = leVal b.reverse := by rw [← beVal_reverse, List.reverse_reverse]
  rw [e, testBit_leVal, Spec.bitAt]
  rw [show (8 * b.length - 1 - n) / 8 = b.length - 1 - n / 8 by omega, show (8 * b.length - 1 - n) % 8 = 7 - n % 8 by omega]
  rw [List.getElem?_reverse (by omega), show b.length - 1 - (b.length - 1 - n / 8) = n / 8 by omega]

theorem beVal_toBe64 (r : Nat) : beVal (toBe64 r) = r % 2 ^ 64 := by
  rw [toBe64, beVal_reverse, leVal_putLE]

theorem length_toBe64 (r : Nat) : (toBe64 r).length = 8 := by simp [toBe64]

theorem desKey_fold (v n k : Nat) :
    ((List.range n).foldl desKeyStep (v, 0)).1 = v >>> (7 * n) ∧
    ((List.range n).foldl desKeyStep (v, 0)).2.testBit k = (decide (k / 8 < n ∧ k % 8 ≠ 0) && v.testBit (7 * (k / 8) + (k % 8 - 1))) := by
  induction n with
  | zero => simp
  | succ n ih =>
    rw [List.range_succ, List.foldl_append, List.foldl_cons, List.foldl_nil]
    generalize (List.range n).foldl desKeyStep (v, 0) = s at ih
    obtain ⟨h1, h2⟩ := ih
    simp only [desKeyStep]
    refine ⟨by rw [h1, ← Nat.shiftRight_add]; rfl, ?_⟩
    rw [Nat.testBit_or, h2, Nat.testBit_shiftLeft, show (0x7f : Nat) = 2 ^ 7 - 1 from rfl, Nat.testBit_and, Nat.testBit_two_pow_sub_one, h1,
      Nat.testBit_shiftRight]
    by_cases ha : k / 8 < n
    · have h1 : ¬ n * 8 + 1 ≤ k := by omega
      have h2 : k / 8 < n + 1 := by omega
      simp [ha, h1, h2]
    · by_cases hb : k / 8 = n
      · have h2 : k / 8 < n + 1 := by omega
        by_cases hc : k % 8 = 0
        · have h1 : ¬ n * 8 + 1 ≤ k := by omega
          simp [ha, hc, h1]
        · have h1 : n * 8 + 1 ≤ k := by omega
          have h3 : k - (n * 8 + 1) < 7 := by omega
          have h4 : 7 * n + (k - (n * 8 + 1)) = 7 * (k / 8) + (k % 8 - 1) := by omega
          simp [ha, hc, h1, h2, h3, h4]
      · have h2 : ¬ k / 8 < n + 1 := by omega
        have h3 : ¬ k - (n * 8 + 1) < 7 := by omega
        simp [ha, h2, h3]

end Cifs
