import Verif.Spec.Header
import Verif.Lemmas.Parse
/-! # Command codes, flag bits and process ids -/

namespace Cifs
open Spec

theorem tryFrom_code (c : Cmd) : Cmd.tryFrom c.code = some c := by cases c <;> decide
theorem tryFrom_some {n : UInt8} {c : Cmd} (h : Cmd.tryFrom n = some c) : c.code = n := by
  have := List.find?_some h
  simpa using this
theorem mem_all (c : Cmd) : c ∈ Cmd.all := by cases c <;> decide
theorem tryFrom_none {n : UInt8} (h : Cmd.tryFrom n = none) (c : Cmd) : c.code ≠ n := by
  have := List.find?_eq_none.mp h c (mem_all c)
  simpa using this
theorem code_known (c : Cmd) : c.code.toNat ∈ knownCodes := by cases c <;> decide
theorem known_code (n : UInt8) (h : n.toNat ∈ knownCodes) : ∃ c, Cmd.tryFrom n = some c := by
  have : ∀ m ∈ knownCodes, (Cmd.tryFrom (UInt8.ofNat m)).isSome := by decide
  have := this _ h
  rw [UInt8.ofNat_toNat] at this
  exact Option.isSome_iff_exists.mp this

theorem reply_bit (x : UInt8) : (Flags1.truncate x &&& Flags1.REPLY ≠ Flags1.REPLY) ↔ ¬ x.toNat / 128 % 2 = 1 := by
  have h : ∀ n < 256, (Flags1.truncate (UInt8.ofNat n) &&& Flags1.REPLY ≠ Flags1.REPLY) ↔ ¬ n / 128 % 2 = 1 := by decide +kernel
  have := h x.toNat x.toNat_lt
  rwa [UInt8.ofNat_toNat] at this

theorem truncate1 (x : UInt8) : Flags1.truncate x = x := by
  have h : ∀ n < 256, Flags1.truncate (UInt8.ofNat n) = UInt8.ofNat n := by decide +kernel
  have := h x.toNat x.toNat_lt
  rwa [UInt8.ofNat_toNat] at this

theorem truncate2 (x : UInt16) : (Flags2.truncate x).toNat = x.toNat &&& flags2Mask := by
  rw [Flags2.truncate, UInt16.toNat_and]; rfl

theorem pid_split (pid : UInt32) :
    ((pid >>> 16).toUInt16.toUInt32 <<< 16) ||| (pid &&& 0xffff).toUInt16.toUInt32 = pid := by
  apply UInt32.toNat.inj
  have := pid.toNat_lt
  simp only [UInt32.toNat_or, UInt32.toNat_shiftLeft, UInt16.toNat_toUInt32, UInt32.toNat_toUInt16, UInt32.toNat_shiftRight, UInt32.toNat_and]
  rw [show (UInt32.toNat 16 % 32) = 16 from rfl, show UInt32.toNat 0xffff = 2 ^ 16 - 1 from rfl, Nat.and_two_pow_sub_one_eq_mod,
    Nat.shiftRight_eq_div_pow, Nat.shiftLeft_eq]
  rw [Nat.mod_eq_of_lt (show pid.toNat / 2 ^ 16 < 2 ^ 16 by omega), Nat.mod_eq_of_lt (show pid.toNat / 2 ^ 16 * 2 ^ 16 < 2 ^ 32 by omega),
    Nat.mod_mod, ← Nat.shiftLeft_eq, ← Nat.shiftLeft_add_eq_or_of_lt (by omega), Nat.shiftLeft_eq]
  omega

theorem pid_join (ph pl : UInt16) : (ph.toUInt32 <<< 16 ||| pl.toUInt32).toNat = ph.toNat * 65536 + pl.toNat := by
  have := ph.toNat_lt
  have := pl.toNat_lt
  simp only [UInt32.toNat_or, UInt32.toNat_shiftLeft, UInt16.toNat_toUInt32]
  rw [show (UInt32.toNat 16 % 32) = 16 from rfl, Nat.shiftLeft_eq, Nat.mod_eq_of_lt (show ph.toNat * 2 ^ 16 < 2 ^ 32 by omega), ← Nat.shiftLeft_eq,
    ← Nat.shiftLeft_add_eq_or_of_lt (by omega), Nat.shiftLeft_eq]

theorem bitAt_append_zeros (b : Bytes) (k n : Nat) : bitAt (b ++ zeros k) n = bitAt b n := by
  unfold bitAt zeros
  by_cases h : n / 8 < b.length
  · rw [List.getElem?_append_left h]
  · rw [List.getElem?_append_right (by omega), List.getElem?_replicate, List.getElem?_eq_none (show b.length ≤ n / 8 by omega)]
    split <;> simp

end Cifs
