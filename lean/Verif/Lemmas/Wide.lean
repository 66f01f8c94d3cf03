import Verif.Spec.Text
import Verif.Lemmas.Text
/-! # The text specification and the model's codecs -/

namespace Cifs
open Spec

theorem utf16le_encode (s : Str) : Utf16le s (encodeUtf16le s) := by
  induction s with
  | nil => exact .nil
  | cons c s ih =>
    have hv := char_valid c
    rw [encodeUtf16le_cons]
    by_cases h : c.toNat < 0x10000
    · rw [units_small h]
      refine .basic (s := s) (b := encodeUtf16le s) ?_ ih
      simp; omega
    · rw [units_big h]
      refine .pair (s := s) (b := encodeUtf16le s) (x := (c.toNat - 0x10000) / 0x400) (y := (c.toNat - 0x10000) % 0x400) (by omega) (by omega)
        (by omega) ?_ ?_ ih
      · simp; omega
      · simp; omega

theorem utf16le_unique {s : Str} {b : Bytes} (h : Utf16le s b) : b = encodeUtf16le s := by
  induction h with
  | nil => rfl
  | @basic c lo hi s b hc _ ih =>
    have h1 := lo.toNat_lt; have h2 := hi.toNat_lt
    rw [encodeUtf16le_cons, units_small (by omega), ih]
    have : putLE 2 c.toNat = [lo, hi] := by rw [hc]; exact putLE2_leVal lo hi
    simp [this]
  | @pair c l1 h1 l2 h2 x y s b hx hy hc e1 e2 _ ih =>
    rw [encodeUtf16le_cons, units_big (by omega), ih]
    have a1 : putLE 2 (0xD800 + (c.toNat - 0x10000) / 0x400) = [l1, h1] := by
      rw [show 0xD800 + (c.toNat - 0x10000) / 0x400 = l1.toNat + 256 * h1.toNat by omega]; exact putLE2_leVal l1 h1
    have a2 : putLE 2 (0xDC00 + (c.toNat - 0x10000) % 0x400) = [l2, h2] := by
      rw [show 0xDC00 + (c.toNat - 0x10000) % 0x400 = l2.toNat + 256 * h2.toNat by omega]; exact putLE2_leVal l2 h2
    simp [a1, a2]

theorem utf16le_iff {s : Str} {b : Bytes} : Utf16le s b ↔ b = encodeUtf16le s :=
  ⟨utf16le_unique, fun h => h ▸ utf16le_encode s⟩

theorem encodeUtf16le_inj {s t : Str} (h : encodeUtf16le s = encodeUtf16le t) : s = t := by
  have h1 := decodeUtf16le_encode () s
  rw [h, decodeUtf16le_encode] at h1
  cases h1; rfl

theorem utf8_inj {s t : Str} (h : utf8 s = utf8 t) : s = t := by
  have h1 := fromUtf8_utf8 s
  rw [h, fromUtf8_utf8] at h1
  cases h1; rfl

theorem length_encodeUtf16 (s : Str) : (encodeUtf16 s).length = utf16Len s := by
  induction s with
  | nil => rfl
  | cons c s ih =>
    show (utf16Units c ++ encodeUtf16 s).length = _
    rw [List.length_append, ih, utf16Len]
    by_cases h : c.toNat < 0x10000
    · rw [units_small h, if_pos h]; rfl
    · rw [units_big h, if_neg h]; rfl

@[simp] theorem length_utf16le (s : Str) : (encodeUtf16le s).length = 2 * utf16Len s := by
  rw [length_encodeUtf16le, length_encodeUtf16]

theorem utf8Bytes_eq (s : Str) : utf8Bytes s = utf8 s := by
  unfold utf8Bytes utf8
  congr 1
  funext c
  exact (utf8Char_eq c).symm

theorem utf8_ne_nil {s : Str} (h : s ≠ []) : utf8 s ≠ [] := by
  intro e; exact h (utf8_inj (e.trans utf8_nil.symm))

theorem backslashed_eq (s : Str) : backslashed s = sanitizePath s := rfl

theorem utf16Len_backslashed (s : Str) : utf16Len (backslashed s) = utf16Len s := by
  induction s with
  | nil => rfl
  | cons c s ih =>
    show (if (if c = '/' then '\\' else c).toNat < 0x10000 then 1 else 2) + utf16Len (backslashed s) = _
    rw [ih, utf16Len]
    by_cases h : c = '/'
    · subst h; rfl
    · rw [if_neg h]

theorem utf16Len_replicate (n : Nat) (c : Char) (h : c.toNat < 0x10000) : utf16Len (List.replicate n c) = n := by
  induction n with
  | zero => rfl
  | succ n ih => rw [List.replicate_succ, utf16Len, if_pos h, ih]; omega

end Cifs
