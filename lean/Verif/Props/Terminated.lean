import Verif.Lemmas.Said
/-!
# Text that ends with a NUL (C54)
-/

namespace Cifs
open Spec

/-- **C54** UTF-16LE that ends with a NUL: exactly the encodings of strings without a NUL are read, up to the first NUL, and nothing behind it is
touched. -/
theorem C54_utf16_terminated {ε : Type} (e : ε) (b r : Bytes) (s : Str) :
    parseUtf16le0 e b = .ok (s, r) ↔ '\x00' ∉ s ∧ b = encodeUtf16le s ++ 0 :: 0 :: r :=
  ⟨parseUtf16le0_ok, fun ⟨h, e'⟩ => e' ▸ parseUtf16le0_encode e s r h⟩

/-- **C54** The same for UTF-8. -/
theorem C54_utf8_terminated {ε : Type} (e : ε) (b r : Bytes) (s : Str) :
    parseStr0 e b = .ok (s, r) ↔ '\x00' ∉ s ∧ b = utf8 s ++ 0 :: r := by
  rw [← utf8Bytes_eq]
  exact ⟨parseStr0_ok, fun ⟨h, e'⟩ => by rw [e', utf8Bytes_eq]; exact parseStr0_utf8 e s r h⟩

theorem parseUtf16le0Loop_returns {ε : Type} (e : ε) (n : Nat) : ∀ (b : Bytes) (acc : List Nat), b.length < n →
    parseUtf16le0Loop e acc b = .err e ∨ ∃ x, parseUtf16le0Loop e acc b = .ok x := by
  induction n with
  | zero => intro b acc h; omega
  | succ n ih =>
    intro b acc hl
    unfold parseUtf16le0Loop
    split
    · exact .inl rfl
    · exact .inl rfl
    · split
      · split
        · exact .inr ⟨_, rfl⟩
        · exact .inl rfl
      · exact ih _ _ (by simp only [List.length_cons] at hl; omega)

/-- **C54** Everything else is an error, and no reason to panic. -/
theorem C54_unterminated {ε : Type} (e : ε) (b : Bytes) :
    ((∀ s r, '\x00' ∉ s → b ≠ encodeUtf16le s ++ 0 :: 0 :: r) → parseUtf16le0 e b = .err e) ∧
    ((∀ s r, '\x00' ∉ s → b ≠ utf8 s ++ 0 :: r) → parseStr0 e b = .err e) := by
  constructor
  · intro h
    rcases parseUtf16le0Loop_returns e _ b [] (Nat.lt_succ_self _) with h' | ⟨⟨s, r⟩, h'⟩
    · exact h'
    · exact absurd (parseUtf16le0_ok h').2 (h s r (parseUtf16le0_ok h').1)
  · intro h
    rcases parseStr0_cases e b with ⟨h', -⟩ | ⟨s, r, -, h1, h2⟩
    · exact h'
    · exact absurd (by rw [h2, utf8Bytes_eq]) (h s r h1)

/-- A character beyond the first plane, and bytes behind the NUL; half of such a character; no NUL. -/
example : parseUtf16le0 () [0x3d, 0xd8, 0x00, 0xde, 0, 0, 7] = .ok (['😀'], [7]) ∧ parseUtf16le0 () [0x3d, 0xd8, 0, 0] = .err () ∧
    parseUtf16le0 () [0x41, 0, 0] = .err () ∧ parseStr0 () [0x41, 0, 7] = .ok (['A'], [7]) ∧ parseStr0 () [0xc0, 0x80, 0] = .err () := by decide +kernel

end Cifs
