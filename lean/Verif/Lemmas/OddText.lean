import Verif.Spec.Notify
import Verif.Lemmas.Wide
/-! # When decoding of UTF-16 panics -/

namespace Cifs
open Spec

theorem leVal_two (a b : UInt8) : leVal [a, b] = a.toNat + 256 * b.toNat := by simp [leVal]

theorem oddText_cases {a b : UInt8} {r : Bytes} (h : OddText (a :: b :: r)) :
    (∃ x, r = [x] ∧ 0xD8 ≤ b.toNat ∧ b.toNat < 0xDC) ∨
    (∃ c : Char, c.toNat = a.toNat + 256 * b.toNat ∧ OddText r) ∨
    ∃ l2 h2 r' x y, x < 0x400 ∧ y < 0x400 ∧ r = l2 :: h2 :: r' ∧ a.toNat + 256 * b.toNat = 0xD800 + x ∧
      l2.toNat + 256 * h2.toNat = 0xDC00 + y ∧ OddText r' := by
  obtain ⟨s, u, lone, x, hu, hb, hl⟩ := h
  cases hu with
  | nil =>
    rcases hl with rfl | ⟨l, h, rfl, h1, h2⟩
    · simp at hb
    · simp only [List.nil_append, List.cons_append, List.cons.injEq] at hb
      obtain ⟨rfl, rfl, rfl⟩ := hb
      exact .inl ⟨x, rfl, h1, h2⟩
  | basic hc hs =>
    simp only [List.cons_append, List.cons.injEq] at hb
    obtain ⟨rfl, rfl, rfl⟩ := hb
    exact .inr (.inl ⟨_, hc, _, _, lone, x, hs, rfl, hl⟩)
  | pair hx hy hc e1 e2 hs =>
    simp only [List.cons_append, List.cons.injEq] at hb
    obtain ⟨rfl, rfl, rfl⟩ := hb
    exact .inr (.inr ⟨_, _, _, _, _, hx, hy, rfl, e1, e2, _, _, lone, x, hs, rfl, hl⟩)

theorem oddText_basic {c : Char} {a b : UInt8} {r : Bytes} (hc : c.toNat = a.toNat + 256 * b.toNat) (h : OddText r) : OddText (a :: b :: r) := by
  obtain ⟨s, u, lone, x, hu, rfl, hl⟩ := h
  exact ⟨c :: s, _, lone, x, .basic hc hu, rfl, hl⟩

theorem oddText_pair {a b a2 b2 : UInt8} {r : Bytes} {x y : Nat} (hx : x < 0x400) (hy : y < 0x400) (e1 : a.toNat + 256 * b.toNat = 0xD800 + x)
    (e2 : a2.toNat + 256 * b2.toNat = 0xDC00 + y) (h : OddText r) : OddText (a :: b :: a2 :: b2 :: r) := by
  obtain ⟨s, u, lone, z, hu, rfl, hl⟩ := h
  have hc : (Char.ofNat (0x10000 + 0x400 * x + y)).toNat = 0x10000 + 0x400 * x + y := toNat_ofNat (by omega)
  exact ⟨_ :: s, _, lone, z, .pair hx hy hc e1 e2 hu, rfl, hl⟩

theorem bind_ok_panic {ε α β : Type} (r : Res ε α) (g : α → β) : r.bind (fun s => .ok (g s)) = .panic ↔ r = .panic := by
  cases r <;> simp [Res.bind]

theorem decodeUtf16le_panic_iff {ε : Type} (e : ε) (b : Bytes) : decodeUtf16le e b = .panic ↔ OddText b := by
  induction hn : b.length using Nat.strongRecOn generalizing b with
  | _ n ih =>
    match b, hn with
    | [], hn =>
      refine ⟨fun h => by simp [decodeUtf16le] at h, ?_⟩
      rintro ⟨s, u, lone, x, _, hb, _⟩
      simp at hb
    | [x], hn => exact ⟨fun _ => ⟨[], [], [], x, .nil, rfl, .inl rfl⟩, fun _ => by simp [decodeUtf16le]⟩
    | a :: b :: r, hn =>
      simp only [List.length_cons] at hn
      have ha := a.toNat_lt
      have hb := b.toNat_lt
      rw [decodeUtf16le_cons, leVal_two]
      by_cases h1 : a.toNat + 256 * b.toNat < 0xD800 ∨ 0xDFFF < a.toNat + 256 * b.toNat
      · rw [if_pos h1, bind_ok_panic, ih r.length (by omega) r rfl]
        have hc : (Char.ofNat (a.toNat + 256 * b.toNat)).toNat = a.toNat + 256 * b.toNat := toNat_ofNat (by omega)
        refine ⟨oddText_basic hc, fun h => ?_⟩
        rcases oddText_cases h with ⟨x, _, h2, h3⟩ | ⟨_, _, h⟩ | ⟨_, _, _, x, y, hx, hy, _, e1, _⟩
        · omega
        · exact h
        · omega
      · rw [if_neg h1]
        have nobasic : ¬ ∃ c : Char, c.toNat = a.toNat + 256 * b.toNat := by
          rintro ⟨c, hc⟩
          have := char_valid c
          omega
        by_cases h2 : 0xDC00 ≤ a.toNat + 256 * b.toNat
        · rw [if_pos h2]
          refine ⟨fun h => (by cases h), fun h => ?_⟩
          rcases oddText_cases h with ⟨x, _, h2, h3⟩ | ⟨c, hc, h⟩ | ⟨_, _, _, x, y, hx, hy, _, e1, _⟩
          · omega
          · exact absurd ⟨c, hc⟩ nobasic
          · omega
        · rw [if_neg h2]
          match r, hn, ih with
          | [], hn, ih =>
            refine ⟨fun h => (by cases h), fun h => ?_⟩
            rcases oddText_cases h with ⟨x, h, _⟩ | ⟨c, hc, h⟩ | ⟨_, _, _, x, y, hx, hy, h, e1, _⟩
            · cases h
            · exact absurd ⟨c, hc⟩ nobasic
            · cases h
          | [y], hn, ih => exact ⟨fun _ => ⟨[], [], [a, b], y, .nil, rfl, .inr ⟨a, b, rfl, by omega, by omega⟩⟩, fun _ => rfl⟩
          | a2 :: b2 :: r', hn, ih =>
            simp only [List.length_cons] at hn
            dsimp only
            rw [leVal_two]
            have ha2 := a2.toNat_lt
            have hb2 := b2.toNat_lt
            by_cases h3 : a2.toNat + 256 * b2.toNat < 0xDC00 ∨ 0xDFFF < a2.toNat + 256 * b2.toNat
            · rw [if_pos h3]
              refine ⟨fun h => (by cases h), fun h => ?_⟩
              rcases oddText_cases h with ⟨x, h, _⟩ | ⟨c, hc, h⟩ | ⟨_, _, _, x, y, hx, hy, h, e1, e2, _⟩
              · cases h
              · exact absurd ⟨c, hc⟩ nobasic
              · cases h; omega
            · rw [if_neg h3, bind_ok_panic, ih r'.length (by omega) r' rfl]
              refine ⟨oddText_pair (x := a.toNat + 256 * b.toNat - 0xD800) (y := a2.toNat + 256 * b2.toNat - 0xDC00) (by omega) (by omega)
                (by omega) (by omega), fun h => ?_⟩
              rcases oddText_cases h with ⟨x, h, _⟩ | ⟨c, hc, h⟩ | ⟨_, _, _, x, y, hx, hy, h, e1, e2, ho⟩
              · cases h
              · exact absurd ⟨c, hc⟩ nobasic
              · cases h; exact ho

end Cifs
