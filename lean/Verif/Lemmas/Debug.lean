import Verif.Model.Debug
import Verif.Props.Display
/-! # Strings in `{:?}` -/

namespace Cifs
open Spec

/-- The characters with an escape of their own. -/
def escapes : List (Char × Char) := [('\x00', '0'), ('\t', 't'), ('\r', 'r'), ('\n', 'n'), ('"', '"'), ('\\', '\\')]

theorem escape_cases (U : Printing) (c : Char) :
    (∃ k, (c, k) ∈ escapes ∧ escapeDebug U c = ['\\', k]) ∨
    (escapeDebug U c = '\\' :: 'u' :: '{' :: (Nat.toDigits 16 c.toNat ++ ['}'])) ∨
    (escapeDebug U c = [c] ∧ c ≠ '\\' ∧ c ≠ '"') := by
  by_cases h : ∃ k, (c, k) ∈ escapes
  · left
    obtain ⟨k, h⟩ := h
    refine ⟨k, h, ?_⟩
    simp only [escapes, List.mem_cons, Prod.mk.injEq, List.not_mem_nil, or_false] at h
    rcases h with ⟨rfl, rfl⟩ | ⟨rfl, rfl⟩ | ⟨rfl, rfl⟩ | ⟨rfl, rfl⟩ | ⟨rfl, rfl⟩ | ⟨rfl, rfl⟩ <;> rfl
  · right
    have h1 : c ≠ '\x00' ∧ c ≠ '\t' ∧ c ≠ '\r' ∧ c ≠ '\n' ∧ c ≠ '"' ∧ c ≠ '\\' := by
      have hn : ∀ d k, (d, k) ∈ escapes → c ≠ d := by rintro d k hk rfl; exact h ⟨k, hk⟩
      exact ⟨hn _ '0' (by decide), hn _ 't' (by decide), hn _ 'r' (by decide), hn _ 'n' (by decide), hn _ '"' (by decide), hn _ '\\' (by decide)⟩
    obtain ⟨a1, a2, a3, a4, a5, a6⟩ := h1
    unfold escapeDebug
    rw [if_neg a1, if_neg a2, if_neg a3, if_neg a4, if_neg a5, if_neg a6]
    split
    · exact .inl rfl
    · exact .inr ⟨rfl, a6, a5⟩

theorem escapes_inj {c d k : Char} (h : (c, k) ∈ escapes) (h' : (d, k) ∈ escapes) : c = d := by
  simp only [escapes, List.mem_cons, Prod.mk.injEq, List.not_mem_nil, or_false] at h h'
  rcases h with ⟨rfl, rfl⟩ | ⟨rfl, rfl⟩ | ⟨rfl, rfl⟩ | ⟨rfl, rfl⟩ | ⟨rfl, rfl⟩ | ⟨rfl, rfl⟩ <;> (symm; simpa using h')

theorem escapes_u {c : Char} : (c, 'u') ∉ escapes := by simp [escapes]

theorem hex_brace {l : Str} {n : Nat} (h : Hex l n) : '}' ∉ l := by
  induction h with
  | nil => simp
  | @snoc l c n d h hd ih =>
    simp only [List.mem_append, List.mem_singleton, not_or]
    refine ⟨ih, ?_⟩
    rintro rfl
    rw [show hexDigit '}' = none by decide] at hd
    cases hd

theorem charNat_inj {c d : Char} (h : c.toNat = d.toNat) : c = d := Char.ext (UInt32.toNat.inj h)

/-- What is written for a character says which one it is. -/
theorem escape_inj (U : Printing) {c d : Char} {x y : Str} (h : escapeDebug U c ++ x = escapeDebug U d ++ y) : c = d ∧ x = y := by
  rcases escape_cases U c with ⟨k, hk, e⟩ | e | ⟨e, n1, n2⟩ <;> rcases escape_cases U d with ⟨k', hk', e'⟩ | e' | ⟨e', n1', n2'⟩ <;>
    rw [e, e'] at h
  · simp only [List.cons_append, List.nil_append, List.cons.injEq, true_and] at h
    obtain ⟨rfl, rfl⟩ := h
    exact ⟨escapes_inj hk hk', rfl⟩
  · simp only [List.cons_append, List.nil_append, List.cons.injEq, true_and] at h
    rw [h.1] at hk
    exact absurd hk escapes_u
  · simp only [List.cons_append, List.nil_append, List.cons.injEq] at h
    exact absurd h.1.symm n1'
  · simp only [List.cons_append, List.nil_append, List.cons.injEq, true_and] at h
    rw [← h.1] at hk'
    exact absurd hk' escapes_u
  · simp only [List.cons_append, List.append_assoc, List.nil_append, List.cons.injEq, true_and] at h
    obtain ⟨h1, h2⟩ := sep_inj (hex_brace (hex_digits _)) (hex_brace (hex_digits _)) h
    have := hex_digits c.toNat
    rw [h1] at this
    exact ⟨charNat_inj (hex_fun this (hex_digits _)), h2⟩
  · simp only [List.cons_append, List.nil_append, List.cons.injEq] at h
    exact absurd h.1.symm n1'
  · simp only [List.cons_append, List.nil_append, List.cons.injEq] at h
    exact absurd h.1 n1
  · simp only [List.cons_append, List.nil_append, List.cons.injEq] at h
    exact absurd h.1 n1
  · simpa using h

/-- No escape begins with a quote. -/
theorem escape_quote (U : Printing) {c : Char} {x y : Str} : escapeDebug U c ++ x ≠ '"' :: y := by
  intro h
  rcases escape_cases U c with ⟨k, hk, e⟩ | e | ⟨e, n1, n2⟩ <;> rw [e] at h <;>
    simp only [List.cons_append, List.nil_append, List.cons.injEq] at h
  · exact absurd h.1 (by decide)
  · exact absurd h.1 (by decide)
  · exact n2 h.1

/-- A printed string is followed by whatever follows: it says itself where it ends. -/
theorem debugStr_inj (U : Printing) {s t x y : Str} (h : debugStr U s ++ x = debugStr U t ++ y) : s = t ∧ x = y := by
  unfold debugStr at h
  simp only [List.cons_append, List.nil_append, List.append_assoc, List.cons.injEq, true_and] at h
  induction s generalizing t with
  | nil =>
    cases t with
    | nil => simpa using h
    | cons d t =>
      simp only [List.flatMap_nil, List.nil_append, List.flatMap_cons, List.append_assoc] at h
      exact absurd h.symm (escape_quote U)
  | cons c s ih =>
    cases t with
    | nil =>
      simp only [List.flatMap_nil, List.nil_append, List.flatMap_cons, List.append_assoc] at h
      exact absurd h (escape_quote U)
    | cons d t =>
      simp only [List.flatMap_cons, List.append_assoc] at h
      obtain ⟨h1, h2⟩ := escape_inj U h
      obtain ⟨h3, h4⟩ := ih h2
      exact ⟨by rw [h1, h3], h4⟩

/-- Printed credentials say what the credentials are. -/
theorem authDebug_inj (U : Printing) {a b : Auth} {x y : Str} (h : a.debug U ++ x = b.debug U ++ y) : a = b ∧ x = y := by
  unfold Auth.debug at h
  simp only [List.append_assoc] at h
  obtain ⟨h1, h⟩ := debugStr_inj U (List.append_cancel_left h)
  obtain ⟨h2, h⟩ := debugStr_inj U (List.append_cancel_left h)
  obtain ⟨h3, h⟩ := debugStr_inj U (List.append_cancel_left h)
  obtain ⟨h4, h⟩ := debugStr_inj U (List.append_cancel_left h)
  refine ⟨?_, List.append_cancel_left h⟩
  cases a; cases b; simp_all

/-- A character that is printed as it is. -/
def Plain (c : Char) : Prop := 0x20 ≤ c.toNat ∧ c.toNat < 0x7f ∧ c ≠ '"' ∧ c ≠ '\\'

theorem escape_plain (U : Printing) {c : Char} (h : Plain c) : escapeDebug U c = [c] := by
  obtain ⟨h1, h2, h3, h4⟩ := h
  have hne : ∀ d : Char, d.toNat < 0x20 → c ≠ d := by rintro d hd rfl; omega
  unfold escapeDebug
  rw [if_neg (hne _ (by decide)), if_neg (hne _ (by decide)), if_neg (hne _ (by decide)), if_neg (hne _ (by decide)), if_neg h3, if_neg h4,
    U.ascii c h1 h2, if_neg (by simp)]

theorem escapes_plain (U : Printing) {s : Str} (h : ∀ c ∈ s, Plain c) : s.flatMap (escapeDebug U) = s := by
  induction s with
  | nil => rfl
  | cons c s ih =>
    rw [List.flatMap_cons, escape_plain U (h c (by simp)), ih (fun d hd => h d (by simp [hd]))]; rfl

end Cifs
