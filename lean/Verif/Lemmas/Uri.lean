import Verif.Spec.Uri
import Verif.Lemmas.Regex
/-!
# Readings of a URI are the matches of its pattern
-/

namespace Cifs

variable (K : CharClass)

/-- What each part of the pattern matched, spelled out. -/
abbrev UriTree : Type :=
  (Char × Char × Char × Char × Char × Char) × Option ((Char × Str) × Char) × Option ((Char × Str) × Option (Char × Str) × Char) ×
    (Char × Str) × Option (Char × Char × Str) × Char × (Char × Str) × Option (Char × Str)

/-- The tree of the pattern is that. -/
def UriTree.re (t : UriTree) : (uriRegex K).Tree := t

/-- The parts. -/
def UriTree.parts : UriTree → UriParts
  | (_, d, u, h, p, _, s, x) =>
    { domain := d.map (fun d => d.1.1 :: d.1.2)
      user := u.map (fun u => u.1.1 :: u.1.2)
      password := u.bind (fun u => u.2.1.map (·.2))
      host := h.1 :: h.2
      port := p.map (fun p => p.2.1 :: p.2.2)
      share := s.1 :: s.2
      path := x.map (·.2) }

/-- The pattern's conditions on a tree, spelled out. -/
theorem fits_iff (t : UriTree) : (uriRegex K).Fits (t.re K) ↔
    (t.1 = ('s', 'm', 'b', ':', '/', '/')) ∧
    (∀ d, t.2.1 = some d → K.word d.1.1 = true ∧ AllIn K.word d.1.2 ∧ d.2 = ';') ∧
    (∀ u, t.2.2.1 = some u → userChar K u.1.1 = true ∧ AllIn (userChar K) u.1.2 ∧
      (∀ w, u.2.1 = some w → w.1 = ':' ∧ AllIn passwdChar w.2) ∧ u.2.2 = '@') ∧
    (K.word t.2.2.2.1.1 = true ∧ AllIn (hostChar K) t.2.2.2.1.2) ∧
    (∀ p, t.2.2.2.2.1 = some p → p.1 = ':' ∧ K.digit p.2.1 = true ∧ AllIn K.digit p.2.2) ∧
    (t.2.2.2.2.2.1 = '/') ∧
    (shareChar K t.2.2.2.2.2.2.1.1 = true ∧ AllIn (shareChar K) t.2.2.2.2.2.2.1.2) ∧
    (∀ x, t.2.2.2.2.2.2.2 = some x → x.1 = '/' ∧ AllIn pathChar x.2) := by
  obtain ⟨⟨c1, c2, c3, c4, c5, c6⟩, d, u, h, p, sl, s, x⟩ := t
  have key : (uriRegex K).Fits (UriTree.re K ((c1, c2, c3, c4, c5, c6), d, u, h, p, sl, s, x)) ↔
      ((c1 == 's') = true ∧ (c2 == 'm') = true ∧ (c3 == 'b') = true ∧ (c4 == ':') = true ∧ (c5 == '/') = true ∧ (c6 == '/') = true) ∧
      (reDomain K).Fits d ∧ (reUser K).Fits u ∧ (K.word h.1 = true ∧ AllIn (hostChar K) h.2) ∧ (rePort K).Fits p ∧ (sl == '/') = true ∧
      (shareChar K s.1 = true ∧ AllIn (shareChar K) s.2) ∧ rePath.Fits x := Iff.rfl
  refine key.trans ?_
  have e1 : ((c1 == 's') = true ∧ (c2 == 'm') = true ∧ (c3 == 'b') = true ∧ (c4 == ':') = true ∧ (c5 == '/') = true ∧ (c6 == '/') = true) ↔
      (c1, c2, c3, c4, c5, c6) = ('s', 'm', 'b', ':', '/', '/') := by simp
  have e2 : (reDomain K).Fits d ↔ ∀ x, d = some x → K.word x.1.1 = true ∧ AllIn K.word x.1.2 ∧ x.2 = ';' := by
    cases d with
    | none => exact ⟨fun _ _ h => (by cases h), fun _ => trivial⟩
    | some d =>
      have k : (reDomain K).Fits (some d) ↔ (K.word d.1.1 = true ∧ AllIn K.word d.1.2) ∧ (d.2 == ';') = true := Iff.rfl
      refine k.trans ?_
      simp [and_assoc]
  have e3 : (reUser K).Fits u ↔ ∀ x, u = some x → userChar K x.1.1 = true ∧ AllIn (userChar K) x.1.2 ∧
      (∀ w, x.2.1 = some w → w.1 = ':' ∧ AllIn passwdChar w.2) ∧ x.2.2 = '@' := by
    cases u with
    | none => exact ⟨fun _ _ h => (by cases h), fun _ => trivial⟩
    | some u =>
      obtain ⟨⟨c, t⟩, w, a⟩ := u
      cases w with
      | none =>
        have k : (reUser K).Fits (some ((c, t), none, a)) ↔ (userChar K c = true ∧ AllIn (userChar K) t) ∧ True ∧ (a == '@') = true := Iff.rfl
        refine k.trans ?_
        simp [and_assoc]
      | some w =>
        obtain ⟨k, w⟩ := w
        have k : (reUser K).Fits (some ((c, t), some (k, w), a)) ↔ (userChar K c = true ∧ AllIn (userChar K) t) ∧
          ((k == ':') = true ∧ AllIn passwdChar w) ∧ (a == '@') = true := Iff.rfl
        refine k.trans ?_
        simp [and_assoc]
  have e5 : (rePort K).Fits p ↔ ∀ x, p = some x → x.1 = ':' ∧ K.digit x.2.1 = true ∧ AllIn K.digit x.2.2 := by
    cases p with
    | none => exact ⟨fun _ _ h => (by cases h), fun _ => trivial⟩
    | some p =>
      have k : (rePort K).Fits (some p) ↔ (p.1 == ':') = true ∧ K.digit p.2.1 = true ∧ AllIn K.digit p.2.2 := Iff.rfl
      refine k.trans ?_
      simp
  have e8 : rePath.Fits x ↔ ∀ y, x = some y → y.1 = '/' ∧ AllIn pathChar y.2 := by
    cases x with
    | none => exact ⟨fun _ _ h => (by cases h), fun _ => trivial⟩
    | some p =>
      have k : rePath.Fits (some p) ↔ (p.1 == '/') = true ∧ AllIn pathChar p.2 := Iff.rfl
      refine k.trans ?_
      simp
  exact and_congr e1 (and_congr e2 (and_congr e3 (and_congr Iff.rfl (and_congr e5 (and_congr beq_iff_eq (and_congr Iff.rfl e8))))))

theorem TextOf.cons {ok : Char → Prop} {c : Char} {t : Str} (h : ok c) (h' : ∀ x ∈ t, ok x) : TextOf ok (c :: t) :=
  ⟨List.cons_ne_nil _ _, fun x hx => by
    cases hx with
    | head => exact h
    | tail _ hx => exact h' x hx⟩

theorem userChar_iff (c : Char) : userChar K c = true ↔ K.word c = true ∨ c = '.' ∨ c = '+' ∨ c = '-' := by
  have hw : K.word '_' = true := by rw [K.word_ascii '_' (by decide)]; decide
  simp only [userChar, Bool.or_eq_true, beq_iff_eq]
  constructor
  · rintro ((((h | h) | h) | h) | h)
    · exact .inl h
    · exact .inr (.inl h)
    · exact .inr (.inr (.inl h))
    · exact .inl (h ▸ hw)
    · exact .inr (.inr (.inr h))
  · rintro (h | h | h | h)
    · exact .inl (.inl (.inl (.inl h)))
    · exact .inl (.inl (.inl (.inr h)))
    · exact .inl (.inl (.inr h))
    · exact .inr h

theorem hostChar_iff (c : Char) : hostChar K c = true ↔ K.word c = true ∨ c = '.' ∨ c = '-' := by
  simp only [hostChar, Bool.or_eq_true, beq_iff_eq, or_assoc]

theorem shareChar_iff (c : Char) : shareChar K c = true ↔ K.word c = true ∨ c = '.' ∨ c = '-' := by
  have hw : K.word '_' = true := by rw [K.word_ascii '_' (by decide)]; decide
  simp only [shareChar, Bool.or_eq_true, beq_iff_eq]
  constructor
  · rintro (((h | h) | h) | h)
    · exact .inl h
    · exact .inr (.inl h)
    · exact .inl (h ▸ hw)
    · exact .inr (.inr h)
  · rintro (h | h | h)
    · exact .inl (.inl (.inl h))
    · exact .inl (.inl (.inr h))
    · exact .inr h

theorem passwdChar_iff (c : Char) : passwdChar c = true ↔ c ≠ '@' := by simp [passwdChar]
theorem pathChar_iff (c : Char) : pathChar c = true ↔ c ≠ '\n' := by simp [pathChar]

/-- A match of the pattern gives valid parts. -/
theorem parts_valid {t : UriTree} (h : (uriRegex K).Fits (t.re K)) : t.parts.Valid K := by
  rw [fits_iff] at h
  obtain ⟨l, d, u, ⟨h1, h2⟩, p, sl, ⟨s1, s2⟩, x⟩ := h
  obtain ⟨_, td, tu, th, tp, _, ts, tx⟩ := t
  constructor
  · intro t ht
    cases td with
    | none => cases ht
    | some e => cases ht; exact .cons (d e rfl).1 (d e rfl).2.1
  · intro t ht
    cases tu with
    | none => cases ht
    | some e =>
      cases ht
      exact .cons ((userChar_iff K _).1 (u e rfl).1) (fun c hc => (userChar_iff K c).1 ((u e rfl).2.1 c hc))
  · intro t ht
    cases tu with
    | none => cases ht
    | some e =>
      obtain ⟨e1, w, e2⟩ := e
      cases w with
      | none => cases ht
      | some w =>
        cases ht
        exact fun c hc => (passwdChar_iff c).1 (((u _ rfl).2.2.1 w rfl).2 c hc)
  · intro hu
    cases tu with
    | none => rfl
    | some e => cases hu
  · exact ⟨_, _, rfl, h1, fun c hc => (hostChar_iff K c).1 (h2 c hc)⟩
  · intro t ht
    cases tp with
    | none => cases ht
    | some e => cases ht; exact .cons (p e rfl).2.1 (p e rfl).2.2
  · exact .cons ((shareChar_iff K _).1 s1) (fun c hc => (shareChar_iff K c).1 (s2 c hc))
  · intro t ht
    cases tx with
    | none => cases ht
    | some e => cases ht; exact fun c hc => (pathChar_iff c).1 ((x e rfl).2 c hc)

/-- It matches the text of the parts. -/
theorem parts_text {t : UriTree} (h : (uriRegex K).Fits (t.re K)) : (uriRegex K).text (t.re K) = t.parts.text := by
  rw [fits_iff] at h
  obtain ⟨l, d, u, _, p, sl, _, x⟩ := h
  obtain ⟨tl, td, tu, ⟨h1, h2⟩, tp, tsl, ⟨s1, s2⟩, tx⟩ := t
  dsimp only at l sl
  subst l sl
  have e0 : (uriRegex K).text (UriTree.re K (('s', 'm', 'b', ':', '/', '/'), td, tu, (h1, h2), tp, '/', (s1, s2), tx)) =
      ['s', 'm', 'b', ':', '/', '/'] ++ ((reDomain K).text td ++ ((reUser K).text tu ++ ((h1 :: h2) ++ ((rePort K).text tp ++
        (['/'] ++ ((s1 :: s2) ++ rePath.text tx)))))) := rfl
  have ed : (reDomain K).text td = optText [] (td.map (fun d => d.1.1 :: d.1.2)) [';'] := by
    cases td with
    | none => rfl
    | some e =>
      have hz : e.2 = ';' := (d _ rfl).2.2
      rw [← hz]
      rfl
  have eu : (reUser K).text tu = userText (UriTree.parts (('s', 'm', 'b', ':', '/', '/'), td, tu, (h1, h2), tp, '/', (s1, s2), tx)) := by
    cases tu with
    | none => rfl
    | some e =>
      have hw : ∀ v, e.2.1 = some v → v.1 = ':' ∧ AllIn passwdChar v.2 := (u _ rfl).2.2.1
      have hz : e.2.2 = '@' := (u _ rfl).2.2.2
      have k : userText (UriTree.parts (('s', 'm', 'b', ':', '/', '/'), td, some e, (h1, h2), tp, '/', (s1, s2), tx)) =
        (e.1.1 :: e.1.2) ++ (optText [':'] (e.2.1.map (·.2)) [] ++ ['@']) := List.append_assoc _ _ _
      rw [k, ← hz]
      have k' : (Re.opt (.seq (.lit ':' []) (.cap .passwd (.star passwdChar)))).text e.2.1 = optText [':'] (e.2.1.map (·.2)) [] := by
        generalize e.2.1 = w at hw
        cases w with
        | none => rfl
        | some w =>
          have hk : w.1 = ':' := (hw _ rfl).1
          rw [← hk]
          exact (List.append_nil _).symm
      rw [← k']
      rfl
  have ep : (rePort K).text tp = optText [':'] (tp.map (fun p => p.2.1 :: p.2.2)) [] := by
    cases tp with
    | none => rfl
    | some e =>
      have hz : e.1 = ':' := (p _ rfl).1
      rw [← hz]
      exact (List.append_nil _).symm
  have ex : rePath.text tx = optText ['/'] (tx.map (·.2)) [] := by
    cases tx with
    | none => rfl
    | some e =>
      have hz : e.1 = '/' := (x _ rfl).1
      rw [← hz]
      exact (List.append_nil _).symm
  refine e0.trans ?_
  have e' : UriParts.text (UriTree.parts (('s', 'm', 'b', ':', '/', '/'), td, tu, (h1, h2), tp, '/', (s1, s2), tx)) =
      ['s', 'm', 'b', ':', '/', '/'] ++ (optText [] (td.map (fun d => d.1.1 :: d.1.2)) [';'] ++
        (userText (UriTree.parts (('s', 'm', 'b', ':', '/', '/'), td, tu, (h1, h2), tp, '/', (s1, s2), tx)) ++ ((h1 :: h2) ++
        (optText [':'] (tp.map (fun p => p.2.1 :: p.2.2)) [] ++ (['/'] ++ ((s1 :: s2) ++ optText ['/'] (tx.map (·.2)) [])))))) := by
    unfold UriParts.text
    simp only [List.append_assoc]
    rfl
  rw [e']
  exact congrArg _ (congr (congrArg _ ed) (congr (congrArg _ eu) (congrArg _ (congr (congrArg _ ep) (congrArg _ (congrArg _ ex))))))

/-- All valid parts arise from a match. -/
theorem parts_surj {p : UriParts} (h : p.Valid K) : ∃ t : UriTree, (uriRegex K).Fits (t.re K) ∧ t.parts = p := by
  obtain ⟨d, u, w, ho, q, s, x⟩ := p
  obtain ⟨hd, hu, hw, hwo, ⟨hc, ht, rfl, h1, h2⟩, hq, ⟨hs1, hs2⟩, hx⟩ := h
  dsimp only at hd hu hw hwo hq hs1 hs2 hx
  have split : ∀ {ok : Char → Prop} {t : Str}, TextOf ok t → ∃ c r, t = c :: r ∧ ok c ∧ ∀ x ∈ r, ok x := by
    intro ok t h
    cases t with
    | nil => exact absurd rfl h.1
    | cons c r => exact ⟨c, r, rfl, h.2 c (.head _), fun x hx => h.2 x (.tail _ hx)⟩
  have D : ∃ td : Option ((Char × Str) × Char), td.map (fun d => d.1.1 :: d.1.2) = d ∧
      ∀ d, td = some d → K.word d.1.1 = true ∧ AllIn K.word d.1.2 ∧ d.2 = ';' := by
    cases d with
    | none => exact ⟨none, rfl, fun _ h => (by cases h)⟩
    | some d =>
      obtain ⟨c, r, rfl, k1, k2⟩ := split (hd _ rfl)
      exact ⟨some ((c, r), ';'), rfl, fun _ h => (by cases h; exact ⟨k1, k2, rfl⟩)⟩
  have U : ∃ tu : Option ((Char × Str) × Option (Char × Str) × Char), tu.map (fun u => u.1.1 :: u.1.2) = u ∧
      tu.bind (fun u => u.2.1.map (·.2)) = w ∧ ∀ u, tu = some u → userChar K u.1.1 = true ∧ AllIn (userChar K) u.1.2 ∧
      (∀ w, u.2.1 = some w → w.1 = ':' ∧ AllIn passwdChar w.2) ∧ u.2.2 = '@' := by
    cases u with
    | none => exact ⟨none, rfl, (hwo rfl).symm, fun _ h => (by cases h)⟩
    | some u =>
      obtain ⟨c, r, rfl, k1, k2⟩ := split (hu _ rfl)
      refine ⟨some ((c, r), w.map (fun w => (':', w)), '@'), rfl, ?_, ?_⟩
      · cases w <;> rfl
      · intro u h
        cases h
        refine ⟨(userChar_iff K c).2 k1, fun x hx => (userChar_iff K x).2 (k2 x hx), ?_, rfl⟩
        intro v hv
        cases w with
        | none => cases hv
        | some w => cases hv; exact ⟨rfl, fun x hx => (passwdChar_iff x).2 (hw _ rfl x hx)⟩
  have Q : ∃ tp : Option (Char × Char × Str), tp.map (fun p => p.2.1 :: p.2.2) = q ∧
      ∀ p, tp = some p → p.1 = ':' ∧ K.digit p.2.1 = true ∧ AllIn K.digit p.2.2 := by
    cases q with
    | none => exact ⟨none, rfl, fun _ h => (by cases h)⟩
    | some d =>
      obtain ⟨c, r, rfl, k1, k2⟩ := split (hq _ rfl)
      exact ⟨some (':', c, r), rfl, fun _ h => (by cases h; exact ⟨rfl, k1, k2⟩)⟩
  have X : ∃ tx : Option (Char × Str), tx.map (·.2) = x ∧ ∀ x, tx = some x → x.1 = '/' ∧ AllIn pathChar x.2 := by
    cases x with
    | none => exact ⟨none, rfl, fun _ h => (by cases h)⟩
    | some d => exact ⟨some ('/', d), rfl, fun _ h => (by cases h; exact ⟨rfl, fun x hd => (pathChar_iff x).2 (hx _ rfl x hd)⟩)⟩
  obtain ⟨sc, sr, rfl, s1, s2⟩ := split ⟨hs1, hs2⟩
  obtain ⟨td, rfl, D⟩ := D
  obtain ⟨tu, rfl, rfl, U⟩ := U
  obtain ⟨tp, rfl, Q⟩ := Q
  obtain ⟨tx, rfl, X⟩ := X
  refine ⟨(('s', 'm', 'b', ':', '/', '/'), td, tu, (hc, ht), tp, '/', (sc, sr), tx), ?_, rfl⟩
  rw [fits_iff]
  exact ⟨rfl, D, U, ⟨h1, fun c hc => (hostChar_iff K c).2 (h2 c hc)⟩, Q, rfl, ⟨(shareChar_iff K _).2 s1, fun c hc => (shareChar_iff K c).2 (s2 c hc)⟩, X⟩

theorem plus_ahead {q : Char → Bool} {x y : Char × Str} (h : (Re.plus q).Lt x y) : Ahead (some (x.1 :: x.2)) (some (y.1 :: y.2)) := by
  have h : False ∨ x.1 = y.1 ∧ y.2.length < x.2.length := h
  rcases h with h | ⟨_, h⟩
  · exact h.elim
  · exact Nat.succ_lt_succ h

theorem domain_ahead {x y : Option ((Char × Str) × Char)} (h : (reDomain K).Lt x y) :
    Ahead (x.map (fun d => d.1.1 :: d.1.2)) (y.map (fun d => d.1.1 :: d.1.2)) := by
  cases x with
  | none => exact (show False from h).elim
  | some x =>
    cases y with
    | none => exact trivial
    | some y =>
      have h : (Re.plus K.word).Lt x.1 y.1 ∨ x.1 = y.1 ∧ False := h
      rcases h with h | ⟨_, h⟩
      · exact plus_ahead h
      · exact h.elim

theorem user_ahead {x y : Option ((Char × Str) × Option (Char × Str) × Char)} (h : (reUser K).Lt x y) :
    Ahead (x.map (fun u => u.1.1 :: u.1.2)) (y.map (fun u => u.1.1 :: u.1.2)) ∨
    x.map (fun u => u.1.1 :: u.1.2) = y.map (fun u => u.1.1 :: u.1.2) ∧
      Ahead (x.bind (fun u => u.2.1.map (·.2))) (y.bind (fun u => u.2.1.map (·.2))) := by
  cases x with
  | none => exact (show False from h).elim
  | some x =>
    cases y with
    | none => exact .inl trivial
    | some y =>
      have h : (Re.plus (userChar K)).Lt x.1 y.1 ∨ x.1 = y.1 ∧
        ((Re.opt (.seq (.lit ':' []) (.cap .passwd (.star passwdChar)))).Lt x.2.1 y.2.1 ∨ x.2.1 = y.2.1 ∧ False) := h
      rcases h with h | ⟨e, h⟩
      · exact .inl (plus_ahead h)
      refine .inr ⟨by simp only [Option.map, e], ?_⟩
      rcases h with h | ⟨_, h⟩
      · show Ahead (x.2.1.map (·.2)) (y.2.1.map (·.2))
        revert h
        generalize x.2.1 = w
        generalize y.2.1 = w'
        intro h
        cases w with
        | none => exact (show False from h).elim
        | some w =>
          cases w' with
          | none => exact trivial
          | some w' =>
            have h : False ∨ w.1 = w'.1 ∧ w'.2.length < w.2.length := h
            rcases h with h | ⟨_, h⟩
            · exact h.elim
            · exact h
      · exact h.elim

theorem port_ahead {x y : Option (Char × Char × Str)} (h : (rePort K).Lt x y) :
    Ahead (x.map (fun p => p.2.1 :: p.2.2)) (y.map (fun p => p.2.1 :: p.2.2)) := by
  cases x with
  | none => exact (show False from h).elim
  | some x =>
    cases y with
    | none => exact trivial
    | some y =>
      have h : False ∨ x.1 = y.1 ∧ (Re.plus K.digit).Lt x.2 y.2 := h
      rcases h with h | ⟨_, h⟩
      · exact h.elim
      · exact plus_ahead h

theorem path_ahead {x y : Option (Char × Str)} (h : rePath.Lt x y) : Ahead (x.map (·.2)) (y.map (·.2)) := by
  cases x with
  | none => exact (show False from h).elim
  | some x =>
    cases y with
    | none => exact trivial
    | some y =>
      have h : False ∨ x.1 = y.1 ∧ y.2.length < x.2.length := h
      rcases h with h | ⟨_, h⟩
      · exact h.elim
      · exact h

theorem scheme_lt (x y : Char × Char × Char × Char × Char × Char) : ¬ (Re.lit 's' ['m', 'b', ':', '/', '/']).Lt x y := by
  rintro (h | ⟨_, h | ⟨_, h | ⟨_, h | ⟨_, h | ⟨_, h⟩⟩⟩⟩⟩) <;> exact h

/-- The order of the matches is the order of the readings. -/
theorem parts_before {t t' : UriTree} (h : (uriRegex K).Lt (t.re K) (t'.re K)) : t.parts.Before t'.parts := by
  obtain ⟨tl, td, tu, th, tp, tsl, ts, tx⟩ := t
  obtain ⟨tl', td', tu', th', tp', tsl', ts', tx'⟩ := t'
  have key : (Re.lit 's' ['m', 'b', ':', '/', '/']).Lt tl tl' ∨ tl = tl' ∧
      ((reDomain K).Lt td td' ∨ td = td' ∧ ((reUser K).Lt tu tu' ∨ tu = tu' ∧ ((reHost K).Lt th th' ∨ th = th' ∧
      ((rePort K).Lt tp tp' ∨ tp = tp' ∧ (False ∨ tsl = tsl' ∧ ((reShare K).Lt ts ts' ∨ ts = ts' ∧ rePath.Lt tx tx')))))) := h
  clear h
  rcases key with h | ⟨_, key⟩
  · exact absurd h (scheme_lt _ _)
  rcases key with h | ⟨e1, key⟩
  · exact .inl (domain_ahead K h)
  refine .inr ⟨congrArg (Option.map _) e1, ?_⟩
  rcases key with h | ⟨e2, key⟩
  · rcases user_ahead K h with h | ⟨e, h⟩
    · exact .inl h
    · exact .inr ⟨e, .inl h⟩
  refine .inr ⟨congrArg (Option.map _) e2, .inr ⟨congrArg (fun u => Option.bind u _) e2, ?_⟩⟩
  rcases key with h | ⟨e3, key⟩
  · exact .inl (plus_ahead (q := K.word) h)
  refine .inr ⟨congrArg (fun x : Char × Str => x.1 :: x.2) e3, ?_⟩
  rcases key with h | ⟨e4, key⟩
  · exact .inl (port_ahead K h)
  refine .inr ⟨congrArg (Option.map _) e4, ?_⟩
  rcases key with h | ⟨_, key⟩
  · exact h.elim
  rcases key with h | ⟨e5, key⟩
  · exact .inl (plus_ahead (q := shareChar K) h)
  exact .inr ⟨congrArg (fun x : Char × Str => x.1 :: x.2) e5, path_ahead key⟩

theorem name_domain (t : UriTree) (rest : Str) : ((uriRegex K).success (t.re K, rest)).name .domain = t.parts.domain := by
  obtain ⟨tl, td, tu, ⟨h1, h2⟩, tp, tsl, ⟨s1, s2⟩, tx⟩ := t
  cases td <;> rcases tu with _ | ⟨_, _ | _, _⟩ <;> cases tp <;> cases tx <;> rfl
theorem name_user (t : UriTree) (rest : Str) : ((uriRegex K).success (t.re K, rest)).name .user = t.parts.user := by
  obtain ⟨tl, td, tu, ⟨h1, h2⟩, tp, tsl, ⟨s1, s2⟩, tx⟩ := t
  cases td <;> rcases tu with _ | ⟨_, _ | _, _⟩ <;> cases tp <;> cases tx <;> rfl
theorem name_passwd (t : UriTree) (rest : Str) : ((uriRegex K).success (t.re K, rest)).name .passwd = t.parts.password := by
  obtain ⟨tl, td, tu, ⟨h1, h2⟩, tp, tsl, ⟨s1, s2⟩, tx⟩ := t
  cases td <;> rcases tu with _ | ⟨_, _ | _, _⟩ <;> cases tp <;> cases tx <;> rfl
theorem name_host (t : UriTree) (rest : Str) : ((uriRegex K).success (t.re K, rest)).name .host = some t.parts.host := by
  obtain ⟨tl, td, tu, ⟨h1, h2⟩, tp, tsl, ⟨s1, s2⟩, tx⟩ := t
  cases td <;> rcases tu with _ | ⟨_, _ | _, _⟩ <;> cases tp <;> cases tx <;> rfl
theorem name_port (t : UriTree) (rest : Str) : ((uriRegex K).success (t.re K, rest)).name .port = t.parts.port := by
  obtain ⟨tl, td, tu, ⟨h1, h2⟩, tp, tsl, ⟨s1, s2⟩, tx⟩ := t
  cases td <;> rcases tu with _ | ⟨_, _ | _, _⟩ <;> cases tp <;> cases tx <;> rfl
theorem name_share (t : UriTree) (rest : Str) : ((uriRegex K).success (t.re K, rest)).name .share = some t.parts.share := by
  obtain ⟨tl, td, tu, ⟨h1, h2⟩, tp, tsl, ⟨s1, s2⟩, tx⟩ := t
  cases td <;> rcases tu with _ | ⟨_, _ | _, _⟩ <;> cases tp <;> cases tx <;> rfl
theorem name_path (t : UriTree) (rest : Str) : ((uriRegex K).success (t.re K, rest)).name .path = t.parts.path := by
  obtain ⟨tl, td, tu, ⟨h1, h2⟩, tp, tsl, ⟨s1, s2⟩, tx⟩ := t
  cases td <;> rcases tu with _ | ⟨_, _ | _, _⟩ <;> cases tp <;> cases tx <;> rfl

end Cifs
