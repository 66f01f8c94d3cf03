import Verif.Lemmas.Uri
/-!
# Where the parts of a URI end
-/

namespace Cifs

theorem run_split {P : Char → Prop} {x y r r' : Str} {a b : Char} (hx : ∀ c ∈ x, P c) (hy : ∀ c ∈ y, P c) (ha : ¬ P a) (hb : ¬ P b)
    (h : x ++ a :: r = y ++ b :: r') : x = y ∧ a = b ∧ r = r' := by
  induction x generalizing y with
  | nil =>
    cases y with
    | nil => cases h; exact ⟨rfl, rfl, rfl⟩
    | cons d y => cases h; exact absurd (hy _ (.head _)) ha
  | cons c x ih =>
    cases y with
    | nil => cases h; exact absurd (hx _ (.head _)) hb
    | cons d y =>
      simp only [List.cons_append, List.cons.injEq] at h
      obtain ⟨e1, e2, e3⟩ := ih (fun c hc => hx c (.tail _ hc)) (fun c hc => hy c (.tail _ hc)) h.2
      exact ⟨by rw [h.1, e1], e2, e3⟩

/-- The first `a` is found after a text without one. -/
theorem free_split {a : Char} {A B w z : Str} (hA : a ∉ A) (hw : a ∉ w) (h : A ++ B = w ++ a :: z) : ∃ x, w = A ++ x ∧ B = x ++ a :: z := by
  induction A generalizing w with
  | nil => exact ⟨w, rfl, h⟩
  | cons c A ih =>
    cases w with
    | nil => cases h; exact absurd (.head _) hA
    | cons d w =>
      simp only [List.cons_append, List.cons.injEq] at h
      obtain ⟨x, e1, e2⟩ := ih (fun h => hA (.tail _ h)) (fun h => hw (.tail _ h)) h.2
      exact ⟨x, by rw [e1, h.1, List.cons_append], e2⟩

variable (K : CharClass)

theorem word_not {c : Char} (h : c.toNat < 128) (h' : (c.isAlphanum || c == '_') = false) : K.word c = false := by rw [K.word_ascii c h, h']
theorem digit_not {c : Char} (h : c.toNat < 128) (h' : c.isDigit = false) : K.digit c = false := by rw [K.digit_ascii c h, h']

theorem not_user {c : Char} (h : c.toNat < 128) (h' : (c.isAlphanum || c == '_') = false) (h1 : c ≠ '.') (h2 : c ≠ '+') (h3 : c ≠ '-') :
    ¬ (K.word c = true ∨ c = '.' ∨ c = '+' ∨ c = '-') := by
  rw [word_not K h h']
  rintro (h | h | h | h)
  · cases h
  · exact h1 h
  · exact h2 h
  · exact h3 h

theorem not_host {c : Char} (h : c.toNat < 128) (h' : (c.isAlphanum || c == '_') = false) (h1 : c ≠ '.') (h3 : c ≠ '-') :
    ¬ (K.word c = true ∨ c = '.' ∨ c = '-') := by
  rw [word_not K h h']
  rintro (h | h | h)
  · cases h
  · exact h1 h
  · exact h3 h

theorem host_text {p : UriParts} (h : p.Valid K) : TextOf (fun c => K.word c = true ∨ c = '.' ∨ c = '-') p.host := by
  obtain ⟨c, t, e, h1, h2⟩ := h.host
  rw [e]
  exact .cons (.inl h1) h2

/-- What follows the host. -/
def UriParts.tail (p : UriParts) : Str := optText [':'] p.port [] ++ ['/'] ++ p.share ++ optText ['/'] p.path []

theorem text_eq (p : UriParts) : p.text = ['s', 'm', 'b', ':', '/', '/'] ++ (optText [] p.domain [';'] ++ (userText p ++ (p.host ++ p.tail))) := by
  unfold UriParts.text UriParts.tail
  simp only [List.append_assoc]

/-- What follows the host begins with a colon or a slash. -/
theorem tail_cases (p : UriParts) : (∃ t, p.port = some t ∧ p.tail = ':' :: (t ++ '/' :: (p.share ++ optText ['/'] p.path []))) ∨
    (p.port = none ∧ p.tail = '/' :: (p.share ++ optText ['/'] p.path [])) := by
  unfold UriParts.tail
  cases p.port with
  | none => exact .inr ⟨rfl, by simp [optText]⟩
  | some t => exact .inl ⟨t, rfl, by simp [optText]⟩

theorem userText_cases (p : UriParts) : (∃ u w, p.user = some u ∧ p.password = some w ∧ userText p = u ++ ':' :: (w ++ ['@'])) ∨
    (∃ u, p.user = some u ∧ p.password = none ∧ userText p = u ++ ['@']) ∨ (p.user = none ∧ userText p = []) := by
  unfold userText
  cases p.user with
  | none => exact .inr (.inr ⟨rfl, rfl⟩)
  | some u =>
    cases p.password with
    | none => exact .inr (.inl ⟨u, rfl, rfl, by simp [optText]⟩)
    | some w => exact .inl ⟨u, w, rfl, rfl, by simp [optText]⟩

/-- A text of user characters, followed by something else, begins with letters, followed by something other than a semicolon. -/
theorem word_run {u : Str} (h : ∀ c ∈ u, K.word c = true ∨ c = '.' ∨ c = '+' ∨ c = '-') {x : Char} (hx : x = ':' ∨ x = '@' ∨ x = '/') (r : Str) :
    ∃ w y r', u ++ x :: r = w ++ y :: r' ∧ (∀ c ∈ w, K.word c = true) ∧ ¬ K.word y = true ∧ y ≠ ';' := by
  induction u with
  | nil =>
    refine ⟨[], x, r, rfl, fun _ h => (by cases h), ?_, ?_⟩
    · rcases hx with rfl | rfl | rfl <;> rw [word_not K (by decide) (by decide)] <;> decide
    · rcases hx with rfl | rfl | rfl <;> decide
  | cons c u ih =>
    by_cases hc : K.word c = true
    · obtain ⟨w, y, r', e, h1, h2⟩ := ih (fun c hc => h c (.tail _ hc))
      refine ⟨c :: w, y, r', by simp only [List.cons_append, e], ?_, h2⟩
      intro z hz
      cases hz with
      | head => exact hc
      | tail _ hz => exact h1 z hz
    · refine ⟨[], c, u ++ x :: r, rfl, fun _ h => (by cases h), hc, ?_⟩
      rcases h c (.head _) with h | rfl | rfl | rfl
      · exact absurd h hc
      · decide
      · decide
      · decide

theorem after_domain {p : UriParts} (h : p.Valid K) (after : Str) :
    ∃ w y r', userText p ++ (p.host ++ p.tail) ++ after = w ++ y :: r' ∧ (∀ c ∈ w, K.word c = true) ∧ ¬ K.word y = true ∧ y ≠ ';' := by
  rcases userText_cases p with ⟨u, w, hu, hw, e⟩ | ⟨u, hu, hw, e⟩ | ⟨hu, e⟩
  · obtain ⟨w', y, r', k⟩ := word_run K (h.user u hu).2 (.inl rfl) (w ++ ['@'] ++ (p.host ++ p.tail) ++ after)
    refine ⟨w', y, r', ?_, k.2⟩
    rw [← k.1, e]
    simp
  · obtain ⟨w', y, r', k⟩ := word_run K (h.user u hu).2 (.inr (.inl rfl)) (p.host ++ p.tail ++ after)
    refine ⟨w', y, r', ?_, k.2⟩
    rw [← k.1, e]
    simp
  · have hh : ∀ c ∈ p.host, K.word c = true ∨ c = '.' ∨ c = '+' ∨ c = '-' := by
      intro c hc
      rcases (host_text K h).2 c hc with h | h | h
      · exact .inl h
      · exact .inr (.inl h)
      · exact .inr (.inr (.inr h))
    rcases tail_cases p with ⟨t, _, et⟩ | ⟨_, et⟩
    · obtain ⟨w', y, r', k⟩ := word_run K hh (.inl rfl) (t ++ '/' :: (p.share ++ optText ['/'] p.path []) ++ after)
      refine ⟨w', y, r', ?_, k.2⟩
      rw [← k.1, e, et]
      simp
    · obtain ⟨w', y, r', k⟩ := word_run K hh (.inr (.inr rfl)) (p.share ++ optText ['/'] p.path [] ++ after)
      refine ⟨w', y, r', ?_, k.2⟩
      rw [← k.1, e, et]
      simp

theorem semicolon : ¬ K.word ';' = true := by rw [word_not K (by decide) (by decide)]; decide

/-- The domain is determined. -/
theorem same_domain {p q : UriParts} (hp : p.Valid K) (hq : q.Valid K) {a b : Str} (h : p.text ++ a = q.text ++ b) :
    p.domain = q.domain ∧ userText p ++ (p.host ++ p.tail) ++ a = userText q ++ (q.host ++ q.tail) ++ b := by
  have e : ∀ (p : UriParts) (a : Str), p.text ++ a =
      ['s', 'm', 'b', ':', '/', '/'] ++ (optText [] p.domain [';'] ++ (userText p ++ (p.host ++ p.tail) ++ a)) := by
    intro p a
    rw [text_eq]
    simp only [List.append_assoc]
  rw [e, e] at h
  have h := List.append_cancel_left h
  cases hd : p.domain with
  | none =>
    cases hd' : q.domain with
    | none => rw [hd, hd'] at h; exact ⟨rfl, h⟩
    | some d' =>
      rw [hd, hd'] at h
      obtain ⟨w, y, r', k, k1, k2, k3⟩ := after_domain K hp a
      simp only [optText, List.nil_append] at h
      rw [k] at h
      rw [List.append_assoc] at h
      exact absurd (run_split (P := fun c => K.word c = true) k1 (hq.domain d' hd').2 k2 (semicolon K) h).2.1 k3
  | some d =>
    cases hd' : q.domain with
    | none =>
      rw [hd, hd'] at h
      obtain ⟨w, y, r', k, k1, k2, k3⟩ := after_domain K hq b
      simp only [optText, List.nil_append] at h
      rw [k] at h
      rw [List.append_assoc] at h
      exact absurd (run_split (P := fun c => K.word c = true) (hp.domain d hd).2 k1 (semicolon K) k2 h).2.1.symm k3
    | some d' =>
      rw [hd, hd'] at h
      simp only [optText, List.nil_append] at h
      rw [List.append_assoc d, List.append_assoc d'] at h
      obtain ⟨e1, _, e2⟩ := run_split (P := fun c => K.word c = true) (hp.domain d hd).2 (hq.domain d' hd').2 (semicolon K) (semicolon K) h
      exact ⟨by rw [e1], e2⟩

/-- Host and port are determined by what follows the user. -/
theorem same_host {p q : UriParts} (hp : p.Valid K) (hq : q.Valid K) {a b : Str} (h : p.host ++ p.tail ++ a = q.host ++ q.tail ++ b) :
    p.host = q.host ∧ p.port = q.port ∧ p.share ++ optText ['/'] p.path [] ++ a = q.share ++ optText ['/'] q.path [] ++ b := by
  have c1 : ¬ (K.word ':' = true ∨ ':' = '.' ∨ ':' = '-') := not_host K (by decide) (by decide) (by decide) (by decide)
  have c2 : ¬ (K.word '/' = true ∨ '/' = '.' ∨ '/' = '-') := not_host K (by decide) (by decide) (by decide) (by decide)
  have c3 : ¬ K.digit '/' = true := by rw [digit_not K (by decide) (by decide)]; decide
  rcases tail_cases p with ⟨t, ht, et⟩ | ⟨ht, et⟩ <;> rcases tail_cases q with ⟨t', ht', et'⟩ | ⟨ht', et'⟩ <;>
    rw [et, et', List.append_assoc, List.append_assoc] at h
  · obtain ⟨e1, _, e2⟩ := run_split (P := fun c => K.word c = true ∨ c = '.' ∨ c = '-') (host_text K hp).2 (host_text K hq).2 c1 c1 h
    have e2 : t ++ '/' :: (p.share ++ optText ['/'] p.path [] ++ a) = t' ++ '/' :: (q.share ++ optText ['/'] q.path [] ++ b) := by
      have e2 : t ++ '/' :: (p.share ++ optText ['/'] p.path []) ++ a = t' ++ '/' :: (q.share ++ optText ['/'] q.path []) ++ b := e2
      rw [List.append_assoc, List.append_assoc] at e2
      exact e2
    obtain ⟨e3, _, e4⟩ := run_split (P := fun c => K.digit c = true) (hp.port t ht).2 (hq.port t' ht').2 c3 c3 e2
    exact ⟨e1, by rw [ht, ht', e3], e4⟩
  · have := (run_split (P := fun c => K.word c = true ∨ c = '.' ∨ c = '-') (host_text K hp).2 (host_text K hq).2 c1 c2 h).2.1
    exact absurd this (by decide)
  · have := (run_split (P := fun c => K.word c = true ∨ c = '.' ∨ c = '-') (host_text K hp).2 (host_text K hq).2 c2 c1 h).2.1
    exact absurd this (by decide)
  · obtain ⟨e1, _, e2⟩ := run_split (P := fun c => K.word c = true ∨ c = '.' ∨ c = '-') (host_text K hp).2 (host_text K hq).2 c2 c2 h
    exact ⟨e1, by rw [ht, ht'], e2⟩

/-- User and password are determined if there is a user. -/
theorem same_user {p q : UriParts} (hp : p.Valid K) (hq : q.Valid K) {a b : Str} (hpu : p.user ≠ none) (hqu : q.user ≠ none)
    (h : userText p ++ (p.host ++ p.tail) ++ a = userText q ++ (q.host ++ q.tail) ++ b) :
    p.user = q.user ∧ p.password = q.password ∧ p.host ++ p.tail ++ a = q.host ++ q.tail ++ b := by
  have c1 : ¬ (K.word ':' = true ∨ ':' = '.' ∨ ':' = '+' ∨ ':' = '-') := not_user K (by decide) (by decide) (by decide) (by decide) (by decide)
  have c2 : ¬ (K.word '@' = true ∨ '@' = '.' ∨ '@' = '+' ∨ '@' = '-') := not_user K (by decide) (by decide) (by decide) (by decide) (by decide)
  rcases userText_cases p with ⟨u, w, hu, hw, e⟩ | ⟨u, hu, hw, e⟩ | ⟨hu, e⟩
  · rcases userText_cases q with ⟨u', w', hu', hw', e'⟩ | ⟨u', hu', hw', e'⟩ | ⟨hu', _⟩
    · rw [e, e'] at h
      simp only [List.append_assoc, List.cons_append] at h
      obtain ⟨e1, _, e2⟩ := run_split (P := fun c => K.word c = true ∨ c = '.' ∨ c = '+' ∨ c = '-') (hp.user u hu).2 (hq.user u' hu').2 c1 c1 h
      obtain ⟨e3, _, e4⟩ := run_split (P := fun c => c ≠ '@') (hp.password w hw) (hq.password w' hw') (fun h => h rfl) (fun h => h rfl) e2
      exact ⟨by rw [hu, hu', e1], by rw [hw, hw', e3], by simpa using e4⟩
    · rw [e, e'] at h
      simp only [List.append_assoc, List.cons_append] at h
      have := (run_split (P := fun c => K.word c = true ∨ c = '.' ∨ c = '+' ∨ c = '-') (hp.user u hu).2 (hq.user u' hu').2 c1 c2 h).2.1
      exact absurd this (by decide)
    · exact absurd hu' hqu
  · rcases userText_cases q with ⟨u', w', hu', hw', e'⟩ | ⟨u', hu', hw', e'⟩ | ⟨hu', _⟩
    · rw [e, e'] at h
      simp only [List.append_assoc, List.cons_append] at h
      have := (run_split (P := fun c => K.word c = true ∨ c = '.' ∨ c = '+' ∨ c = '-') (hp.user u hu).2 (hq.user u' hu').2 c2 c1 h).2.1
      exact absurd this (by decide)
    · rw [e, e'] at h
      simp only [List.append_assoc, List.cons_append] at h
      obtain ⟨e1, _, e2⟩ := run_split (P := fun c => K.word c = true ∨ c = '.' ∨ c = '+' ∨ c = '-') (hp.user u hu).2 (hq.user u' hu').2 c2 c2 h
      exact ⟨by rw [hu, hu', e1], by rw [hw, hw'], by simpa using e2⟩
    · exact absurd hu' hqu
  · exact absurd hu hpu

/-- When a URI without a user can be read with one: the host is taken for the user, and everything from the port to the first `@` in the path
for the password. -/
theorem mistaken {p q : UriParts} (hp : p.Valid K) (hq : q.Valid K) {a b : Str} (hqu : q.user ≠ none)
    (h : p.host ++ p.tail ++ a = userText q ++ (q.host ++ q.tail) ++ b) :
    q.user = some p.host ∧ ∃ t w x, p.port = some t ∧ q.password = some w ∧ (∀ c ∈ w, c ≠ '@') ∧
      w = t ++ '/' :: p.share ++ x ∧ optText ['/'] p.path [] ++ a = x ++ '@' :: (q.host ++ q.tail ++ b) := by
  have c1 : ¬ (K.word ':' = true ∨ ':' = '.' ∨ ':' = '+' ∨ ':' = '-') := not_user K (by decide) (by decide) (by decide) (by decide) (by decide)
  have c2 : ¬ (K.word '@' = true ∨ '@' = '.' ∨ '@' = '+' ∨ '@' = '-') := not_user K (by decide) (by decide) (by decide) (by decide) (by decide)
  have c3 : ¬ (K.word '/' = true ∨ '/' = '.' ∨ '/' = '+' ∨ '/' = '-') := not_user K (by decide) (by decide) (by decide) (by decide) (by decide)
  have hh : ∀ c ∈ p.host, K.word c = true ∨ c = '.' ∨ c = '+' ∨ c = '-' := by
    intro c hc
    rcases (host_text K hp).2 c hc with h | h | h
    · exact .inl h
    · exact .inr (.inl h)
    · exact .inr (.inr (.inr h))
  rcases userText_cases q with ⟨u', w', hu', hw', e'⟩ | ⟨u', hu', hw', e'⟩ | ⟨hu', _⟩
  · rcases tail_cases p with ⟨t, ht, et⟩ | ⟨ht, et⟩
    · rw [e', et] at h
      simp only [List.append_assoc, List.cons_append] at h
      obtain ⟨e1, _, e2⟩ := run_split (P := fun c => K.word c = true ∨ c = '.' ∨ c = '+' ∨ c = '-') hh (hq.user u' hu').2 c1 c1 h
      have hA : '@' ∉ t ++ '/' :: p.share := by
        rw [List.mem_append, List.mem_cons]
        rintro (h | h | h)
        · have := (hp.port t ht).2 _ h
          dsimp only at this
          rw [digit_not K (by decide) (by decide)] at this
          cases this
        · exact absurd h (by decide)
        · have := hp.share.2 _ h
          exact absurd this (not_host K (by decide) (by decide) (by decide) (by decide))
      have hw : '@' ∉ w' := fun h => hq.password w' hw' _ h rfl
      have e2 : (t ++ '/' :: p.share) ++ (optText ['/'] p.path [] ++ a) = w' ++ '@' :: (q.host ++ q.tail ++ b) := by
        simpa using e2
      obtain ⟨x, e3, e4⟩ := free_split hA hw e2
      exact ⟨by rw [hu', e1], t, w', x, ht, hw', hq.password w' hw', e3, e4⟩
    · rw [e', et] at h
      simp only [List.append_assoc, List.cons_append] at h
      have := (run_split (P := fun c => K.word c = true ∨ c = '.' ∨ c = '+' ∨ c = '-') hh (hq.user u' hu').2 c3 c1 h).2.1
      exact absurd this (by decide)
  · rcases tail_cases p with ⟨t, ht, et⟩ | ⟨ht, et⟩
    · rw [e', et] at h
      simp only [List.append_assoc, List.cons_append] at h
      have := (run_split (P := fun c => K.word c = true ∨ c = '.' ∨ c = '+' ∨ c = '-') hh (hq.user u' hu').2 c1 c2 h).2.1
      exact absurd this (by decide)
    · rw [e', et] at h
      simp only [List.append_assoc, List.cons_append] at h
      have := (run_split (P := fun c => K.word c = true ∨ c = '.' ∨ c = '+' ∨ c = '-') hh (hq.user u' hu').2 c3 c2 h).2.1
      exact absurd this (by decide)
  · exact absurd hu' hqu

/-- Nothing goes ahead of a share and a path that fill the rest of the URI. -/
theorem filled {p q : UriParts} (hq : q.Valid K) {b : Str}
    (h : p.share ++ optText ['/'] p.path [] = q.share ++ optText ['/'] q.path [] ++ b) :
    ¬ (Ahead (some q.share) (some p.share) ∨ q.share = p.share ∧ Ahead q.path p.path) := by
  rintro (hl | ⟨e, hl⟩)
  · have hl : p.share.length < q.share.length := hl
    have hpre : p.share <+: q.share := by
      have h1 : p.share <+: q.share ++ (optText ['/'] q.path [] ++ b) := ⟨optText ['/'] p.path [], by rw [h, List.append_assoc]⟩
      exact List.prefix_of_prefix_length_le h1 (List.prefix_append _ _) (by omega)
    obtain ⟨x, hx⟩ := hpre
    cases x with
    | nil =>
      rw [List.append_nil] at hx
      rw [hx] at hl
      omega
    | cons c x =>
      rw [← hx, List.append_assoc, List.append_assoc] at h
      have h := List.append_cancel_left h
      cases hp : p.path with
      | none => rw [hp] at h; cases h
      | some t =>
        rw [hp] at h
        have hc : '/' = c := (List.cons.inj h).1
        have := hq.share.2 c (by rw [← hx]; simp)
        rw [← hc] at this
        exact not_host K (by decide) (by decide) (by decide) (by decide) this
  · rw [e, List.append_assoc] at h
    have h := congrArg List.length (List.append_cancel_left h)
    cases hp : p.path with
    | none =>
      cases hq : q.path with
      | none => rw [hp, hq] at hl; exact hl.elim
      | some t =>
        rw [hp, hq] at h
        simp [optText] at h
    | some s =>
      cases hq : q.path with
      | none => rw [hp, hq] at hl; exact hl.elim
      | some t =>
        rw [hp, hq] at hl h
        have hl : s.length < t.length := hl
        simp [optText] at h
        omega

end Cifs
