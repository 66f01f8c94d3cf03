import Verif.Model.Uri
/-!
# The matcher finds the first match

A success of the matcher is described by a tree that says what each part of the pattern matched. The order of the trees is the documented
one: the first part that differs decides; a repetition prefers more, an optional group prefers to be present.
-/

namespace Cifs

/-- What each part of the pattern matched. -/
def Re.Tree : Re → Type
  | .cls _ => Char
  | .star _ => Str
  | .seq a b => a.Tree × b.Tree
  | .opt a => Option a.Tree
  | .cap _ a => a.Tree

/-- The text matched. -/
def Re.text : (r : Re) → r.Tree → Str
  | .cls _, c => [c]
  | .star _, s => s
  | .seq a b, (x, y) => a.text x ++ b.text y
  | .opt _, none => []
  | .opt a, some x => a.text x
  | .cap _ a, x => a.text x

/-- The captures. -/
def Re.caps : (r : Re) → r.Tree → List (Grp × Str)
  | .cls _, _ => []
  | .star _, _ => []
  | .seq a b, (x, y) => a.caps x ++ b.caps y
  | .opt _, none => []
  | .opt a, some x => a.caps x
  | .cap g a, x => (g, a.text x) :: a.caps x

/-- Every character is in the class. -/
def AllIn (p : Char → Bool) (s : Str) : Prop := ∀ c ∈ s, p c = true

/-- First the successes of an optional group, then its absence. -/
def optList {α : Type} (l : List (α × Str)) (s : Str) : List (Option α × Str) := l.map (fun m => (some m.1, m.2)) ++ [(none, s)]

theorem map_optList {α β : Type} (l : List (α × Str)) (s : Str) (f : Option α × Str → β) :
    (optList l s).map f = l.map (fun m => f (some m.1, m.2)) ++ [f (none, s)] := by
  simp [optList, Function.comp_def]

theorem mem_optList_some {α : Type} (l : List (α × Str)) (s rest : Str) (x : α) : (some x, rest) ∈ optList l s ↔ (x, rest) ∈ l := by
  unfold optList
  rw [List.mem_append, List.mem_map, List.mem_singleton]
  constructor
  · rintro (⟨⟨x', r'⟩, hm, h⟩ | h)
    · cases h; exact hm
    · cases h
  · intro h
    exact .inl ⟨(x, rest), h, rfl⟩

theorem mem_optList_none {α : Type} (l : List (α × Str)) (s rest : Str) : ((none : Option α), rest) ∈ optList l s ↔ s = rest := by
  unfold optList
  rw [List.mem_append, List.mem_map, List.mem_singleton]
  constructor
  · rintro (⟨⟨x', r'⟩, hm, h⟩ | h)
    · cases h
    · cases h; rfl
  · intro h
    exact .inr (by rw [h])

theorem optList_pairwise {α : Type} {l : List (α × Str)} {s : Str} {R : α → α → Prop} {Q : Option α × Str → Option α × Str → Prop}
    (h : l.Pairwise (fun a b => R a.1 b.1)) (h1 : ∀ a b r r', R a b → Q (some a, r) (some b, r')) (h2 : ∀ a r r', Q (some a, r) (none, r')) :
    (optList l s).Pairwise Q := by
  unfold optList
  rw [List.pairwise_append, List.pairwise_map]
  refine ⟨h.imp (fun h => h1 _ _ _ _ h), by simp, ?_⟩
  intro m hm n hn
  rw [List.mem_singleton] at hn
  obtain ⟨x, _, rfl⟩ := List.mem_map.1 hm
  rw [hn]
  exact h2 _ _ _

/-- Every character is in its class. -/
def Re.Fits : (r : Re) → r.Tree → Prop
  | .cls p, c => p c = true
  | .star p, s => AllIn p s
  | .seq a b, (x, y) => a.Fits x ∧ b.Fits y
  | .opt _, none => True
  | .opt a, some x => a.Fits x
  | .cap _ a, x => a.Fits x

/-- The order of preference. -/
def Re.Lt : (r : Re) → r.Tree → r.Tree → Prop
  | .cls _, _, _ => False
  | .star _, s, t => (t : Str).length < (s : Str).length
  | .seq a b, (x, y), (x', y') => a.Lt x x' ∨ x = x' ∧ b.Lt y y'
  | .opt _, none, _ => False
  | .opt _, some _, none => True
  | .opt a, some x, some y => a.Lt x y
  | .cap _ a, x, y => a.Lt x y

/-- All trees of matches at the beginning of a text, with the text left, in the order of the matcher. -/
def Re.trees : (r : Re) → Str → List (r.Tree × Str)
  | .cls _, [] => []
  | .cls p, c :: cs => if p c then [(c, cs)] else []
  | .star p, s => starRun p s
  | .seq a b, s => (a.trees s).flatMap (fun m => (b.trees m.2).map (fun n => ((m.1, n.1), n.2)))
  | .opt a, s => optList (a.trees s) s
  | .cap _ a, s => a.trees s

/-- The success a tree describes. -/
def Re.success (r : Re) (m : r.Tree × Str) : ReMatch := { text := r.text m.1, caps := r.caps m.1, rest := m.2 }

theorem Re.run_eq (r : Re) (s : Str) : r.run s = (r.trees s).map r.success := by
  induction r generalizing s with
  | cls p =>
    cases s with
    | nil => rfl
    | cons c cs => simp only [Re.run, Re.trees]; split <;> rfl
  | star p => rfl
  | seq a b iha ihb =>
    simp only [Re.run, Re.trees, iha, ihb, List.flatMap_map, List.map_flatMap, List.map_map]
    rfl
  | opt a ih =>
    simp only [Re.run, ih]
    exact (map_optList (a.trees s) s (Re.opt a).success).symm
  | cap g a ih =>
    simp only [Re.run, Re.trees, ih, List.map_map]
    rfl

theorem mem_starRun (p : Char → Bool) (s t rest : Str) : (t, rest) ∈ starRun p s ↔ s = t ++ rest ∧ ∀ c ∈ t, p c = true := by
  induction s generalizing t with
  | nil =>
    simp only [starRun, List.mem_singleton, Prod.mk.injEq]
    constructor
    · rintro ⟨rfl, rfl⟩; simp
    · rintro ⟨h, _⟩
      have := List.append_eq_nil_iff.1 h.symm
      exact this
  | cons c cs ih =>
    have hnil : (t, rest) = ([], c :: cs) → c :: cs = t ++ rest ∧ ∀ x ∈ t, p x = true := by
      intro h; cases h; simp
    simp only [starRun]
    split
    · rename_i hc
      rw [List.mem_append, List.mem_singleton, List.mem_map]
      constructor
      · rintro (⟨⟨t', r'⟩, hm, h⟩ | h)
        · cases h
          obtain ⟨h1, h2⟩ := (ih t').1 hm
          refine ⟨by rw [List.cons_append]; exact congrArg _ h1, ?_⟩
          intro x hx
          cases hx with
          | head => exact hc
          | tail _ hx => exact h2 x hx
        · exact hnil h
      · rintro ⟨h1, h2⟩
        cases t with
        | nil => exact .inr (by rw [h1]; rfl)
        | cons d t =>
          rw [List.cons_append] at h1
          cases h1
          exact .inl ⟨(t, rest), (ih t).2 ⟨rfl, fun x hx => h2 x (.tail _ hx)⟩, rfl⟩
    · rename_i hc
      rw [List.mem_singleton]
      constructor
      · exact hnil
      · rintro ⟨h1, h2⟩
        cases t with
        | nil => rw [h1]; rfl
        | cons d t =>
          rw [List.cons_append] at h1
          cases h1
          exact absurd (h2 c (.head _)) hc

/-- The matcher finds exactly the matches. -/
theorem Re.mem_trees (r : Re) (s : Str) (t : r.Tree) (rest : Str) : (t, rest) ∈ r.trees s ↔ s = r.text t ++ rest ∧ r.Fits t := by
  induction r generalizing s rest with
  | cls p =>
    cases s with
    | nil => simp [Re.trees, Re.text]
    | cons c cs =>
      simp only [Re.trees, Re.text, Re.Fits]
      split
      · rename_i hc
        rw [List.mem_singleton]
        constructor
        · intro h; cases h; exact ⟨rfl, hc⟩
        · rintro ⟨h, _⟩; cases h; rfl
      · rename_i hc
        constructor
        · intro h; cases h
        · rintro ⟨h, h'⟩; cases h; exact absurd h' hc
  | star p => exact mem_starRun p s t rest
  | seq a b iha ihb =>
    obtain ⟨x, y⟩ := t
    simp only [Re.trees, List.mem_flatMap, List.mem_map]
    constructor
    · rintro ⟨⟨x', r'⟩, hm, ⟨y', r''⟩, hn, h⟩
      cases h
      obtain ⟨h1, h2⟩ := (iha _ _ _).1 hm
      obtain ⟨h3, h4⟩ := (ihb _ _ _).1 hn
      refine ⟨?_, h2, h4⟩
      rw [h1]
      dsimp only at h3
      rw [h3]
      exact (List.append_assoc _ _ _).symm
    · rintro ⟨h, h2, h4⟩
      refine ⟨(x, b.text y ++ rest), (iha _ _ _).2 ⟨?_, h2⟩, (y, rest), (ihb _ _ _).2 ⟨rfl, h4⟩, rfl⟩
      rw [h]
      exact List.append_assoc _ _ _
  | opt a ih =>
    cases t with
    | none => exact (mem_optList_none (a.trees s) s rest).trans ⟨fun h => ⟨h, trivial⟩, fun h => h.1⟩
    | some x => exact (mem_optList_some (a.trees s) s rest x).trans (ih _ _ _)
  | cap g a ih => exact ih s t rest

theorem starRun_ordered (p : Char → Bool) (s : Str) : (starRun p s).Pairwise (fun a b => b.1.length < a.1.length) := by
  induction s with
  | nil => simp [starRun]
  | cons c cs ih =>
    simp only [starRun]
    split
    · rw [List.pairwise_append, List.pairwise_map]
      refine ⟨?_, by simp, ?_⟩
      · exact ih.imp (fun h => by simpa using h)
      · intro a ha b hb
        rw [List.mem_singleton] at hb
        obtain ⟨x, _, rfl⟩ := List.mem_map.1 ha
        rw [hb]
        simp
    · simp

/-- It finds them in the order of preference. -/
theorem Re.trees_ordered (r : Re) (s : Str) : (r.trees s).Pairwise (fun a b => r.Lt a.1 b.1) := by
  induction r generalizing s with
  | cls p =>
    cases s with
    | nil => simp [Re.trees]
    | cons c cs => simp only [Re.trees]; split <;> simp
  | star p => exact starRun_ordered p s
  | seq a b iha ihb =>
    simp only [Re.trees]
    rw [List.pairwise_flatMap]
    constructor
    · intro m _
      rw [List.pairwise_map]
      exact (ihb m.2).imp (fun h => .inr ⟨rfl, h⟩)
    · refine (iha s).imp ?_
      intro m m' h x hx y hy
      obtain ⟨n, _, rfl⟩ := List.mem_map.1 hx
      obtain ⟨n', _, rfl⟩ := List.mem_map.1 hy
      exact .inl h
  | opt a ih =>
    exact optList_pairwise (R := a.Lt) (Q := fun x y => (Re.opt a).Lt x.1 y.1) (ih s) (fun _ _ _ _ h => h) (fun _ _ _ => trivial)
  | cap g a ih => exact ih s

/-- `regex` semantics: the match that begins leftmost and, of those, is preferred. -/
theorem Re.find_some (r : Re) (s : Str) (m : ReMatch) (h : r.find s = some m) : ∃ before t, s = before ++ r.text t ++ m.rest ∧ r.Fits t ∧
    m = r.success (t, m.rest) ∧ ∀ before' t' rest', s = before' ++ r.text t' ++ rest' → r.Fits t' →
      before.length < before'.length ∨ before = before' ∧ (t = t' ∧ m.rest = rest' ∨ r.Lt t t') := by
  have here : ∀ s, (r.run s).head? = some m → ∃ t, s = r.text t ++ m.rest ∧ r.Fits t ∧ m = r.success (t, m.rest) ∧
      ∀ t' rest', s = r.text t' ++ rest' → r.Fits t' → t = t' ∧ m.rest = rest' ∨ r.Lt t t' := by
    intro s h
    rw [Re.run_eq] at h
    have ho := r.trees_ordered s
    have hm := fun t rest => r.mem_trees s t rest
    revert h ho hm
    cases r.trees s with
    | nil => intro h; cases h
    | cons x xs =>
      intro h ho hm
      obtain ⟨t, rest⟩ := x
      cases h
      refine ⟨t, ((hm t rest).1 (.head _)).1, ((hm t rest).1 (.head _)).2, rfl, ?_⟩
      intro t' rest' h1 h2
      cases (hm t' rest').2 ⟨h1, h2⟩ with
      | head => exact .inl ⟨rfl, rfl⟩
      | tail _ hx => exact .inr ((List.pairwise_cons.1 ho).1 _ hx)
  induction s with
  | nil =>
    obtain ⟨t, h1, h2, h3, h4⟩ := here [] h
    refine ⟨[], t, h1, h2, h3, ?_⟩
    intro before' t' rest' h5 h6
    cases before' with
    | nil => exact .inr ⟨rfl, h4 t' rest' h5 h6⟩
    | cons => exact .inl (by simp)
  | cons c cs ih =>
    simp only [Re.find] at h
    cases hh : (r.run (c :: cs)).head? with
    | some m' =>
      rw [hh] at h
      cases h
      obtain ⟨t, h1, h2, h3, h4⟩ := here _ hh
      refine ⟨[], t, h1, h2, h3, ?_⟩
      intro before' t' rest' h5 h6
      cases before' with
      | nil => exact .inr ⟨rfl, h4 t' rest' h5 h6⟩
      | cons => exact .inl (by simp)
    | none =>
      rw [hh] at h
      obtain ⟨before, t, h1, h2, h3, h4⟩ := ih h
      refine ⟨c :: before, t, ?_, h2, h3, ?_⟩
      · simp only [List.cons_append]
        exact congrArg _ h1
      intro before' t' rest' h5 h6
      cases before' with
      | nil =>
        rw [Re.run_eq, List.head?_eq_none_iff, List.map_eq_nil_iff] at hh
        have := (r.mem_trees (c :: cs) t' rest').2 ⟨h5, h6⟩
        rw [hh] at this
        cases this
      | cons d before' =>
        simp only [List.cons_append, List.cons.injEq] at h5
        rcases h4 before' t' rest' h5.2 h6 with h | ⟨h, h'⟩
        · exact .inl (by simpa using h)
        · exact .inr ⟨by rw [h, h5.1], h'⟩

theorem Re.find_none (r : Re) (s : Str) (h : r.find s = none) : ∀ before t rest, s = before ++ r.text t ++ rest → ¬ r.Fits t := by
  have here : ∀ s, (r.run s).head? = none → ∀ t rest, s = r.text t ++ rest → ¬ r.Fits t := by
    intro s hh t rest h1 h2
    rw [Re.run_eq, List.head?_eq_none_iff, List.map_eq_nil_iff] at hh
    have := (r.mem_trees s t rest).2 ⟨h1, h2⟩
    rw [hh] at this
    cases this
  induction s with
  | nil =>
    intro before t rest h1
    cases before with
    | nil => exact here [] h t rest h1
    | cons => cases h1
  | cons c cs ih =>
    simp only [Re.find] at h
    cases hh : (r.run (c :: cs)).head? with
    | some m' => rw [hh] at h; cases h
    | none =>
      rw [hh] at h
      intro before t rest h1
      cases before with
      | nil => exact here _ hh t rest h1
      | cons d before =>
        simp only [List.cons_append, List.cons.injEq] at h1
        exact ih h before t rest h1.2

end Cifs
