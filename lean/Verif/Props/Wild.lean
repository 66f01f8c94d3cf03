import Verif.Props.Store
import Verif.Spec.Wild
/-!
# Which files are deleted (C88)
-/

namespace Cifs
open Spec

variable {σ : Type}

section
variable {E : Env σ} {own : Nat → Prop} {M : Str → Str → Prop} {rel : Trees → σ → Prop}

/-- **C88** What `delete` does: if it succeeds, all files that fit the path are gone, and there was one at least; otherwise, and apart from
these, nothing has changed. -/
theorem C88_matches {s : St σ} (hi : Implements E.V own s.cli.useUnicode s.cli.uid.toNat (Deletes M) rel) (share : Share) (path : Str) (n : Nat)
    (a : Trees) (hr : Ready E own (n + 1) s) (ha : rel a s.w.srv) :
    ∃ o a' s', runOp E (.delete share path) s = (o, s') ∧ rel a' s'.w.srv ∧ Ready E own n s' ∧
      ((o = .ok .unit ∧ (∃ q, a share.tid.toNat q ≠ none ∧ Hits M (backslashed path) q) ∧ Lost a share.tid.toNat (Hits M (backslashed path)) a') ∨
        ((∀ v, o ≠ .ok v) ∧ a' = a)) := by
  obtain ⟨o, a', s', h1, h2, h3, h4, h5⟩ := C66_operation hi (.delete share path) n a hr ha
  refine ⟨o, a', s', h2, h3, h5, ?_⟩
  cases h1 with
  | long ho =>
    refine .inr ⟨?_, rfl⟩
    rintro v rfl
    rcases ho.2 with ⟨_, h⟩ | ⟨_, _, h⟩ <;> cases h
  | single hc hd =>
    cases hc
    cases hd with
    | deleted hq hh hl => exact .inl ⟨rfl, ⟨_, hq, hh⟩, hl⟩
    | refused => exact .inr ⟨fun v h => (by cases h), rfl⟩
    | other hc => exact absurd rfl (hc _ _)

theorem hits_plain (hM : Globs M) {path q : Str} (hw : ∀ c ∈ path, c ∉ wildcards) : Hits M path q → q = path := by
  rintro ⟨dir, pattern, name, rfl, rfl, _, _, _, h⟩
  rw [(hM.plain _ _ (fun c hc => hw c (List.mem_append_right _ hc))).mp h]

/-- What the user expects: if `delete` succeeds, the file with this name is gone, and nothing else. -/
def C88_Exact (E : Env σ) (s : St σ) (rel : Trees → σ → Prop) (share : Share) (path : Str) : Prop :=
  ∀ a, rel a s.w.srv → ∀ v s', runOp E (.delete share path) s = (.ok v, s') →
    ∃ a', rel a' s'.w.srv ∧ a share.tid.toNat (backslashed path) ≠ none ∧ Lost a share.tid.toNat (· = backslashed path) a'

/-- **C88** With a name without wildcards, exactly the file of this name is deleted. Missing: names with wildcards. -/
theorem C88_exact_partial (hM : Globs M) {s : St σ} (hi : Implements E.V own s.cli.useUnicode s.cli.uid.toNat (Deletes M) rel) (share : Share)
    (path : Str) (n : Nat) (hr : Ready E own (n + 1) s) (hw : ∀ c ∈ path, c ∉ wildcards) : C88_Exact E s rel share path := by
  intro a ha v s' hrun
  obtain ⟨o, a', t, h1, h2, _, h3⟩ := C88_matches hi share path n a hr ha
  rw [hrun] at h1
  cases h1
  have hw' : ∀ c ∈ backslashed path, c ∉ wildcards := by
    intro c hc
    obtain ⟨d, hd, rfl⟩ := List.mem_map.mp hc
    split
    · decide
    · exact hw d hd
  rcases h3 with ⟨_, ⟨q, hq, hh⟩, hl⟩ | ⟨h, _⟩
  · have e := hits_plain hM hw' hh
    subst e
    refine ⟨a', h2, hq, fun t p => ⟨?_, ?_⟩⟩
    · rintro ⟨ht, rfl⟩
      exact (hl t _).1 ⟨ht, hh⟩
    · intro hn
      exact (hl t p).2 (fun ⟨ht, hp⟩ => hn ⟨ht, hits_plain hM hw' hp⟩)
  · exact absurd rfl (h v)

/-- **C88** The same for servers that do not tell certain characters apart, such as small letters from capital ones, and accordingly have no two files whose
names differ in these only: exactly one file is deleted, and its name is the given one in this sense. (Directories are compared as they are.) Missing: names with wildcards. -/
theorem C88_folded_partial (fold : Char → Char) (hM : ∀ pattern name, (∀ c ∈ pattern, c ∉ wildcards) → (M pattern name ↔ name.map fold = pattern.map fold))
    {s : St σ} (hi : Implements E.V own s.cli.useUnicode s.cli.uid.toNat (Deletes M) rel) (share : Share) (path : Str) (n : Nat)
    (hr : Ready E own (n + 1) s) (hw : ∀ c ∈ path, c ∉ wildcards) (a : Trees) (ha : rel a s.w.srv)
    (hone : ∀ p q, a share.tid.toNat p ≠ none → a share.tid.toNat q ≠ none → p.map fold = q.map fold → p = q) {v : Val} {s' : St σ}
    (hrun : runOp E (.delete share path) s = (.ok v, s')) :
    ∃ a' q, rel a' s'.w.srv ∧ a share.tid.toNat q ≠ none ∧ q.map fold = (backslashed path).map fold ∧ Lost a share.tid.toNat (· = q) a' := by
  obtain ⟨o, a', t, h1, h2, _, h3⟩ := C88_matches hi share path n a hr ha
  rw [hrun] at h1
  cases h1
  have hw' : ∀ c ∈ backslashed path, c ∉ wildcards := by
    intro c hc
    obtain ⟨d, hd, rfl⟩ := List.mem_map.mp hc
    split
    · decide
    · exact hw d hd
  have hf : ∀ q, Hits M (backslashed path) q → q.map fold = (backslashed path).map fold := by
    rintro q ⟨dir, pattern, name, e, rfl, _, _, _, h⟩
    have := (hM _ _ (fun c hc => hw' c (by rw [e]; exact List.mem_append_right _ hc))).mp h
    rw [e, List.map_append, List.map_append, this]
  rcases h3 with ⟨_, ⟨q, hq, hh⟩, hl⟩ | ⟨h, _⟩
  · refine ⟨a', q, h2, hq, hf q hh, fun t p => ⟨?_, ?_⟩⟩
    · rintro ⟨ht, rfl⟩
      exact (hl t _).1 ⟨ht, hh⟩
    · intro hn
      by_cases hp : t = share.tid.toNat ∧ Hits M (backslashed path) p
      · rw [(hl t p).1 hp]
        cases hx : a t p with
        | none => rfl
        | some b =>
          refine absurd ⟨hp.1, hone p q ?_ hq ((hf p hp.2).trans (hf q hh).symm)⟩ hn
          rw [← hp.1, hx]; nofun
      · exact (hl t p).2 hp
  · exact absurd rfl (h v)

/-- **C88** If `delete(share, "*")` succeeds, there is no file left at the top of the share. -/
theorem C88_star (hM : Globs M) {s : St σ} (hi : Implements E.V own s.cli.useUnicode s.cli.uid.toNat (Deletes M) rel) (share : Share)
    (n : Nat) (a : Trees) (hr : Ready E own (n + 1) s) (ha : rel a s.w.srv) {v : Val} {s' : St σ}
    (hrun : runOp E (.delete share ['*']) s = (.ok v, s')) :
    ∃ a', rel a' s'.w.srv ∧ ∀ name, '\\' ∉ name → a' share.tid.toNat name = none := by
  obtain ⟨o, a', t, h1, h2, _, h3⟩ := C88_matches hi share ['*'] n a hr ha
  rw [hrun] at h1
  cases h1
  rcases h3 with ⟨_, _, hl⟩ | ⟨h, _⟩
  · exact ⟨a', h2, fun name hn => (hl _ name).1 ⟨rfl, [], ['*'], name, rfl, rfl, by decide, hn, .inl rfl, hM.star name⟩⟩
  · exact absurd rfl (h v)

end

/-! ## Violation -/

open Classical in
/-- A service that deletes by patterns, and does nothing else. -/
noncomputable def C88_step (M : Str → Str → Prop) (a : Trees) : Call → Answer × Trees
  | .delete tid path =>
    if ∃ q, a tid q ≠ none ∧ Hits M path q then (.value .unit, fun t q => if t = tid ∧ Hits M path q then none else a t q)
    else (.refused 0xC0000034, a)
  | _ => (.refused 0xC00000BB, a)

theorem step_deletes {M : Str → Str → Prop} {a a' : Trees} {c : Call} {r : Answer} (h : C88_step M a c = (r, a')) : Deletes M a c r a' := by
  cases c
  case delete tid path =>
    simp only [C88_step] at h
    split at h
    · rename_i hq
      obtain ⟨q, h1, h2⟩ := hq
      cases h
      exact .deleted h1 h2 (fun t p => ⟨fun hc => if_pos hc, fun hc => if_neg hc⟩)
    · cases h
      exact .refused
  all_goals exact .other (fun _ _ h => by cases h)

theorem step_speakable {M : Str → Str → Prop} (a : Trees) (c : Call) : Speakable c (C88_step M a c).1 := by
  cases c
  case delete tid path =>
    simp only [C88_step]
    split
    · trivial
    · show (0xC0000034 : UInt32) ≠ 0; decide
  all_goals (show (0xC00000BB : UInt32) ≠ 0; decide)

/-- **C88** There are such servers, for every way of matching names. -/
theorem C88_possible (M : Str → Str → Prop) (own : Nat → Prop) (unicode : Bool) :
    ∃ V : Server Trees, ∀ uid, Implements V own unicode uid (fun a c r a' => C88_step M a c = (r, a')) (fun a v => a = v) :=
  C66_services own unicode (C88_step M) step_speakable

theorem implements_mono {A : Type} {V : Server σ} {own : Nat → Prop} {unicode : Bool} {uid : Nat} {D D' : A → Call → Answer → A → Prop} {rel : A → σ → Prop}
    (h : ∀ a c r a', D a c r a' → D' a c r a') (hi : Implements V own unicode uid D rel) : Implements V own unicode uid D' rel := by
  intro a v req c ha hc hu
  obtain ⟨r, a', h1, h2, h3⟩ := hi a v req c ha hc hu
  exact ⟨r, a', h _ _ _ _ h1, h2, h3⟩

/-- **C88 violated.** Whatever files there are at the top of a share, and however the server matches names: with the name `*`, all of them are
deleted, although the name denotes none of them. -/
theorem C88_violated {M : Str → Str → Prop} (hM : Globs M) {E : Env Trees} {own : Nat → Prop} {s : St Trees}
    (hi : Implements E.V own s.cli.useUnicode s.cli.uid.toNat (fun a c r a' => C88_step M a c = (r, a')) (fun a v => a = v)) (share : Share) (n : Nat)
    (hr : Ready E own (n + 1) s) (name : Str) (hn : '\\' ∉ name) (hf : s.w.srv share.tid.toNat name ≠ none) (h0 : s.w.srv share.tid.toNat ['*'] = none) :
    (∃ s', runOp E (.delete share ['*']) s = (.ok .unit, s') ∧ ∀ other, '\\' ∉ other → s'.w.srv share.tid.toNat other = none) ∧
      ¬ C88_Exact E s (fun a v => a = v) share ['*'] := by
  have hit : ∀ q, '\\' ∉ q → Hits M ['*'] q := fun q hq => ⟨[], ['*'], q, rfl, rfl, by decide, hq, .inl rfl, hM.star q⟩
  have fits : Fits s.cli.useUnicode (.delete share ['*']) := by
    show _ ≤ _
    decide +kernel
  obtain ⟨o, a', s', h1, h2, h3, h4, h5⟩ := C66_operation hi (.delete share ['*']) n s.w.srv hr rfl
  have ho : o = .ok .unit := by
    cases h1 with
    | long ho => exact absurd fits ho.1
    | single hc hd =>
      cases hc
      have hd : C88_step M s.w.srv (.delete share.tid.toNat ['*']) = _ := hd
      rw [C88_step, if_pos ⟨name, hf, hit name hn⟩] at hd
      cases hd; rfl
  subst ho
  refine ⟨⟨s', h2, ?_⟩, fun hex => ?_⟩
  · obtain ⟨a'', e, h⟩ := C88_star (M := M) hM (implements_mono (fun _ _ _ _ => step_deletes) hi) share n _ hr rfl h2
    subst e
    exact h
  · obtain ⟨_, _, h, _⟩ := hex _ rfl _ _ h2
    exact h h0

namespace Demo

/-- One way of matching: `*` matches everything, all other names match themselves. -/
def glob (pattern name : Str) : Prop := pattern = ['*'] ∨ name = pattern

theorem glob_globs : Globs glob :=
  ⟨fun pattern _ h => ⟨fun h' => h'.resolve_left (fun e => h '*' (by rw [e]; exact List.mem_cons_self) (by decide)), .inr⟩, fun _ => .inl rfl⟩

/-- Two files. -/
def twoFiles : Trees := fun _ q => if q = ['a'] then some [1] else if q = ['b'] then some [2] else none

/-- non-vacuity of `C88_violated`, and with it of `C88_matches` and `C88_star`: `delete(share, "*")` deletes both. -/
example : ∃ (E : Env Trees) (s : St Trees), s.w.srv = twoFiles ∧ ¬ C88_Exact E s (fun a v => a = v) share ['*'] ∧
    ∃ s', runOp E (.delete share ['*']) s = (.ok .unit, s') ∧ s'.w.srv share.tid.toNat ['a'] = none ∧ s'.w.srv share.tid.toNat ['b'] = none := by
  obtain ⟨V, hV⟩ := C88_possible glob (fun _ => True) true
  obtain ⟨⟨s', h1, h2⟩, h3⟩ := C88_violated glob_globs (E := { env true with V := V }) (own := fun _ => True)
    (s := { cli := cli, w := { inbox := [], wsched := [.accept 3, .accept 10], out := [], srv := twoFiles } }) (hV _) share 1
    ⟨by intro ev he; simp at he; rcases he with rfl | rfl <;> exact ⟨_, rfl⟩, .nil, fun _ _ => trivial, fun _ => by decide⟩
    ['a'] (by decide) (by decide) (by decide)
  exact ⟨_, _, rfl, h3, s', h1, h2 _ (by decide), h2 _ (by decide)⟩

/-- non-vacuity of `C88_exact_partial`: the file `a` can be deleted, and then `b` is still there. -/
example : ∃ (E : Env Trees) (s s' : St Trees), s.w.srv = twoFiles ∧ runOp E (.delete share ['a']) s = (.ok .unit, s') ∧
    s'.w.srv share.tid.toNat ['a'] = none ∧ s'.w.srv share.tid.toNat ['b'] = some [2] := by
  obtain ⟨V, hV⟩ := C88_possible glob (fun _ => True) true
  have hr : Ready { env true with V := V } (fun _ => True) 2
    { cli := cli, w := { inbox := [], wsched := [.accept 3, .accept 10], out := [], srv := twoFiles } } :=
    ⟨by intro ev he; simp at he; rcases he with rfl | rfl <;> exact ⟨_, rfl⟩, .nil, fun _ _ => trivial, fun _ => by decide⟩
  obtain ⟨o, a', s', h1, h2, h3, h4, h5⟩ := C66_operation (hV _) (.delete share ['a']) 1 twoFiles hr rfl
  have ho : o = .ok .unit := by
    cases h1 with
    | long ho => exact absurd (show _ ≤ _ by decide +kernel) ho.1
    | single hc hd =>
      cases hc
      have hd : C88_step glob twoFiles (.delete share.tid.toNat ['a']) = _ := hd
      rw [C88_step, if_pos ⟨['a'], by decide, [], ['a'], ['a'], rfl, rfl, by decide, by decide, .inl rfl, .inr rfl⟩] at hd
      cases hd; rfl
  subst ho
  obtain ⟨_, e, _, hl⟩ := C88_exact_partial glob_globs (implements_mono (fun _ _ _ _ => step_deletes) (hV _)) share ['a'] 1 hr (by decide) _ rfl _ _ h2
  subst e
  exact ⟨_, _, s', rfl, h2, (hl _ _).1 ⟨rfl, rfl⟩, (hl _ _).2 (by decide)⟩

/-- Matching without regard to case. -/
def globFold (pattern name : Str) : Prop := pattern = ['*'] ∨ name.map Char.toUpper = pattern.map Char.toUpper

/-- non-vacuity of `C88_folded_partial`: the file `b` can be deleted under the name `B`, and then `a` is still there. -/
example : ∃ (E : Env Trees) (s s' : St Trees), s.w.srv = twoFiles ∧ runOp E (.delete share ['B']) s = (.ok .unit, s') ∧
    s'.w.srv share.tid.toNat ['b'] = none ∧ s'.w.srv share.tid.toNat ['a'] = some [1] := by
  obtain ⟨V, hV⟩ := C88_possible globFold (fun _ => True) true
  have hr : Ready { env true with V := V } (fun _ => True) 2
    { cli := cli, w := { inbox := [], wsched := [.accept 3, .accept 10], out := [], srv := twoFiles } } :=
    ⟨by intro ev he; simp at he; rcases he with rfl | rfl <;> exact ⟨_, rfl⟩, .nil, fun _ _ => trivial, fun _ => by decide⟩
  obtain ⟨o, a', s', h1, h2, h3, h4, h5⟩ := C66_operation (hV _) (.delete share ['B']) 1 twoFiles hr rfl
  have ho : o = .ok .unit := by
    cases h1 with
    | long ho => exact absurd (show _ ≤ _ by decide +kernel) ho.1
    | single hc hd =>
      cases hc
      have hd : C88_step globFold twoFiles (.delete share.tid.toNat ['B']) = _ := hd
      rw [C88_step, if_pos ⟨['b'], by decide, [], ['B'], ['b'], rfl, rfl, by decide, by decide, .inl rfl, .inr (by decide)⟩] at hd
      cases hd; rfl
  subst ho
  have two : ∀ t p, twoFiles t p ≠ none → p = ['a'] ∨ p = ['b'] := by
    intro t p h
    unfold twoFiles at h
    split at h
    · exact .inl (by assumption)
    · split at h
      · exact .inr (by assumption)
      · exact absurd rfl h
  obtain ⟨_, q, e, hq, hf, hl⟩ := C88_folded_partial Char.toUpper (M := globFold)
    (fun pattern _ h => ⟨fun h' => h'.resolve_left (fun e => h '*' (by rw [e]; exact List.mem_cons_self) (by decide)), .inr⟩)
    (implements_mono (fun _ _ _ _ => step_deletes) (hV _)) share ['B'] 1 hr (by decide) twoFiles rfl
    (fun p q hp hq h => by rcases two _ p hp with rfl | rfl <;> rcases two _ q hq with rfl | rfl <;> first | rfl | exact absurd h (by decide)) h2
  subst e
  rcases two _ q hq with rfl | rfl
  · exact absurd hf (by decide)
  · exact ⟨_, _, s', rfl, h2, (hl _ _).1 ⟨rfl, rfl⟩, (hl _ _).2 (by decide)⟩

end Demo

end Cifs
