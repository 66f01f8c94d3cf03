import Verif.Spec.CrashListing
import Verif.Lemmas.Listing
import Verif.Props.CrashDownload
import Verif.Props.Listing
/-!
# Properties about hostile servers during a directory listing (C38)
-/

namespace Cifs
open Spec

variable {σ : Type}

/-- When a step and what follows it panic. -/
theorem crash_bind {α β : Type} {log : σ → List Bytes} {x : CM σ α} {s : St σ} {Bad : Bytes → Prop} {Good : Bytes → α → σ → Bytes → Prop}
    (hx : (log (x s).2.w.srv = log s.w.srv ∧ (x s).1 ≠ .panic ∧ ∀ a, (x s).1 ≠ .ok a) ∨
      ∃ p, log (x s).2.w.srv = log s.w.srv ++ [p] ∧ ((x s).1 = .panic ↔ Bad p) ∧
        ∀ a v b, ((x s).1 = .ok a ∧ (x s).2.w.srv = v ∧ (x s).2.w.inbox.flatten = b) ↔ Good p a v b)
    (k : α → CM σ β) (C : α → σ → Bytes → List Bytes → Prop)
    (hk : ∀ a s1, x s = (.ok a, s1) → (∃ l, log (k a s1).2.w.srv = log s1.w.srv ++ l) ∧
      ((k a s1).1 = .panic ↔ ∃ l, log (k a s1).2.w.srv = log s1.w.srv ++ l ∧ C a s1.w.srv s1.w.inbox.flatten l)) :
    ((x >>= k) s).1 = .panic ↔ ∃ l, log ((x >>= k) s).2.w.srv = log s.w.srv ++ l ∧
      ((∃ p, l = [p] ∧ Bad p) ∨ ∃ p a v b l', l = p :: l' ∧ Good p a v b ∧ C a v b l') := by
  rcases h : x s with ⟨o, s1⟩
  rw [h] at hx
  simp only at hx
  by_cases ho : ∃ a, o = .ok a
  · obtain ⟨a, rfl⟩ := ho
    rw [M.bind_ok h]
    obtain ⟨⟨l0, hl0⟩, hc⟩ := hk a s1 h
    rcases hx with ⟨_, _, hn⟩ | ⟨p, h1, h2, h3⟩
    · exact absurd rfl (hn a)
    · rw [hc]
      have first : ∀ p' l, log (k a s1).2.w.srv = log s.w.srv ++ p' :: l → p' = p ∧ log (k a s1).2.w.srv = log s1.w.srv ++ l := by
        intro p' l hl
        have : p' :: l = p :: l0 := sent_append hl (by rw [hl0, h1]; simp)
        injection this with e1 e2
        exact ⟨e1, by rw [hl0, e2]⟩
      constructor
      · rintro ⟨l, k1, k2⟩
        exact ⟨p :: l, by rw [k1, h1]; simp, .inr ⟨p, a, _, _, l, rfl, (h3 a _ _).mp ⟨rfl, rfl, rfl⟩, k2⟩⟩
      · rintro ⟨l, k1, ⟨p', rfl, k2⟩ | ⟨p', a', v, b, l', rfl, k2, k3⟩⟩
        · obtain ⟨rfl, _⟩ := first _ _ k1
          cases h2.mpr k2
        · obtain ⟨rfl, k1'⟩ := first _ _ k1
          obtain ⟨e1, rfl, rfl⟩ := (h3 _ _ _).mpr k2
          cases e1
          exact ⟨l', k1', k3⟩
  · have hno : ∀ a, (x s).1 ≠ .ok a := by rw [h]; exact fun a h => ho ⟨a, h⟩
    obtain ⟨e1, e2⟩ := M.bind_stuck (f := k) hno
    rw [e1, e2, h]
    show o = .panic ↔ ∃ l, log s1.w.srv = _ ∧ _
    rcases hx with ⟨h1, h2, _⟩ | ⟨p, h1, h2, h3⟩
    · refine ⟨fun h => absurd h h2, ?_⟩
      rintro ⟨l, k1, k2⟩
      rw [h1] at k1
      have : l = [] := by simpa using k1
      subst this
      rcases k2 with ⟨p, k2, _⟩ | ⟨p, _, _, _, _, k2, _⟩ <;> cases k2
    · rw [h2]
      constructor
      · intro hb; exact ⟨[p], h1, .inl ⟨p, rfl, hb⟩⟩
      · rintro ⟨l, k1, ⟨p', rfl, k2⟩ | ⟨p', a', v, b, l', rfl, k2, k3⟩⟩
        · have : [p'] = [p] := sent_append k1 h1
          cases this
          exact k2
        · have : p' :: l' = [p] := sent_append k1 h1
          injection this with e1 _
          subst e1
          exact absurd ((h3 _ _ _).mpr k2).1 (fun h => ho ⟨_, h⟩)

theorem joinFragments_no_panic (l : List (Nat × Bytes)) : ∀ b, joinFragments b l ≠ .panic := by
  induction l with
  | nil => intro b h; cases h
  | cons x l ih =>
    intro b
    unfold joinFragments
    split
    · simp
    · exact ih _

theorem get_no_panic (c : Collector) : c.get ≠ .panic := by
  unfold Collector.get
  split
  · simp
  · split
    · simp
    · exact joinFragments_no_panic _ _

/-- When the collection of the replies to a search panics. -/
theorem gather_panic (t : Tail) (mid : UInt16) (b : Bytes) : (flatGather t mid .new b).1 = .panic ↔
    ∃ l rest f rest', Pieces Brings mid.toNat b l rest ∧ Agree l ∧ (l ≠ [] → ¬ Enough l) ∧ Awaits mid.toNat rest f rest' ∧ BadPiece f := by
  constructor
  · intro hv
    obtain ⟨l, rest, hp, hc⟩ := gather_cases t mid _ b (Nat.lt_succ_self _) [] agree_nil
    rcases hc with ⟨r, h1, h2⟩ | ⟨h1, o, b', h2, h3, h4⟩
    · have h2 : (flatGather t mid .new b).1 = _ := h2
      rw [h2] at hv
      rcases take_cases l [] agree_nil with ⟨pre, post, rfl, k1, k2, k3, k4⟩ | ⟨r', k1, k2⟩ | ⟨k1, _⟩
      · rw [k4] at h1; cases h1; cases hv
      · rw [k1] at h1; cases h1; cases hv
      · rw [k1] at h1; cases h1
    · have h4 : (flatGather t mid .new b).1 = _ := h4
      rw [h4] at hv
      have ho' : o = .panic := by
        cases o with
        | ok r => exact absurd rfl (h3 r)
        | panic => rfl
        | err e => cases hv
        | pending => cases hv
        | running => cases hv
      obtain ⟨f, rest', ha, hb⟩ := (piece_panic t mid rest).mp (by rw [h2, ho'])
      rcases take_cases l [] agree_nil with ⟨pre, post, _, _, _, _, k4⟩ | ⟨r', k1, k2⟩ | ⟨_, k2, k3⟩
      · exact absurd (h1.symm.trans k4) (by simp)
      · exact absurd (h1.symm.trans k1) (by simp)
      · exact ⟨l, rest, f, rest', hp, k2, k3, ha, hb⟩
  · rintro ⟨l, rest, f, rest', hp, hag, hen, ha, hb⟩
    have hn : takePieces (ctxOf []) l = none := by
      rcases take_cases l [] agree_nil with ⟨pre, post, rfl, k1, k2, k3, k4⟩ | ⟨r', k1, k2⟩ | ⟨k1, _⟩
      · exact absurd (enough_append (l' := post) k3) (hen (by cases pre <;> simp_all))
      · exact absurd hag k2
      · exact k1
    have e : flatGather t mid .new b = flatGather _ _ (ctxOf ([] ++ l)) rest := gather_none _ _ hp [] agree_nil hn
    rw [e, flatGather_eq]
    have := (piece_panic t mid rest).mpr ⟨f, rest', ha, hb⟩
    rcases hx : flatReply trans2Reply mid t rest with ⟨o, b'⟩
    rw [hx] at this
    cases this
    rfl

/-- When a search whose request was sent panics. -/
theorem collect_panic {α : Type} (sub : SubReply2 α) (mid : UInt16) (t : Tail) (b : Bytes) : (flatCollect sub mid t b).1 = .panic ↔
    (∃ l P D b', Pieces Brings mid.toNat b l b' ∧ Cuts l P D ∧ (∀ pre post P' D', l = pre ++ post → post ≠ [] → ¬ Cuts pre P' D') ∧
      sub P D = .panic) ∨
    ∃ l rest f rest', Pieces Brings mid.toNat b l rest ∧ Agree l ∧ (l ≠ [] → ¬ Enough l) ∧ Awaits mid.toNat rest f rest' ∧ BadPiece f := by
  rw [← gather_panic t mid b]
  have hpair := collect_iff (fun P D => .ok (P, D) : SubReply2 (Bytes × Bytes)) mid t b
  rcases hg : flatGather t mid .new b with ⟨o, b1⟩
  have pair : ∀ P D b', (∃ l, Pieces Brings mid.toNat b l b' ∧ Cuts l P D ∧ (∀ pre post P' D', l = pre ++ post → post ≠ [] → ¬ Cuts pre P' D')) →
      flatCollect (fun P D => .ok (P, D) : SubReply2 (Bytes × Bytes)) mid t b = (.ok (P, D), b') :=
    fun P D b' ⟨l, k1, k2, k3⟩ => (hpair b' (P, D)).mpr ⟨l, P, D, k1, k2, k3, rfl⟩
  cases o with
  | ok c =>
    have e : ∀ {γ : Type} (sub : SubReply2 γ), flatCollect sub mid t b = M.ofRes Error.SMBError (c.getSubreply sub) b1 := by
      intro γ sub
      unfold flatCollect
      rw [M.bind_ok hg]
    constructor
    · intro h
      left
      rw [e] at h
      have h : c.getSubreply sub = .panic := by
        cases hx : c.getSubreply sub with
        | panic => rfl
        | ok x => rw [hx] at h; cases h
        | err x => rw [hx] at h; cases h
      unfold CollectTrans2.getSubreply at h
      cases hP : c.parameter.get with
      | panic => exact absurd hP (get_no_panic _)
      | err x => rw [hP] at h; cases h
      | ok P =>
        cases hD : c.data.get with
        | panic => exact absurd hD (get_no_panic _)
        | err x => rw [hP, hD] at h; cases h
        | ok D =>
          rw [hP, hD] at h
          have hq : flatCollect (fun P D => .ok (P, D) : SubReply2 (Bytes × Bytes)) mid t b = (.ok (P, D), b1) := by
            rw [e]
            unfold CollectTrans2.getSubreply
            rw [hP, hD]
            rfl
          obtain ⟨l, P', D', k1, k2, k3, k4⟩ := (hpair b1 (P, D)).mp hq
          cases k4
          exact ⟨l, P, D, b1, k1, k2, k3, h⟩
    · rintro (⟨l, P, D, b', k1, k2, k3, k4⟩ | h)
      · have hq := pair P D b' ⟨l, k1, k2, k3⟩
        rw [e] at hq ⊢
        unfold CollectTrans2.getSubreply at hq ⊢
        cases hP : c.parameter.get with
        | panic => exact absurd hP (get_no_panic _)
        | err x => rw [hP] at hq; cases hq
        | ok P' =>
          cases hD : c.data.get with
          | panic => exact absurd hD (get_no_panic _)
          | err x => rw [hP, hD] at hq; cases hq
          | ok D' =>
            rw [hP, hD] at hq
            cases hq
            show (M.ofRes Error.SMBError (sub P D) b1).1 = .panic
            rw [k4]
            rfl
      · cases h
  | panic =>
    have e : flatCollect sub mid t b = (.panic, b1) := by unfold flatCollect; rw [M.bind_panic hg]
    rw [e]
    exact ⟨fun _ => .inr rfl, fun _ => rfl⟩
  | err x =>
    have e : ∀ {γ : Type} (sub : SubReply2 γ), flatCollect sub mid t b = (.err x, b1) := by intro γ sub; unfold flatCollect; rw [M.bind_err hg]
    rw [e]
    refine ⟨fun h => (by cases h), ?_⟩
    rintro (⟨l, P, D, b', k1, k2, k3, _⟩ | h)
    · have hq := pair P D b' ⟨l, k1, k2, k3⟩
      rw [e] at hq; cases hq
    · cases h
  | pending =>
    have e : ∀ {γ : Type} (sub : SubReply2 γ), flatCollect sub mid t b = (.pending, b1) := by intro γ sub; unfold flatCollect; rw [M.bind_pending hg]
    rw [e]
    refine ⟨fun h => (by cases h), ?_⟩
    rintro (⟨l, P, D, b', k1, k2, k3, _⟩ | h)
    · have hq := pair P D b' ⟨l, k1, k2, k3⟩
      rw [e] at hq; cases hq
    · cases h
  | running =>
    have e : ∀ {γ : Type} (sub : SubReply2 γ), flatCollect sub mid t b = (.running, b1) := by intro γ sub; unfold flatCollect; rw [M.bind_running hg]
    rw [e]
    refine ⟨fun h => (by cases h), ?_⟩
    rintro (⟨l, P, D, b', k1, k2, k3, _⟩ | h)
    · have hq := pair P D b' ⟨l, k1, k2, k3⟩
      rw [e] at hq; cases hq
    · cases h

/-- Everything that can happen in a search whose request can be built. -/
theorem search_full {α : Type} {E : Env σ} {log : σ → List Bytes} (hlog : Logs E.V log) (tid : UInt16) (c : SubCmd2) (sub : SubReply2 α) {s : St σ}
    (hb : requestFrame s.cli (transact2Msg tid c) ≠ .panic) (hm : ¬ (E.checked = true ∧ s.cli.mid.toNat = 65535)) :
    (log (transact2 E tid c sub s).2.w.srv = log s.w.srv ∧ (transact2 E tid c sub s).1 ≠ .panic ∧ ∀ a, (transact2 E tid c sub s).1 ≠ .ok a) ∨
    ∃ p, log (transact2 E tid c sub s).2.w.srv = log s.w.srv ++ [p] ∧
      ((transact2 E tid c sub s).1 = .panic ↔ SearchCrash E.V s.w.srv s.w.inbox.flatten p fun P D => sub P D = .panic) ∧
      ∀ a v b, ((transact2 E tid c sub s).1 = .ok a ∧ (transact2 E tid c sub s).2.w.srv = v ∧ (transact2 E tid c sub s).2.w.inbox.flatten = b) ↔
        ∃ P D, SearchRound E.V s.w.srv s.w.inbox.flatten p P D v b ∧ sub P D = .ok a := by
  by_cases h : ∀ mid, (send E (transact2Msg tid c) s).1 ≠ .ok mid
  · left
    have hp : (send E (transact2Msg tid c) s).1 ≠ .panic := by
      rcases send_cases E (transact2Msg tid c) s with ⟨h1, h2, _⟩ | ⟨_, ⟨e, _, h2⟩ | ⟨h1, _⟩ | ⟨f, _, _, h2⟩ | ⟨f, _, _, ws, p, q, _, ⟨_, _, h2⟩ | ⟨e, h2⟩ | h2⟩⟩
      · exact absurd ⟨h1, h2⟩ hm
      · rw [h2]; simp
      · exact absurd h1 hb
      all_goals rw [h2]; simp
    obtain ⟨e1, e2⟩ := M.bind_stuck (f := fun mid => collect E sub mid) h
    have e1 : (transact2 E tid c sub s).1 = .panic ↔ _ := e1
    have e2 : (transact2 E tid c sub s).2 = _ := e2
    refine ⟨by rw [e2, (send_fails h).1], fun h' => hp (e1.mp h'), ?_⟩
    intro a ha
    rcases transact2_srv E tid c sub s with ⟨_, h2, _⟩ | ⟨fr, h1, _⟩
    · exact h2 a ha
    · rcases hs : send E (transact2Msg tid c) s with ⟨o, s1⟩
      rw [hs] at h
      have e := M.bind_fails (f := fun mid => collect E sub mid) hs h
      rw [show transact2 E tid c sub s = _ from e] at ha
      exact recast_fails a ha
  · right
    obtain ⟨mid, hmid⟩ : ∃ mid, (send E (transact2Msg tid c) s).1 = .ok mid := by
      rcases out_cases (send E (transact2Msg tid c) s).1 with h' | h'
      · exact h'
      · exact absurd h' h
    have hs : send E (transact2Msg tid c) s = (.ok mid, (send E (transact2Msg tid c) s).2) := by rw [← hmid]
    obtain ⟨ib, h1, h2⟩ := transact2_eq sub hs
    generalize (send E (transact2Msg tid c) s).2 = s1 at hs h1 h2
    obtain ⟨fr, h3, _, h5, _, h6, h7⟩ := send_ok_inv hs
    subst h5
    have hfm := requestFrame_mid (keepsMid_transact2 tid c) h3
    rw [h2]
    refine ⟨message fr, by rw [St.setInbox_srv, h6, hlog], ?_, fun a v b => ?_⟩
    · show (flatCollect sub s.cli.mid (E.V.tail s1.w.srv) s1.w.flat).1 = .panic ↔ _
      rw [collect_panic, h7]
      refine or_congr ?_ ?_
      · constructor
        · rintro ⟨l, P, D, b', k1, k2, k3, k4⟩
          exact ⟨P, D, _, b', ⟨rfl, _, l, hfm, k1, k2, k3⟩, k4⟩
        · rintro ⟨P, D, v', b', ⟨_, mid, l, k0, k1, k2, k3⟩, k4⟩
          rw [hfm] at k0; cases k0
          exact ⟨l, P, D, b', k1, k2, k3, k4⟩
      · constructor
        · rintro ⟨l, rest, f, rest', k⟩
          exact ⟨_, l, rest, f, rest', hfm, k⟩
        · rintro ⟨mid, l, rest, f, rest', k0, k⟩
          rw [hfm] at k0; cases k0
          exact ⟨l, rest, f, rest', k⟩
    · show ((flatCollect sub s.cli.mid (E.V.tail s1.w.srv) s1.w.flat).1 = .ok a ∧ s1.w.srv = v ∧ ib.flatten = b) ↔ _
      rw [h1, h6, h7]
      constructor
      · rintro ⟨k1, rfl, rfl⟩
        obtain ⟨l, P, D, j1, j2, j3, j4⟩ := (collect_iff sub s.cli.mid (E.V.tail (E.V.react s.w.srv (message fr)).1) _ _ a).mp (Prod.ext k1 rfl)
        exact ⟨P, D, ⟨rfl, _, l, hfm, j1, j2, j3⟩, j4⟩
      · rintro ⟨P, D, ⟨rfl, mid, l, k0, k1, k2, k3⟩, k4⟩
        rw [hfm] at k0; cases k0
        have := (collect_iff sub s.cli.mid (E.V.tail (E.V.react s.w.srv (message fr)).1) _ _ a).mpr ⟨l, P, D, k1, k2, k3, k4⟩
        rw [this]
        exact ⟨rfl, rfl, rfl⟩

/-- Only over-long names make the construction of a search request panic. -/
theorem first_no_panic (c : Cli) (op : Op) (h : ¬ Panics op) : requestFrame c op.first ≠ .panic := by
  by_cases hf : Fits c.useUnicode op
  · exact first_not_panic (first_fits c op hf)
  · obtain ⟨e, he⟩ := first_long c op hf h
    rw [he]; simp

theorem search_grows {α : Type} {E : Env σ} {log : σ → List Bytes} (hlog : Logs E.V log) (tid : UInt16) (c : SubCmd2) (sub : SubReply2 α) (s : St σ) :
    ∃ l, log (transact2 E tid c sub s).2.w.srv = log s.w.srv ++ l := by
  rcases transact2_srv E tid c sub s with ⟨_, _, h⟩ | ⟨fr, _, h, _⟩
  · exact ⟨[], by rw [h]; simp⟩
  · exact ⟨[message fr], by rw [h, hlog]⟩

theorem listLoop_grows {E : Env σ} {log : σ → List Bytes} (hlog : Logs E.V log) (share : Share) (sid : UInt16) (k : Nat) : ∀ (got : List DirInfo) (s : St σ),
    ∃ l, log (listLoop E share sid k got s).2.w.srv = log s.w.srv ++ l := by
  induction k with
  | zero => intro got s; exact ⟨[], by rw [List.append_nil]; rfl⟩
  | succ k ih =>
    intro got s
    rw [listLoop]
    cases hl : got.getLast? with
    | none => exact ⟨[], by rw [List.append_nil]⟩
    | some last =>
      refine M.bind_state (fun s' : St σ => ∃ l, log s'.w.srv = log s.w.srv ++ l) (search_grows hlog _ _ _ _) ?_
      intro a s1 h1
      have := search_grows hlog share.tid (findNext2Cmd sid last.filename) findNext2Parse s
      rw [show transact2 E _ _ _ s = _ from h1] at this
      split
      · exact this
      · exact grows_trans this (ih _ _)

theorem search_cli {α : Type} {E : Env σ} {tid : UInt16} {c : SubCmd2} {sub : SubReply2 α} {s s1 : St σ} {a : α}
    (h : transact2 E tid c sub s = (.ok a, s1)) : s1.cli = s.bump.cli := by
  obtain ⟨mid, s0, h1, h2⟩ := M.bind_inv h
  obtain ⟨_, _, _, _, h3, _⟩ := send_ok_inv h1
  have h2 : collect E sub mid s0 = _ := h2
  have := collect_flatC E sub mid s0
  obtain ⟨ib, _, e⟩ := this
  rw [e] at h2
  injection h2 with _ h2
  rw [← h2]
  exact h3

/-- When the rest of a listing panics. -/
theorem continuing_crash {E : Env σ} {log : σ → List Bytes} (hlog : Logs E.V log) (share : Share) (sid : UInt16) (k : Nat) :
    ∀ (got : List DirInfo) (s : St σ), got ≠ [] → (E.checked = true → s.cli.mid.toNat + k ≤ 65535) → (listLoop E share sid k got s).1 ≠ .running →
      ((listLoop E share sid k got s).1 = .panic ↔
        ∃ l, log (listLoop E share sid k got s).2.w.srv = log s.w.srv ++ l ∧ ContinuingCrash E.V s.w.srv s.w.inbox.flatten got l) := by
  induction k with
  | zero => intro got s _ _ h; exact absurd rfl h
  | succ k ih =>
    intro got s hne hm hrun
    have hm' : ¬ (E.checked = true ∧ s.cli.mid.toNat = 65535) := by
      rintro ⟨h1, h2⟩
      have := hm h1
      omega
    obtain ⟨last, hlast⟩ : ∃ last, got.getLast? = some last := ⟨_, List.getLast?_eq_some_getLast hne⟩
    have e : listLoop E share sid (k + 1) got = (transact2 E share.tid (findNext2Cmd sid last.filename) findNext2Parse >>= fun reply =>
        if reply.done then pure (got ++ reply.info) else listLoop E share sid k (got ++ reply.info)) := by
      rw [listLoop, hlast]; rfl
    rw [e] at hrun ⊢
    by_cases hp : Panics (.findNext share sid last.filename)
    · have hx := C25_violated_panic E (.findNext share sid last.filename) s hm' hp
      have hx' : transact2 E share.tid (findNext2Cmd sid last.filename) findNext2Parse s = (.panic, { s with cli := { s.cli with mid := s.cli.mid + 1 } }) :=
        M.bind_panic (send_unbuilt_panic E (Op.findNext share sid last.filename).first s hm' (first_panics s.cli _ hp))
      rw [M.bind_panic hx']
      exact ⟨fun _ => ⟨[], by simp, .long hlast hp.1 (by have := hp.2; omega)⟩, fun _ => rfl⟩
    · have hfull := search_full hlog share.tid (findNext2Cmd sid last.filename) findNext2Parse
        (show requestFrame s.cli (transact2Msg share.tid (findNext2Cmd sid last.filename)) ≠ .panic from first_no_panic s.cli (.findNext share sid last.filename) hp) hm'
      have := crash_bind (x := transact2 E share.tid (findNext2Cmd sid last.filename) findNext2Parse) hfull (fun reply =>
        if reply.done then pure (got ++ reply.info) else listLoop E share sid k (got ++ reply.info))
        (fun reply v b l => reply.done = false ∧ ContinuingCrash E.V v b (got ++ reply.info) l) (by
          intro a s1 h1
          cases hd : a.done with
          | true => exact ⟨⟨[], by rw [List.append_nil]; rfl⟩, fun h => (by cases h), fun ⟨_, _, h, _⟩ => (by cases h)⟩
          | false =>
            refine ⟨listLoop_grows hlog _ _ _ _ _, ?_⟩
            simp only [Bool.false_eq_true, if_false, true_and]
            refine ih _ _ (by simp [hne]) ?_ ?_
            · intro hc
              rw [search_cli h1]
              have := hm hc
              show (s.cli.mid + 1).toNat + k ≤ 65535
              rw [UInt16.toNat_add]
              show (s.cli.mid.toNat + 1) % 65536 + k ≤ 65535
              omega
            · intro hr
              rw [M.bind_ok h1, hd] at hrun
              exact hrun hr)
      rw [this]
      refine exists_congr fun l => and_congr Iff.rfl ?_
      constructor
      · rintro (⟨p, rfl, h1⟩ | ⟨p, a, v, b, l', rfl, ⟨P, D, h1, h2⟩, h3, h4⟩)
        · refine .page ?_
          simpa only [(findNext_parse _ _).2] using h1
        · have := ((findNext_parse P D).1 a).mp h2
          rw [h3] at this
          exact .more h1 this h4
      · intro hc
        cases hc with
        | long hl h1 h2 =>
          rw [hlast] at hl
          cases hl
          exact absurd ⟨h1, by omega⟩ hp
        | page h =>
          refine .inl ⟨_, rfl, ?_⟩
          simpa only [(findNext_parse _ _).2] using h
        | @more _ v' _ b' p P D _ ds l hr hpg hs =>
          exact .inr ⟨p, { done := false, info := ds }, v', b', l, rfl, ⟨P, D, hr, ((findNext_parse P D).1 _).mpr hpg⟩, rfl, hs⟩

/-- **C38** (partial: the property fails; this is exactly when.) A listing with a pattern that is not too long, on a connection with enough
multiplex ids left, that ends, panics if and only if the replies to a request are bad, or a name has the wrong length. -/
theorem C38_list_partial {E : Env σ} {log : σ → List Bytes} (hlog : Logs E.V log) (k : Nat) (share : Share) (pattern : Str) (s : St σ)
    (hp : utf16Len pattern ≤ 32725) (hm : E.checked = true → s.cli.mid.toNat + k < 65535)
    (hrun : (runOp E (.list k share pattern) s).1 ≠ .running) :
    (runOp E (.list k share pattern) s).1 = .panic ↔ ∃ l, log (runOp E (.list k share pattern) s).2.w.srv = log s.w.srv ++ l ∧
      ListingCrash E.V s.w.srv s.w.inbox.flatten l := by
  have e0 : runOp E (.list k share pattern) s = _ := map_outcome Val.entries (list E k share pattern) s
  have e1 : (runOp E (.list k share pattern) s).2 = (list E k share pattern s).2 := by rw [e0]
  have e2 : (runOp E (.list k share pattern) s).1 = .panic ↔ (list E k share pattern s).1 = .panic := by
    rw [e0]; cases (list E k share pattern s).1 <;> simp
  have e3 : (list E k share pattern s).1 ≠ .running := by
    intro h; apply hrun; rw [e0, h]
  rw [e2, e1]
  have hm' : ¬ (E.checked = true ∧ s.cli.mid.toNat = 65535) := by
    rintro ⟨h1, h2⟩
    have := hm h1
    omega
  have e : list E k share pattern = (transact2 E share.tid (findFirst2Cmd (sanitizePath pattern)
      (FileAttr.HIDDEN ||| FileAttr.SYSTEM ||| FileAttr.DIRECTORY)) findFirst2Parse >>= fun reply =>
        if reply.done then pure reply.info else listLoop E share reply.sid k reply.info) := rfl
  rw [e] at e3 ⊢
  have hfull := search_full hlog share.tid (findFirst2Cmd (sanitizePath pattern) (FileAttr.HIDDEN ||| FileAttr.SYSTEM ||| FileAttr.DIRECTORY)) findFirst2Parse
    (first_not_panic (first_fits s.cli (.findFirst share pattern) hp)) hm'
  have := crash_bind hfull (fun reply => if reply.done then pure reply.info else listLoop E share reply.sid k reply.info)
    (fun reply v b l => reply.done = false ∧ ContinuingCrash E.V v b reply.info l) (by
      intro a s1 h1
      cases hd : a.done with
      | true => exact ⟨⟨[], by rw [List.append_nil]; rfl⟩, fun h => (by cases h), fun ⟨_, _, h, _⟩ => (by cases h)⟩
      | false =>
        refine ⟨listLoop_grows hlog _ _ _ _ _, ?_⟩
        simp only [Bool.false_eq_true, if_false, true_and]
        refine continuing_crash hlog share a.sid k _ _ ?_ ?_ ?_
        · rcases hfull with ⟨_, _, hn⟩ | ⟨p, _, _, hok⟩
          · rw [h1] at hn; exact absurd rfl (hn a)
          · obtain ⟨P, D, _, h2⟩ := (hok a _ _).mp ⟨by rw [h1], rfl, rfl⟩
            have h3 := (((findFirst_parse P D).1 a).mp h2).2.2
            rw [hd] at h3
            rcases h3 with h3 | h3
            · cases h3
            · exact h3
        · intro hc
          rw [search_cli h1]
          have := hm hc
          show (s.cli.mid + 1).toNat + k ≤ 65535
          rw [UInt16.toNat_add]
          show (s.cli.mid.toNat + 1) % 65536 + k ≤ 65535
          omega
        · intro hr
          rw [M.bind_ok h1, hd] at e3
          exact e3 hr)
  rw [this]
  refine exists_congr fun l => and_congr Iff.rfl ?_
  constructor
  · rintro (⟨p, rfl, h1⟩ | ⟨p, a, v, b, l', rfl, ⟨P, D, h1, h2⟩, h3, h4⟩)
    · refine .page ?_
      simpa only [(findFirst_parse _ _).2] using h1
    · have := ((findFirst_parse P D).1 a).mp h2
      rw [h3] at this
      exact .more h1 this h4
  · intro hc
    cases hc with
    | page h =>
      refine .inl ⟨_, rfl, ?_⟩
      simpa only [(findFirst_parse _ _).2] using h
    | @more v' b' p P D sid ds l hr hpg hs =>
      have hs' : sid < 65536 := by
        obtain ⟨⟨_, h0, _⟩, _⟩ := hpg
        exact u16At_small h0
      refine .inr ⟨p, { sid := UInt16.ofNat sid, done := false, info := ds }, v', b', l, rfl, ⟨P, D, hr, ((findFirst_parse P D).1 _).mpr ?_⟩, rfl, hs⟩
      show FirstPage P D (UInt16.ofNat sid).toNat false ds
      rw [UInt16.toNat_ofNat', Nat.mod_eq_of_lt (by omega)]
      exact hpg

namespace Demo

/-- A first page that is not the last one, with one entry. -/
def unfinished : Bytes := reply .Transact2 7 (pieceParams 10 55 0 70 65 0) ([5, 0, 1, 0, 0, 0, 0, 0, 0, 0] ++ entryBytes)

/-- Servers that crash a listing: with a name of odd length on the first page, with one on the second page, and with a second page that is cut
short. -/
def crashingDirs : List (List Bytes) :=
  [[oemReply],
   [unfinished, reply .Transact2 8 (oemParams 10 55 0 67 65 0) (nextParams ++ putU32 67 ++ oemBytes.drop 4)],
   [unfinished, reply .Transact2 8 [10, 0, 70, 0, 0, 0, 10, 0] []]]

/-- non-vacuity: each of them crashes the client in the way described. -/
example : ∀ answers ∈ crashingDirs, ∃ l, l.length = answers.length ∧ ListingCrash (env true).V (st (answers.map fun r => [message r])).w.srv [] l := by
  intro answers h
  have key : ∀ answers ∈ crashingDirs, isPanic (runOp (env true) (.list 5 share ['*']) (st (answers.map fun r => [message r]))).1 = true ∧
      (runOp (env true) (.list 5 share ['*']) (st (answers.map fun r => [message r]))).2.w.srv.2.length = answers.length := by decide +kernel
  obtain ⟨k1, k2⟩ := key answers h
  obtain ⟨l, h1, h2⟩ := (C38_list_partial (E := env true) (log := Prod.snd) (logs_logged _) 5 share ['*'] (st (answers.map fun r => [message r]))
    (by decide) (fun _ => (by show 7 + 5 < 65535; omega)) (by rw [isPanic_of k1]; simp)).mp (isPanic_of k1)
  exact ⟨l, by rw [← k2, h1]; rfl, h2⟩

end Demo

/-- **C38 is violated** by a server that does nothing wrong: if the first page of a directory is not the last one and ends with a name of 32726
to 32760 characters, then the client panics, since it repeats that name in its request for the next page. -/
theorem C38_violated_name {E : Env σ} {own : Nat → Prop} {share : Share} {pattern : Str} {sid : UInt16} {pages : List (List DirInfo)}
    {after : Nat → σ → Prop} (hs : DirServer E.V own share.tid.toNat pattern sid.toNat pages after) {ds : List DirInfo} (hds : pages[0]? = some ds)
    (hl : 1 < pages.length) {last : DirInfo} (hlast : ds.getLast? = some last) (h1 : 32725 < utf16Len last.filename) (h2 : utf16Len last.filename < 32761)
    (hp : utf16Len pattern ≤ 32725) (s : St σ) (ha : after 0 s.w.srv) (hr : Ready E own 2 s) (budget : Nat) :
    (runOp E (.list (budget + 1) share pattern) s).1 = .panic := by
  obtain ⟨_, _, _, e⟩ := runOp_list E (budget + 1) share pattern s
  rw [e]
  obtain ⟨fr, hfr⟩ := first_fits s.cli (.findFirst share pattern) hp
  obtain ⟨P, D, k1, k2, k3⟩ := hs.first _ _ ds ha (firstRequest hfr) hds
  obtain ⟨s1, g1, g2, g3, g4⟩ := transact2_serves findFirst2Parse hr hfr k1 (((findFirst_parse P D).1 { sid := sid, done := _, info := ds }).mpr k2)
  have e : list E (budget + 1) share pattern = (findFirst E share pattern >>= fun reply =>
      if reply.done then pure reply.info else listLoop E share reply.sid (budget + 1) reply.info) := rfl
  rw [e, M.bind_ok (show findFirst E share pattern s = _ from g1), if_neg (by simp; omega)]
  dsimp only
  rw [listLoop, hlast]
  dsimp only
  have hx : findNext E share sid last.filename s1 = (.panic, { s1 with cli := { s1.cli with mid := s1.cli.mid + 1 } }) :=
    M.bind_panic (send_unbuilt_panic E (Op.findNext share sid last.filename).first s1 g4.first.1 (first_panics s1.cli _ ⟨h1, by omega⟩))
  rw [M.bind_panic hx]

namespace Demo

theorem utf16_x (n : Nat) : Utf16le (List.replicate n 'x') (List.replicate n [0x78, 0]).flatten := by
  induction n with
  | zero => exact .nil
  | succ n ih => rw [List.replicate_succ, List.replicate_succ, List.flatten_cons]; exact .basic (by decide) ih

/-- A file with a long name. -/
def longName : C36_Record := ⟨0, 0, 0, 0, 0, 0, 0, 0, List.replicate 32730 'x', (List.replicate 32730 [0x78, 0]).flatten, []⟩

theorem longName_wide : longName.wide.length = 65460 := by
  show ((List.replicate 32730 [0x78, 0]).flatten : Bytes).length = 65460
  rw [List.length_flatten, List.map_replicate, List.sum_replicate_nat]; rfl

/-- A directory with such a file, in two pages. -/
def longDir : List (List C36_Record) := [[longName], []]

/-- non-vacuity: the directory server with such a file. -/
example (checked : Bool) : (runOp (dirEnv checked 5 longDir) (.list 3 share ['*']) dirSt).1 = .panic := by
  refine C38_violated_name (E := dirEnv checked 5 longDir) (own := fun _ => True) (serves_dir _ 5 longDir ?_ ?_ ?_ share.tid.toNat ['*']) (ds := [longName.info])
    rfl (by decide) rfl ?_ ?_ (by decide) dirSt rfl ?_ 2
  · intro rs h r hr
    simp only [longDir, List.mem_cons, List.not_mem_nil, or_false] at h
    rcases h with rfl | rfl
    · rw [List.mem_singleton] at hr
      subst hr
      exact ⟨by decide, by decide, by decide, by decide, by decide, by rw [longName_wide]; decide, utf16_x _⟩
    · simp at hr
  · intro rs h
    simp only [longDir, List.mem_cons, List.not_mem_nil, or_false] at h
    rcases h with rfl | rfl
    · rw [C36_measured, List.length_append, record_length, longName_wide]; decide
    · decide
  · intro k rs h
    match k with
    | 0 => cases h; exact .inl (by simp)
    | 1 => exact .inr rfl
    | k + 2 => simp [longDir] at h
  · show 32725 < utf16Len (List.replicate 32730 'x'); rw [utf16Len_replicate _ _ (by decide)]; decide
  · show utf16Len (List.replicate 32730 'x') < 32761; rw [utf16Len_replicate _ _ (by decide)]; decide
  · exact ⟨accepting_fileSt, .nil, fun _ _ => trivial, fun _ => (by show 7 + 2 ≤ 65535; omega)⟩

end Demo

end Cifs
