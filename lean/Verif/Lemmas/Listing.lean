import Verif.Spec.Listing
import Verif.Lemmas.Download
import Verif.Lemmas.Entries
import Verif.Lemmas.Determined
/-! # The steps of a listing -/

namespace Cifs
open Spec

variable {σ : Type}

/-! ## Pieces -/

theorem brings_det {f : Bytes} {p p' : Piece} (h : Brings f p) (h' : Brings f p') : p = p' := by
  obtain ⟨_, _, ps, ds, hb, hp⟩ := h
  obtain ⟨_, _, ps', ds', hb', hp'⟩ := h'
  obtain ⟨rfl, rfl⟩ := replyBody_det hb hb'
  exact piece_det hp hp'

theorem pieces_split {mid : Nat} {b r r' : Bytes} {l l' : List Piece} (h : Pieces Brings mid b l r) (h' : Pieces Brings mid b l' r') :
    (∃ post, l' = l ++ post ∧ Pieces Brings mid r post r') ∨ (∃ post, l = l' ++ post ∧ Pieces Brings mid r' post r) := by
  induction h generalizing l' with
  | nil b => exact .inl ⟨l', rfl, h'⟩
  | cons ha hb hs ih =>
    cases h' with
    | nil => exact .inr ⟨_, rfl, .cons ha hb hs⟩
    | cons ha' hb' hs' =>
      obtain ⟨rfl, rfl⟩ := awaits_det ha ha'
      cases brings_det hb hb'
      rcases ih hs' with ⟨post, rfl, h⟩ | ⟨post, rfl, h⟩
      · exact .inl ⟨post, rfl, h⟩
      · exact .inr ⟨post, rfl, h⟩

/-- The pieces that were gathered. -/
theorem gather_run (t : Tail) (mid : UInt16) (n : Nat) : ∀ (b : Bytes), b.length < n → ∀ (c0 c : CollectTrans2) (b' : Bytes),
    flatGather t mid c0 b = (.ok c, b') →
    ∃ l, Pieces Brings mid.toNat b l b' ∧ takePieces c0 l = some (.ok c) ∧ ∀ pre post, l = pre ++ post → post ≠ [] → takePieces c0 pre = none := by
  induction n with
  | zero => intro b hb; omega
  | succ n ih =>
    intro b hb c0 c b' h
    have hc := flatReply_cases trans2Reply mid t b
    rw [flatGather_eq] at h
    rcases hr : flatReply trans2Reply mid t b with ⟨o, b1⟩
    rw [hr] at h hc
    cases o with
    | ok r =>
      obtain ⟨f, p, ha, hp, rfl⟩ := brings_of_reply t mid hr
      dsimp only at h
      cases hadd : c0.add p.reply with
      | ok q =>
        rw [hadd] at h
        dsimp only at h
        obtain ⟨c', rd⟩ := q
        cases rd with
        | true =>
          rw [if_pos rfl] at h
          cases h
          refine ⟨[p], .cons ha hp (.nil _), by simp [takePieces, hadd], fun pre post e hne => ?_⟩
          cases pre with
          | nil => rfl
          | cons x pre =>
            simp at e
            exact absurd e.2.2 hne
        | false =>
          rw [if_neg (by simp)] at h
          obtain ⟨l, h1, h2, h3⟩ := ih b1 (by simp at hc; omega) c' c b' h
          refine ⟨p :: l, .cons ha hp h1, by simp [takePieces, hadd, h2], fun pre post e hne => ?_⟩
          cases pre with
          | nil => rfl
          | cons x pre =>
            simp only [List.cons_append, List.cons.injEq] at e
            obtain ⟨rfl, e⟩ := e
            simp [takePieces, hadd, h3 pre post e hne]
      | err e => rw [hadd] at h; cases h
      | panic => rw [hadd] at h; cases h
    | err e => cases h
    | panic => cases h
    | pending => cases h
    | running => cases h

/-- What a successful search consists of. -/
theorem collect_iff {α : Type} (sub : SubReply2 α) (mid : UInt16) (t : Tail) (b b' : Bytes) (a : α) : flatCollect sub mid t b = (.ok a, b') ↔
    ∃ l P D, Pieces Brings mid.toNat b l b' ∧ Cuts l P D ∧ (∀ pre post P' D', l = pre ++ post → post ≠ [] → ¬ Cuts pre P' D') ∧ sub P D = .ok a := by
  constructor
  · intro h
    rcases hg : flatGather t mid .new b with ⟨o, b1⟩
    rcases out_cases o with ⟨c, rfl⟩ | ho
    · have h' := h
      unfold flatCollect at h'
      rw [M.bind_ok hg] at h'
      obtain ⟨l, h1, h2, h3⟩ := gather_run t mid _ b (Nat.lt_succ_self _) .new c b1 hg
      have hsh : ∀ pre post P' D', l = pre ++ post → post ≠ [] → ¬ Cuts pre P' D' := fun pre post P' D' e hne hc => by
        obtain ⟨c', hc', _⟩ := take_cuts hc
        rw [h3 pre post e hne] at hc'
        cases hc'
      rcases take_cases l [] agree_nil with ⟨pre, post, rfl, k1, k2, k3, k4⟩ | ⟨r', k1, k2⟩ | ⟨k1, k2, k3⟩
      · rw [ctxOf_nil, h2] at k4
        cases k4
        cases post with
        | cons x post =>
          rcases take_cases pre [] agree_nil with ⟨pre', post', rfl, j1, j2, j3, j4⟩ | ⟨r', j1, j2⟩ | ⟨j1, j2, j3⟩
          · rw [ctxOf_nil, h3 _ _ rfl (by simp)] at j4; cases j4
          · rw [ctxOf_nil, h3 _ _ rfl (by simp)] at j1; cases j1
          · exact absurd k3 (j3 k1)
        | nil =>
          rw [List.append_nil] at *
          rcases sub_cases sub k1 k2 with ⟨P, D, hc, e⟩ | ⟨_, r, e⟩
          · rw [List.nil_append, e] at h'
            cases hsub : sub P D with
            | ok a' => rw [hsub] at h'; cases h'; exact ⟨pre, P, D, h1, hc, hsh, hsub⟩
            | err e => rw [hsub] at h'; cases h'
            | panic => rw [hsub] at h'; cases h'
          · rw [List.nil_append, e] at h'; cases h'
      · rw [ctxOf_nil, h2] at k1; cases k1
      · rw [ctxOf_nil, h2] at k1; cases k1
    · unfold flatCollect at h
      rw [M.bind_fails hg ho] at h
      have := congrArg Prod.fst h
      exact absurd this (recast_fails a)
  · rintro ⟨l, P, D, h1, h2, h3, h4⟩
    obtain ⟨c, k1, k2⟩ := take_cuts h2
    obtain ⟨b1, hg⟩ := gather_some t mid h1 .new _ k1
    obtain ⟨l', g1, g2, g3⟩ := gather_run t mid _ b (Nat.lt_succ_self _) .new c b1 hg
    have hl : l = l' ∧ b' = b1 := by
      rcases pieces_split h1 g1 with ⟨post, rfl, hp⟩ | ⟨post, rfl, hp⟩
      · cases post with
        | nil => cases hp; simp
        | cons x post => rw [g3 _ _ rfl (by simp)] at k1; cases k1
      · cases post with
        | nil => cases hp; simp
        | cons x post =>
          exfalso
          rcases take_cases l' [] agree_nil with ⟨pre', post', rfl, j1, j2, j3, j4⟩ | ⟨r', j1, j2⟩ | ⟨j1, j2, j3⟩
          · rw [List.append_assoc] at h2 h3
            exact h3 pre' _ P D rfl (by simp) (cuts_prefix h2 j1 j3)
          · rw [ctxOf_nil, g2] at j1; cases j1
          · rw [ctxOf_nil, g2] at j1; cases j1
    obtain ⟨rfl, rfl⟩ := hl
    unfold flatCollect
    rw [M.bind_ok (a := c) hg, k2 sub, h4]
    rfl

/-! ## The request and the replies -/

theorem firstRequest {c : Cli} {tid : UInt16} {pattern : Str} {fr : Bytes} (h : requestFrame c (transact2Msg tid (findFirst2Cmd (sanitizePath pattern)
    (FileAttr.HIDDEN ||| FileAttr.SYSTEM ||| FileAttr.DIRECTORY))) = .ok fr) : FirstRequest (message fr) tid.toNat pattern := by
  obtain ⟨p, d, hb, _, _, rfl⟩ := requestFrame_ok h
  exact ⟨by rw [frame_cmd]; rfl, by rw [frame_tid]; rfl, _, is_transact2 _ _ _ _ _ p d rfl rfl ⟨rfl, rfl, rfl⟩ hb, is_findFirst _ _ _ rfl⟩

theorem nextRequest {c : Cli} {tid sid : UInt16} {last : Str} {fr : Bytes} (h : requestFrame c (transact2Msg tid (findNext2Cmd sid last)) = .ok fr) :
    NextRequest (message fr) tid.toNat sid.toNat last := by
  obtain ⟨p, d, hb, _, _, rfl⟩ := requestFrame_ok h
  exact ⟨by rw [frame_cmd]; rfl, by rw [frame_tid]; rfl, _, is_transact2 _ _ _ _ _ p d rfl rfl ⟨rfl, rfl, rfl⟩ hb, is_findNext _ _ _ rfl⟩

theorem keepsMid_transact2 (tid : UInt16) (c : SubCmd2) : KeepsMid (transact2Msg tid c) := keepsMid_setTid _ _ rfl

theorem transact2_eq {α : Type} {E : Env σ} {tid : UInt16} {c : SubCmd2} (sub : SubReply2 α) {s s1 : St σ} {mid : UInt16}
    (h : send E (transact2Msg tid c) s = (.ok mid, s1)) : ∃ ib, ib.flatten = (flatCollect sub mid (E.V.tail s1.w.srv) s1.w.flat).2 ∧
      transact2 E tid c sub s = ((flatCollect sub mid (E.V.tail s1.w.srv) s1.w.flat).1, s1.setInbox ib) := by
  rw [show transact2 E tid c sub s = _ from M.bind_ok h]
  exact collect_flatC E sub mid s1

/-- A search sends nothing, or the request. -/
theorem transact2_srv {α : Type} (E : Env σ) (tid : UInt16) (c : SubCmd2) (sub : SubReply2 α) (s : St σ) :
    ((∀ mid, (send E (transact2Msg tid c) s).1 ≠ .ok mid) ∧ (transact2 E tid c sub s).1.Fails ∧ (transact2 E tid c sub s).2.w.srv = s.w.srv) ∨
      ∃ fr, requestFrame s.cli (transact2Msg tid c) = .ok fr ∧ (transact2 E tid c sub s).2.w.srv = (E.V.react s.w.srv (message fr)).1 ∧
        (∀ a, (transact2 E tid c sub s).1 = .ok a → ∃ P D, SearchRound E.V s.w.srv s.w.inbox.flatten (message fr) P D
          (transact2 E tid c sub s).2.w.srv (transact2 E tid c sub s).2.w.inbox.flatten ∧ sub P D = .ok a) ∧
        ((transact2 E tid c sub s).1.Fails → ∀ P D v' b', SearchRound E.V s.w.srv s.w.inbox.flatten (message fr) P D v' b' → ∀ a, sub P D ≠ .ok a) := by
  by_cases h : ∀ mid, (send E (transact2Msg tid c) s).1 ≠ .ok mid
  · left
    rcases hs : send E (transact2Msg tid c) s with ⟨o, s1⟩
    rw [hs] at h
    have e := M.bind_fails (f := fun mid => collect E sub mid) hs h
    rw [show transact2 E tid c sub s = _ from e]
    refine ⟨h, recast_fails, ?_⟩
    have := (send_fails (E := E) (m := transact2Msg tid c) (s := s) (by rw [hs]; exact h)).1
    rw [hs] at this
    exact this
  · right
    obtain ⟨mid, hm⟩ : ∃ mid, (send E (transact2Msg tid c) s).1 = .ok mid := by
      rcases out_cases (send E (transact2Msg tid c) s).1 with h' | h'
      · exact h'
      · exact absurd h' h
    have hs : send E (transact2Msg tid c) s = (.ok mid, (send E (transact2Msg tid c) s).2) := by rw [← hm]
    obtain ⟨ib, h1, h2⟩ := transact2_eq sub hs
    obtain ⟨fr, h3, _, h5, _, h6, h7⟩ := send_ok_inv hs
    subst h5
    have hmid := requestFrame_mid (keepsMid_transact2 tid c) h3
    rw [h2]
    refine ⟨fr, h3, h6, fun a ha => ?_, fun hf P D v' b' hr a ha => ?_⟩
    · obtain ⟨l, P, D, k1, k2, k3, k4⟩ := (collect_iff sub _ _ _ _ a).mp (Prod.ext ha h1.symm : _ = (Out.ok a, ib.flatten))
      rw [h7] at k1
      exact ⟨P, D, ⟨h6, _, l, hmid, k1, k2, k3⟩, k4⟩
    · obtain ⟨_, mid, l, k0, k1, k2, k3⟩ := hr
      rw [hmid] at k0
      cases k0
      rw [← h7] at k1
      exact hf a (congrArg Prod.fst ((collect_iff sub _ (E.V.tail (send E (transact2Msg tid c) s).2.w.srv) _ _ a).mpr ⟨l, P, D, k1, k2, k3, ha⟩))

theorem transact2_accepting {α : Type} (E : Env σ) (tid : UInt16) (c : SubCmd2) (sub : SubReply2 α) {s : St σ} (h : Accepting s.w.wsched) :
    Accepting (transact2 E tid c sub s).2.w.wsched := by
  have hs : Accepting (send E (transact2Msg tid c) s).2.w.wsched := (send_ends E _ s h).2
  rcases ho : send E (transact2Msg tid c) s with ⟨o, s1⟩
  rw [ho] at hs
  rcases out_cases o with ⟨mid, rfl⟩ | hf
  · obtain ⟨ib, _, h2⟩ := transact2_eq sub ho
    rw [h2]; exact hs
  · rw [show transact2 E tid c sub s = _ from M.bind_fails ho hf]; exact hs

/-- A search of a listing that fails. -/
theorem failed_search {α : Type} {E : Env σ} {tid : UInt16} {c : SubCmd2} (sub : SubReply2 α) {s s0 s1 : St σ} {o : Out Error α}
    (h : transact2 E tid c sub s = (o, s1)) (ho : o.Fails) (hw : Accepting s0.w.wsched → Accepting s.w.wsched) {β : Type} :
    ((Quits s0 (o.recast : Out Error β) ∨ ¬ ∃ fr, requestFrame s.cli (transact2Msg tid c) = .ok fr) ∧ s1.w.srv = s.w.srv) ∨
      ∃ fr, requestFrame s.cli (transact2Msg tid c) = .ok fr ∧ s1.w.srv = (E.V.react s.w.srv (message fr)).1 ∧
        ∀ P D v' b', SearchRound E.V s.w.srv s.w.inbox.flatten (message fr) P D v' b' → ∀ a, sub P D ≠ .ok a := by
  have hr := transact2_srv E tid c sub s
  rw [h] at hr
  rcases hr with ⟨h1, h2, h3⟩ | ⟨fr, h1, h2, h3, h4⟩
  · left
    refine ⟨?_, h3⟩
    by_cases hq : Quits s0 (o.recast : Out Error β)
    · exact .inl hq
    · right
      rintro ⟨fr, hfr⟩
      have hacc : Accepting s.w.wsched := hw (by
        apply Classical.byContradiction
        intro hn
        exact hq (.inr (.inr hn)))
      by_cases hc : E.checked = true ∧ s.cli.mid.toNat = 65535
      · have : send E (transact2Msg tid c) s = (.panic, (send E (transact2Msg tid c) s).2) := by unfold send; rw [if_pos hc]
        have := congrArg Prod.fst (M.bind_panic (f := fun mid => collect E sub mid) this)
        rw [show (send E (transact2Msg tid c) >>= fun mid => collect E sub mid) s = _ from h] at this
        exact hq (.inr (.inl (recast_panic this)))
      · obtain ⟨ws, _, h2⟩ := send_ok E _ s fr hc hfr (C26_fits hfr) hacc
        exact h1 s.cli.mid (by rw [h2])
  · exact .inr ⟨fr, h1, h2, h4 ho⟩

/-- The course of the loop of a listing. -/
theorem listLoop_course (E : Env σ) (share : Share) (sid : UInt16) (s0 : St σ) (k : Nat) : ∀ (got : List DirInfo) (s : St σ), got ≠ [] →
    (Accepting s0.w.wsched → Accepting s.w.wsched) →
    ∃ reqs pages r, Continuing E.V (Quits s0 (listLoop E share sid k got s).1) share.tid.toNat sid.toNat s.w.srv s.w.inbox.flatten got reqs pages r
        (listLoop E share sid k got s).2.w.srv ∧
      (∀ d, (listLoop E share sid k got s).1 = .ok d ↔ r = some d) ∧ ((listLoop E share sid k got s).1 = .running → pages.length = k) := by
  have fails : ∀ {α : Type} {o : Out Error α} (d : List DirInfo), (o.recast : Out Error (List DirInfo)) = .ok d ↔ (none : Option (List DirInfo)) = some d :=
    fun d => ⟨fun h' => absurd h' (recast_fails d), fun h' => by cases h'⟩
  induction k with
  | zero =>
    intro got s _ _
    exact ⟨[], [], none, .stop (.inl rfl) _ _ _, fun d => ⟨fun h => (by cases h), fun h => (by cases h)⟩, fun _ => rfl⟩
  | succ k ih =>
    intro got s hne hw
    obtain ⟨last, hl⟩ : ∃ last, got.getLast? = some last := by
      rw [List.getLast?_eq_some_getLast hne]; exact ⟨_, rfl⟩
    rcases hr : findNext E share sid last.filename s with ⟨o, s1⟩
    have hr' : transact2 E share.tid (findNext2Cmd sid last.filename) findNext2Parse s = (o, s1) := hr
    have e : listLoop E share sid (k + 1) got = (findNext E share sid last.filename >>= fun reply =>
        if reply.done then pure (got ++ reply.info) else listLoop E share sid k (got ++ reply.info)) := by
      rw [listLoop, hl]
    rw [e]
    rcases out_cases o with ⟨reply, rfl⟩ | ho
    · rw [M.bind_ok hr]
      have hs := transact2_srv E share.tid (findNext2Cmd sid last.filename) findNext2Parse s
      rw [hr'] at hs
      rcases hs with ⟨_, h2, _⟩ | ⟨fr, h1, h2, h3, h4⟩
      · exact absurd rfl (h2 reply)
      obtain ⟨P, D, h5, h6⟩ := h3 reply rfl
      have hp : NextPage P D reply.done reply.info := ((findNext_parse P D).1 reply).mp h6
      cases hd : reply.done with
      | true =>
        rw [if_pos rfl]
        rw [hd] at hp
        refine ⟨[message fr], [reply.info], some (got ++ reply.info), .ended hl (nextRequest h1) h5 hp, fun d => ⟨fun h => ?_, fun h => ?_⟩, fun h => by cases h⟩
        · cases h; rfl
        · cases h; rfl
      | false =>
        rw [if_neg (by simp)]
        rw [hd] at hp
        obtain ⟨reqs, pages, r, g1, g2, g3⟩ := ih (got ++ reply.info) s1 (by simp [hne]) (fun h => by
          have := transact2_accepting E share.tid (findNext2Cmd sid last.filename) findNext2Parse (hw h)
          rw [hr'] at this
          exact this)
        exact ⟨message fr :: reqs, reply.info :: pages, r, .more hl (nextRequest h1) h5 hp g1, g2, fun h => by simp [g3 h]⟩
    · rw [M.bind_fails hr ho]
      have hrun : (o.recast : Out Error (List DirInfo)) ≠ .running := fun h => by
        have := transact2_stops E share.tid (findNext2Cmd sid last.filename) findNext2Parse s
        rw [hr'] at this
        exact this (recast_running ho h)
      rcases failed_search findNext2Parse hr' ho hw (β := List DirInfo) with ⟨hq | hq, h⟩ | ⟨fr, h, h', h''⟩
      · refine ⟨[], [], none, ?_, fails, fun h => absurd h hrun⟩
        rw [h]; exact .stop hq _ _ _
      · refine ⟨[], [], none, ?_, fails, fun h => absurd h hrun⟩
        rw [h]
        refine .long hl ?_
        apply Classical.byContradiction
        intro hn
        exact hq (first_fits s.cli (.findNext share sid last.filename) (by show utf16Len last.filename ≤ 32725; omega))
      · refine ⟨[message fr], [], none, ?_, fails, fun h => absurd h hrun⟩
        rw [h']
        exact .failed hl (nextRequest h) fun P D v' b' ended ds hr hp =>
          h'' P D v' b' hr { done := ended, info := ds } (((findNext_parse P D).1 _).mpr hp)

/-- The course of a listing. -/
theorem list_course (E : Env σ) (k : Nat) (share : Share) (pattern : Str) (s : St σ) :
    ∃ reqs sid pages r, Listing E.V (Quits s (list E k share pattern s).1) share.tid.toNat pattern s.w.srv s.w.inbox.flatten reqs sid pages r
        (list E k share pattern s).2.w.srv ∧
      (∀ d, (list E k share pattern s).1 = .ok d ↔ r = some d) ∧ ((list E k share pattern s).1 = .running → sid ≠ none ∧ pages.length = k + 1) := by
  have fails : ∀ {α : Type} {o : Out Error α} (d : List DirInfo), (o.recast : Out Error (List DirInfo)) = .ok d ↔ (none : Option (List DirInfo)) = some d :=
    fun d => ⟨fun h' => absurd h' (recast_fails d), fun h' => by cases h'⟩
  have e : list E k share pattern = (findFirst E share pattern >>= fun reply =>
      if reply.done then pure reply.info else listLoop E share reply.sid k reply.info) := rfl
  rw [e]
  rcases hr : findFirst E share pattern s with ⟨o, s1⟩
  have hr' : transact2 E share.tid (findFirst2Cmd (sanitizePath pattern) (FileAttr.HIDDEN ||| FileAttr.SYSTEM ||| FileAttr.DIRECTORY)) findFirst2Parse s
    = (o, s1) := hr
  rcases out_cases o with ⟨reply, rfl⟩ | ho
  · rw [M.bind_ok hr]
    have hs := transact2_srv E share.tid (findFirst2Cmd (sanitizePath pattern) (FileAttr.HIDDEN ||| FileAttr.SYSTEM ||| FileAttr.DIRECTORY)) findFirst2Parse s
    rw [hr'] at hs
    rcases hs with ⟨_, h2, _⟩ | ⟨fr, h1, h2, h3, h4⟩
    · exact absurd rfl (h2 reply)
    obtain ⟨P, D, h5, h6⟩ := h3 reply rfl
    have hp : FirstPage P D reply.sid.toNat reply.done reply.info := ((findFirst_parse P D).1 reply).mp h6
    cases hd : reply.done with
    | true =>
      rw [if_pos rfl]
      rw [hd] at hp
      refine ⟨[message fr], some reply.sid.toNat, [reply.info], some reply.info, .ended (firstRequest h1) h5 hp, fun d => ⟨fun h => ?_, fun h => ?_⟩,
        fun h => by cases h⟩
      · cases h; rfl
      · cases h; rfl
    | false =>
      rw [if_neg (by simp)]
      rw [hd] at hp
      obtain ⟨reqs, pages, r, g1, g2, g3⟩ := listLoop_course E share reply.sid s k reply.info s1 (by
          rcases hp.2.2 with h | h
          · cases h
          · exact h) (fun h => by
        have := transact2_accepting E share.tid (findFirst2Cmd (sanitizePath pattern) (FileAttr.HIDDEN ||| FileAttr.SYSTEM ||| FileAttr.DIRECTORY)) findFirst2Parse h
        rw [hr'] at this
        exact this)
      exact ⟨message fr :: reqs, some reply.sid.toNat, reply.info :: pages, r, .more (firstRequest h1) h5 hp g1, g2, fun h => ⟨by simp, by simp [g3 h]⟩⟩
  · rw [M.bind_fails hr ho]
    have hrun : (o.recast : Out Error (List DirInfo)) ≠ .running := fun h => by
      have := transact2_stops E share.tid (findFirst2Cmd (sanitizePath pattern) (FileAttr.HIDDEN ||| FileAttr.SYSTEM ||| FileAttr.DIRECTORY)) findFirst2Parse s
      rw [hr'] at this
      exact this (recast_running ho h)
    rcases failed_search findFirst2Parse hr' ho (s0 := s) id (β := List DirInfo) with ⟨hq, h⟩ | ⟨fr, h, h', h''⟩
    · refine ⟨[], none, [], none, ?_, fails, fun h => absurd h hrun⟩
      rw [h]
      refine .none (hq.imp id fun hq => ?_) _ _
      apply Classical.byContradiction
      intro hn
      exact hq (first_fits s.cli (.findFirst share pattern) (by show utf16Len pattern ≤ 32725; omega))
    · refine ⟨[message fr], none, [], none, ?_, fails, fun h => absurd h hrun⟩
      rw [h']
      refine .failed (firstRequest h) fun P D v' b' sid ended ds hr hp => ?_
      have hs : ∃ sid' : UInt16, sid'.toNat = sid := ⟨UInt16.ofNat sid, by
        have := u16At_small hp.1.2.1
        simp; omega⟩
      obtain ⟨sid', rfl⟩ := hs
      exact h'' P D v' b' hr { sid := sid', done := ended, info := ds } (((findFirst_parse P D).1 _).mpr hp)

/-! ## A server that serves a directory -/

theorem brought_pieces {own : Nat → Prop} {mid : Nat} (ho : own mid) {b : Bytes} {l : List Piece} (h : Brought own mid b l) : ∀ {b0 : Bytes},
    Foreign own b0 → ∃ rest, Foreign own rest ∧ Pieces Brings mid (b0 ++ b) l rest := by
  induction h with
  | nil h => intro b0 h0; exact ⟨_, foreign_append h0 h, .nil _⟩
  | @cons b f rest p l h hl hg hm hp hs ih =>
    intro b0 h0
    obtain ⟨b', h7, h8⟩ := foreign_skips (foreign_append h0 h) ho (.message f rest hl)
    obtain ⟨r, h9, h10⟩ := ih .nil
    refine ⟨r, h9, .cons (f := f) (b' := rest) ⟨b', ?_, h8, hg, hm⟩ hp h10⟩
    simpa using h7

/-- A search that is served. -/
theorem transact2_serves {α : Type} {E : Env σ} {tid : UInt16} {c : SubCmd2} (sub : SubReply2 α) {own : Nat → Prop} {n : Nat} {s : St σ} {fr P D : Bytes}
    {a : α} (hr : Ready E own (n + 1) s) (hf : requestFrame s.cli (transact2Msg tid c) = .ok fr) (hs : ServesPage E.V own s.w.srv (message fr) P D)
    (hok : sub P D = .ok a) :
    ∃ s', transact2 E tid c sub s = (.ok a, s') ∧ s'.cli = s.bump.cli ∧ s'.w.srv = (E.V.react s.w.srv (message fr)).1 ∧ Ready E own n s' := by
  obtain ⟨mid, l, h1, h2, h3, h4⟩ := hs
  have hmid := requestFrame_mid (keepsMid_transact2 tid c) hf
  rw [hmid] at h1
  cases h1
  obtain ⟨rest, h5, h6⟩ := brought_pieces hr.first.2 h2 hr.unread
  obtain ⟨ws, k1, k2⟩ := send_ok E _ s fr hr.first.1 hf (C26_fits hf) hr.writes
  obtain ⟨ib, k3, k4⟩ := transact2_eq sub k2
  rw [show flatCollect _ _ _ _ = _ from (collect_iff sub s.cli.mid _ _ rest a).mpr ⟨l, P, D, by
    show Pieces Brings _ (s.w.inbox ++ (E.V.react s.w.srv (message fr)).2).flatten l rest
    rw [List.flatten_append]; exact h6, h3, h4, hok⟩] at k3 k4
  exact ⟨_, k4, rfl, rfl, hr.next rfl (by rw [show (St.setInbox _ ib).w.inbox.flatten = _ from k3]; exact h5) k1⟩

/-- The pieces of a reply, whatever is made of them. -/
theorem collect_cut {α : Type} (sub : SubReply2 α) {mid : UInt16} {t : Tail} {b b' : Bytes} {l : List Piece} {P D : Bytes}
    (h1 : Pieces Brings mid.toNat b l b') (h2 : Cuts l P D) (h3 : ∀ pre post P' D', l = pre ++ post → post ≠ [] → ¬ Cuts pre P' D') :
    flatCollect sub mid t b = M.ofRes Error.SMBError (sub P D) b' := by
  obtain ⟨c, k1, k2⟩ := take_cuts h2
  have hall := (collect_iff (fun P D => .ok (P, D)) mid t b b' (P, D)).mpr ⟨l, P, D, h1, h2, h3, rfl⟩
  unfold flatCollect at hall ⊢
  obtain ⟨b1, hg⟩ := gather_some t mid h1 .new _ k1
  rw [M.bind_ok hg, k2] at hall ⊢
  cases hall
  rfl

/-- A search that is served with blocks that cannot be read. -/
theorem transact2_breaks {α : Type} {E : Env σ} {tid : UInt16} {c : SubCmd2} (sub : SubReply2 α) {own : Nat → Prop} {n : Nat} {s : St σ} {fr P D : Bytes}
    {e : SmbError} (hr : Ready E own (n + 1) s) (hf : requestFrame s.cli (transact2Msg tid c) = .ok fr) (hs : ServesPage E.V own s.w.srv (message fr) P D)
    (he : sub P D = .err e) :
    ∃ s', transact2 E tid c sub s = (.err (.SMBError e), s') ∧ s'.cli = s.bump.cli ∧ s'.w.srv = (E.V.react s.w.srv (message fr)).1 ∧ Ready E own n s' := by
  obtain ⟨mid, l, h1, h2, h3, h4⟩ := hs
  have hmid := requestFrame_mid (keepsMid_transact2 tid c) hf
  rw [hmid] at h1
  cases h1
  obtain ⟨rest, h5, h6⟩ := brought_pieces hr.first.2 h2 hr.unread
  obtain ⟨ws, k1, k2⟩ := send_ok E _ s fr hr.first.1 hf (C26_fits hf) hr.writes
  obtain ⟨ib, k3, k4⟩ := transact2_eq sub k2
  rw [show flatCollect _ _ _ _ = _ from collect_cut sub (by
    show Pieces Brings _ (s.w.inbox ++ (E.V.react s.w.srv (message fr)).2).flatten l rest
    rw [List.flatten_append]; exact h6) h3 h4, he] at k3 k4
  exact ⟨_, k4, rfl, rfl, hr.next rfl (by rw [show (St.setInbox _ ib).w.inbox.flatten = _ from k3]; exact h5) k1⟩

theorem served_list_loop {E : Env σ} {own : Nat → Prop} {share : Share} {pattern : Str} {sid : UInt16} {pages : List (List DirInfo)}
    {after : Nat → σ → Prop} (hs : DirServer E.V own share.tid.toNat pattern sid.toNat pages after)
    (hn : ∀ ds ∈ pages, ∀ d ∈ ds, utf16Len d.filename ≤ 32725) (n : Nat) : ∀ (k : Nat) (s : St σ), 0 < k → k + n + 1 = pages.length → after k s.w.srv →
      (pages.take k).flatten ≠ [] → Ready E own (n + 1) s → ∀ budget, n < budget →
      ∃ s', listLoop E share sid budget (pages.take k).flatten s = (.ok pages.flatten, s') ∧ after pages.length s'.w.srv := by
  have step : ∀ (n k : Nat) (s : St σ), 0 < k → k + n + 1 = pages.length → after k s.w.srv → (pages.take k).flatten ≠ [] → Ready E own (n + 1) s →
      ∀ b, ∃ s1 ds, pages.take (k + 1) = pages.take k ++ [ds] ∧ after (k + 1) s1.w.srv ∧ Ready E own n s1 ∧
        listLoop E share sid (b + 1) (pages.take k).flatten s =
          (if n = 0 then pure (pages.take (k + 1)).flatten else listLoop E share sid b (pages.take (k + 1)).flatten : CM σ _) s1 := by
    intro n k s hk hl ha hne hr b
    obtain ⟨last, hlast⟩ : ∃ last, (pages.take k).flatten.getLast? = some last := by
      rw [List.getLast?_eq_some_getLast hne]; exact ⟨_, rfl⟩
    obtain ⟨ds, hds⟩ : ∃ ds, pages[k]? = some ds := ⟨_, List.getElem?_eq_getElem (by omega)⟩
    have hfit : utf16Len last.filename ≤ 32725 := by
      have h1 := List.mem_of_getLast? hlast
      obtain ⟨ds', h2, h3⟩ := List.mem_flatten.mp h1
      exact hn ds' (List.mem_of_mem_take h2) last h3
    obtain ⟨fr, hfr⟩ := first_fits s.cli (.findNext share sid last.filename) hfit
    obtain ⟨P, D, h1, h2, h3⟩ := hs.next k _ _ ds last ha hk hlast (nextRequest hfr) hds
    obtain ⟨s1, g1, g2, g3, g4⟩ := transact2_serves findNext2Parse hr hfr h1 (((findNext_parse P D).1 { done := _, info := ds }).mpr h2)
    have htake : pages.take (k + 1) = pages.take k ++ [ds] := by
      rw [List.take_add_one, hds]; rfl
    refine ⟨s1, ds, htake, by rw [g3]; exact h3, g4, ?_⟩
    rw [listLoop, hlast]
    dsimp only
    rw [M.bind_ok (show findNext E share sid last.filename s = _ from g1), htake]
    by_cases h0 : n = 0
    · rw [if_pos h0, if_pos (by simp; omega)]; simp
    · rw [if_neg h0, if_neg (by simp; omega)]; simp
  induction n with
  | zero =>
    intro k s hk hl ha hne hr budget hb
    obtain ⟨b, rfl⟩ : ∃ b, budget = b + 1 := ⟨budget - 1, by omega⟩
    obtain ⟨s1, ds, h1, h2, h3, h4⟩ := step 0 k s hk hl ha hne hr b
    rw [h4, if_pos rfl, show k + 1 = pages.length by omega, List.take_length]
    exact ⟨s1, rfl, by rw [← show k + 1 = pages.length by omega]; exact h2⟩
  | succ n ih =>
    intro k s hk hl ha hne hr budget hb
    obtain ⟨b, rfl⟩ : ∃ b, budget = b + 1 := ⟨budget - 1, by omega⟩
    obtain ⟨s1, ds, h1, h2, h3, h4⟩ := step (n + 1) k s hk hl ha hne hr b
    rw [h4, if_neg (by omega)]
    exact ih (k + 1) s1 (by omega) (by omega) h2 (by rw [h1, List.flatten_append]; simp [hne]) h3 b (by omega)

theorem served_list {E : Env σ} {own : Nat → Prop} {share : Share} {pattern : Str} {sid : UInt16} {pages : List (List DirInfo)}
    {after : Nat → σ → Prop} (hs : DirServer E.V own share.tid.toNat pattern sid.toNat pages after) (hne : pages ≠ [])
    (hn : ∀ ds ∈ pages, ∀ d ∈ ds, utf16Len d.filename ≤ 32725) (hp : utf16Len pattern ≤ 32725) (s : St σ) (ha : after 0 s.w.srv)
    (hr : Ready E own pages.length s) (budget : Nat) (hb : pages.length ≤ budget + 1) :
    ∃ s', list E budget share pattern s = (.ok pages.flatten, s') ∧ after pages.length s'.w.srv := by
  obtain ⟨n, hl⟩ : ∃ n, pages.length = n + 1 := ⟨pages.length - 1, by have := List.length_pos_iff.mpr hne; omega⟩
  obtain ⟨ds, hds⟩ : ∃ ds, pages[0]? = some ds := ⟨_, List.getElem?_eq_getElem (by omega)⟩
  obtain ⟨fr, hfr⟩ := first_fits s.cli (.findFirst share pattern) hp
  rw [hl] at hr
  obtain ⟨P, D, h1, h2, h3⟩ := hs.first _ _ ds ha (firstRequest hfr) hds
  obtain ⟨s1, g1, g2, g3, g4⟩ := transact2_serves findFirst2Parse hr hfr h1 (((findFirst_parse P D).1 { sid := sid, done := _, info := ds }).mpr h2)
  have htake : pages.take 1 = [ds] := by
    rw [show (1 : Nat) = 0 + 1 from rfl, List.take_add_one, hds]; rfl
  have e : list E budget share pattern = (findFirst E share pattern >>= fun reply =>
      if reply.done then pure reply.info else listLoop E share reply.sid budget reply.info) := rfl
  rw [e, M.bind_ok (show findFirst E share pattern s = _ from g1)]
  by_cases h0 : n = 0
  · subst h0
    rw [if_pos (by simp [hl])]
    have : pages = [ds] := by rw [← htake, List.take_of_length_le (by omega)]
    refine ⟨s1, ?_, by rw [hl, g3]; exact h3⟩
    rw [this]; simp
  · rw [if_neg (by simp; omega)]
    have hd : ds ≠ [] := by
      rcases h2.2.2 with h | h
      · simp at h; omega
      · exact h
    obtain ⟨m, rfl⟩ : ∃ m, n = m + 1 := ⟨n - 1, by omega⟩
    have := served_list_loop hs hn m 1 s1 (by omega) (by omega) (by rw [g3]; exact h3) (by rw [htake]; simpa using hd) g4 budget (by omega)
    rw [htake] at this
    simpa using this

end Cifs
