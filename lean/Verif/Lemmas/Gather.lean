import Verif.Lemmas.Trans2
import Verif.Lemmas.Decode
/-! # Collecting the replies to a search -/

namespace Cifs
open Spec

variable {σ : Type}

theorem reply_awaits {α : Type} (R : Reply α) (t : Tail) (mid : UInt16) {b f b' : Bytes} (h : Awaits mid.toNat b f b') :
    ∃ i, Info.parse f = .ok (i, f.drop 32) ∧ flatReply R mid t b = ((accept R i (f.drop 32)).out, b') := by
  obtain ⟨i, hp, hn⟩ := flatNext_awaits t mid h
  refine ⟨i, hp, ?_⟩
  rw [flatReply_eq, M.bind_ok hn]
  unfold M.ofRes
  cases accept R i (f.drop 32) <;> rfl

theorem accept_body {α : Type} (R : Reply α) {f : Bytes} {i : Info} (hp : Info.parse f = .ok (i, f.drop 32))
    (hc : cmdOf (message f) = some R.cmd.code.toNat) (hst : statusOf (message f) = some 0) :
    accept R i (f.drop 32) = (R.parse i (f.drop 32)).mapErr Error.SMBError := by
  have hr := C17_read f i _ hp
  rw [hc] at hr
  rw [hst] at hr
  exact accept_success R i _ (code_inj (Option.some.inj hr.2.1)).symm (status_zero (parse_status hp) (Option.some.inj hr.2.2.1).symm)

theorem accept_inv {α : Type} (R : Reply α) (hR : R.cmd ≠ .SessionSetup) {f : Bytes} {i : Info} (hp : Info.parse f = .ok (i, f.drop 32)) {a : α}
    (h : accept R i (f.drop 32) = .ok a) : cmdOf (message f) = some R.cmd.code.toNat ∧ statusOf (message f) = some 0 ∧
      ∃ ps ds, ReplyBody (message f) ps ds ∧ R.make i ps ds = .ok a := by
  have hr := C17_read f i _ hp
  have hg := (C13_accepted_iff f).mp ⟨_, _, hp⟩
  have hc : i.cmd = R.cmd := by
    apply Classical.byContradiction
    intro hc
    rw [accept, if_pos hc] at h; cases h
  have hs : i.status = .Known .SUCCESS := by
    apply Classical.byContradiction
    intro hs
    rw [accept, if_neg (by simp [hc]), if_neg] at h
    · cases h
    · rintro (h' | ⟨_, h'⟩)
      · exact hs h'
      · exact hR (hc ▸ h')
  rw [accept_success R i _ hc hs] at h
  refine ⟨by rw [hr.2.1, hc], by rw [hr.2.2.1, hs]; rfl, ?_⟩
  by_cases hb : ∃ ps ds, ReplyBody (message f) ps ds
  · obtain ⟨ps, ds, hb⟩ := hb
    rw [parse_body R i hg.1 hb] at h
    refine ⟨ps, ds, hb, ?_⟩
    cases hm : R.make i ps ds with
    | ok a' => rw [hm] at h; cases h; rfl
    | err e => rw [hm] at h; cases h
    | panic => rw [hm] at h; cases h
  · rw [parse_short R i hg.1 hb] at h; cases h

theorem reply_brings (t : Tail) (mid : UInt16) {b f b' : Bytes} {p : Piece} (h : Awaits mid.toNat b f b') (hp : Brings f p) :
    flatReply trans2Reply mid t b = (.ok p.reply, b') := by
  obtain ⟨i, hi, e⟩ := reply_awaits trans2Reply t mid h
  obtain ⟨hc, hs, ps, ds, hb, hpc⟩ := hp
  have hg := (C13_accepted_iff f).mp ⟨_, _, hi⟩
  rw [e, accept_body trans2Reply hi hc hs, parse_body trans2Reply i hg.1 hb, make_plain trans2Reply rfl i]
  rcases trans2_create i ps ds with ⟨p', h1, _, e⟩ | ⟨_, h1, _⟩ | ⟨_, h1, _⟩
  · rw [show trans2Reply.create _ = _ from e, piece_det hpc h1]; rfl
  · exact absurd hpc (h1 p)
  · exact absurd hpc (h1 p)

theorem brings_of_reply (t : Tail) (mid : UInt16) {b b' : Bytes} {r : Trans2Reply} (h : flatReply trans2Reply mid t b = (.ok r, b')) :
    ∃ f p, Awaits mid.toNat b f b' ∧ Brings f p ∧ r = p.reply := by
  rcases hn : flatNext t mid b with ⟨o, b1⟩
  rw [flatReply_eq] at h
  cases o with
  | ok q =>
    obtain ⟨f, ha, hp⟩ := awaits_of_flatNext t mid _ b (Nat.lt_succ_self _) q b1 hn
    obtain ⟨i, hi, e⟩ := reply_awaits trans2Reply t mid ha
    rw [flatReply_eq, h] at e
    cases hacc : accept trans2Reply i (f.drop 32) with
    | ok a =>
      rw [hacc] at e
      cases e
      obtain ⟨hc, hs, ps, ds, hb, hm⟩ := accept_inv trans2Reply (by decide) hi hacc
      rw [make_plain trans2Reply rfl i] at hm
      rcases trans2_create i ps ds with ⟨p, h1, _, e⟩ | ⟨_, _, e⟩ | ⟨_, _, e⟩
      · rw [show trans2Reply.create _ = _ from e] at hm
        cases hm
        exact ⟨f, p, ha, ⟨hc, hs, ps, ds, hb, h1⟩, rfl⟩
      · rw [show trans2Reply.create _ = _ from e] at hm; cases hm
      · rw [show trans2Reply.create _ = _ from e] at hm; cases hm
    | err x => rw [hacc] at e; cases e
    | panic => rw [hacc] at e; cases e
  | err e => rw [M.bind_err hn] at h; cases h
  | panic => rw [M.bind_panic hn] at h; cases h
  | pending => rw [M.bind_pending hn] at h; cases h
  | running => rw [M.bind_running hn] at h; cases h

theorem gather_some (t : Tail) (mid : UInt16) {b rest : Bytes} {l : List Piece} (h : Pieces Brings mid.toNat b l rest) (c : CollectTrans2)
    (r : Res SmbError CollectTrans2) (hr : takePieces c l = some r) : ∃ b', flatGather t mid c b = ((r.mapErr Error.SMBError).out, b') := by
  induction h generalizing c with
  | nil => cases hr
  | cons ha hb hs ih =>
    rw [flatGather_eq, reply_brings t mid ha hb]
    dsimp only
    unfold takePieces at hr
    cases hadd : c.add (Spec.Piece.reply _) with
    | ok q =>
      rw [hadd] at hr
      dsimp only at hr ⊢
      cases hq : q.2 with
      | true => rw [hq, if_pos rfl] at hr; cases hr; exact ⟨_, rfl⟩
      | false => rw [hq, if_neg (by simp)] at hr; exact ih _ hr
    | err e => rw [hadd] at hr; cases hr; exact ⟨_, rfl⟩
    | panic => rw [hadd] at hr; cases hr; exact ⟨_, rfl⟩

theorem gather_none (t : Tail) (mid : UInt16) {b rest : Bytes} {l : List Piece} (h : Pieces Brings mid.toNat b l rest) (done : List Piece) (hd : Agree done)
    (hr : takePieces (ctxOf done) l = none) : flatGather t mid (ctxOf done) b = flatGather t mid (ctxOf (done ++ l)) rest := by
  induction h generalizing done with
  | nil => simp
  | cons ha hb hs ih =>
    rename_i p l'
    rw [flatGather_eq, reply_brings t mid ha hb]
    dsimp only
    unfold takePieces at hr
    rcases ctx_add hd p with ⟨hag, rd, hrd, e⟩ | ⟨_, r, e⟩
    · rw [e] at hr ⊢
      dsimp only at hr ⊢
      cases rd with
      | true => cases hr
      | false =>
        have := ih (done ++ [p]) hag hr
        rw [if_neg (by simp), this]; simp
    · rw [e] at hr; cases hr

/-- Every collection: pieces up to the end of it, or up to a reply that brings none. -/
theorem gather_cases (t : Tail) (mid : UInt16) (n : Nat) : ∀ (b : Bytes), b.length < n → ∀ done : List Piece, Agree done →
    ∃ l rest, Pieces Brings mid.toNat b l rest ∧
      ((∃ r, takePieces (ctxOf done) l = some r ∧ (flatGather t mid (ctxOf done) b).1 = (r.mapErr Error.SMBError).out) ∨
       (takePieces (ctxOf done) l = none ∧ ∃ o b', flatReply trans2Reply mid t rest = (o, b') ∧ (∀ r, o ≠ .ok r) ∧
          (flatGather t mid (ctxOf done) b).1 = match o with
            | .ok _ => .panic
            | .err e => .err e
            | .panic => .panic
            | .pending => .pending
            | .running => .running)) := by
  induction n with
  | zero => intro b hb; omega
  | succ n ih =>
    intro b hb done hd
    have hc := flatReply_cases trans2Reply mid t b
    have hg := flatGather_eq t mid (ctxOf done) b
    rcases hr : flatReply trans2Reply mid t b with ⟨o, b'⟩
    rw [hr] at hc hg
    cases o with
    | ok r =>
      obtain ⟨f, p, ha, hbr, rfl⟩ := brings_of_reply t mid hr
      dsimp only at hg
      rcases ctx_add hd p with ⟨hag, rd, hrd, e⟩ | ⟨_, r, e⟩
      · rw [e] at hg
        dsimp only at hg
        cases rd with
        | true =>
          refine ⟨[p], b', .cons ha hbr (.nil _), .inl ⟨_, by simp only [takePieces, e]; rfl, ?_⟩⟩
          rw [hg]; rfl
        | false =>
          rw [if_neg (by simp)] at hg
          have hlt := hc.2.2 _ rfl
          obtain ⟨l, rest, hp, h⟩ := ih b' (by dsimp only at hlt; omega) (done ++ [p]) hag
          have hstep : takePieces (ctxOf done) (p :: l) = takePieces (ctxOf (done ++ [p])) l := by
            simp only [takePieces, e]; rfl
          refine ⟨p :: l, rest, .cons ha hbr hp, ?_⟩
          rw [hstep, hg]
          exact h
      · rw [e] at hg
        refine ⟨[p], b', .cons ha hbr (.nil _), .inl ⟨.err (.Reassemble r), by simp only [takePieces, e], ?_⟩⟩
        rw [hg]; rfl
    | err e => exact ⟨[], b, .nil b, .inr ⟨rfl, _, _, hr, by simp, by rw [hg]⟩⟩
    | panic => exact ⟨[], b, .nil b, .inr ⟨rfl, _, _, hr, by simp, by rw [hg]⟩⟩
    | pending => exact ⟨[], b, .nil b, .inr ⟨rfl, _, _, hr, by simp, by rw [hg]⟩⟩
    | running => exact ⟨[], b, .nil b, .inr ⟨rfl, _, _, hr, by simp, by rw [hg]⟩⟩

/-! ## The operations -/

/-- What a search operation makes of its two blocks. -/
def Op.page : Op → Bytes → Bytes → Res SmbError Val
  | .findFirst .., P, D => (findFirst2Parse P D).mapOk Val.first
  | .findNext .., P, D => (findNext2Parse P D).mapOk Val.next
  | _, _, _ => .panic

/-- What a search operation makes of a finished collection. -/
def Op.finish (op : Op) (c : CollectTrans2) : Res SmbError Val := c.getSubreply op.page

theorem search_gather (op : Op) (ho : op.isFind = true) (mid : UInt16) (t : Tail) (b : Bytes) :
    (op.search mid t b).1 = match (flatGather t mid .new b).1 with
      | .ok c => ((op.finish c).mapErr Error.SMBError).out
      | .err e => .err e
      | .panic => .panic
      | .pending => .pending
      | .running => .running := by
  have key : ∀ {α : Type} (sub : SubReply2 α) (g : α → Val) (page : SubReply2 Val), (∀ P D, page P D = (sub P D).mapOk g) →
      (M.map' g (flatCollect sub mid t) b).1 = match (flatGather t mid .new b).1 with
      | .ok c => ((c.getSubreply page).mapErr Error.SMBError).out
      | .err e => .err e
      | .panic => .panic
      | .pending => .pending
      | .running => .running := by
    intro α sub g page hpg
    rcases hg : flatGather t mid .new b with ⟨o, b'⟩
    cases o with
    | ok c =>
      have : c.getSubreply page = (c.getSubreply sub).mapOk g := by
        show Res.bind _ _ = Res.mapOk g (Res.bind _ _)
        cases c.parameter.get with
        | ok P =>
          show Res.bind _ _ = Res.mapOk g (Res.bind _ _)
          cases c.data.get with
          | ok D => exact hpg P D
          | err e => rfl
          | panic => rfl
        | err e => rfl
        | panic => rfl
      simp only [M.map', M.bind, flatCollect, M.bind_apply, hg, M.ofRes, this]
      cases c.getSubreply sub <;> rfl
    | _ => simp only [M.map', M.bind, flatCollect, M.bind_apply, hg]
  cases op
  case findFirst => exact key findFirst2Parse Val.first _ fun _ _ => rfl
  case findNext => exact key findNext2Parse Val.next _ fun _ _ => rfl
  all_goals simp [Op.isFind] at ho

theorem isFind_single {op : Op} (h : op.isFind = true) : single op = true := by cases op <;> first | rfl | (simp [Op.isFind] at h)

/-- Where a search operation stands after its request. -/
theorem searched_send {E : Env σ} {log : σ → List Bytes} (hlog : Logs E.V log) {op : Op} (ho : op.isFind = true) {s : St σ} {l : List Piece} {rest : Bytes}
    (h : Searched E log op s l rest) : ∃ t mid b, Pieces Brings (UInt16.toNat mid) b l rest ∧ (runOp E op s).1 = (op.search mid t b).1 := by
  obtain ⟨req, mid, h1, h2, h3⟩ := h
  have hs := isFind_single ho
  obtain ⟨fr, s1, e1, e2, e3, e4, e5, e6, e7⟩ := single_send E log hlog op hs s req h1
  rw [e3, requestFrame_mid (sends_keepsMid (first_sent op hs)) e1] at h2
  have h2 := Option.some.inj h2
  subst h2
  rw [← e7] at h3
  obtain ⟨ib, i1, i2⟩ := runOp_find E op ho s s1 _ e4
  exact ⟨_, _, _, h3, by rw [i2]⟩

/-- The outcome for pieces that are a cut of two blocks. -/
theorem searched_cuts {E : Env σ} {log : σ → List Bytes} (hlog : Logs E.V log) {op : Op} (ho : op.isFind = true) {s : St σ} {l : List Piece} {rest : Bytes}
    (h : Searched E log op s l rest) {P D : Bytes} (hc : Cuts l P D) : (runOp E op s).1 = ((op.page P D).mapErr Error.SMBError).out := by
  obtain ⟨t, mid, b, hp, e⟩ := searched_send hlog ho h
  obtain ⟨c, h1, h2⟩ := take_cuts hc
  obtain ⟨b', hg⟩ := gather_some t mid hp .new _ h1
  rw [e, search_gather op ho, hg]
  show ((op.finish c).mapErr Error.SMBError).out = _
  rw [Op.finish, h2]

/-- The outcome for pieces that are not. -/
theorem searched_bad {E : Env σ} {log : σ → List Bytes} (hlog : Logs E.V log) {op : Op} (ho : op.isFind = true) {s : St σ} {l : List Piece} {rest : Bytes}
    (h : Searched E log op s l rest) (hn : ∀ pre post P D, l = pre ++ post → ¬ Cuts pre P D) (hd : ¬ Agree l ∨ Enough l) :
    ∃ r, (runOp E op s).1 = .err (.SMBError (.Reassemble r)) := by
  obtain ⟨t, mid, b, hp, e⟩ := searched_send hlog ho h
  rw [e, search_gather op ho]
  rcases take_cases l [] agree_nil with ⟨pre, post, rfl, h1, h2, h3, h4⟩ | ⟨r, h1, h2⟩ | ⟨h1, h2, h3⟩
  · obtain ⟨b', hg⟩ := gather_some t mid hp .new _ h4
    rw [hg]
    rcases sub_cases op.page h1 h2 with ⟨P, D, hc, _⟩ | ⟨_, r, e⟩
    · exact absurd hc (hn pre post P D rfl)
    · refine ⟨r, ?_⟩
      show ((op.finish (ctxOf ([] ++ pre))).mapErr Error.SMBError).out = _
      rw [Op.finish, List.nil_append, e]; rfl
  · obtain ⟨b', hg⟩ := gather_some t mid hp .new _ h1
    rw [hg]; exact ⟨r, rfl⟩
  · rcases hd with hd | hd
    · exact absurd h2 hd
    · exact absurd hd (h3 (by rintro rfl; exact hd))

theorem pieces_prefix {mid : Nat} {b rest : Bytes} {pre post : List Piece} (h : Pieces Brings mid b (pre ++ post) rest) : ∃ rest', Pieces Brings mid b pre rest' := by
  induction pre generalizing b with
  | nil => exact ⟨b, .nil b⟩
  | cons p pre ih =>
    cases h with
    | cons ha hb hs => obtain ⟨rest', h⟩ := ih hs; exact ⟨rest', .cons ha hb h⟩

/-- The pieces behind a search that succeeds. -/
theorem searched_of_ok {E : Env σ} {log : σ → List Bytes} (hlog : Logs E.V log) {op : Op} (ho : op.isFind = true) {s : St σ} {v : Val}
    (hv : (runOp E op s).1 = .ok v) : ∃ l rest P D, Searched E log op s l rest ∧ Cuts l P D ∧ op.page P D = .ok v := by
  have hs := isFind_single ho
  obtain ⟨f, rest, i, ⟨req, mid, h1, h2, _⟩, _⟩ := exchange_of_ok hlog hs hv
  obtain ⟨fr, s1, e1, e2, e3, e4, e5, e6, e7⟩ := single_send E log hlog op hs s req h1
  have h2' := h2
  rw [e3, requestFrame_mid (sends_keepsMid (first_sent op hs)) e1] at h2'
  have h2' := Option.some.inj h2'
  subst h2'
  obtain ⟨ib, i1, i2⟩ := runOp_find E op ho s s1 _ e4
  rw [i2, search_gather op ho] at hv
  obtain ⟨l, rest, hp, h⟩ := gather_cases (E.V.tail s1.w.srv) s.cli.mid _ s1.w.flat (Nat.lt_succ_self _) [] agree_nil
  rw [ctxOf_nil] at h
  rcases h with ⟨r, h3, h4⟩ | ⟨h3, o, b', h4, h5, h6⟩
  · rw [h4] at hv
    rcases take_cases l [] agree_nil with ⟨pre, post, rfl, k1, k2, k3, k4⟩ | ⟨r', k1, k2⟩ | ⟨k1, k2, k3⟩
    · rw [ctxOf_nil, h3] at k4
      cases k4
      have hv : ((op.finish (ctxOf ([] ++ pre))).mapErr Error.SMBError).out = .ok v := hv
      rw [Op.finish, List.nil_append] at hv
      rcases sub_cases op.page k1 k2 with ⟨P, D, hc, e⟩ | ⟨_, r, e⟩
      · rw [e] at hv
        obtain ⟨mid', hpre⟩ := pieces_prefix hp
        refine ⟨pre, mid', P, D, ⟨req, _, h1, h2, by rw [← e7]; exact hpre⟩, hc, ?_⟩
        cases hpg : op.page P D with
        | ok v' => rw [hpg] at hv; cases hv; rfl
        | err e => rw [hpg] at hv; cases hv
        | panic => rw [hpg] at hv; cases hv
      · rw [e] at hv; cases hv
    · rw [ctxOf_nil, h3] at k1; cases k1; cases hv
    · rw [ctxOf_nil, h3] at k1; cases k1
  · rw [h6] at hv
    cases o <;> cases hv

end Cifs
