import Verif.Spec.Blame
import Verif.Lemmas.Turns
import Verif.Lemmas.Cause
/-!
# The reply that ended a call
-/

namespace Cifs
open Spec

variable {σ : Type} {α β : Type}

/-- The relation between the states before and after a computation: if it succeeded, everything that was sent was granted in turn; if it
failed with a judgement on a reply, this reply can be told. -/
def Blamed (V : Server σ) (log : σ → List Bytes) (o : Out Error Unit) (s s' : St σ) : Prop :=
  (o = .ok () → ∃ new, log s'.w.srv = log s.w.srv ++ new ∧ Turns V s.w.srv s.w.inbox.flatten new s'.w.srv s'.w.inbox.flatten) ∧
  ∀ e, o = .err e → Judges e → ∃ ps p c f, log s'.w.srv = log s.w.srv ++ ps ++ [p] ∧
    LastReply V s.w.srv s.w.inbox.flatten ps p c f s'.w.srv s'.w.inbox.flatten ∧ Declined c f e

section
variable {V : Server σ} {log : σ → List Bytes}

theorem Blamed.calm {o : Out Error Unit} (h : ∀ e, o = .err e → ¬ Judges e) (s : St σ) (c : Cli) : Blamed V log o s { s with cli := c } :=
  ⟨fun _ => ⟨[], by simp, .nil _ _⟩, fun e he hj => absurd hj (h e he)⟩

theorem Blamed.trans {o : Out Error Unit} {a b c : St σ} (h : Blamed V log (.ok ()) a b) (g : Blamed V log o b c) : Blamed V log o a c := by
  obtain ⟨x, h1, h2⟩ := h.1 rfl
  refine ⟨fun ho => ?_, fun e he hj => ?_⟩
  · obtain ⟨y, g1, g2⟩ := g.1 ho
    exact ⟨x ++ y, by rw [g1, h1, List.append_assoc], turns_append h2 g2⟩
  · obtain ⟨ps, p, k, f, g1, ⟨v1, b1, b2, mid, g2, g3⟩, g4⟩ := g.2 e he hj
    exact ⟨x ++ ps, p, k, f, by rw [g1, h1]; simp, ⟨v1, b1, b2, mid, turns_append h2 g2, g3⟩, g4⟩

theorem Blamed.pure (a : α) : Through (Blamed V log) (pure a : CM σ α) := fun s => Blamed.calm (by intro e h; cases h) s s.cli

theorem Blamed.ofRes' {ε : Type} {g : ε → Error} (hg : ∀ x, ¬ Judges (g x)) (r : Res ε α) : Through (Blamed V log) (M.ofRes g r : CM σ α) := by
  intro s
  cases r <;> refine Blamed.calm ?_ s s.cli <;> intro e h <;> cases h
  exact hg _

theorem Blamed.ofRes (r : Res SmbError α) : Through (Blamed V log) (M.ofRes Error.SMBError r : CM σ α) := Blamed.ofRes' (fun _ => id) r

theorem Blamed.bind {m : CM σ α} {f : α → CM σ β} (hm : Through (Blamed V log) m) (hf : ∀ a, Through (Blamed V log) (f a)) :
    Through (Blamed V log) (m >>= f) := by
  intro s
  have := hm s
  simp only [M.bind_apply, M.bind]
  rcases hs : m s with ⟨o, s'⟩
  rw [hs] at this
  cases o with
  | ok a => exact Blamed.trans this (hf a s')
  | _ => exact this

theorem Blamed.map' {m : CM σ α} (g : α → β) (hm : Through (Blamed V log) m) : Through (Blamed V log) (M.map' g m) :=
  Blamed.bind hm fun _ => Blamed.pure _

end

/-- A judgement on a reply is about the first one with the right multiplex id. -/
theorem reply_judged (R : Reply α) (t : Tail) (mid : UInt16) {b b' : Bytes} {e : Error} (h : flatReply R mid t b = (.err e, b')) (hj : Judges e) :
    ∃ f, Awaits mid.toNat b f b' ∧ Declined R.cmd.code.toNat f e := by
  rcases reply_cases t mid.toNat _ b (Nat.lt_succ_self _) with ⟨f, rest, ha⟩ | ⟨x, hx⟩
  · obtain ⟨i, hp, hf⟩ := reply_awaits R t mid ha
    rw [h] at hf
    have hr := C17_read f i _ hp
    obtain ⟨n, hn⟩ := parse_status hp
    unfold accept at hf
    by_cases hc : i.cmd ≠ R.cmd
    · rw [if_pos hc] at hf
      cases hf
      exact ⟨f, ha, .other rfl hr.2.1 hc⟩
    · have hc' : i.cmd = R.cmd := Classical.byContradiction hc
      rw [if_neg hc] at hf
      split at hf
      · cases hm : R.parse i (f.drop 32) <;> rw [hm] at hf <;> cases hf
        exact hj.elim
      · rename_i hs
        cases hf
        refine ⟨f, ha, ?_⟩
        rw [hn]
        refine .refused ⟨?_, by rw [hr.2.1, hc'], by rw [hr.2.2.1, hn, C16_roundtrip]⟩
        rintro rfl
        exact hs (.inl (by rw [hn]; rfl))
  · exfalso
    have hf := noReply_flat hx
    rcases hq : flatNext t mid b with ⟨o, r⟩
    rw [hq] at hf
    dsimp only at hf
    subst hf
    rw [flatReply_eq] at h
    obtain ⟨_, _, hx⟩ := hx
    cases x with
    | none => simp only [M.bind_apply, M.bind, hq, stopped] at h; cases h
    | some y =>
      simp only [M.bind_apply, M.bind, hq, stopped] at h
      cases h
      rcases hx with ⟨y, _, hy⟩ | ⟨_, _, y, _, _, hy⟩
      · cases y <;> cases hy
        exact hj
      · cases hy; exact hj

/-- The same for a search, whose replies come in pieces. -/
theorem collectLoop_judged (t : Tail) (mid : UInt16) {e : Error} (hj : Judges e) (k : Nat) : ∀ (ctx : CollectTrans2) (b b' : Bytes),
    flatCollectLoop t mid k ctx b = (.err e, b') →
    ∃ f b2, (b2 = b ∨ Granted mid.toNat 0x32 b b2) ∧ Awaits mid.toNat b2 f b' ∧ Declined 0x32 f e := by
  induction k with
  | zero => intro ctx b b' h; cases h
  | succ k ih =>
    intro ctx b b' h
    simp only [flatCollectLoop, M.bind_apply, M.bind] at h
    rcases hr : flatReply trans2Reply mid t b with ⟨o, b1⟩
    rw [hr] at h
    cases o with
    | ok r =>
      dsimp only at h
      obtain ⟨f, p, ha, ⟨h1, h2, ps, ds, h3, _⟩, _⟩ := brings_of_reply t mid hr
      have hg : Grants 0x32 f := ⟨h1, .inl h2, ps, ds, h3⟩
      cases hadd : ctx.add r with
      | ok q =>
        rw [hadd] at h
        simp only [M.ofRes] at h
        split at h
        · cases h
        · obtain ⟨f', b2, h4, h5, h6⟩ := ih _ _ _ h
          refine ⟨f', b2, .inr ?_, h5, h6⟩
          rcases h4 with rfl | h4
          · exact .one ha hg
          · exact .more rfl ha hg h4
      | err x => rw [hadd] at h; cases h; exact hj.elim
      | panic => rw [hadd] at h; cases h
    | err x =>
      cases h
      obtain ⟨f, ha, hd⟩ := reply_judged trans2Reply t mid hr hj
      exact ⟨f, b, .inl rfl, ha, hd⟩
    | panic => cases h
    | pending => cases h
    | running => cases h

theorem collect_judged (sub : SubReply2 α) (t : Tail) (mid : UInt16) {b b' : Bytes} {e : Error} (h : flatCollect sub mid t b = (.err e, b')) (hj : Judges e) :
    ∃ f b2, (b2 = b ∨ Granted mid.toNat 0x32 b b2) ∧ Awaits mid.toNat b2 f b' ∧ Declined 0x32 f e := by
  replace h : M.bind (flatCollectLoop t mid (b.length + 1) .new) (fun ctx => M.ofRes Error.SMBError (ctx.getSubreply sub)) b = (.err e, b') := h
  simp only [M.bind] at h
  rcases hr : flatCollectLoop t mid (b.length + 1) .new b with ⟨o, b1⟩
  rw [hr] at h
  cases o with
  | ok r =>
    dsimp only at h
    cases hg : r.getSubreply sub <;> rw [hg] at h <;> cases h
    exact hj.elim
  | err x => cases h; exact collectLoop_judged t mid hj _ _ _ _ hr
  | panic => cases h
  | pending => cases h
  | running => cases h

/-- Sending a request is no occasion for a judgement. -/
theorem send_judges {E : Env σ} {m : Msg} {s : St σ} {e : Error} (h : (send E m s).1 = .err e) : ¬ Judges e := by
  rcases send_cases E m s with ⟨_, _, e'⟩ | ⟨_, h'⟩
  · rw [e'] at h; cases h
  · rcases h' with ⟨_, _, e'⟩ | ⟨_, e'⟩ | ⟨_, _, _, e'⟩ | ⟨f, _, _, ws, p, q, _, h'⟩
    · rw [e'] at h; cases h; exact id
    · rw [e'] at h; cases h
    · rw [e'] at h; cases h; all_goals exact id
    · rcases h' with ⟨_, _, e'⟩ | ⟨_, e'⟩ | e'
      · rw [e'] at h; cases h
      · rw [e'] at h; cases h; all_goals exact id
      · rw [e'] at h; cases h

section
variable {E : Env σ} {log : σ → List Bytes} (hlog : Logs E.V log)
include hlog

theorem command_blamed {m : Msg} (hk : Usual m) {R : Reply α} (hc : R.cmd = m.cmd) : Through (Blamed E.V log) (command E m R) := by
  intro s
  refine ⟨fun ho => let ⟨new, h1, _, h3⟩ := command_orderly hlog hk hc s; ⟨new, h1, h3 ho⟩, fun e he hj => ?_⟩
  have he : (command E m R s).1 = .err e := by
    revert he; cases (command E m R s).1 <;> intro he <;> cases he; rfl
  by_cases h : ∀ mid, (send E m s).1 ≠ .ok mid
  · exfalso
    have hu := command_unsent R h
    exact send_judges (E := E) (m := m) (s := s) (e := e) (by
      have := hu
      simp only [command, M.bind_apply, M.bind] at he
      rcases hs : send E m s with ⟨o, s1⟩
      rw [hs] at he h
      cases o with
      | ok mid => exact absurd rfl (h mid)
      | err x => cases he; rfl
      | panic => cases he
      | pending => cases he
      | running => cases he) hj
  · obtain ⟨mid, hm⟩ : ∃ mid, (send E m s).1 = .ok mid := by
      rcases out_cases (send E m s).1 with h' | h'
      · exact h'
      · exact absurd h' h
    have hs : send E m s = (.ok mid, (send E m s).2) := by rw [← hm]
    obtain ⟨ib, h1, h2⟩ := command_eq R hs
    obtain ⟨fr, h3, _, h4, _, h6, h7⟩ := send_ok_inv hs
    rw [h2] at he
    obtain ⟨f, ha, hd⟩ := reply_judged R _ mid (b' := ib.flatten) (by rw [h1, ← he]) hj
    refine ⟨[], message fr, m.cmd.code.toNat, f, by rw [h2, St.setInbox_srv, h6, hlog]; simp, ⟨_, _, _, mid.toNat, .nil _ _, ?_, requestFrame_cmd hk h3, ?_,
      .inl rfl, ?_⟩, hc ▸ hd⟩
    · rw [requestFrame_mid (fun i => (hk i).1) h3, h4]
    · rw [h2, St.setInbox_srv, h6]
    · rw [← h7, h2]; exact ha

theorem transact2_blamed (tid : UInt16) (c : SubCmd2) (sub : SubReply2 α) : Through (Blamed E.V log) (transact2 E tid c sub) := by
  intro s
  refine ⟨fun ho => let ⟨new, h1, _, h3⟩ := transact2_orderly hlog tid c sub s; ⟨new, h1, h3 ho⟩, fun e he hj => ?_⟩
  have he : (transact2 E tid c sub s).1 = .err e := by
    revert he; cases (transact2 E tid c sub s).1 <;> intro he <;> cases he; rfl
  by_cases h : ∀ mid, (send E (transact2Msg tid c) s).1 ≠ .ok mid
  · exfalso
    exact send_judges (E := E) (m := transact2Msg tid c) (s := s) (e := e) (by
      simp only [transact2, M.bind_apply, M.bind] at he
      rcases hs : send E (transact2Msg tid c) s with ⟨o, s1⟩
      rw [hs] at he h
      cases o with
      | ok mid => exact absurd rfl (h mid)
      | err x => cases he; rfl
      | panic => cases he
      | pending => cases he
      | running => cases he) hj
  · obtain ⟨mid, hm⟩ : ∃ mid, (send E (transact2Msg tid c) s).1 = .ok mid := by
      rcases out_cases (send E (transact2Msg tid c) s).1 with h' | h'
      · exact h'
      · exact absurd h' h
    have hs : send E (transact2Msg tid c) s = (.ok mid, (send E (transact2Msg tid c) s).2) := by rw [← hm]
    obtain ⟨ib, h1, h2⟩ := transact2_eq sub hs
    obtain ⟨fr, h3, _, h4, _, h6, h7⟩ := send_ok_inv hs
    rw [h2] at he
    obtain ⟨f, b2, hb, ha, hd⟩ := collect_judged sub _ mid (b' := ib.flatten) (by rw [h1, ← he]) hj
    refine ⟨[], message fr, 0x32, f, by rw [h2, St.setInbox_srv, h6, hlog]; simp, ⟨_, _, b2, mid.toNat, .nil _ _, ?_,
      requestFrame_cmd (m := transact2Msg tid c) (fun i => ⟨rfl, rfl⟩) h3, ?_, ?_, ?_⟩, hd⟩
    · rw [requestFrame_mid (m := transact2Msg tid c) (fun i => rfl) h3, h4]
    · rw [h2, St.setInbox_srv, h6]
    · rw [← h7]
      rcases hb with hb | hb
      · exact .inl hb
      · exact .inr ⟨rfl, hb⟩
    · rw [h2]; exact ha

theorem downloadLoop_blamed (file : Handle) (k : Nat) (data : Bytes) : Through (Blamed E.V log) (downloadLoop E file k data) := by
  induction k generalizing data with
  | zero => exact fun s => Blamed.calm (by intro e h; cases h) s s.cli
  | succ k ih =>
    simp only [Cifs.downloadLoop]
    split
    · exact Blamed.bind (command_blamed hlog (fun _ => ⟨rfl, rfl⟩) rfl) fun chunk => ih _
    · exact Blamed.pure _

theorem listLoop_blamed (share : Share) (sid : UInt16) (k : Nat) (result : List DirInfo) : Through (Blamed E.V log) (listLoop E share sid k result) := by
  induction k generalizing result with
  | zero => exact fun s => Blamed.calm (by intro e h; cases h) s s.cli
  | succ k ih =>
    simp only [Cifs.listLoop]
    split
    · exact fun s => Blamed.calm (by intro e h; cases h) s s.cli
    · refine Blamed.bind (transact2_blamed hlog _ _ _) fun reply => ?_
      split
      · exact Blamed.pure _
      · exact ih _

theorem runOp_blamed (op : Op) : Through (Blamed E.V log) (runOp E op) := by
  cases op <;> refine Blamed.map' _ ?_
  case download =>
    exact Blamed.bind (command_blamed hlog (fun _ => ⟨rfl, rfl⟩) rfl) fun file => Blamed.bind (downloadLoop_blamed hlog file _ []) fun _ =>
      Blamed.bind (command_blamed hlog (fun _ => ⟨rfl, rfl⟩) rfl) fun _ => Blamed.pure _
  case list =>
    refine Blamed.bind (transact2_blamed hlog _ _ _) fun reply => ?_
    split
    · exact Blamed.pure _
    · exact listLoop_blamed hlog _ _ _ _
  case findFirst => exact transact2_blamed hlog _ _ _
  case findNext => exact transact2_blamed hlog _ _ _
  all_goals exact command_blamed hlog (fun _ => ⟨rfl, rfl⟩) rfl

theorem setup_blamed : Through (Blamed E.V log) (setupConnection E) := by
  have hg : Through (Blamed E.V log) (getCli : CM σ Cli) := fun s => Blamed.calm (by intro e h; cases h) s s.cli
  have hm : ∀ f : Cli → Cli, Through (Blamed E.V log) (modifyCli f : CM σ Unit) := fun f s => Blamed.calm (by intro e h; cases h) s _
  have hx : ∀ x : SessionSetupMsg, Through (Blamed E.V log) (command E x.msg SessionSetupReply.reply) := fun x => command_blamed hlog (fun _ => ⟨rfl, rfl⟩) rfl
  refine Blamed.bind (command_blamed hlog (fun _ => ⟨rfl, rfl⟩) rfl) fun setup => Blamed.bind (hm _) fun _ => ?_
  split
  · refine Blamed.bind hg fun c => Blamed.bind (Blamed.ofRes' (fun _ => id) _) fun i => Blamed.bind (hx _) fun r =>
      Blamed.bind (hm _) fun _ => Blamed.bind (Blamed.ofRes' (fun _ => id) _) fun ch => Blamed.bind (Blamed.ofRes' (fun _ => id) _) fun t =>
      Blamed.bind (Blamed.ofRes' (fun _ => id) _) fun re => Blamed.bind (hx _) fun _ => Blamed.pure _
  · exact Blamed.bind hg fun c => Blamed.bind (Blamed.ofRes' (fun _ => id) _) fun i => Blamed.bind (hx _) fun r => hm _

end

end Cifs
