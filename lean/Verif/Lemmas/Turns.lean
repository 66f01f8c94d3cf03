import Verif.Spec.Turns
import Verif.Lemmas.Size
import Verif.Lemmas.Short
import Verif.Lemmas.Listing
import Verif.Lemmas.Through
/-!
# Requests are sent in turns
-/

namespace Cifs
open Spec

variable {σ : Type} {α β : Type}

theorem turns_append {V : Server σ} {v v' v'' : σ} {b b' b'' : Bytes} {ps qs : List Bytes} (h : Turns V v b ps v' b') (g : Turns V v' b' qs v'' b'') :
    Turns V v b (ps ++ qs) v'' b'' := by
  induction h with
  | nil => exact g
  | cons hm hc hg _ ih => exact .cons hm hc hg (ih g)

/-- The relation between the states before and after a computation: what was sent was sent in turns, and if the computation succeeded, all of
it was granted. -/
def Orderly (V : Server σ) (log : σ → List Bytes) (o : Out Error Unit) (s s' : St σ) : Prop :=
  ∃ new, log s'.w.srv = log s.w.srv ++ new ∧ InTurn V s.w.srv s.w.inbox.flatten new s'.w.srv ∧
    (o = .ok () → Turns V s.w.srv s.w.inbox.flatten new s'.w.srv s'.w.inbox.flatten)

theorem Orderly.steps (V : Server σ) (log : σ → List Bytes) : Steps (Orderly V log) where
  cli := fun _ s _ => ⟨[], by simp, .inl ⟨_, .nil _ _⟩, fun _ => .nil _ _⟩
  trans := by
    rintro o a b c ⟨x, h1, _, h3⟩ ⟨y, g1, g2, g3⟩
    have h3 := h3 rfl
    refine ⟨x ++ y, by rw [g1, h1, List.append_assoc], ?_, fun ho => turns_append h3 (g3 ho)⟩
    rcases g2 with ⟨b', g⟩ | ⟨qs, p, v1, b1, rfl, g, e⟩
    · exact .inl ⟨b', turns_append h3 g⟩
    · exact .inr ⟨x ++ qs, p, v1, b1, by rw [List.append_assoc], turns_append h3 g, e⟩

section
variable {E : Env σ} {log : σ → List Bytes} (hlog : Logs E.V log)
include hlog

/-- Messages whose header has the multiplex id and the type that the client gives it. -/
def Usual (m : Msg) : Prop := ∀ i, (m.fixHeader i).mid = i.mid ∧ (m.fixHeader i).cmd = i.cmd

omit hlog in
theorem requestFrame_cmd {c : Cli} {m : Msg} {f : Bytes} (hk : Usual m) (h : requestFrame c m = .ok f) :
    cmdOf (message f) = some m.cmd.code.toNat := by
  obtain ⟨p, d, _, _, _, rfl⟩ := requestFrame_ok h
  rw [frame_cmd, requestInfo, (hk _).2]
  rfl

theorem command_orderly {m : Msg} (hk : Usual m) {R : Reply α} (hc : R.cmd = m.cmd) : Through (Orderly E.V log) (command E m R) := by
  intro s
  have hk' : KeepsMid m := fun i => (hk i).1
  rcases hr : command E m R s with ⟨o, s'⟩
  have hsent : (log s'.w.srv = log s.w.srv ∧ s'.w.srv = s.w.srv) ∨ ∃ p, log s'.w.srv = log s.w.srv ++ [p] ∧ s'.w.srv = (E.V.react s.w.srv p).1 := by
    by_cases h : ∀ mid, (send E m s).1 ≠ .ok mid
    · left
      have e := (command_unsent R h).2
      rw [hr] at e
      cases e
      rw [(send_fails h).1]
      exact ⟨rfl, rfl⟩
    · right
      obtain ⟨mid, hm⟩ : ∃ mid, (send E m s).1 = .ok mid := by
        rcases out_cases (send E m s).1 with h' | h'
        · exact h'
        · exact absurd h' h
      have hs : send E m s = (.ok mid, (send E m s).2) := by rw [← hm]
      obtain ⟨ib, _, h2⟩ := command_eq R hs
      obtain ⟨fr, h3, _, _, _, h6, _⟩ := send_ok_inv hs
      rw [hr] at h2
      cases h2
      exact ⟨message fr, by rw [St.setInbox_srv, h6, hlog], by rw [St.setInbox_srv, h6]⟩
  have hturn : ∀ new, log s'.w.srv = log s.w.srv ++ new → (∃ a, o = .ok a) → Turns E.V s.w.srv s.w.inbox.flatten new s'.w.srv s'.w.inbox.flatten := by
    rintro new hn ⟨a, rfl⟩
    obtain ⟨fr, f, i, ps, ds, h1, ⟨h2, mid, h3, h4⟩, _, h5, h6, h7, _⟩ := command_reply hk' R hr
    rw [h2, hlog] at hn
    have hn := List.append_cancel_left hn
    subst hn
    refine .cons h3 (requestFrame_cmd hk h1) (.one h4 ⟨by rw [h5, hc], ?_, ps, ds, h7⟩) (by rw [h2]; exact .nil _ _)
    rcases h6 with h6 | ⟨h6, hR⟩
    · exact .inl h6
    · exact .inr ⟨by rw [← hc, hR]; rfl, h6⟩
  have hok : ∀ {o : Out Error α}, o.void = .ok () → ∃ a, o = .ok a := by
    intro o ho; cases o <;> cases ho; exact ⟨_, rfl⟩
  rcases hsent with ⟨h1, h2⟩ | ⟨p, h1, h2⟩
  · exact ⟨[], by simpa using h1, .inl ⟨_, by rw [h2]; exact .nil _ _⟩, fun ho => hturn [] (by simpa using h1) (hok ho)⟩
  · exact ⟨[p], h1, .inr ⟨[], p, _, _, rfl, .nil _ _, h2⟩, fun ho => hturn [p] h1 (hok ho)⟩

omit hlog in
theorem granted_of_pieces {mid : Nat} {b b' : Bytes} {l : List Piece} (h : Pieces Brings mid b l b') (hl : l ≠ []) : Granted mid 0x32 b b' := by
  induction h with
  | nil => exact absurd rfl hl
  | @cons b f b' rest p l ha hp hs ih =>
    obtain ⟨h1, h2, ps, ds, h3, _⟩ := hp
    have hg : Grants 0x32 f := ⟨h1, .inl h2, ps, ds, h3⟩
    cases l with
    | nil => cases hs; exact .one ha hg
    | cons q l => exact .more rfl ha hg (ih (by simp))

theorem transact2_orderly (tid : UInt16) (c : SubCmd2) (sub : SubReply2 α) : Through (Orderly E.V log) (transact2 E tid c sub) := by
  intro s
  rcases transact2_srv E tid c sub s with ⟨_, h1, h2⟩ | ⟨fr, h1, h2, h3, _⟩
  · refine ⟨[], by rw [h2]; simp, .inl ⟨_, by rw [h2]; exact .nil _ _⟩, fun ho => ?_⟩
    rcases hr : (transact2 E tid c sub s).1 <;> rw [hr] at ho h1 <;> cases ho
    exact absurd rfl (h1 _)
  · refine ⟨[message fr], by rw [h2, hlog], .inr ⟨[], _, _, _, rfl, .nil _ _, h2⟩, fun ho => ?_⟩
    rcases hr : (transact2 E tid c sub s).1 <;> rw [hr] at ho <;> cases ho
    obtain ⟨P, D, ⟨e, mid, l, g1, g2, g3⟩, _⟩ := h3 _ hr
    refine .cons g1 (requestFrame_cmd (m := transact2Msg tid c) (fun i => ⟨rfl, rfl⟩) h1) (granted_of_pieces g2 ?_) (by rw [h2]; exact .nil _ _)
    exact g3.1.1

end

/-! ## Operations, made of rounds -/

section
variable {R : Out Error Unit → St σ → St σ → Prop} (h : Steps R) {E : Env σ}
  (hc : ∀ {α : Type} {m : Msg} {Q : Reply α}, Usual m → Q.cmd = m.cmd → Through R (command E m Q))
  (ht : ∀ {α : Type} (tid : UInt16) (c : SubCmd2) (sub : SubReply2 α), Through R (transact2 E tid c sub))
include h hc

theorem downloadLoop_rounds (file : Handle) (k : Nat) (data : Bytes) : Through R (downloadLoop E file k data) := by
  induction k generalizing data with
  | zero => exact fun s => h.refl _ s
  | succ k ih =>
    simp only [Cifs.downloadLoop]
    split
    · exact Through.bind h (hc (fun _ => ⟨rfl, rfl⟩) rfl) fun chunk => ih _
    · exact Through.pure h _

theorem setup_rounds : Through R (setupConnection E) := by
  have hg : Through R (getCli : CM σ Cli) := fun s => h.refl _ s
  have hm : ∀ f : Cli → Cli, Through R (modifyCli f : CM σ Unit) := fun f s => h.cli _ s _
  have hx : ∀ x : SessionSetupMsg, Through R (command E x.msg SessionSetupReply.reply) := fun x => hc (fun _ => ⟨rfl, rfl⟩) rfl
  refine Through.bind h (hc (fun _ => ⟨rfl, rfl⟩) rfl) fun setup => Through.bind h (hm _) fun _ => ?_
  split
  · refine Through.bind h hg fun c => Through.bind h (Through.ofRes h _ _) fun i => Through.bind h (hx _) fun r =>
      Through.bind h (hm _) fun _ => Through.bind h (Through.ofRes h _ _) fun ch => Through.bind h (Through.ofRes h _ _) fun t =>
      Through.bind h (Through.ofRes h _ _) fun re => Through.bind h (hx _) fun _ => Through.pure h _
  · exact Through.bind h hg fun c => Through.bind h (Through.ofRes h _ _) fun i => Through.bind h (hx _) fun r => hm _

include ht
omit hc in
theorem listLoop_rounds (share : Share) (sid : UInt16) (k : Nat) (result : List DirInfo) : Through R (listLoop E share sid k result) := by
  induction k generalizing result with
  | zero => exact fun s => h.refl _ s
  | succ k ih =>
    simp only [Cifs.listLoop]
    split
    · exact fun s => h.refl _ s
    · refine Through.bind h (ht _ _ _) fun reply => ?_
      split
      · exact Through.pure h _
      · exact ih _

theorem runOp_rounds (op : Op) : Through R (runOp E op) := by
  cases op <;> refine Through.map' h _ ?_
  case download =>
    exact Through.bind h (hc (fun _ => ⟨rfl, rfl⟩) rfl) fun file => Through.bind h (downloadLoop_rounds h hc file _ []) fun _ =>
      Through.bind h (hc (fun _ => ⟨rfl, rfl⟩) rfl) fun _ => Through.pure h _
  case list =>
    refine Through.bind h (ht _ _ _) fun reply => ?_
    split
    · exact Through.pure h _
    · exact listLoop_rounds h ht _ _ _ _
  case findFirst => exact ht _ _ _
  case findNext => exact ht _ _ _
  all_goals exact hc (fun _ => ⟨rfl, rfl⟩) rfl

end

/-! ## How much has to be received -/

theorem granted_size {mid c : Nat} {b b' : Bytes} (h : Granted mid c b b') : 39 + b'.length ≤ b.length := by
  have one : ∀ {b f b' : Bytes}, Awaits mid b f b' → Grants c f → 39 + b'.length ≤ b.length := by
    intro b f b' h hg
    have := awaits_size h
    obtain ⟨_, _, ps, ds, hb⟩ := hg
    obtain ⟨_, _, _, hgen, _⟩ := h
    have hl := hgen.1
    obtain ⟨w, n, rest, e, _⟩ := body_split hl hb
    have e := congrArg List.length e
    simp [putU16, putLE] at e
    omega
  induction h with
  | one h hg => exact one h hg
  | more _ h hg _ ih => have := one h hg; omega

theorem turns_size {V : Server σ} {fed : σ → Bytes} (hf : Feeds V fed) {v v' : σ} {b b' : Bytes} {ps : List Bytes} (h : Turns V v b ps v' b') :
    ∃ said, fed v' = fed v ++ said ∧ 39 * ps.length + b'.length ≤ b.length + said.length := by
  induction h with
  | nil => exact ⟨[], by simp, by simp⟩
  | @cons v v' b b' b'' p ps mid c hm hc hg _ ih =>
    obtain ⟨said, h1, h2⟩ := ih
    have := granted_size hg
    refine ⟨(V.react v p).2.flatten ++ said, by rw [h1, hf, List.append_assoc], ?_⟩
    simp only [List.length_append, List.length_cons] at *
    omega

/-- The relation between the states before and after a computation: every request cost an answer, except for one if it failed. -/
def Metered (log : σ → List Bytes) (fed : σ → Bytes) (o : Out Error Unit) (s s' : St σ) : Prop :=
  ∃ new said, log s'.w.srv = log s.w.srv ++ new ∧ fed s'.w.srv = fed s.w.srv ++ said ∧
    39 * new.length + s'.w.inbox.flatten.length ≤ (if o = .ok () then 0 else 39) + s.w.inbox.flatten.length + said.length

theorem Metered.steps (log : σ → List Bytes) (fed : σ → Bytes) : Steps (Metered log fed) where
  cli := fun _ s _ => ⟨[], [], by simp, by simp, by simp⟩
  trans := by
    rintro o a b c ⟨x, y, h1, h2, h3⟩ ⟨x', y', g1, g2, g3⟩
    refine ⟨x ++ x', y ++ y', by rw [g1, h1, List.append_assoc], by rw [g2, h2, List.append_assoc], ?_⟩
    rw [if_pos rfl] at h3
    simp only [List.length_append]
    omega

section
variable {E : Env σ} {log : σ → List Bytes} (hlog : Logs E.V log) {fed : σ → Bytes} (hf : Feeds E.V fed)
include hlog hf

omit hlog hf in
theorem void_ok {o : Out Error α} (h : o.void = .ok ()) : ∃ a, o = .ok a := by
  cases o <;> cases h; exact ⟨_, rfl⟩

omit hlog hf in
theorem shrinks_bind {m : M Error Bytes α} {f : α → M Error Bytes β} (hm : ∀ b, (m b).2.length ≤ b.length)
    (hf : ∀ a b, (f a b).2.length ≤ b.length) (b : Bytes) : ((m >>= f) b).2.length ≤ b.length := by
  have := hm b
  simp only [M.bind_apply, M.bind]
  rcases hs : m b with ⟨o, b'⟩
  rw [hs] at this
  cases o with
  | ok a => exact Nat.le_trans (hf a b') this
  | _ => exact this

omit hlog hf in
theorem flatCollect_shrinks (sub : SubReply2 α) (mid : UInt16) (t : Tail) (b : Bytes) : (flatCollect sub mid t b).2.length ≤ b.length := by
  have hres : ∀ {γ : Type} (r : Res SmbError γ) (b : Bytes), ((M.ofRes Error.SMBError r : M Error Bytes γ) b).2.length ≤ b.length := by
    intro γ r b; cases r <;> exact Nat.le_refl _
  have loop : ∀ (k : Nat) (ctx : CollectTrans2) (b : Bytes), (flatCollectLoop t mid k ctx b).2.length ≤ b.length := by
    intro k
    induction k with
    | zero => intro ctx b; exact Nat.le_refl _
    | succ k ih =>
      intro ctx b
      refine shrinks_bind (fun b => (flatReply_cases trans2Reply mid t b).2.1) (fun r => shrinks_bind (hres _) fun p b => ?_) b
      split
      · exact Nat.le_refl _
      · exact ih _ b
  exact shrinks_bind (fun b => loop (b.length + 1) .new b) (fun _ => hres _) b

theorem command_metered {m : Msg} (hk : Usual m) {R : Reply α} (hc : R.cmd = m.cmd) : Through (Metered log fed) (command E m R) := by
  intro s
  obtain ⟨new, h1, _, h3⟩ := command_orderly hlog hk hc s
  by_cases ho : (command E m R s).1.void = .ok ()
  · obtain ⟨said, g1, g2⟩ := turns_size hf (h3 ho)
    exact ⟨new, said, h1, g1, by rw [if_pos ho]; omega⟩
  · clear h1 h3
    by_cases h : ∀ mid, (send E m s).1 ≠ .ok mid
    · have e := (command_unsent R h).2
      have := send_fails h
      exact ⟨[], [], by rw [e, this.1]; simp, by rw [e, this.1]; simp, by rw [e, this.2]; simp⟩
    · obtain ⟨mid, hm⟩ : ∃ mid, (send E m s).1 = .ok mid := by
        rcases out_cases (send E m s).1 with h' | h'
        · exact h'
        · exact absurd h' h
      have hs : send E m s = (.ok mid, (send E m s).2) := by rw [← hm]
      obtain ⟨ib, h1, h2⟩ := command_eq R hs
      obtain ⟨fr, h3, _, _, _, h6, h7⟩ := send_ok_inv hs
      have hl := (flatReply_cases R mid (E.V.tail (send E m s).2.w.srv) (send E m s).2.w.flat).2.1
      rw [← h1, h7, List.length_append] at hl
      refine ⟨[message fr], (E.V.react s.w.srv (message fr)).2.flatten, by rw [h2, St.setInbox_srv, h6, hlog],
        by rw [h2, St.setInbox_srv, h6, hf], ?_⟩
      rw [if_neg ho, h2]
      show 39 * 1 + ib.flatten.length ≤ _
      omega

theorem transact2_metered (tid : UInt16) (c : SubCmd2) (sub : SubReply2 α) : Through (Metered log fed) (transact2 E tid c sub) := by
  intro s
  obtain ⟨new, h1, _, h3⟩ := transact2_orderly hlog tid c sub s
  by_cases ho : (transact2 E tid c sub s).1.void = .ok ()
  · obtain ⟨said, g1, g2⟩ := turns_size hf (h3 ho)
    exact ⟨new, said, h1, g1, by rw [if_pos ho]; omega⟩
  · clear h1 h3
    by_cases h : ∀ mid, (send E (transact2Msg tid c) s).1 ≠ .ok mid
    · have e : (transact2 E tid c sub s).2 = (send E (transact2Msg tid c) s).2 := by
        show (M.bind (send E (transact2Msg tid c)) _ s).2 = _
        rcases hs : send E (transact2Msg tid c) s with ⟨o, s1⟩
        rw [hs] at h
        simp only [M.bind, hs]
        cases o <;> simp at h ⊢
      have := send_fails h
      exact ⟨[], [], by rw [e, this.1]; simp, by rw [e, this.1]; simp, by rw [e, this.2]; simp⟩
    · obtain ⟨mid, hm⟩ : ∃ mid, (send E (transact2Msg tid c) s).1 = .ok mid := by
        rcases out_cases (send E (transact2Msg tid c) s).1 with h' | h'
        · exact h'
        · exact absurd h' h
      have hs : send E (transact2Msg tid c) s = (.ok mid, (send E (transact2Msg tid c) s).2) := by rw [← hm]
      obtain ⟨ib, h1, h2⟩ := transact2_eq sub hs
      obtain ⟨fr, h3, _, _, _, h6, h7⟩ := send_ok_inv hs
      have hl : (flatCollect sub mid (E.V.tail (send E (transact2Msg tid c) s).2.w.srv) (send E (transact2Msg tid c) s).2.w.flat).2.length ≤
          (send E (transact2Msg tid c) s).2.w.flat.length := flatCollect_shrinks sub mid _ _
      rw [← h1, h7, List.length_append] at hl
      refine ⟨[message fr], (E.V.react s.w.srv (message fr)).2.flatten, by rw [h2, St.setInbox_srv, h6, hlog],
        by rw [h2, St.setInbox_srv, h6, hf], ?_⟩
      rw [if_neg ho, h2]
      show 39 * 1 + ib.flatten.length ≤ _
      omega

end

theorem inTurn_size {V : Server σ} {fed : σ → Bytes} (hf : Feeds V fed) {v v' : σ} {b : Bytes} {ps : List Bytes} (h : InTurn V v b ps v') :
    ∃ said, fed v' = fed v ++ said ∧ 39 * ps.length ≤ 39 + b.length + said.length := by
  rcases h with ⟨b', h⟩ | ⟨qs, p, v1, b1, rfl, h, rfl⟩
  · obtain ⟨said, h1, h2⟩ := turns_size hf h
    exact ⟨said, h1, by omega⟩
  · obtain ⟨said, h1, h2⟩ := turns_size hf h
    refine ⟨said ++ (V.react v1 p).2.flatten, by rw [hf, h1, List.append_assoc], ?_⟩
    simp only [List.length_append, List.length_cons, List.length_nil]
    omega

end Cifs
