import Verif.Lemmas.Sim
import Verif.Lemmas.Short
import Verif.Spec.Contents
import Verif.Props.Streams
/-! # Two runs against servers that differ in the contents of files -/

namespace Cifs
open Spec

variable {σ σ' : Type} {α β γ : Type} {ε : Type} {R : UInt8 → UInt8 → Prop}

theorem Spec.Each.append {a a' b b' : Bytes} (h : Each R a a') (h2 : Each R b b') : Each R (a ++ b) (a' ++ b') := by
  induction h with
  | nil => exact h2
  | cons h _ ih => exact .cons h ih

theorem Spec.Each.length {a a' : Bytes} (h : Each R a a') : a.length = a'.length := by
  induction h with
  | nil => rfl
  | cons _ _ ih => simp [ih]

theorem Spec.Each.take {a a' : Bytes} (h : Each R a a') (n : Nat) : Each R (a.take n) (a'.take n) := by
  induction h generalizing n with
  | nil => simpa using Each.nil
  | cons h _ ih =>
    cases n with
    | zero => simpa using Each.nil
    | succ n => exact .cons h (ih n)

theorem Spec.Each.drop {a a' : Bytes} (h : Each R a a') (n : Nat) : Each R (a.drop n) (a'.drop n) := by
  induction h generalizing n with
  | nil => simpa using Each.nil
  | cons h t ih =>
    cases n with
    | zero => exact .cons h t
    | succ n => exact ih n

theorem Spec.SamePackets.append {b b' c c' : Bytes} (h : SamePackets R b b') (h2 : SamePackets R c c') : SamePackets R (b ++ c) (b' ++ c') := by
  induction h with
  | done => exact h2
  | same ty d hd hu _ ih => rw [List.append_assoc, List.append_assoc]; exact .same ty d hd hu ih
  | read f f' hf hs _ ih => rw [List.append_assoc, List.append_assoc]; exact .read f f' hf hs ih

/-- The same outcome, with related values. -/
inductive OutRel (A : α → β → Prop) : Out ε α → Out ε β → Prop
  | ok {a : α} {b : β} (h : A a b) : OutRel A (.ok a) (.ok b)
  | err (e : ε) : OutRel A (.err e) (.err e)
  | panic : OutRel A .panic .panic
  | pending : OutRel A .pending .pending
  | running : OutRel A .running .running

theorem OutRel.rfl' {A : α → α → Prop} (h : ∀ a, A a a) (o : Out ε α) : OutRel A o o := by
  cases o <;> constructor
  exact h _

/-- The same for results of pure functions. -/
inductive ResRel (A : α → β → Prop) : Res ε α → Res ε β → Prop
  | ok {a : α} {b : β} (h : A a b) : ResRel A (.ok a) (.ok b)
  | err (e : ε) : ResRel A (.err e) (.err e)
  | panic : ResRel A .panic .panic

theorem ResRel.rfl' {A : α → α → Prop} (h : ∀ a, A a a) (o : Res ε α) : ResRel A o o := by
  cases o <;> constructor
  exact h _

theorem ResRel.bind_same {A : β → γ → Prop} (r : Res ε α) {f : α → Res ε β} {f' : α → Res ε γ} (h : ∀ a, ResRel A (f a) (f' a)) :
    ResRel A (r >>= f) (r >>= f') := by
  cases r with
  | ok a => exact h a
  | err e => exact .err e
  | panic => exact .panic

theorem ResRel.bind {δ : Type} {A : α → δ → Prop} {B : β → γ → Prop} {r : Res ε α} {r' : Res ε δ} (hr : ResRel A r r') {f : α → Res ε β} {f' : δ → Res ε γ}
    (h : ∀ a a', A a a' → ResRel B (f a) (f' a')) : ResRel B (r >>= f) (r' >>= f') := by
  cases hr with
  | ok ha => exact h _ _ ha
  | err e => exact .err e
  | panic => exact .panic

theorem ResRel.mapErr {ε' : Type} {A : α → β → Prop} {r : Res ε α} {r' : Res ε β} (hr : ResRel A r r') (g : ε → ε') :
    ResRel A (r.mapErr g) (r'.mapErr g) := by
  cases hr with
  | ok ha => exact .ok ha
  | err e => exact .err _
  | panic => exact .panic

/-! ## Replies -/

/-- The bodies of two replies with this header. -/
def SameBody (R : UInt8 → UInt8 → Prop) (p p' : Info × Bytes) : Prop :=
  p.1 = p'.1 ∧ (p.2 = p'.2 ∧ ((∀ x, R x x) ∨ p.1.cmd ≠ .Read ∨ p.1.status ≠ .Known .SUCCESS) ∨ p.1.cmd = .Read ∧ ∃ (n : UInt8) (ps c d d' : Bytes), p.2 = n :: ps ++ c ++ d ∧ p'.2 = n :: ps ++ c ++ d' ∧
    ps.length = 2 * n.toNat ∧ c.length = 2 ∧ Each R d d')

theorem parse_prefix (h x y : Bytes) (hl : h.length = 32) :
    (∃ i, Info.parse (h ++ x) = .ok (i, x) ∧ Info.parse (h ++ y) = .ok (i, y)) ∨
      (∃ e, Info.parse (h ++ x) = .err e ∧ Info.parse (h ++ y) = .err e) := by
  obtain ⟨magic, cmd, status, f1, f2, ph, sig, tid, pl, uid, mid, rest, h1, h2, e⟩ := split_header h (by omega)
  have hr : rest = [] := by
    have := congrArg List.length e
    rw [List.length_append, length_rawHeader _ _ _ _ _ _ _ _ _ _ _ h1 h2] at this
    exact List.length_eq_zero_iff.mp (by omega)
  subst hr
  rw [List.append_nil] at e
  subst e
  rw [parse_rawHeader _ _ _ _ _ _ _ _ _ _ _ h1 h2, parse_rawHeader _ _ _ _ _ _ _ _ _ _ _ h1 h2]
  split
  · exact .inr ⟨_, rfl, rfl⟩
  · split
    · exact .inr ⟨_, rfl, rfl⟩
    · split
      · exact .inr ⟨_, rfl, rfl⟩
      · exact .inl ⟨_, rfl, rfl⟩

theorem parse_read {f f' : Bytes} (h : SameRead R f f') :
    (∃ p p', Info.parse f = .ok p ∧ Info.parse f' = .ok p' ∧ SameBody R p p') ∨ (∃ e, Info.parse f = .err e ∧ Info.parse f' = .err e) := by
  obtain ⟨hc, hd, ps, c, d, d', n, rfl, rfl, hl, hp, hcl, he⟩ := h
  rcases parse_prefix hd (n :: ps ++ c ++ d) (n :: ps ++ c ++ d') hl with ⟨i, h1, h2⟩ | ⟨e, h1, h2⟩
  · refine .inl ⟨_, _, h1, h2, rfl, .inr ⟨?_, n, ps, c, d, d', rfl, rfl, hp, hcl, he⟩⟩
    have := (C17_read _ _ _ h1).2.1
    rw [hc] at this
    have := Option.some.inj this
    revert this
    show 0x2e = i.cmd.code.toNat → i.cmd = .Read
    cases i.cmd <;> decide
  · exact .inr ⟨e, h1, h2⟩

theorem readCreate_rel (i : Info) (ps : Bytes) (o : Nat) {d d' : Bytes} (h : Each R d d') :
    ResRel (Each R) (readCreate { info := i, parameter := ps, data := d, dataOffset := o }) (readCreate { info := i, parameter := ps, data := d', dataOffset := o }) := by
  unfold readCreate
  refine ResRel.bind_same _ fun _ => ResRel.bind_same _ fun _ => ResRel.bind_same _ fun _ => ResRel.bind_same _ fun len => ?_
  dsimp only
  refine ResRel.bind (A := fun p p' => Each R p.2 p'.2) ?_ fun p p' hp => ?_
  · rw [h.length]
    split
    · unfold Rd.advance
      rw [h.length]
      split
      · exact .panic
      · exact .ok (h.drop 1)
    · exact .ok h
  · rw [hp.length]
    split
    · exact .err _
    · refine ResRel.bind (A := fun q q' => Each R q.1 q'.1) ?_ fun q q' hq => .ok hq
      unfold Rd.copyToBytes
      rw [hp.length]
      split
      · exact .panic
      · exact .ok (hp.take _)

theorem readParse_rel (i : Info) (n : UInt8) (ps c : Bytes) {d d' : Bytes} (hp : ps.length = 2 * n.toNat) (hc : c.length = 2) (h : Each R d d') :
    ResRel (Each R) (readReply.parse i (n :: ps ++ c ++ d)) (readReply.parse i (n :: ps ++ c ++ d')) := by
  unfold Reply.parse
  simp only [List.cons_append, List.append_assoc, Rd.getU8_cons, Res.ok_bind, Rd.copyToBytes_append _ ps _ hp]
  obtain ⟨k, r, rfl⟩ := split_u16 c (by omega)
  have hr : r = [] := List.length_eq_zero_iff.mp (by rw [List.length_append, length_putU16] at hc; omega)
  subst hr
  simp only [List.append_assoc, List.nil_append, Rd.getU16_put, Res.ok_bind]
  refine ResRel.bind (A := fun p p' => Each R p.1 p'.1) ?_ fun p p' hpp => ?_
  · unfold Rd.copyToBytes
    rw [h.length]
    split
    · exact .panic
    · exact .ok (h.take _)
  · rw [if_pos (show readReply.andx = true from rfl), if_pos (show readReply.andx = true from rfl)]
    refine ResRel.bind_same _ fun a => ?_
    split
    · exact .err _
    · exact readCreate_rel i _ _ hpp

theorem accept_other {Rp : Reply α} (hR : Rp.cmd ≠ .Read) {p p' : Info × Bytes} (h : SameBody R p p') :
    ResRel Eq (accept Rp p.1 p.2) (accept Rp p'.1 p'.2) := by
  obtain ⟨i, b⟩ := p
  obtain ⟨i', b'⟩ := p'
  obtain ⟨h1, h2⟩ := h
  dsimp only at h1 h2 ⊢
  subst h1
  rcases h2 with ⟨rfl, _⟩ | ⟨h2, _⟩
  · exact ResRel.rfl' (fun _ => rfl) _
  · have : i.cmd ≠ Rp.cmd := by rw [h2]; exact Ne.symm hR
    unfold accept
    rw [if_pos this, if_pos this]
    exact .err _

theorem Spec.Each.refl (h : ∀ x, R x x) (b : Bytes) : Each R b b := by
  induction b with
  | nil => exact .nil
  | cons x b ih => exact .cons (h x) ih

theorem accept_reads {p p' : Info × Bytes} (h : SameBody R p p') :
    ResRel (Each R) (accept readReply p.1 p.2) (accept readReply p'.1 p'.2) := by
  obtain ⟨i, b⟩ := p
  obtain ⟨i', b'⟩ := p'
  obtain ⟨h1, h2⟩ := h
  dsimp only at h1 h2 ⊢
  subst h1
  rcases h2 with ⟨rfl, h2⟩ | ⟨_, n, ps, c, d, d', rfl, rfl, hp, hc, he⟩
  · rcases h2 with h2 | h2 | h2
    · exact ResRel.rfl' (Each.refl h2) _
    · unfold accept
      rw [if_pos (show i.cmd ≠ readReply.cmd from h2)]
      exact .err _
    · unfold accept
      split
      · exact .err _
      · rename_i hcmd
        rw [if_neg]
        · exact .err _
        · rintro (h | ⟨_, h⟩)
          · exact h2 h
          · exact hcmd (fun e => by rw [h] at e; cases e)
  · unfold accept
    split
    · exact .err _
    · split
      · exact (readParse_rel i n ps c hp hc he).mapErr _
      · exact .err _

/-! ## Streams -/

theorem flatMsg_packet (t : Tail) (ty : UInt8) (d : Bytes) (hd : d.length ≤ maxPayload) (r : Bytes) : flatMsg t (packet ty d ++ r) =
    match Frame.new ty d with
    | .ok (.Message m) => (.ok m, r)
    | .ok .Keepalive => flatMsg t r
    | .ok _ => (.err (.NetBios .UnexpectedFrame), r)
    | .err e => (.err (.NetBios e), r)
    | .panic => (.panic, r) := by
  have hp := flatRecv_packet t ty d r hd
  unfold flatMsg
  rw [flatRecvMessage_eq]
  cases hf : Frame.new ty d with
  | ok f => rw [hf] at hp; rw [M.bind_ok hp]; cases f <;> rfl
  | err e => rw [hf] at hp; rw [M.bind_err hp]; rfl
  | panic => rw [hf] at hp; rw [M.bind_panic hp]; rfl

theorem frame_message {ty : UInt8} {d m : Bytes} (h : Frame.new ty d = .ok (.Message m)) : ty = 0 ∧ d = m := by
  unfold Frame.new at h
  repeat' split at h
  all_goals cases h
  exact ⟨by assumption, rfl⟩

theorem sameRead_length {f f' : Bytes} (h : SameRead R f f') : f.length = f'.length := by
  obtain ⟨_, hd, ps, c, d, d', n, rfl, rfl, _, _, _, he⟩ := h
  simp [he.length]

theorem untouched_body {d : Bytes} {p : Info × Bytes} (hu : Untouched R 0 d) (hp : Info.parse d = .ok p) : SameBody R p p := by
  refine ⟨rfl, .inl ⟨rfl, ?_⟩⟩
  have hr := C17_read d p.1 p.2 hp
  rcases hu with h | h | h | h
  · exact .inl h
  · exact absurd rfl h
  · refine .inr (.inl fun e => h ?_)
    rw [hr.2.1, e]; rfl
  · refine .inr (.inr fun e => h ?_)
    rw [hr.2.2.1, e]; rfl

theorem flatNext_contents {b b' : Bytes} (h : SamePackets R b b') (t : Tail) (mid : UInt16) :
    OutRel (SameBody R) (flatNext t mid b).1 (flatNext t mid b').1 ∧ SamePackets R (flatNext t mid b).2 (flatNext t mid b').2 := by
  induction h with
  | done =>
    have := (flatNext_cases t mid []).2.1
    have e : (flatNext t mid []).2 = [] := List.length_eq_zero_iff.mp (by simpa using this)
    refine ⟨?_, by rw [e]; exact .done⟩
    have hc := (flatNext_cases t mid []).2.2
    cases ho : (flatNext t mid []).1 with
    | ok m => have := hc m ho; simp at this
    | err e => exact .err e
    | panic => exact .panic
    | pending => exact .pending
    | running => exact .running
  | @same b b' ty d hd hu h ih =>
    rw [flatNext_eq t mid (packet ty d ++ b), flatNext_eq t mid (packet ty d ++ b'), flatMsg_packet t ty d hd, flatMsg_packet t ty d hd]
    cases hf : Frame.new ty d with
    | ok f =>
      cases f with
      | Message m =>
        obtain ⟨rfl, rfl⟩ := frame_message hf
        dsimp only
        cases hp : Info.parse d with
        | ok p =>
          dsimp only
          by_cases hm : p.1.mid = mid
          · rw [if_pos hm, if_pos hm]; exact ⟨.ok (untouched_body hu hp), h⟩
          · rw [if_neg hm, if_neg hm]; exact ih
        | err e => exact ⟨.err _, h⟩
        | panic => exact ⟨.panic, h⟩
      | Keepalive => dsimp only; rw [← flatNext_eq, ← flatNext_eq]; exact ih
      | _ => exact ⟨.err _, h⟩
    | err e => exact ⟨.err _, h⟩
    | panic => exact ⟨.panic, h⟩
  | @read b b' f f' hf hs h ih =>
    rw [flatNext_eq t mid (message f ++ b), flatNext_eq t mid (message f' ++ b'), flatMsg_message t f b hf,
      flatMsg_message t f' b' (sameRead_length hs ▸ hf)]
    dsimp only
    rcases parse_read hs with ⟨p, p', h1, h2, h3⟩ | ⟨e, h1, h2⟩
    · rw [h1, h2]
      dsimp only
      rw [← h3.1]
      by_cases hm : p.1.mid = mid
      · rw [if_pos hm, if_pos hm]; exact ⟨.ok h3, h⟩
      · rw [if_neg hm, if_neg hm]; exact ih
    · rw [h1, h2]; exact ⟨.err _, h⟩

theorem flatReply_contents {A : α → α → Prop} (Rp : Reply α) (hA : ∀ p p', SameBody R p p' → ResRel A (accept Rp p.1 p.2) (accept Rp p'.1 p'.2))
    (mid : UInt16) (t : Tail) (b b' : Bytes) (h : SamePackets R b b') :
    OutRel A (flatReply Rp mid t b).1 (flatReply Rp mid t b').1 ∧ SamePackets R (flatReply Rp mid t b).2 (flatReply Rp mid t b').2 := by
  obtain ⟨e1, e2⟩ := flatNext_contents h t mid
  rw [flatReply_eq]
  rcases hn : flatNext t mid b with ⟨o, r⟩
  rcases hn' : flatNext t mid b' with ⟨o', r'⟩
  rw [hn, hn'] at e1 e2
  dsimp only at e1 e2
  cases e1 with
  | ok hp =>
    rw [M.bind_ok hn, M.bind_ok hn']
    unfold M.ofRes
    have := hA _ _ hp
    revert this
    cases accept Rp _ _ <;> cases accept Rp _ _ <;> intro this <;> cases this
    · rename_i h; exact ⟨.ok h, e2⟩
    · exact ⟨.err _, e2⟩
    · exact ⟨.panic, e2⟩
  | err e => rw [M.bind_err hn, M.bind_err hn']; exact ⟨.err _, e2⟩
  | panic => rw [M.bind_panic hn, M.bind_panic hn']; exact ⟨.panic, e2⟩
  | pending => rw [M.bind_pending hn, M.bind_pending hn']; exact ⟨.pending, e2⟩
  | running => rw [M.bind_running hn, M.bind_running hn']; exact ⟨.running, e2⟩

theorem OutRel.eq {o o' : Out ε α} (h : OutRel Eq o o') : o = o' := by
  cases h with
  | ok h => rw [h]
  | _ => rfl

theorem flatGather_contents (mid : UInt16) (t : Tail) (n : Nat) (ctx : CollectTrans2) (b b' : Bytes) (hl : b.length < n) (h : SamePackets R b b') :
    (flatGather t mid ctx b).1 = (flatGather t mid ctx b').1 ∧ SamePackets R (flatGather t mid ctx b).2 (flatGather t mid ctx b').2 := by
  induction n generalizing ctx b b' with
  | zero => omega
  | succ n ih =>
    obtain ⟨e1, e2⟩ := flatReply_contents trans2Reply (fun _ _ hp => accept_other (by decide) hp) mid t b b' h
    have e1 := e1.eq
    have hc := flatReply_cases trans2Reply mid t b
    rw [flatGather_eq, flatGather_eq]
    rcases hn : flatReply trans2Reply mid t b with ⟨o, r⟩
    rcases hn' : flatReply trans2Reply mid t b' with ⟨o', r'⟩
    rw [hn] at hc
    rw [hn, hn'] at e1 e2
    dsimp only at e1 e2
    subst e1
    cases o with
    | ok p =>
      have := hc.2.2 p rfl
      dsimp only at *
      cases ctx.add p with
      | ok q =>
        dsimp only
        split
        · exact ⟨rfl, e2⟩
        · exact ih q.1 r r' (by omega) e2
      | err e => exact ⟨rfl, e2⟩
      | panic => exact ⟨rfl, e2⟩
    | err e => exact ⟨rfl, e2⟩
    | panic => exact ⟨rfl, e2⟩
    | pending => exact ⟨rfl, e2⟩
    | running => exact ⟨rfl, e2⟩

theorem flatCollect_contents (sub : SubReply2 α) (mid : UInt16) (t : Tail) (b b' : Bytes) (h : SamePackets R b b') :
    OutRel Eq (flatCollect sub mid t b).1 (flatCollect sub mid t b').1 ∧ SamePackets R (flatCollect sub mid t b).2 (flatCollect sub mid t b').2 := by
  obtain ⟨e1, e2⟩ := flatGather_contents mid t (b.length + 1) .new b b' (by omega) h
  have : (flatCollect sub mid t b).1 = (flatCollect sub mid t b').1 ∧ SamePackets R (flatCollect sub mid t b).2 (flatCollect sub mid t b').2 := by
    unfold flatCollect
    rcases hn : flatGather t mid .new b with ⟨o, r⟩
    rcases hn' : flatGather t mid .new b' with ⟨o', r'⟩
    rw [hn, hn'] at e1 e2
    dsimp only at e1 e2
    subst e1
    cases o with
    | ok p => rw [M.bind_ok hn, M.bind_ok hn']; unfold M.ofRes; cases p.getSubreply sub <;> exact ⟨rfl, e2⟩
    | err e => rw [M.bind_err hn, M.bind_err hn']; exact ⟨rfl, e2⟩
    | panic => rw [M.bind_panic hn, M.bind_panic hn']; exact ⟨rfl, e2⟩
    | pending => rw [M.bind_pending hn, M.bind_pending hn']; exact ⟨rfl, e2⟩
    | running => rw [M.bind_running hn, M.bind_running hn']; exact ⟨rfl, e2⟩
  exact ⟨by rw [this.1]; exact OutRel.rfl' (fun _ => rfl) _, this.2⟩

/-! ## Calls -/

section
variable {E : Env σ} {V' : Server σ'} {rel : σ → σ' → Prop} (hV : OtherContents R E.V V' rel)

/-- Related states. -/
structure OtherSt (R : UInt8 → UInt8 → Prop) (rel : σ → σ' → Prop) (s : St σ) (s' : St σ') : Prop where
  cli : s.cli = s'.cli
  wire : OtherWire R rel s.w s'.w

/-- From related states, the same outcome (with related values) and related states. -/
def Par (R : UInt8 → UInt8 → Prop) (rel : σ → σ' → Prop) (A : α → β → Prop) (m : CM σ α) (m' : CM σ' β) : Prop :=
  ∀ s s', OtherSt R rel s s' → OutRel A (m s).1 (m' s').1 ∧ OtherSt R rel (m s).2 (m' s').2

theorem Par.bind {δ : Type} {A : α → β → Prop} {B : γ → δ → Prop} {m : CM σ α} {m' : CM σ' β} {f : α → CM σ γ} {f' : β → CM σ' δ}
    (hm : Par R rel A m m') (hf : ∀ a b, A a b → Par R rel B (f a) (f' b)) : Par R rel B (m >>= f) (m' >>= f') := by
  intro s s' hq
  obtain ⟨h1, h2⟩ := hm s s' hq
  rcases h : m s with ⟨o, s1⟩
  rcases h' : m' s' with ⟨o', s1'⟩
  rw [h, h'] at h1 h2
  dsimp only at h1 h2
  cases h1 with
  | ok ha => rw [M.bind_ok h, M.bind_ok h']; exact hf _ _ ha _ _ h2
  | err e => rw [M.bind_err h, M.bind_err h']; exact ⟨.err e, h2⟩
  | panic => rw [M.bind_panic h, M.bind_panic h']; exact ⟨.panic, h2⟩
  | pending => rw [M.bind_pending h, M.bind_pending h']; exact ⟨.pending, h2⟩
  | running => rw [M.bind_running h, M.bind_running h']; exact ⟨.running, h2⟩

theorem Par.const {A : α → β → Prop} {o : Out Error α} {o' : Out Error β} (h : OutRel A o o') :
    Par R rel A (fun s => (o, s)) (fun s => (o', s)) := fun _ _ hq => ⟨h, hq⟩

theorem Par.pure {A : α → β → Prop} {a : α} {b : β} (h : A a b) : Par R rel A (Pure.pure a : CM σ α) (Pure.pure b : CM σ' β) := Par.const (.ok h)

theorem Par.ofRes (g : ε → Error) (r : Res ε α) : Par R rel Eq (M.ofRes g r : CM σ α) (M.ofRes g r : CM σ' α) := by
  cases r
  · exact Par.const (.ok rfl)
  · exact Par.const (.err _)
  · exact Par.const .panic

theorem Par.map' {δ : Type} {A : α → β → Prop} {B : γ → δ → Prop} {m : CM σ α} {m' : CM σ' β} (g : α → γ) (g' : β → δ) (hm : Par R rel A m m')
    (hg : ∀ a b, A a b → B (g a) (g' b)) : Par R rel B (M.map' g m) (M.map' g' m') :=
  Par.bind hm fun a b h => Par.const (.ok (hg a b h))

include hV

theorem Par.reads {A : α → α → Prop} {m : CM σ α} {m' : CM σ' α} {f : Tail → M Error Bytes α} (hm : FlatC E m f) (hm' : FlatC (E.withV V') m' f)
    (hf : ∀ t b b', SamePackets R b b' → OutRel A (f t b).1 (f t b').1 ∧ SamePackets R (f t b).2 (f t b').2) : Par R rel A m m' := by
  intro s s' hq
  obtain ⟨ib, h1, h2⟩ := hm s
  obtain ⟨ib', h1', h2'⟩ := hm' s'
  have ht : (E.withV V').V.tail s'.w.srv = E.V.tail s.w.srv := (hV.tail _ _ hq.wire.srv).symm
  rw [ht] at h1' h2'
  obtain ⟨e1, e2⟩ := hf (E.V.tail s.w.srv) s.w.flat s'.w.flat hq.wire.bytes
  rw [h2, h2']
  exact ⟨e1, hq.cli, hq.wire.out, hq.wire.wsched, hq.wire.srv, by show SamePackets R ib.flatten ib'.flatten; rw [h1, h1']; exact e2⟩

theorem Par.send (m : Msg) : Par R rel Eq (Cifs.send E m) (Cifs.send (E.withV V') m) := by
  rintro s s' ⟨hc, ho, hw, hr, hs⟩
  rw [Related.send_unfold, Related.send_unfold, show (E.withV V').checked = E.checked from rfl, ← hc, ← ho, ← hw]
  have hb : s.bump.cli = s'.bump.cli := by simp only [St.bump, hc]
  split
  · exact ⟨.panic, hc, ho, hw, hr, hs⟩
  · split
    · exact ⟨.err _, hb, ho, hw, hr, hs⟩
    · exact ⟨.panic, hb, ho, hw, hr, hs⟩
    · split
      · exact ⟨.err _, hb, ho, hw, hr, hs⟩
      · rename_i f hf hl
        rcases writeLoop s.w.wsched (message f) s.w.out with ⟨r, ws, out⟩
        cases r with
        | done =>
          refine ⟨.ok rfl, hb, rfl, rfl, hV.state _ _ _ hr, ?_⟩
          have := hs.append (hV.bytes _ _ (message f) hr)
          simpa only [List.flatten_append, show (E.withV V').V = V' from rfl] using this
        | failed e => exact ⟨.err _, hb, rfl, rfl, hr, hs⟩
        | blocked => exact ⟨.pending, hb, rfl, rfl, hr, hs⟩

theorem Par.command (m : Msg) (Rp : Reply α) (hR : Rp.cmd ≠ .Read) : Par R rel Eq (command E m Rp) (command (E.withV V') m Rp) :=
  Par.bind (Par.send hV m) fun mid _ e => by
    subst e
    exact Par.reads hV (recv_flatC E Rp mid) (recv_flatC _ Rp mid) (flatReply_contents Rp (fun _ _ hp => accept_other hR hp) mid)

theorem Par.read (m : Msg) : Par R rel (Each R) (Cifs.command E m readReply) (Cifs.command (E.withV V') m readReply) :=
  Par.bind (Par.send hV m) fun mid _ e => by
    subst e
    exact Par.reads hV (recv_flatC E readReply mid) (recv_flatC _ readReply mid) (flatReply_contents readReply (fun _ _ hp => accept_reads hp) mid)

theorem Par.transact2 (tid : UInt16) (c : SubCmd2) (sub : SubReply2 α) :
    Par R rel Eq (transact2 E tid c sub) (transact2 (E.withV V') tid c sub) :=
  Par.bind (Par.send hV _) fun mid _ e => by
    subst e
    exact Par.reads hV (collect_flatC E sub mid) (collect_flatC _ sub mid) (flatCollect_contents sub mid)

theorem Par.downloadLoop (file : Handle) (k : Nat) (data data' : Bytes) (hd : Each R data data') :
    Par R rel (Each R) (downloadLoop E file k data) (downloadLoop (E.withV V') file k data') := by
  induction k generalizing data data' with
  | zero => exact Par.const .running
  | succ k ih =>
    simp only [Cifs.downloadLoop]
    rw [hd.length]
    by_cases h : data'.length < file.size.toNat
    · simp only [if_pos h]; exact Par.bind (Par.read hV _) fun c c' hc => ih _ _ (hd.append hc)
    · simp only [if_neg h]; exact Par.pure hd

theorem Par.listLoop (share : Share) (sid : UInt16) (k : Nat) (result : List DirInfo) :
    Par R rel Eq (listLoop E share sid k result) (listLoop (E.withV V') share sid k result) := by
  induction k generalizing result with
  | zero => exact Par.const .running
  | succ k ih =>
    simp only [Cifs.listLoop]
    cases result.getLast? with
    | none => exact Par.const .panic
    | some last =>
      refine Par.bind (Par.transact2 hV _ _ _) fun reply _ e => ?_
      subst e
      cases reply.done
      · exact ih _
      · exact Par.pure rfl

theorem Par.sessionSetup (user domain : Str) (secret : Bytes) : Par R rel Eq (sessionSetup E user domain secret) (sessionSetup (E.withV V') user domain secret) :=
  Par.command hV _ _ (by decide)

theorem Par.sessionSetupNtlmv2 (blob : Bytes) : Par R rel Eq (sessionSetupNtlmv2 E blob) (sessionSetupNtlmv2 (E.withV V') blob) :=
  Par.command hV _ _ (by decide)

omit hV in
theorem Par.modifyCli (f : Cli → Cli) : Par R rel Eq (modifyCli f : CM σ Unit) (modifyCli f : CM σ' Unit) :=
  fun _ _ h => ⟨.ok rfl, congrArg f h.cli, h.wire⟩

omit hV in
theorem Par.getCli {A : α → α → Prop} {f : Cli → CM σ α} {f' : Cli → CM σ' α} (h : ∀ c, Par R rel A (f c) (f' c)) :
    Par R rel A (getCli >>= f) (getCli >>= f') := by
  intro s s' hq
  have := h s.cli s s' hq
  show OutRel A (f s.cli s).1 (f' s'.cli s').1 ∧ OtherSt R rel (f s.cli s).2 (f' s'.cli s').2
  rw [← hq.cli]; exact this

omit hV in
theorem Par.bindEq {B : γ → γ → Prop} {m : CM σ α} {m' : CM σ' α} {f : α → CM σ γ} {f' : α → CM σ' γ}
    (hm : Par R rel Eq m m') (hf : ∀ a, Par R rel B (f a) (f' a)) : Par R rel B (m >>= f) (m' >>= f') :=
  Par.bind hm fun a _ e => by subst e; exact hf a

theorem Par.setupConnection : Par R rel Eq (setupConnection E) (setupConnection (E.withV V')) := by
  refine Par.bindEq (Par.command hV _ _ (by decide)) fun setup => ?_
  refine Par.bindEq (Par.modifyCli _) fun _ => ?_
  split
  · refine Par.getCli fun c => ?_
    exact Par.bindEq (Par.ofRes _ _) fun _ => Par.bindEq (Par.sessionSetupNtlmv2 hV _) fun r => Par.bindEq (Par.modifyCli _) fun _ =>
      Par.bindEq (Par.ofRes _ _) fun _ => Par.bindEq (Par.ofRes _ _) fun _ => Par.bindEq (Par.ofRes _ _) fun _ =>
      Par.bindEq (Par.sessionSetupNtlmv2 hV _) fun _ => Par.pure rfl
  · refine Par.getCli fun c => ?_
    exact Par.bindEq (Par.ofRes _ _) fun secret => Par.bindEq (Par.sessionSetup hV _ _ _) fun r => Par.modifyCli _

/-- The values of calls. -/
inductive SameVal (R : UInt8 → UInt8 → Prop) (op : Op) : Val → Val → Prop
  | same (h : givesBytes op = false) (v : Val) (hv : ∀ b, v ≠ .bytes b) : SameVal R op v v
  | bytes (h : givesBytes op = true) {b b' : Bytes} (he : Each R b b') : SameVal R op (.bytes b) (.bytes b')

theorem Par.runOp (op : Op) : Par R rel (SameVal R op) (runOp E op) (runOp (E.withV V') op) := by
  cases op
  case download b s p =>
    refine Par.map' (A := Each R) _ _ ?_ fun _ _ h => .bytes rfl h
    exact Par.bindEq (Par.command hV _ _ (by decide)) fun file => Par.bind (Par.downloadLoop hV file b [] [] .nil) fun data data' hd =>
      Par.bindEq (Par.command hV _ _ (by decide)) fun _ => Par.pure hd
  case read file o => exact Par.map' (A := Each R) _ _ (Par.read hV _) fun _ _ h => .bytes rfl h
  case list b s p =>
    refine Par.map' (A := Eq) _ _ ?_ fun _ _ h => by subst h; exact .same rfl _ nofun
    refine Par.bindEq (Par.transact2 hV _ _ _) fun reply => ?_
    cases reply.done
    · exact Par.listLoop hV s _ b _
    · exact Par.pure rfl
  case findFirst s p => exact Par.map' (A := Eq) _ _ (Par.transact2 hV _ _ _) fun _ _ h => by subst h; exact .same rfl _ nofun
  case findNext s i p => exact Par.map' (A := Eq) _ _ (Par.transact2 hV _ _ _) fun _ _ h => by subst h; exact .same rfl _ nofun
  all_goals exact Par.map' (A := Eq) _ _ (Par.command hV _ _ (by decide)) fun _ _ h => by subst h; exact .same rfl _ nofun

end

end Cifs
