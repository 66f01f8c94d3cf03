import Verif.Spec.Dead
import Verif.Lemmas.Ends
import Verif.Props.CrashListing
/-!
# Connections that have ended (C94)
-/

namespace Cifs
open Spec

variable {σ : Type}

/-! ## Calls on a lost connection -/

theorem writeLoop_rest (ws : List WriteEv) (buf out : Bytes) :
    (∀ ev ∈ (writeLoop ws buf out).2.1, ev ∈ ws) ∧ (∀ e, (writeLoop ws buf out).1 = .failed e → .fail e ∈ ws) ∧
      ((writeLoop ws buf out).1 = .blocked → .block ∈ ws) := by
  induction ws generalizing buf out with
  | nil => exact ⟨by simp [writeLoop], by simp [writeLoop], by simp [writeLoop]⟩
  | cons ev ws ih =>
    simp only [writeLoop]
    split
    · exact ⟨fun _ h => h, by simp, by simp⟩
    · cases ev with
      | fail e => exact ⟨fun _ h => List.mem_cons_of_mem _ h, fun e' h => by cases h; simp, by simp⟩
      | block => exact ⟨fun _ h => List.mem_cons_of_mem _ h, by simp, by simp⟩
      | accept n =>
        obtain ⟨h1, h2, h3⟩ := ih (buf.drop n) (out ++ buf.take n)
        exact ⟨fun _ h => List.mem_cons_of_mem _ (h1 _ h), fun e h => List.mem_cons_of_mem _ (h2 e h), fun h => List.mem_cons_of_mem _ (h3 h)⟩

/-- All ways `send` can end, with what becomes of the coming writes. -/
theorem send_ways (E : Env σ) (m : Msg) (s : St σ) :
    (∃ o s', send E m s = (o, s') ∧ s'.w = s.w ∧ s'.cli.mid.toNat ≤ s.cli.mid.toNat + 1 ∧
      ((∃ e, o = .err (.SMBError e)) ∨ o = .err (.NetBios .InvalidFrame) ∨ o = .panic ∧ (Exhausted E s ∨ requestFrame s.cli m = .panic))) ∨
    ∃ ws out b, (∀ ev ∈ ws, ev ∈ s.w.wsched) ∧
      (send E m s = (.ok s.cli.mid, { s.bump with w := { inbox := s.w.inbox ++ (E.V.react s.w.srv b).2, wsched := ws
                                                         out := out, srv := (E.V.react s.w.srv b).1 } }) ∨
       (∃ e, .fail e ∈ s.w.wsched ∧ send E m s = (.err (.NetBios (.IoError e)), { s.bump with w := { s.w with wsched := ws, out := out } })) ∨
       (.block ∈ s.w.wsched ∧ send E m s = (.pending, { s.bump with w := { s.w with wsched := ws, out := out } }))) := by
  have hb : s.bump.cli.mid.toNat ≤ s.cli.mid.toNat + 1 := by
    show (s.cli.mid + 1).toNat ≤ _
    rw [UInt16.toNat_add]; exact Nat.mod_le _ _
  unfold send
  by_cases h : E.checked = true ∧ s.cli.mid.toNat = 65535
  · exact .inl ⟨_, _, if_pos h, rfl, Nat.le_succ _, .inr (.inr ⟨rfl, .inl h⟩)⟩
  rw [if_neg h]
  cases hr : requestFrame s.cli m with
  | err e => exact .inl ⟨_, _, rfl, rfl, hb, .inl ⟨e, rfl⟩⟩
  | panic => exact .inl ⟨_, _, rfl, rfl, hb, .inr (.inr ⟨rfl, .inr rfl⟩)⟩
  | ok f =>
    simp only [M.bind, liftNet_eq, sendMessage_eq]
    by_cases hl : f.length > MAX_FRAME_LENGTH
    · left
      refine ⟨.err (.NetBios .InvalidFrame), s.bump, ?_, rfl, hb, .inr (.inl rfl)⟩
      simp [hl, Out.net, St.bump]
    · right
      simp only [if_neg hl, writeExactly]
      obtain ⟨h1, h2, h3⟩ := writeLoop_rest s.w.wsched (0x00 :: (be24 f.length ++ f)) s.w.out
      rcases hw : writeLoop s.w.wsched (0x00 :: (be24 f.length ++ f)) s.w.out with ⟨r, ws, out⟩
      rw [hw] at h1 h2 h3
      refine ⟨ws, out, 0x00 :: (be24 f.length ++ f), h1, ?_⟩
      cases r with
      | done => exact .inl rfl
      | failed e => exact .inr (.inl ⟨e, h2 e rfl, rfl⟩)
      | blocked => exact .inr (.inr ⟨h3 rfl, rfl⟩)

/-- The call that starts in `s` with the message `m` has failed, and the connection is still lost. -/
def Ruined {α : Type} (E : Env σ) (m : Msg) (s : St σ) (r : Out Error α × St σ) : Prop :=
  ((∃ e, r.1 = .err e) ∨ r.1 = .panic ∧ (Exhausted E s ∨ requestFrame s.cli m = .panic)) ∧ IsLost E.V r.2.w ∧ NoBlock r.2.w ∧
    r.2.cli.mid.toNat ≤ s.cli.mid.toNat + 1

theorem ruined_bind {α β : Type} {E : Env σ} {m : Msg} {s : St σ} {x : CM σ α} (f : α → CM σ β) (h : Ruined E m s (x s)) : Ruined E m s ((x >>= f) s) := by
  rcases hx : x s with ⟨o, s'⟩
  rw [hx] at h
  obtain ⟨⟨e, rfl⟩ | ⟨rfl, h1⟩, h2⟩ := h
  · rw [M.bind_err hx]; exact ⟨.inl ⟨e, rfl⟩, h2⟩
  · rw [M.bind_panic hx]; exact ⟨.inr ⟨rfl, h1⟩, h2⟩

theorem flatMsg_nil {t : Tail} (ht : t ≠ .blocked) : ∃ e, flatMsg t [] = (.err e, []) := by
  have h : flatRecvMessage t [] = (t.out (.IoError .unexpectedEof), []) := by
    show flatRecvMessageLoop t 1 [] = _
    unfold flatRecvMessageLoop
    have h := flatRecv_short1 t
    cases t with
    | blocked => exact absurd rfl ht
    | eof => exact M.bind_err h
    | ioErr e => exact M.bind_err h
  unfold flatMsg
  rw [h]
  cases t with
  | blocked => exact absurd rfl ht
  | eof => exact ⟨_, rfl⟩
  | ioErr e => exact ⟨_, rfl⟩

theorem flatReply_nil {α : Type} {t : Tail} (ht : t ≠ .blocked) (R : Reply α) (mid : UInt16) : ∃ e, flatReply R mid t [] = (.err e, []) := by
  obtain ⟨e, h⟩ := flatMsg_nil ht
  refine ⟨e, ?_⟩
  show (flatNextLoop t mid 1 >>= fun p => M.ofRes id (accept R p.1 p.2) : M Error Bytes α) [] = _
  have h1 : flatNextLoop t mid 1 [] = (.err e, []) := by
    unfold flatNextLoop
    exact M.bind_err h
  exact M.bind_err h1

theorem flatCollect_nil {α : Type} {t : Tail} (ht : t ≠ .blocked) (sub : SubReply2 α) (mid : UInt16) : ∃ e, flatCollect sub mid t [] = (.err e, []) := by
  obtain ⟨e, h⟩ := flatReply_nil ht trans2Reply mid
  refine ⟨e, ?_⟩
  have h1 : flatGather t mid .new [] = (.err e, []) := by
    show flatCollectLoop t mid 1 .new [] = _
    unfold flatCollectLoop
    exact M.bind_err h
  exact M.bind_err h1

theorem lost_flat {α : Type} {E : Env σ} {x : CM σ α} {f : Tail → M Error Bytes α} (hf : FlatC E x f) (hn : ∀ t, t ≠ .blocked → ∃ e, f t [] = (.err e, []))
    {s : St σ} (h : IsLost E.V s.w) : ∃ e s', x s = (.err e, s') ∧ IsLost E.V s'.w ∧ s'.w.wsched = s.w.wsched ∧ s'.cli = s.cli := by
  obtain ⟨ib, h1, h2⟩ := hf s
  obtain ⟨e, he⟩ := hn _ h.2
  have h0 : s.w.flat = [] := h.1
  rw [h0, he] at h1 h2
  exact ⟨e, _, h2, ⟨h1, h.2⟩, rfl, rfl⟩

theorem lost_send {α : Type} {E : Env σ} (hV : StaysOver E.V) (m : Msg) {g : UInt16 → CM σ α} {s : St σ} (h : IsLost E.V s.w) (hb : NoBlock s.w)
    (hg : ∀ mid s, IsLost E.V s.w → ∃ e s', g mid s = (.err e, s') ∧ IsLost E.V s'.w ∧ s'.w.wsched = s.w.wsched ∧ s'.cli = s.cli) :
    Ruined E m s ((send E m >>= g) s) := by
  rcases send_ways E m s with ⟨o, s', h1, h2, h3, ho⟩ | ⟨ws, out, b, hws, h1⟩
  · have hl : IsLost E.V s'.w ∧ NoBlock s'.w ∧ s'.cli.mid.toNat ≤ s.cli.mid.toNat + 1 := by rw [h2]; exact ⟨h, hb, h3⟩
    rcases ho with ⟨e, rfl⟩ | rfl | ⟨rfl, ho⟩
    · rw [M.bind_err h1]; exact ⟨.inl ⟨_, rfl⟩, hl⟩
    · rw [M.bind_err h1]; exact ⟨.inl ⟨_, rfl⟩, hl⟩
    · rw [M.bind_panic h1]; exact ⟨.inr ⟨rfl, ho⟩, hl⟩
  · have hm : s.bump.cli.mid.toNat ≤ s.cli.mid.toNat + 1 := by
      show (s.cli.mid + 1).toNat ≤ _
      rw [UInt16.toNat_add]; exact Nat.mod_le _ _
    rcases h1 with h1 | ⟨e, -, h1⟩ | ⟨hk, -⟩
    · rw [M.bind_ok h1]
      obtain ⟨h2, h3⟩ := hV _ h.2 b
      obtain ⟨e, s', h4, h5, h6, h7⟩ := hg s.cli.mid
        { s.bump with w := { inbox := s.w.inbox ++ (E.V.react s.w.srv b).2, wsched := ws, out := out, srv := (E.V.react s.w.srv b).1 } }
        ⟨by rw [List.flatten_append, h.1, h2]; rfl, h3⟩
      rw [h4]
      refine ⟨.inl ⟨e, rfl⟩, h5, ?_, ?_⟩
      · show WriteEv.block ∉ s'.w.wsched
        rw [h6]; exact fun hk => hb (hws _ hk)
      · show s'.cli.mid.toNat ≤ _
        rw [h7]; exact hm
    · rw [M.bind_err h1]; exact ⟨.inl ⟨_, rfl⟩, h, fun hk => hb (hws _ hk), hm⟩
    · exact absurd hk hb

theorem lost_command {α : Type} {E : Env σ} (hV : StaysOver E.V) (m : Msg) (R : Reply α) {s : St σ} (h : IsLost E.V s.w) (hb : NoBlock s.w) :
    Ruined E m s (command E m R s) :=
  lost_send hV m h hb fun mid _ hl => lost_flat (recv_flatC E R mid) (fun _ ht => flatReply_nil ht R mid) hl

theorem lost_transact2 {α : Type} {E : Env σ} (hV : StaysOver E.V) (tid : UInt16) (c : SubCmd2) (sub : SubReply2 α) {s : St σ} (h : IsLost E.V s.w)
    (hb : NoBlock s.w) : Ruined E (transact2Msg tid c) s (transact2 E tid c sub s) :=
  lost_send hV _ h hb fun mid _ hl => lost_flat (collect_flatC E sub mid) (fun _ ht => flatCollect_nil ht sub mid) hl

theorem lost_call {E : Env σ} (hV : StaysOver E.V) (op : Op) {s : St σ} (h : IsLost E.V s.w) (hb : NoBlock s.w) : Ruined E op.first s (runOp E op s) := by
  cases op with
  | download k share path => exact ruined_bind _ (ruined_bind _ (lost_command hV _ _ h hb))
  | list k share pattern => exact ruined_bind _ (ruined_bind _ (lost_transact2 hV _ _ _ h hb))
  | findFirst share pattern => exact ruined_bind _ (lost_transact2 hV _ _ _ h hb)
  | findNext share sid last => exact ruined_bind _ (lost_transact2 hV _ _ _ h hb)
  | _ => exact ruined_bind _ (lost_command hV _ _ h hb)

/-- **C94.** A call on a lost connection fails, and the connection is lost after it. It does not wait, and it gives no value. (It panics if it would do so in
any case, because of its arguments or because the multiplex ids are exhausted.) -/
theorem C94_call {E : Env σ} (hV : StaysOver E.V) (op : Op) {s : St σ} (h : IsLost E.V s.w) (hb : NoBlock s.w) :
    ((∃ e, (runOp E op s).1 = .err e) ∨ (runOp E op s).1 = .panic ∧ (Exhausted E s ∨ Panics op)) ∧ IsLost E.V (runOp E op s).2.w ∧ NoBlock (runOp E op s).2.w := by
  obtain ⟨h1, h2, h3, -⟩ := lost_call hV op h hb
  refine ⟨h1.imp_right fun ⟨h4, h5⟩ => ⟨h4, h5.imp_right fun h6 => ?_⟩, h2, h3⟩
  by_cases hp : Panics op
  · exact hp
  · exact absurd h6 (first_no_panic s.cli op hp)

theorem lost_calls {E : Env σ} (hV : StaysOver E.V) : ∀ (ops : List Op) {s : St σ}, IsLost E.V s.w → NoBlock s.w →
    (∀ op ∈ ops, ¬ Panics op) → (E.checked = true → s.cli.mid.toNat + ops.length ≤ 65535) → ∀ o ∈ (runOps E ops s).1, ∃ e, o = .err e
  | [], s, _, _, _, _ => nofun
  | op :: ops, s, h, hb, hp, hm => by
    obtain ⟨h1, h2, h3, h4⟩ := lost_call hV op h hb
    have h5 := (C94_call hV op h hb).1
    intro o ho
    rcases List.mem_cons.mp ho with rfl | ho
    · rcases h5 with h5 | ⟨-, h5 | h5⟩
      · exact h5
      · have := hm h5.1
        have := h5.2
        simp only [List.length_cons] at *
        omega
      · exact absurd h5 (hp op List.mem_cons_self)
    · refine lost_calls hV ops h2 h3 (fun op hop => hp op (List.mem_cons_of_mem _ hop)) (fun hc => ?_) o ho
      have := hm hc
      simp only [List.length_cons] at this
      omega

/-! ## How a call finds out -/

/-- The errors of reading that mean the end of the stream. -/
def CutOff : NbError → Prop
  | .IoError _ => True
  | .UnexpectedEOF => True
  | _ => False

/-- The same for the errors of calls. -/
def CutOffE : Error → Prop
  | .NetBios x => CutOff x
  | _ => False

/-- Code that reads, and that has read everything if it ends with such an error. -/
def Drains {ε α : Type} (C : ε → Prop) (t : Tail) (m : M ε Bytes α) : Prop := ∀ b e, (m b).1 = .err e → C e → (m b).2 = [] ∧ t ≠ .blocked

theorem Drains.bind {ε α β : Type} {C : ε → Prop} {t : Tail} {m : M ε Bytes α} {f : α → M ε Bytes β} (hm : Drains C t m) (hf : ∀ a, Drains C t (f a)) :
    Drains C t (m >>= f) := by
  intro b e he hc
  rcases hx : m b with ⟨o, b'⟩
  cases o with
  | ok a => rw [M.bind_ok hx] at he ⊢; exact hf a b' e he hc
  | err e' =>
    rw [M.bind_err hx] at he ⊢
    cases he
    have := hm b e (by rw [hx]) hc
    rw [hx] at this; exact this
  | panic => rw [M.bind_panic hx] at he; cases he
  | pending => rw [M.bind_pending hx] at he; cases he
  | running => rw [M.bind_running hx] at he; cases he

theorem Drains.pure {ε α : Type} (C : ε → Prop) (t : Tail) (a : α) : Drains C t (pure a : M ε Bytes α) := by intro b e he; cases he
theorem Drains.fail {ε α : Type} {C : ε → Prop} {t : Tail} {e : ε} (h : ¬ C e) : Drains C t (M.fail e : M ε Bytes α) := by
  intro b e' he hc; cases he; exact absurd hc h
theorem Drains.running {ε α : Type} (C : ε → Prop) (t : Tail) : Drains C t (fun b => (.running, b) : M ε Bytes α) := by intro b e he; cases he
theorem Drains.ofRes {ε ε' α : Type} {C : ε' → Prop} {t : Tail} {g : ε → ε'} {r : Res ε α} (h : ∀ e, r = .err e → ¬ C (g e)) :
    Drains C t (M.ofRes g r : M ε' Bytes α) := by
  intro b e he hc
  cases r with
  | ok a => cases he
  | panic => cases he
  | err x => cases he; exact absurd hc (h x rfl)

theorem drains_read (eof : NbError) (n : Nat) (t : Tail) : Drains CutOff t (flatRead eof n t) := by
  intro b e he hc
  unfold flatRead at *
  split at he
  · rename_i h
    rw [if_pos h]
    refine ⟨rfl, fun ht => ?_⟩
    subst ht
    cases he
  · cases he

theorem drains_new (ty : UInt8) (d : Bytes) (e : NbError) (h : Frame.new ty d = .err e) : ¬ CutOff (id e) := by
  unfold Frame.new at h
  repeat' split at h
  all_goals cases h
  all_goals exact fun h => h

theorem drains_recv (t : Tail) : Drains CutOff t (flatRecv t) := by
  refine .bind (drains_read _ _ t) fun ty => .bind (drains_read _ _ t) fun len => ?_
  split
  · exact .fail fun h => h
  · exact .bind (drains_read _ _ t) fun d => .ofRes fun e h => drains_new _ _ e h

theorem drains_loop (t : Tail) (k : Nat) : Drains CutOff t (flatRecvMessageLoop t k) := by
  induction k with
  | zero => exact .running _ _
  | succ k ih =>
    refine .bind (drains_recv t) fun f => ?_
    cases f with
    | Message m => exact .pure _ _ _
    | Keepalive => exact ih
    | _ => exact .fail fun h => h

theorem drains_msg (t : Tail) : Drains CutOffE t (flatMsg t) := by
  intro b e he hc
  have h := drains_loop t (b.length + 1) b
  unfold flatMsg flatRecvMessage at *
  rcases hx : flatRecvMessageLoop t (b.length + 1) b with ⟨o, b'⟩
  rw [hx] at h he
  cases o with
  | err x => cases he; exact h x rfl hc
  | _ => cases he

theorem drains_next (t : Tail) (mid : UInt16) (k : Nat) : Drains CutOffE t (flatNextLoop t mid k) := by
  induction k with
  | zero => exact .running _ _
  | succ k ih =>
    refine .bind (drains_msg t) fun f => .bind (.ofRes fun _ _ h => h) fun p => ?_
    split
    · exact .pure _ _ _
    · exact ih

theorem accept_not_cut {α : Type} (R : Reply α) (i : Info) (b : Bytes) (e : Error) (h : accept R i b = .err e) : ¬ CutOffE (id e) := by
  unfold accept at h
  split at h
  · cases h; exact fun h => h
  · split at h
    · cases hr : R.parse i b with
      | ok a => rw [hr] at h; cases h
      | panic => rw [hr] at h; cases h
      | err x => rw [hr] at h; cases h; exact fun h => h
    · cases h; exact fun h => h

theorem drains_reply {α : Type} (t : Tail) (R : Reply α) (mid : UInt16) : Drains CutOffE t (flatReply R mid t) :=
  fun b => Drains.bind (drains_next t mid (b.length + 1)) (fun p => .ofRes fun e h => accept_not_cut R p.1 p.2 e h) b

theorem drains_gather (t : Tail) (mid : UInt16) (k : Nat) (ctx : CollectTrans2) : Drains CutOffE t (flatCollectLoop t mid k ctx) := by
  induction k generalizing ctx with
  | zero => exact .running _ _
  | succ k ih =>
    refine .bind (drains_reply t _ _) fun f => .bind (.ofRes fun _ _ h => h) fun p => ?_
    split
    · exact .pure _ _ _
    · exact ih _

theorem drains_collect {α : Type} (t : Tail) (sub : SubReply2 α) (mid : UInt16) : Drains CutOffE t (flatCollect sub mid t) :=
  .bind (fun b => drains_gather t mid (b.length + 1) .new b) fun _ => .ofRes fun _ _ h => h

/-- The code uses up the coming writes, and when it says that the connection is lost, this is so. -/
def Notices {α : Type} (E : Env σ) (x : CM σ α) : Prop :=
  ∀ s, (∀ ev ∈ (x s).2.w.wsched, ev ∈ s.w.wsched) ∧ ∀ e, (x s).1 = .err e → SaysLost s.w e → IsLost E.V (x s).2.w

theorem Notices.bind {α β : Type} {E : Env σ} {x : CM σ α} {f : α → CM σ β} (hx : Notices E x) (hf : ∀ a, Notices E (f a)) : Notices E (x >>= f) := by
  intro s
  obtain ⟨h1, h2⟩ := hx s
  rcases hr : x s with ⟨o, s'⟩
  rw [hr] at h1 h2
  cases o with
  | ok a =>
    rw [M.bind_ok hr]
    obtain ⟨h3, h4⟩ := hf a s'
    refine ⟨fun ev h => h1 ev (h3 ev h), fun e he hs => h4 e he ?_⟩
    exact hs.imp_right fun ⟨x, h5, h6⟩ => ⟨x, h5, fun h => h6 (h1 _ h)⟩
  | err e => rw [M.bind_err hr]; exact ⟨h1, fun e' he => by cases he; exact h2 e rfl⟩
  | panic => rw [M.bind_panic hr]; exact ⟨h1, fun e' he => by cases he⟩
  | pending => rw [M.bind_pending hr]; exact ⟨h1, fun e' he => by cases he⟩
  | running => rw [M.bind_running hr]; exact ⟨h1, fun e' he => by cases he⟩

theorem Notices.pure {α : Type} (E : Env σ) (a : α) : Notices E (pure a : CM σ α) := fun _ => ⟨fun _ h => h, fun e he => by cases he⟩

theorem Notices.flat {α : Type} {E : Env σ} {x : CM σ α} {f : Tail → M Error Bytes α} (hf : FlatC E x f) (hd : ∀ t, Drains CutOffE t (f t)) : Notices E x := by
  intro s
  obtain ⟨ib, h1, h2⟩ := hf s
  rw [h2]
  refine ⟨fun _ h => h, fun e he hs => ?_⟩
  obtain ⟨h3, h4⟩ := hd _ _ e he (by
    rcases hs with rfl | ⟨x, rfl, -⟩
    · trivial
    · trivial)
  exact ⟨h1.trans h3, h4⟩

theorem notices_send (E : Env σ) (m : Msg) : Notices E (send E m) := by
  intro s
  rcases send_ways E m s with ⟨o, s', h1, h2, -, ho⟩ | ⟨ws, out, b, hws, h1 | ⟨e, hk, h1⟩ | ⟨-, h1⟩⟩
  · rw [h1]
    refine ⟨fun ev h => by rw [← h2]; exact h, fun e he hs => ?_⟩
    rcases ho with ⟨x, rfl⟩ | rfl | ⟨rfl, -⟩
    · cases he; rcases hs with hs | ⟨_, hs, _⟩ <;> cases hs
    · cases he; rcases hs with hs | ⟨_, hs, _⟩ <;> cases hs
    · cases he
  · rw [h1]; exact ⟨hws, fun e he => by cases he⟩
  · rw [h1]
    refine ⟨hws, fun e' he hs => ?_⟩
    cases he
    rcases hs with hs | ⟨x, hs, hn⟩ <;> cases hs
    exact absurd hk hn
  · rw [h1]; exact ⟨hws, fun e he => by cases he⟩

theorem notices_command {α : Type} (E : Env σ) (m : Msg) (R : Reply α) : Notices E (command E m R) :=
  .bind (notices_send E m) fun mid => .flat (recv_flatC E R mid) fun t => drains_reply t R mid

theorem notices_transact2 {α : Type} (E : Env σ) (tid : UInt16) (c : SubCmd2) (sub : SubReply2 α) : Notices E (transact2 E tid c sub) :=
  .bind (notices_send E _) fun mid => .flat (collect_flatC E sub mid) fun t => drains_collect t sub mid

theorem notices_downloadLoop (E : Env σ) (file : Handle) (k : Nat) (data : Bytes) : Notices E (downloadLoop E file k data) := by
  induction k generalizing data with
  | zero => exact fun _ => ⟨fun _ h => h, fun e he => by cases he⟩
  | succ k ih =>
    unfold downloadLoop
    split
    · exact .bind (notices_command E _ _) fun c => ih _
    · exact .pure E _

theorem notices_listLoop (E : Env σ) (share : Share) (sid : UInt16) (k : Nat) (l : List DirInfo) : Notices E (listLoop E share sid k l) := by
  induction k generalizing l with
  | zero => exact fun _ => ⟨fun _ h => h, fun e he => by cases he⟩
  | succ k ih =>
    unfold listLoop
    split
    · exact fun _ => ⟨fun _ h => h, fun e he => by cases he⟩
    · refine .bind (notices_transact2 E _ _ _) fun r => ?_
      split
      · exact .pure E _
      · exact ih _

theorem notices_call (E : Env σ) (op : Op) : Notices E (runOp E op) := by
  cases op with
  | download k share path =>
    exact .bind (.bind (notices_command E _ _) fun _ => .bind (notices_downloadLoop E _ _ _) fun _ => .bind (notices_command E _ _) fun _ => .pure E _)
      fun _ => .pure E _
  | list k share pattern =>
    refine .bind (.bind (notices_transact2 E _ _ _) fun r => ?_) fun _ => .pure E _
    split
    · exact .pure E _
    · exact notices_listLoop E _ _ _ _
  | findFirst share pattern => exact .bind (notices_transact2 E _ _ _) fun _ => .pure E _
  | findNext share sid last => exact .bind (notices_transact2 E _ _ _) fun _ => .pure E _
  | _ => exact .bind (notices_command E _ _) fun _ => .pure E _

/-- **C94.** If a call says that the stream has ended or broken, then it has: the connection is lost. -/
theorem C94_noticed (E : Env σ) (op : Op) (s : St σ) (e : Error) (h : (runOp E op s).1 = .err e) (he : SaysLost s.w e) : IsLost E.V (runOp E op s).2.w :=
  (notices_call E op s).2 e h he

/-- **C94.** After a call has said that the stream has ended or broken, all further calls fail with an error; none of them gives a value, waits, runs on or
panics. -/
theorem C94_stays {E : Env σ} (hV : StaysOver E.V) (op : Op) (s : St σ) (e : Error) (h : (runOp E op s).1 = .err e) (he : SaysLost s.w e) (hb : NoBlock s.w)
    (ops : List Op) (hp : ∀ op ∈ ops, ¬ Panics op) (hm : E.checked = true → (runOp E op s).2.cli.mid.toNat + ops.length ≤ 65535) :
    ∀ o ∈ (runOps E ops (runOp E op s).2).1, ∃ e, o = .err e :=
  lost_calls hV ops (C94_noticed E op s e h he) (fun hk => hb ((notices_call E op s).1 _ hk)) hp hm

namespace Demo

/-- A server that answers the first request, and then closes the connection. -/
def brief : Server Bool :=
  { react := fun v _ => if v then (false, [message (reply .TreeDisconnect 7 [] [])]) else (false, [])
    tail := fun v => if v then .blocked else .eof }

def briefEnv : Env Bool := { V := brief, C := (env true).C, checked := true, now := (env true).now, random := (env true).random, random_len := (env true).random_len }
def briefSt : St Bool := { cli := cli, w := { inbox := [], wsched := [.accept 3], out := [], srv := true } }

theorem brief_stays : StaysOver brief := by
  intro v h b
  cases v with
  | true => exact absurd rfl h
  | false => exact ⟨rfl, by simp [brief]⟩

/-- The state after the first call, which succeeds. -/
def briefly : St Bool := (runOp briefEnv (.umount share) briefSt).2

example : (runOp briefEnv (.umount share) briefSt).1 = .ok .unit := by decide +kernel

/-- The hypotheses of `C94_stays` are met: the second call says that the connection is lost, and the further ones fail. -/
example : ∀ o ∈ (runOps briefEnv [.close handle, .mount ['a'] [], .list 5 share ['*']] (runOp briefEnv (.umount share) briefly).2).1, ∃ e, o = .err e := by
  refine C94_stays brief_stays (.umount share) briefly (.NetBios (.IoError .unexpectedEof)) (by decide +kernel) (.inr ⟨_, rfl, by decide +kernel⟩) ?_ _ ?_ ?_
  · show WriteEv.block ∉ briefly.w.wsched
    decide +kernel
  · intro op h
    simp only [List.mem_cons, List.not_mem_nil, or_false] at h
    rcases h with rfl | rfl | rfl <;> simp [Panics] <;> decide
  · intro _
    decide +kernel

/-- The hypotheses of `C94_call` are met. -/
example : ∃ s : St Bool, IsLost brief s.w ∧ NoBlock s.w := ⟨{ briefSt with w := { inbox := [[]], wsched := [], out := [], srv := false } }, ⟨rfl, by simp [brief]⟩, by simp [NoBlock]⟩

end Demo

end Cifs
