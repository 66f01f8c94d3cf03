import Verif.Lemmas.Recv
import Verif.Lemmas.Mids
import Verif.Lemmas.Flow
/-! # Code that does not wait for ever -/

namespace Cifs

open Spec

variable {σ : Type}

/-- From a state with `P`, the code does not end up waiting, and the state has `P` again. -/
def M.Ends {ε S α : Type} (P : S → Prop) (m : M ε S α) : Prop := ∀ s, P s → (m s).1 ≠ .pending ∧ P (m s).2

theorem M.Ends.bind {ε S α β : Type} {P : S → Prop} {m : M ε S α} {f : α → M ε S β} (hm : M.Ends P m) (hf : ∀ a, M.Ends P (f a)) :
    M.Ends P (m >>= f) := by
  intro s hs
  have h := hm s hs
  rcases hx : m s with ⟨o, s'⟩
  rw [hx] at h
  cases o with
  | ok a => rw [M.bind_ok hx]; exact hf a s' h.2
  | err e => rw [M.bind_err hx]; exact ⟨by simp, h.2⟩
  | panic => rw [M.bind_panic hx]; exact ⟨by simp, h.2⟩
  | pending => exact absurd rfl h.1
  | running => rw [M.bind_running hx]; exact ⟨by simp, h.2⟩

theorem M.Ends.pure {ε S α : Type} (P : S → Prop) (a : α) : M.Ends P (pure a : M ε S α) := fun _ h => ⟨by simp [Pure.pure], h⟩
theorem M.Ends.fail {ε S α : Type} (P : S → Prop) (e : ε) : M.Ends P (M.fail e : M ε S α) := fun _ h => ⟨by simp [M.fail], h⟩
theorem M.Ends.ofRes {ε ε' S α : Type} (P : S → Prop) (g : ε → ε') (r : Res ε α) : M.Ends P (M.ofRes g r : M ε' S α) := by
  intro s h; cases r <;> exact ⟨by simp [M.ofRes], h⟩
theorem M.Ends.running {ε S α : Type} (P : S → Prop) : M.Ends P (fun s => (.running, s) : M ε S α) := fun _ h => ⟨by simp, h⟩

/-- Any state. -/
abbrev AnyState {S : Type} : S → Prop := fun _ => True

theorem flatRead_ends (eof : NbError) (n : Nat) {t : Tail} (ht : t ≠ .blocked) : M.Ends AnyState (flatRead eof n t) := by
  intro b _
  unfold flatRead
  split
  · cases t with
    | blocked => exact absurd rfl ht
    | eof => exact ⟨by simp [Tail.out], trivial⟩
    | ioErr e => exact ⟨by simp [Tail.out], trivial⟩
  · exact ⟨by simp, trivial⟩

theorem flatRecv_ends {t : Tail} (ht : t ≠ .blocked) : M.Ends AnyState (flatRecv t) := by
  refine .bind (flatRead_ends _ _ ht) fun ty => .bind (flatRead_ends _ _ ht) fun len => ?_
  split
  · exact .fail _ _
  · exact .bind (flatRead_ends _ _ ht) fun d => .ofRes _ _ _

theorem flatRecvMessageLoop_ends {t : Tail} (ht : t ≠ .blocked) (k : Nat) : M.Ends AnyState (flatRecvMessageLoop t k) := by
  induction k with
  | zero => exact .running _
  | succ k ih =>
    refine .bind (flatRecv_ends ht) fun f => ?_
    cases f with
    | Message m => exact .pure _ _
    | Keepalive => exact ih
    | _ => exact .fail _ _

theorem flatMsg_ends {t : Tail} (ht : t ≠ .blocked) : M.Ends AnyState (flatMsg t) := by
  intro b _
  have h := (flatRecvMessageLoop_ends ht (b.length + 1) b trivial).1
  refine ⟨?_, trivial⟩
  unfold flatMsg flatRecvMessage
  rcases hx : flatRecvMessageLoop t (b.length + 1) b with ⟨o, b'⟩
  rw [hx] at h
  cases o with
  | pending => exact absurd rfl h
  | _ => simp [Out.net]

theorem flatNextLoop_ends {t : Tail} (ht : t ≠ .blocked) (mid : UInt16) (k : Nat) : M.Ends AnyState (flatNextLoop t mid k) := by
  induction k with
  | zero => exact .running _
  | succ k ih =>
    refine .bind (flatMsg_ends ht) fun f => .bind (.ofRes _ _ _) fun p => ?_
    split
    · exact .pure _ _
    · exact ih

theorem flatReply_ends {α : Type} {t : Tail} (ht : t ≠ .blocked) (R : Reply α) (mid : UInt16) : M.Ends AnyState (flatReply R mid t) :=
  fun b hb => M.Ends.bind (flatNextLoop_ends ht mid (b.length + 1)) (fun _ => .ofRes _ _ _) b hb

theorem flatCollectLoop_ends {t : Tail} (ht : t ≠ .blocked) (mid : UInt16) (k : Nat) (ctx : CollectTrans2) :
    M.Ends AnyState (flatCollectLoop t mid k ctx) := by
  induction k generalizing ctx with
  | zero => exact .running _
  | succ k ih =>
    refine .bind (flatReply_ends ht _ _) fun f => .bind (.ofRes _ _ _) fun p => ?_
    split
    · exact .pure _ _
    · exact ih _

theorem flatCollect_ends {α : Type} {t : Tail} (ht : t ≠ .blocked) (sub : SubReply2 α) (mid : UInt16) :
    M.Ends AnyState (flatCollect sub mid t) :=
  .bind (fun b hb => flatCollectLoop_ends ht mid (b.length + 1) .new b hb) fun _ => .ofRes _ _ _

/-- Every write is accepted, at least in part. -/
def WritesAccepted (s : St σ) : Prop := Accepting s.w.wsched

/-- After the bytes it has sent, the server closes or the connection breaks; it does not stay silent. -/
def NeverSilent (V : Server σ) : Prop := ∀ v, V.tail v ≠ .blocked

theorem flatC_ends {α : Type} {E : Env σ} {m : CM σ α} {f : Tail → M Error Bytes α} (hf : FlatC E m f) (hs : NeverSilent E.V)
    (h : ∀ t, t ≠ .blocked → M.Ends AnyState (f t)) : M.Ends WritesAccepted m := by
  intro s hw
  obtain ⟨ib, _, e⟩ := hf s
  rw [e]
  exact ⟨(h _ (hs _) _ trivial).1, hw⟩

theorem recv_ends {α : Type} {E : Env σ} (hs : NeverSilent E.V) (R : Reply α) (mid : UInt16) : M.Ends WritesAccepted (recv E R mid) :=
  flatC_ends (recv_flatC E R mid) hs fun _ ht => flatReply_ends ht R mid

theorem collect_ends {α : Type} {E : Env σ} (hs : NeverSilent E.V) (sub : SubReply2 α) (mid : UInt16) :
    M.Ends WritesAccepted (collect E sub mid) :=
  flatC_ends (collect_flatC E sub mid) hs fun _ ht => flatCollect_ends ht sub mid

theorem send_ends (E : Env σ) (m : Msg) : M.Ends WritesAccepted (send E m) := by
  intro s hw
  rcases send_cases E m s with ⟨_, _, h⟩ | ⟨hc, ⟨e, _, h⟩ | ⟨_, h⟩ | ⟨f, _, _, h⟩ | ⟨f, hf, hl, ws, p, q, hpq, h⟩⟩
  · rw [h]; exact ⟨by simp, hw⟩
  · rw [h]; exact ⟨by simp, hw⟩
  · rw [h]; exact ⟨by simp, hw⟩
  · rw [h]; exact ⟨by simp, hw⟩
  · obtain ⟨ws, ha, e⟩ := send_ok E m s f hc hf hl hw
    rw [e]; exact ⟨by simp, ha⟩

theorem command_ends {α : Type} {E : Env σ} (hs : NeverSilent E.V) (m : Msg) (R : Reply α) : M.Ends WritesAccepted (command E m R) :=
  .bind (send_ends E m) fun mid => recv_ends hs R mid

theorem transact2_ends {α : Type} {E : Env σ} (hs : NeverSilent E.V) (tid : UInt16) (c : SubCmd2) (sub : SubReply2 α) :
    M.Ends WritesAccepted (transact2 E tid c sub) :=
  .bind (send_ends E _) fun mid => collect_ends hs sub mid

theorem getCli_ends : M.Ends WritesAccepted (getCli : CM σ Cli) := fun _ h => ⟨by simp [getCli], h⟩
theorem modifyCli_ends (f : Cli → Cli) : M.Ends WritesAccepted (modifyCli f : CM σ Unit) := fun _ h => ⟨by simp [modifyCli], h⟩

theorem downloadLoop_ends {E : Env σ} (hs : NeverSilent E.V) (file : Handle) (k : Nat) (data : Bytes) :
    M.Ends WritesAccepted (downloadLoop E file k data) := by
  induction k generalizing data with
  | zero => exact .running _
  | succ k ih =>
    unfold downloadLoop
    split
    · exact .bind (command_ends hs _ _) fun c => ih _
    · exact .pure _ _

theorem listLoop_ends {E : Env σ} (hs : NeverSilent E.V) (share : Share) (sid : UInt16) (k : Nat) (l : List DirInfo) :
    M.Ends WritesAccepted (listLoop E share sid k l) := by
  induction k generalizing l with
  | zero => exact .running _
  | succ k ih =>
    unfold listLoop
    split
    · exact fun _ h => ⟨by simp, h⟩
    · refine .bind (transact2_ends hs _ _ _) fun r => ?_
      split
      · exact .pure _ _
      · exact ih _

theorem setupConnection_ends {E : Env σ} (hs : NeverSilent E.V) : M.Ends WritesAccepted (setupConnection E) := by
  refine .bind (command_ends hs _ _) fun setup => .bind (modifyCli_ends _) fun _ => ?_
  split
  · exact .bind getCli_ends fun _ => .bind (.ofRes _ _ _) fun _ => .bind (command_ends hs _ _) fun _ => .bind (modifyCli_ends _) fun _ =>
      .bind (.ofRes _ _ _) fun _ => .bind (.ofRes _ _ _) fun _ => .bind (.ofRes _ _ _) fun _ => .bind (command_ends hs _ _) fun _ => .pure _ _
  · exact .bind getCli_ends fun _ => .bind (.ofRes _ _ _) fun _ => .bind (command_ends hs _ _) fun _ => modifyCli_ends _

/-! ## Code that does not loop for ever -/

/-- The code does not use up an iteration budget. -/
def M.Stops {ε S α : Type} (m : M ε S α) : Prop := ∀ s, (m s).1 ≠ .running

theorem M.Stops.bind {ε S α β : Type} {m : M ε S α} {f : α → M ε S β} (hm : M.Stops m) (hf : ∀ a, M.Stops (f a)) : M.Stops (m >>= f) := by
  intro s
  have h := hm s
  rcases hx : m s with ⟨o, s'⟩
  rw [hx] at h
  cases o with
  | ok a => rw [M.bind_ok hx]; exact hf a s'
  | err e => rw [M.bind_err hx]; simp
  | panic => rw [M.bind_panic hx]; simp
  | pending => rw [M.bind_pending hx]; simp
  | running => exact absurd rfl h

theorem M.Stops.pure {ε S α : Type} (a : α) : M.Stops (pure a : M ε S α) := fun _ => by simp [Pure.pure]
theorem M.Stops.fail {ε S α : Type} (e : ε) : M.Stops (M.fail e : M ε S α) := fun _ => by simp [M.fail]
theorem M.Stops.ofRes {ε ε' S α : Type} (g : ε → ε') (r : Res ε α) : M.Stops (M.ofRes g r : M ε' S α) := by
  intro s; cases r <;> simp [M.ofRes]

theorem recv_stops {α : Type} (E : Env σ) (R : Reply α) (mid : UInt16) : M.Stops (recv E R mid) := by
  intro s
  obtain ⟨ib, _, e⟩ := recv_flatC E R mid s
  rw [e]; exact (flatReply_cases R mid _ _).1

theorem collect_stops {α : Type} (E : Env σ) (sub : SubReply2 α) (mid : UInt16) : M.Stops (collect E sub mid) := by
  intro s
  obtain ⟨ib, _, e⟩ := collect_flatC E sub mid s
  rw [e]; exact flatCollect_not_running sub mid _ _

theorem send_stops (E : Env σ) (m : Msg) : M.Stops (send E m) := by
  intro s
  rcases send_cases E m s with ⟨_, _, h⟩ | ⟨hc, ⟨e, _, h⟩ | ⟨_, h⟩ | ⟨f, _, _, h⟩ | ⟨f, hf, hl, ws, p, q, hpq, ⟨_, _, h⟩ | ⟨e, h⟩ | h⟩⟩ <;>
    rw [h] <;> simp

theorem command_stops {α : Type} (E : Env σ) (m : Msg) (R : Reply α) : M.Stops (command E m R) :=
  .bind (send_stops E m) fun mid => recv_stops E R mid

theorem transact2_stops {α : Type} (E : Env σ) (tid : UInt16) (c : SubCmd2) (sub : SubReply2 α) : M.Stops (transact2 E tid c sub) :=
  .bind (send_stops E _) fun mid => collect_stops E sub mid

theorem getCli_stops : M.Stops (getCli : CM σ Cli) := fun _ => by simp [getCli]
theorem modifyCli_stops (f : Cli → Cli) : M.Stops (modifyCli f : CM σ Unit) := fun _ => by simp [modifyCli]

theorem setupConnection_stops (E : Env σ) : M.Stops (setupConnection E) := by
  refine .bind (command_stops E _ _) fun setup => .bind (modifyCli_stops _) fun _ => ?_
  split
  · exact .bind getCli_stops fun _ => .bind (.ofRes _ _) fun _ => .bind (command_stops E _ _) fun _ => .bind (modifyCli_stops _) fun _ =>
      .bind (.ofRes _ _) fun _ => .bind (.ofRes _ _) fun _ => .bind (.ofRes _ _) fun _ => .bind (command_stops E _ _) fun _ => .pure _
  · exact .bind getCli_stops fun _ => .bind (.ofRes _ _) fun _ => .bind (command_stops E _ _) fun _ => modifyCli_stops _

end Cifs
