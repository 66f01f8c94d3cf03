import Verif.Model.Display
import Verif.Lemmas.Said
import Verif.Props.Ntlm
/-!
# C15, C16: what callers see of a status
-/

namespace Cifs
open Spec

variable {σ : Type} {α β : Type}

/-- **C16** A status counts as success exactly if its code is 0, and as failure otherwise. -/
theorem C16_success (n : UInt32) : ((Status.ofU32 n).isSuccess = true ↔ n = 0) ∧ ((Status.ofU32 n).isFailure = true ↔ n ≠ 0) := by
  have key : (Status.ofU32 n).isSuccess = true ↔ n = 0 := by
    constructor
    · intro h
      have h : Status.ofU32 n = .Known .SUCCESS := by simpa [Status.isSuccess] using h
      have := C16_roundtrip n
      rw [h] at this
      exact this.symm
    · rintro rfl; rfl
  refine ⟨key, ?_⟩
  rw [Status.isFailure, ne_eq, ← key]
  simp

example : (Status.ofU32 0).isSuccess = true ∧ (Status.ofU32 0xc0000022).isFailure = true ∧ (Status.ofU32 0xdeadbeef).isFailure = true := by decide

/-- This outcome is no server error, or one with a code other than 0. -/
def Sound (o : Out Error α) : Prop := ∀ st, o = .err (.ServerError st) → ∃ n : UInt32, n ≠ 0 ∧ st = Status.ofU32 n

/-- All outcomes of this are. -/
def Sounds (m : CM σ α) : Prop := ∀ s, Sound (m s).1

theorem Sounds.pure (a : α) : Sounds (pure a : CM σ α) := fun _ _ h => nomatch h

theorem Sounds.ofRes {ε : Type} {g : ε → Error} (hg : ∀ e st, g e ≠ .ServerError st) (r : Res ε α) : Sounds (M.ofRes g r : CM σ α) := by
  intro s st h
  cases r with
  | ok a => cases h
  | err e => exact absurd (Out.err.inj h) (hg e st)
  | panic => cases h

theorem Sounds.bind {m : CM σ α} {f : α → CM σ β} (hm : Sounds m) (hf : ∀ a, Sounds (f a)) : Sounds (m >>= f) := by
  intro s
  have := hm s
  simp only [M.bind_apply, M.bind]
  rcases hs : m s with ⟨o, s'⟩
  rw [hs] at this
  cases o with
  | ok a => exact hf a s'
  | err e => intro st h; exact this st (by cases h; rfl)
  | panic => intro st h; cases h
  | pending => intro st h; cases h
  | running => intro st h; cases h

theorem Sounds.map' {m : CM σ α} (g : α → β) (hm : Sounds m) : Sounds (M.map' g m) := Sounds.bind hm fun a => Sounds.pure (g a)

theorem Sounds.net (m : M NbError (World σ) α) : Sounds (liftNet m : CM σ α) := by
  intro s st h
  unfold liftNet at h
  rcases hm : m s.w with ⟨o, w⟩
  rw [hm] at h
  cases o <;> cases h

theorem Sounds.fail {e : Error} (he : ∀ st, e ≠ .ServerError st) : Sounds (M.fail e : CM σ α) := fun _ st h => absurd (Out.err.inj h) (he st)

theorem Sounds.running : Sounds (fun s => (.running, s) : CM σ α) := fun _ _ h => nomatch h

variable (E : Env σ)

theorem recvLoop_sounds (mid : UInt16) (k : Nat) : Sounds (recvLoop E mid k) := by
  induction k with
  | zero => exact Sounds.running
  | succ k ih =>
    refine Sounds.bind (Sounds.net _) fun f => Sounds.bind (Sounds.ofRes (by intro _ _ h; cases h) _) fun p => ?_
    dsimp only
    split
    · exact Sounds.pure _
    · exact ih

theorem recvLoop_status (mid : UInt16) (k : Nat) : ∀ {s s' : St σ} {i : Info} {b : Bytes}, recvLoop E mid k s = (.ok (i, b), s') →
    ∃ n, i.status = Status.ofU32 n := by
  induction k with
  | zero => intro s s' i b h; cases h
  | succ k ih =>
    intro s s' i b h
    obtain ⟨f, s1, _, h⟩ := M.bind_inv h
    obtain ⟨⟨i', b'⟩, s2, hp, h⟩ := M.bind_inv h
    dsimp only at h
    split at h
    · cases h
      cases hf : Info.parse f with
      | ok q =>
        rw [hf] at hp
        cases hp
        exact parse_status hf
      | err e => rw [hf] at hp; cases hp
      | panic => rw [hf] at hp; cases hp
    · exact ih h

theorem recv_sounds (R : Reply α) (mid : UInt16) : Sounds (recv E R mid) := by
  intro s st h
  have hl := recvLoop_sounds E mid (s.w.avail + 1) s
  unfold recv M.bind at h
  rcases hr : recvLoop E mid (s.w.avail + 1) s with ⟨o, s1⟩
  rw [hr] at h hl
  cases o with
  | ok p =>
    obtain ⟨n, hn⟩ := recvLoop_status E mid _ hr
    dsimp only at h
    rw [acceptReply_eq] at h
    unfold accept at h
    split at h
    · cases h
    split at h
    · cases hx : R.parse p.1 p.2 <;> rw [hx] at h <;> cases h
    · rename_i hs
      cases h
      refine ⟨n, ?_, hn⟩
      rintro rfl
      exact hs (.inl hn)
  | err e => exact hl st (by cases h; rfl)
  | panic => cases h
  | pending => cases h
  | running => cases h

theorem command_sounds (m : Msg) (R : Reply α) : Sounds (command E m R) :=
  Sounds.bind (fun s st h => absurd h (send_silent E m s st)) fun mid => recv_sounds E R mid

theorem collectLoop_sounds (mid : UInt16) (k : Nat) (ctx : CollectTrans2) : Sounds (collectLoop E mid k ctx) := by
  induction k generalizing ctx with
  | zero => exact Sounds.running
  | succ k ih =>
    refine Sounds.bind (recv_sounds E _ mid) fun r => Sounds.bind (Sounds.ofRes (by intro _ _ h; cases h) _) fun p => ?_
    dsimp only
    split
    · exact Sounds.pure _
    · exact ih _

theorem transact2_sounds (tid : UInt16) (c : SubCmd2) (sub : SubReply2 α) : Sounds (transact2 E tid c sub) :=
  Sounds.bind (fun s st h => absurd h (send_silent E _ s st)) fun mid s =>
    Sounds.bind (collectLoop_sounds E mid (s.w.avail + 1) .new) (fun _ => Sounds.ofRes (by intro _ _ h; cases h) _) s

theorem downloadLoop_sounds (file : Handle) (k : Nat) (data : Bytes) : Sounds (downloadLoop E file k data) := by
  induction k generalizing data with
  | zero => exact Sounds.running
  | succ k ih =>
    simp only [downloadLoop]
    split
    · exact Sounds.bind (command_sounds E _ _) fun chunk => ih _
    · exact Sounds.pure _

theorem listLoop_sounds (share : Share) (sid : UInt16) (k : Nat) (result : List DirInfo) : Sounds (listLoop E share sid k result) := by
  induction k generalizing result with
  | zero => exact Sounds.running
  | succ k ih =>
    simp only [listLoop]
    split
    · exact fun _ _ h => nomatch h
    · refine Sounds.bind (transact2_sounds E _ _ _) fun reply => ?_
      split
      · exact Sounds.pure _
      · exact ih _

/-- **C15** A server error that a call of any operation reports, in any state and with any server, is never one that counts as a success: its
code is not 0. -/
theorem C15_never_success (op : Op) (s : St σ) (st : Status) (h : (runOp E op s).1 = .err (.ServerError st)) :
    st.isFailure = true ∧ st.toU32 ≠ 0 := by
  have key : Sounds (runOp E op) := by
    cases op <;> refine Sounds.map' _ ?_
    case download =>
      exact Sounds.bind (command_sounds E _ _) fun file => Sounds.bind (downloadLoop_sounds E file _ []) fun _ =>
        Sounds.bind (command_sounds E _ _) fun _ => Sounds.pure _
    case list =>
      refine Sounds.bind (transact2_sounds E _ _ _) fun reply => ?_
      split
      · exact Sounds.pure _
      · exact listLoop_sounds E _ _ _ _
    case findFirst => exact transact2_sounds E _ _ _
    case findNext => exact transact2_sounds E _ _ _
    all_goals exact command_sounds E _ _
  obtain ⟨n, h0, rfl⟩ := key s st h
  exact ⟨(C16_success n).2.2 h0, by rw [C16_roundtrip]; exact h0⟩

/-- **C15** Nor is one that a login reports. -/
theorem C15_login_never_success (s : St σ) (st : Status) (h : (setupConnection E s).1 = .err (.ServerError st)) :
    st.isFailure = true ∧ st.toU32 ≠ 0 := by
  have hc : Sounds (getCli : CM σ Cli) := fun _ _ h => nomatch h
  have hm : ∀ f : Cli → Cli, Sounds (modifyCli f : CM σ Unit) := fun f _ _ h => nomatch h
  have key : Sounds (setupConnection E) := by
    refine Sounds.bind (command_sounds E _ _) fun setup => Sounds.bind (hm _) fun _ => ?_
    split
    · refine Sounds.bind hc fun c => Sounds.bind (Sounds.ofRes (by intro _ _ h; cases h) _) fun i => Sounds.bind (command_sounds E _ _) fun r =>
        Sounds.bind (hm _) fun _ => Sounds.bind (Sounds.ofRes (by intro _ _ h; cases h) _) fun ch =>
        Sounds.bind (Sounds.ofRes (by intro _ _ h; cases h) _) fun t =>
        Sounds.bind (Sounds.ofRes (by intro _ _ h; cases h) _) fun re => Sounds.bind (command_sounds E _ _) fun _ => Sounds.pure _
    · exact Sounds.bind hc fun c => Sounds.bind (Sounds.ofRes (by intro _ _ h; cases h) _) fun i =>
        Sounds.bind (command_sounds E _ _) fun r => hm _
  obtain ⟨n, h0, rfl⟩ := key s st h
  exact ⟨(C16_success n).2.2 h0, by rw [C16_roundtrip]; exact h0⟩

/-- non-vacuity: a call and a login that the server refuses. -/
example : (runOp (Demo.env true) (.umount Demo.share) (Demo.st (Demo.answer (Demo.replyWith .TreeDisconnect (.Known .ACCESS_DENIED) 0 7 [] [])))).1 =
    .err (.ServerError (.Known .ACCESS_DENIED)) ∧
    (setupConnection (Demo.env true) (Demo.loginSt defaultAuth (Demo.modern (.Known .ACCESS_DENIED)))).1 = .err (.ServerError (.Known .ACCESS_DENIED)) := by
  decide +kernel

end Cifs
