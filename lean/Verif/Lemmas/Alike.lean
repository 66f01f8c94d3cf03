import Verif.Spec.Alike
import Verif.Lemmas.Sim
import Verif.Lemmas.LoginCause
/-! # Running two programs side by side -/

namespace Cifs
open Spec

variable {σ α β : Type}

/-- Two programs that give the same outcome and related states when started in related states, except that the first one may panic in a
state that satisfies `P`. -/
def Twin (P : St σ → Prop) (R : St σ → St σ → Prop) (m m' : CM σ α) : Prop :=
  ∀ s s', R s s' → (P (m s).2 ∧ (m s).1 = .panic) ∨ ((m s).1 = (m' s').1 ∧ R (m s).2 (m' s').2)

variable {P : St σ → Prop} {R : St σ → St σ → Prop}

theorem Twin.bind {m m' : CM σ α} {f f' : α → CM σ β} (hm : Twin P R m m') (hf : ∀ a, Twin P R (f a) (f' a)) :
    Twin P R (m >>= f) (m' >>= f') := by
  intro s s' hr
  have h1 := hm s s' hr
  rcases h : m s with ⟨o, s1⟩
  rcases h' : m' s' with ⟨o', s1'⟩
  rw [h, h'] at h1
  rcases h1 with ⟨hP, h1⟩ | ⟨h1, h2⟩
  · dsimp only at h1 hP
    subst h1
    rw [M.bind_panic h]
    exact .inl ⟨hP, rfl⟩
  · dsimp only at h1 h2
    subst h1
    cases o with
    | ok a => rw [M.bind_ok h, M.bind_ok h']; exact hf a s1 s1' h2
    | err e => rw [M.bind_err h, M.bind_err h']; exact .inr ⟨rfl, h2⟩
    | panic => rw [M.bind_panic h, M.bind_panic h']; exact .inr ⟨rfl, h2⟩
    | pending => rw [M.bind_pending h, M.bind_pending h']; exact .inr ⟨rfl, h2⟩
    | running => rw [M.bind_running h, M.bind_running h']; exact .inr ⟨rfl, h2⟩

theorem Twin.const (o : Out Error α) : Twin P R (fun s => (o, s)) (fun s => (o, s)) := fun _ _ h => .inr ⟨rfl, h⟩
theorem Twin.pure (a : α) : Twin P R (pure a : CM σ α) (pure a) := Twin.const _
theorem Twin.fail (e : Error) : Twin P R (M.fail e : CM σ α) (M.fail e) := Twin.const _
theorem Twin.ofRes {ε : Type} (g : ε → Error) (r : Res ε α) : Twin P R (M.ofRes g r : CM σ α) (M.ofRes g r) := by
  cases r <;> exact fun _ _ h => .inr ⟨rfl, h⟩
theorem Twin.map' {m m' : CM σ α} (g : α → β) (hm : Twin P R m m') : Twin P R (M.map' g m) (M.map' g m') :=
  Twin.bind hm (fun a => Twin.const (.ok (g a)))

/-- The two environments and the relation on states, as far as requests are concerned: the relation includes the connection and whatever
goes into a request, and it does not look at the connection otherwise. -/
structure Pair (P : St σ → Prop) (E E' : Env σ) (R : St σ → St σ → Prop) : Prop where
  server : E'.V = E.V
  profile : E'.checked = E.checked ∨ (E'.checked = false ∧ ∀ s : St σ, s.cli.mid.toNat = 65535 → P s)
  alike : ∀ {s s'}, R s s' → SameSession s s'
  wire : ∀ {s s'} (w : World σ), R s s' → R { s with w } { s' with w }
  next : ∀ {s s'}, R s s' → R s.bump s'.bump

variable {E E' : Env σ}

/-- Whatever only looks at the connection. -/
theorem Twin.net (h : Pair P E E' R) (m : M NbError (World σ) α) : Twin P R (liftNet m) (liftNet m) := by
  intro s s' hr
  unfold liftNet
  rw [← (h.alike hr).wire]
  rcases m s.w with ⟨o, w⟩
  cases o <;> exact .inr ⟨rfl, h.wire w hr⟩

theorem Twin.send (h : Pair P E E' R) (m : Msg) : Twin P R (Cifs.send E m) (Cifs.send E' m) := by
  intro s s' hr
  have ha := h.alike hr
  have hf : requestFrame s'.cli m = requestFrame s.cli m := by
    unfold requestFrame requestInfo; rw [ha.uid, ha.mid, ha.unicode]
  have key : ∀ (c : Bool), (E'.checked = c) →
      ((¬ (E.checked = true ∧ s.cli.mid.toNat = 65535) ∧ ¬ (c = true ∧ s.cli.mid.toNat = 65535)) →
        (Cifs.send E m s).1 = (Cifs.send E' m s').1 ∧ R (Cifs.send E m s).2 (Cifs.send E' m s').2) := by
    intro c hc ⟨h1, h2⟩
    unfold Cifs.send
    rw [hc, ← ha.mid, hf, h.server, if_neg h1, if_neg h2]
    cases requestFrame s.cli m with
    | err e => exact ⟨rfl, by simpa only [St.bump, ha.mid] using h.next hr⟩
    | panic => exact ⟨rfl, by simpa only [St.bump, ha.mid] using h.next hr⟩
    | ok f =>
      have hn := h.next hr
      simp only [St.bump, ← ha.mid] at hn
      dsimp only [M.bind, liftNet]
      rw [← ha.wire]
      rcases sendMessage E.V f s.w with ⟨o, w⟩
      have := h.wire w hn
      cases o <;> exact ⟨rfl, this⟩
  by_cases h1 : E.checked = true ∧ s.cli.mid.toNat = 65535
  · rcases h.profile with hp | ⟨_, hP⟩
    · right
      unfold Cifs.send
      rw [hp, ← ha.mid, if_pos h1, if_pos h1]
      exact ⟨rfl, hr⟩
    · left
      unfold Cifs.send
      rw [if_pos h1]
      exact ⟨hP s h1.2, rfl⟩
  · refine .inr (key _ rfl ⟨h1, ?_⟩)
    rcases h.profile with hp | ⟨hp, _⟩
    · rw [hp]; exact h1
    · rw [hp]; simp

theorem Twin.recvLoop (h : Pair P E E' R) (mid : UInt16) (k : Nat) : Twin P R (Cifs.recvLoop E mid k) (Cifs.recvLoop E' mid k) := by
  induction k with
  | zero => exact Twin.const _
  | succ k ih =>
    unfold Cifs.recvLoop
    rw [h.server]
    refine Twin.bind (Twin.net h _) (fun f => Twin.bind (Twin.ofRes _ _) (fun p => ?_))
    rcases p with ⟨i, b⟩
    dsimp only
    split
    · exact Twin.pure _
    · exact ih

theorem Twin.acceptReply {α : Type} (T : Reply α) (i : Info) (b : Bytes) : Twin P R (Cifs.acceptReply T i b : CM σ α) (Cifs.acceptReply T i b) := by
  unfold Cifs.acceptReply
  split
  · exact Twin.fail _
  · split
    · exact Twin.ofRes _ _
    · split
      · exact Twin.ofRes _ _
      · exact Twin.fail _
    · exact Twin.fail _

theorem Twin.recv (h : Pair P E E' R) (T : Reply α) (mid : UInt16) : Twin P R (Cifs.recv E T mid) (Cifs.recv E' T mid) := by
  intro s s' hr
  unfold Cifs.recv
  rw [← (h.alike hr).wire]
  exact Twin.bind (Twin.recvLoop h mid _) (fun p => Twin.acceptReply T p.1 p.2) s s' hr

theorem Twin.command (h : Pair P E E' R) (m : Msg) (T : Reply α) : Twin P R (Cifs.command E m T) (Cifs.command E' m T) :=
  Twin.bind (Twin.send h m) (fun mid => Twin.recv h T mid)

theorem Twin.collectLoop (h : Pair P E E' R) (mid : UInt16) (k : Nat) (ctx : CollectTrans2) :
    Twin P R (Cifs.collectLoop E mid k ctx) (Cifs.collectLoop E' mid k ctx) := by
  induction k generalizing ctx with
  | zero => exact Twin.const _
  | succ k ih =>
    unfold Cifs.collectLoop
    refine Twin.bind (Twin.recv h _ _) (fun f => Twin.bind (Twin.ofRes _ _) (fun p => ?_))
    rcases p with ⟨c, r⟩
    dsimp only
    split
    · exact Twin.pure _
    · exact ih c

theorem Twin.transact2 (h : Pair P E E' R) (tid : UInt16) (c : SubCmd2) (sub : SubReply2 α) :
    Twin P R (Cifs.transact2 E tid c sub) (Cifs.transact2 E' tid c sub) := by
  refine Twin.bind (Twin.send h _) (fun mid => ?_)
  intro s s' hr
  unfold Cifs.collect
  rw [← (h.alike hr).wire]
  exact Twin.bind (Twin.collectLoop h mid _ .new) (fun p => Twin.ofRes _ _) s s' hr

theorem Twin.downloadLoop (h : Pair P E E' R) (file : Handle) (k : Nat) (data : Bytes) :
    Twin P R (Cifs.downloadLoop E file k data) (Cifs.downloadLoop E' file k data) := by
  induction k generalizing data with
  | zero => exact Twin.const _
  | succ k ih =>
    unfold Cifs.downloadLoop
    split
    · exact Twin.bind (Twin.command h _ _) (fun c => ih _)
    · exact Twin.pure _

theorem Twin.listLoop (h : Pair P E E' R) (share : Share) (sid : UInt16) (k : Nat) (result : List DirInfo) :
    Twin P R (Cifs.listLoop E share sid k result) (Cifs.listLoop E' share sid k result) := by
  induction k generalizing result with
  | zero => exact Twin.const _
  | succ k ih =>
    unfold Cifs.listLoop
    split
    · exact Twin.const _
    · refine Twin.bind (Twin.transact2 h _ _ _) (fun reply => ?_)
      split
      · exact Twin.pure _
      · exact ih _

/-- Every call. -/
theorem Twin.runOp (h : Pair P E E' R) (op : Op) : Twin P R (Cifs.runOp E op) (Cifs.runOp E' op) := by
  cases op with
  | download budget share path =>
    refine Twin.map' _ (Twin.bind (Twin.command h _ _) (fun file => Twin.bind (Twin.downloadLoop h _ _ _) (fun data => ?_)))
    exact Twin.bind (Twin.command h _ _) (fun _ => Twin.pure _)
  | findFirst share pattern => exact Twin.map' _ (Twin.transact2 h _ _ _)
  | findNext share sid lastfile => exact Twin.map' _ (Twin.transact2 h _ _ _)
  | list budget share pattern =>
    refine Twin.map' _ (Twin.bind (Twin.transact2 h _ _ _) (fun reply => ?_))
    split
    · exact Twin.pure _
    · exact Twin.listLoop h _ _ _ _
  | _ => exact Twin.map' _ (Twin.command h _ _)

/-! ## A login in a release build -/

/-- A login of the same client, whatever the build profile: only the clock and the number of requests matter. -/
theorem Twin.login (E : Env σ) : Twin (fun s => s.cli.mid.toNat = 65535 ∨ ClockFails true E.now) Eq (setupConnection E) (setupConnection E.release) := by
  have h : Pair (fun s => s.cli.mid.toNat = 65535 ∨ ClockFails true E.now) E E.release Eq :=
    ⟨rfl, .inr ⟨rfl, fun _ h => .inl h⟩, by rintro s _ rfl; exact ⟨rfl, rfl, rfl, rfl⟩, by rintro s _ w rfl; rfl, by rintro s _ rfl; rfl⟩
  have hcli : ∀ {α : Type} (m : CM σ α), Twin (fun s => s.cli.mid.toNat = 65535 ∨ ClockFails true E.now) Eq m m := by
    rintro α m s _ rfl; exact .inr ⟨rfl, rfl⟩
  refine Twin.bind (Twin.command h _ _) (fun setup => Twin.bind (hcli _) (fun _ => ?_))
  split
  · refine Twin.bind (hcli _) (fun c => Twin.bind (hcli _) (fun i => Twin.bind (Twin.command h _ _) (fun r => Twin.bind (hcli _) (fun _ =>
      Twin.bind (hcli _) (fun ch => ?_)))))
    have ht : Twin (fun s => s.cli.mid.toNat = 65535 ∨ ClockFails true E.now) Eq
        (M.ofRes Error.NTLMError (encodeWindowsTime E.checked E.now) : CM σ UInt64)
        (M.ofRes Error.NTLMError (encodeWindowsTime E.release.checked E.release.now)) := by
      by_cases hc : ClockFails true E.now
      · rcases he : E.checked with _ | _
        · exact hcli _
        · rcases clock_cases true E.now with ⟨_, h⟩ | ⟨h, _⟩
          · rw [h]; exact fun s _ _ => .inl ⟨.inr hc, rfl⟩
          · exact absurd hc h
      · have e : (encodeWindowsTime E.checked E.now : Res NtlmError UInt64) = encodeWindowsTime E.release.checked E.release.now := by
          show _ = encodeWindowsTime false E.now
          rcases E.checked with _ | _
          · rfl
          · unfold ClockFails at hc
            simp only [true_and] at hc
            unfold encodeWindowsTime
            dsimp only
            have e : Int.tdiv E.now 1000 % 2 ^ 64 = Int.tdiv E.now 1000 := Int.emod_eq_of_lt (by omega) (by omega)
            rw [e, if_neg (by omega), if_neg (by omega), if_neg (by omega), if_neg (by simp)]
        rw [e]; exact hcli _
    exact Twin.bind ht (fun t => Twin.bind (hcli _) (fun resp => Twin.bind (Twin.command h _ _) (fun _ => Twin.pure _)))
  · exact Twin.bind (hcli _) (fun c => Twin.bind (hcli _) (fun sec => Twin.bind (Twin.command h _ _) (fun r => hcli _)))

/-- A program that makes at most `k` requests. -/
def Upto (k : Nat) (m : CM σ α) : Prop := ∀ s, s.cli.mid.toNat + k ≤ 65535 → (m s).2.cli.mid.toNat ≤ s.cli.mid.toNat + k

theorem Upto.bind {a b : Nat} {m : CM σ α} {f : α → CM σ β} (hm : Upto a m) (hf : ∀ x, Upto b (f x)) : Upto (a + b) (m >>= f) := by
  intro s hs
  have h1 := hm s (by omega)
  rcases h : m s with ⟨o, s1⟩
  rw [h] at h1
  cases o with
  | ok x =>
    rw [M.bind_ok h]
    dsimp only at h1
    have := hf x s1 (by omega)
    omega
  | err e => rw [M.bind_err h]; dsimp only at h1 ⊢; omega
  | panic => rw [M.bind_panic h]; dsimp only at h1 ⊢; omega
  | pending => rw [M.bind_pending h]; dsimp only at h1 ⊢; omega
  | running => rw [M.bind_running h]; dsimp only at h1 ⊢; omega

theorem Upto.same {k : Nat} {m : CM σ α} (h : ∀ s, (m s).2.cli.mid = s.cli.mid) : Upto k m := fun s _ => by rw [h s]; omega
theorem Upto.ofRes {ε : Type} (g : ε → Error) (r : Res ε α) : Upto 0 (M.ofRes g r : CM σ α) := by
  cases r <;> exact Upto.same fun _ => rfl

theorem Upto.command (E : Env σ) (m : Msg) (T : Reply α) : Upto 1 (command E m T) := by
  refine Upto.bind (a := 1) (b := 0) ?_ (fun mid s _ => ?_)
  · intro s hs
    have hb : s.bump.cli.mid.toNat = s.cli.mid.toNat + 1 := toNat_add16 _ 1 (by omega)
    rcases send_cases E m s with ⟨_, _, h⟩ | ⟨_, ⟨e, _, h⟩ | ⟨_, h⟩ | ⟨f, _, _, h⟩ | ⟨f, hf, hl, ws, p, q, hpq, ⟨_, _, h⟩ | ⟨e, h⟩ | h⟩⟩
    · rw [h]; omega
    all_goals rw [h]; exact Nat.le_of_eq hb
  · have := recv_reads E T mid s
    rcases this with ⟨ib, h⟩
    rw [h]
    exact Nat.le_refl _

theorem Upto.login (E : Env σ) : Upto 3 (setupConnection E) := by
  have hmod : ∀ (f : Cli → Cli), (∀ c, (f c).mid = c.mid) → Upto 0 (modifyCli f : CM σ Unit) := fun f hf => Upto.same fun s => hf _
  have hget : Upto 0 (getCli : CM σ Cli) := Upto.same fun _ => rfl
  refine Upto.bind (a := 1) (b := 2) (Upto.command _ _ _) fun setup => Upto.bind (a := 0) (b := 2) (hmod _ fun _ => rfl) fun _ => ?_
  split
  · refine Upto.bind (a := 0) (b := 2) hget fun c => Upto.bind (a := 0) (b := 2) (Upto.ofRes _ _) fun i =>
      Upto.bind (a := 1) (b := 1) (Upto.command _ _ _) fun r => Upto.bind (a := 0) (b := 1) (hmod _ fun _ => rfl) fun _ =>
      Upto.bind (a := 0) (b := 1) (Upto.ofRes _ _) fun ch => Upto.bind (a := 0) (b := 1) (Upto.ofRes _ _) fun t =>
      Upto.bind (a := 0) (b := 1) (Upto.ofRes _ _) fun t => Upto.bind (a := 1) (b := 0) (Upto.command _ _ _) fun r => ?_
    exact Upto.same fun _ => rfl
  · refine Upto.bind (a := 0) (b := 2) hget fun c => Upto.bind (a := 0) (b := 2) (Upto.ofRes _ _) fun i =>
      Upto.bind (a := 1) (b := 1) (Upto.command _ _ _) fun r => ?_
    exact Upto.same fun _ => rfl

end Cifs
