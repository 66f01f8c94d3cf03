import Verif.Lemmas.Client
import Verif.Lemmas.Fields
/-! # Receiving replies, on the flat stream -/

namespace Cifs
open Spec

variable {σ : Type}

/-- `m` only reads, and what it does depends only on the unread bytes and on what follows them: it behaves as `f`. -/
def FlatC {α : Type} (E : Env σ) (m : CM σ α) (f : Tail → M Error Bytes α) : Prop :=
  ∀ s, ∃ ib, ib.flatten = (f (E.V.tail s.w.srv) s.w.flat).2 ∧ m s = ((f (E.V.tail s.w.srv) s.w.flat).1, s.setInbox ib)

theorem FlatC.bind {α β : Type} {E : Env σ} {m : CM σ α} {f : Tail → M Error Bytes α} {g : α → CM σ β} {h : α → Tail → M Error Bytes β}
    (hm : FlatC E m f) (hg : ∀ a, FlatC E (g a) (h a)) : FlatC E (m >>= g) (fun t => f t >>= fun a => h a t) := by
  intro s
  obtain ⟨ib, h1, h2⟩ := hm s
  dsimp only
  rcases hf : f (E.V.tail s.w.srv) s.w.flat with ⟨o, b⟩
  rw [hf] at h1 h2
  simp only at h1 h2
  cases o with
  | ok a =>
    rw [M.bind_ok h2, M.bind_ok hf]
    obtain ⟨ib', h3, h4⟩ := hg a (s.setInbox ib)
    rw [St.setInbox_flat, h1] at h3 h4
    exact ⟨ib', h3, h4⟩
  | err e => rw [M.bind_err h2, M.bind_err hf]; exact ⟨ib, h1, rfl⟩
  | panic => rw [M.bind_panic h2, M.bind_panic hf]; exact ⟨ib, h1, rfl⟩
  | pending => rw [M.bind_pending h2, M.bind_pending hf]; exact ⟨ib, h1, rfl⟩
  | running => rw [M.bind_running h2, M.bind_running hf]; exact ⟨ib, h1, rfl⟩

theorem FlatC.pure {α : Type} (E : Env σ) (a : α) : FlatC E (pure a) (fun _ => pure a) := fun s => ⟨s.w.inbox, rfl, rfl⟩
theorem FlatC.fail {α : Type} (E : Env σ) (e : Error) : FlatC E (M.fail e : CM σ α) (fun _ => M.fail e) := fun s => ⟨s.w.inbox, rfl, rfl⟩
theorem FlatC.ofRes {α ε : Type} (E : Env σ) (g : ε → Error) (r : Res ε α) :
    FlatC E (M.ofRes g r : CM σ α) (fun _ => M.ofRes g r) := by
  intro s; refine ⟨s.w.inbox, ?_, ?_⟩ <;> cases r <;> rfl
theorem FlatC.running {α : Type} (E : Env σ) : FlatC E ((fun s => (.running, s)) : CM σ α) (fun _ b => (.running, b)) :=
  fun s => ⟨s.w.inbox, rfl, rfl⟩

/-- The next message, with errors converted. -/
def flatMsg (t : Tail) : M Error Bytes Bytes := fun b => ((flatRecvMessage t b).1.net, (flatRecvMessage t b).2)

theorem recvMessage_flatC (E : Env σ) : FlatC E (liftNet (recvMessage E.V)) flatMsg := fun s => liftRecv_eq E s

/-- `recvLoop` on the flat stream. -/
def flatNextLoop (t : Tail) (mid : UInt16) : Nat → M Error Bytes (Info × Bytes)
  | 0 => fun b => (.running, b)
  | k + 1 => do
    let frame ← flatMsg t
    let p ← M.ofRes Error.SMBError (Info.parse frame)
    if p.1.mid = mid then pure p else flatNextLoop t mid k

theorem recvLoop_flatC (E : Env σ) (mid : UInt16) (k : Nat) : FlatC E (recvLoop E mid k) (fun t => flatNextLoop t mid k) := by
  induction k with
  | zero => exact FlatC.running E
  | succ k ih =>
    refine FlatC.bind (recvMessage_flatC E) fun f => FlatC.bind (FlatC.ofRes E _ _) fun p => ?_
    obtain ⟨i, b⟩ := p
    dsimp only
    by_cases h : i.mid = mid
    · simp only [if_pos h]; exact FlatC.pure E _
    · simp only [if_neg h]; exact ih

/-- The part of `recv` after its loop, as a pure function. -/
def accept {α : Type} (R : Reply α) (info : Info) (body : Bytes) : Res Error α :=
  if info.cmd ≠ R.cmd then .err (.UnexpectedReply R.cmd info.cmd)
  else if info.status = .Known .SUCCESS ∨ (info.status = .Known .MORE_PROCESSING ∧ info.cmd = .SessionSetup) then
    (R.parse info body).mapErr Error.SMBError
  else .err (.ServerError info.status)

theorem acceptReply_eq {α : Type} (R : Reply α) (info : Info) (body : Bytes) :
    (acceptReply R info body : CM σ α) = M.ofRes id (accept R info body) := by
  funext s
  unfold acceptReply accept
  by_cases h : info.cmd ≠ R.cmd
  · rw [if_pos h, if_pos h]; rfl
  · rw [if_neg h, if_neg h]
    have key : ∀ r : Res SmbError α, (M.ofRes Error.SMBError r : CM σ α) s = (M.ofRes id (r.mapErr Error.SMBError) : CM σ α) s := by
      intro r; cases r <;> rfl
    generalize info.status = st
    cases st with
    | Known n =>
      cases n
      case SUCCESS => rw [if_pos (Or.inl rfl)]; exact key _
      case MORE_PROCESSING =>
        by_cases hc : info.cmd = .SessionSetup
        · rw [if_pos (Or.inr ⟨rfl, hc⟩)]; simp only [if_pos hc]; exact key _
        · have hn : ¬ (Status.Known .MORE_PROCESSING = Status.Known .SUCCESS ∨
              Status.Known .MORE_PROCESSING = Status.Known .MORE_PROCESSING ∧ info.cmd = .SessionSetup) := by simp [hc]
          rw [if_neg hn]
          simp only [if_neg hc]; rfl
      all_goals
        dsimp only
        rw [if_neg]
        · rfl
        · rintro (h | ⟨h, _⟩) <;> cases h
    | Unknown n =>
      have hn : ¬ (Status.Unknown n = Status.Known .SUCCESS ∨
              Status.Unknown n = Status.Known .MORE_PROCESSING ∧ info.cmd = .SessionSetup) := by simp
      rw [if_neg hn]; rfl

/-- `recv` on the flat stream. -/
def flatReply {α : Type} (R : Reply α) (mid : UInt16) (t : Tail) : M Error Bytes α := fun b =>
  (flatNextLoop t mid (b.length + 1) >>= fun p => M.ofRes id (accept R p.1 p.2) : M Error Bytes α) b

theorem recv_flatC {α : Type} (E : Env σ) (R : Reply α) (mid : UInt16) : FlatC E (recv E R mid) (flatReply R mid) := by
  intro s
  have h : ∀ p : Info × Bytes, FlatC E (acceptReply R p.1 p.2) (fun _ => M.ofRes id (accept R p.1 p.2)) := by
    intro p; rw [acceptReply_eq]; exact FlatC.ofRes E id (accept R p.1 p.2)
  exact FlatC.bind (recvLoop_flatC E mid (s.w.avail + 1)) h s

/-! ## Budgets suffice -/

theorem flatMsg_cases (t : Tail) (b : Bytes) :
    (flatMsg t b).1 ≠ .running ∧ (flatMsg t b).1 ≠ .panic ∧ (flatMsg t b).2.length ≤ b.length ∧
      (∀ m, (flatMsg t b).1 = .ok m → (flatMsg t b).2.length + 4 ≤ b.length) := by
  have h := flatRecvMessage_cases t b
  unfold flatMsg
  rcases hf : flatRecvMessage t b with ⟨o, b'⟩
  rw [hf] at h
  obtain ⟨h1, h2, h3, h4⟩ := h
  dsimp only at *
  refine ⟨?_, ?_, h3, ?_⟩
  · cases o <;> simp_all [Out.net]
  · cases o <;> simp_all [Out.net]
  · intro m hm
    cases o <;> simp [Out.net] at hm
    subst hm; exact h4 _ rfl

theorem flatNextLoop_cases (t : Tail) (mid : UInt16) (k : Nat) (b : Bytes) (hk : b.length < k) :
    (flatNextLoop t mid k b).1 ≠ .running ∧ (flatNextLoop t mid k b).2.length ≤ b.length ∧
      (∀ m, (flatNextLoop t mid k b).1 = .ok m → (flatNextLoop t mid k b).2.length + 4 ≤ b.length) := by
  induction k generalizing b with
  | zero => omega
  | succ k ih =>
    have hc := flatMsg_cases t b
    unfold flatNextLoop
    rcases h : flatMsg t b with ⟨o, b'⟩
    rw [h] at hc
    obtain ⟨h1, h2, h3, h4⟩ := hc
    cases o with
    | ok f =>
      have := h4 f rfl
      rw [M.bind_ok h]
      cases hp : Info.parse f with
      | ok p =>
        have e : (M.ofRes Error.SMBError (.ok p : Res SmbError _) : M Error Bytes _) b' = (.ok p, b') := rfl
        rw [M.bind_ok e]
        dsimp only at *
        by_cases hm : p.1.mid = mid
        · rw [if_pos hm]
          refine ⟨?_, ?_, ?_⟩ <;> simp <;> omega
        · rw [if_neg hm]
          obtain ⟨i1, i2, i3⟩ := ih b' (by omega)
          exact ⟨i1, by omega, fun m hm => by have := i3 m hm; omega⟩
      | err e =>
        have e : (M.ofRes Error.SMBError (.err e : Res SmbError _) : M Error Bytes (Info × Bytes)) b' = (.err (.SMBError e), b') := rfl
        rw [M.bind_err e]; refine ⟨by simp, h3, by simp⟩
      | panic =>
        have e : (M.ofRes Error.SMBError (.panic : Res SmbError _) : M Error Bytes (Info × Bytes)) b' = (.panic, b') := rfl
        rw [M.bind_panic e]; refine ⟨by simp, h3, by simp⟩
    | err e => rw [M.bind_err h]; exact ⟨by simp, h3, by simp⟩
    | panic => exact absurd rfl h2
    | pending => rw [M.bind_pending h]; exact ⟨by simp, h3, by simp⟩
    | running => exact absurd rfl h1

theorem flatNextLoop_fuel (t : Tail) (mid : UInt16) (k k' : Nat) (b : Bytes) (hk : b.length < k) (hk' : b.length < k') :
    flatNextLoop t mid k b = flatNextLoop t mid k' b := by
  induction k generalizing b k' with
  | zero => omega
  | succ k ih =>
    cases k' with
    | zero => omega
    | succ k' =>
      have hc := flatMsg_cases t b
      simp only [flatNextLoop]
      rcases h : flatMsg t b with ⟨o, b'⟩
      rw [h] at hc
      cases o with
      | ok f =>
        have := hc.2.2.2 f rfl
        rw [M.bind_ok h, M.bind_ok h]
        simp only [M.bind_apply, M.bind, M.ofRes]
        cases Info.parse f with
        | ok p =>
          dsimp only at *
          by_cases hm : p.1.mid = mid
          · rw [if_pos hm, if_pos hm]
          · rw [if_neg hm, if_neg hm]; exact ih k' b' (by omega) (by omega)
        | _ => rfl
      | err e => rw [M.bind_err h, M.bind_err h]
      | panic => rw [M.bind_panic h, M.bind_panic h]
      | pending => rw [M.bind_pending h, M.bind_pending h]
      | running => rw [M.bind_running h, M.bind_running h]

/-- The first message with the given multiplex id. -/
def flatNext (t : Tail) (mid : UInt16) : M Error Bytes (Info × Bytes) := fun b => flatNextLoop t mid (b.length + 1) b

/-- One step of looking for the reply. -/
theorem flatNext_eq (t : Tail) (mid : UInt16) (b : Bytes) : flatNext t mid b =
    match flatMsg t b with
    | (.ok f, b') => (match Info.parse f with
      | .ok p => if p.1.mid = mid then (.ok p, b') else flatNext t mid b'
      | .err e => (.err (.SMBError e), b')
      | .panic => (.panic, b'))
    | (.err e, b') => (.err e, b')
    | (.panic, b') => (.panic, b')
    | (.pending, b') => (.pending, b')
    | (.running, b') => (.running, b') := by
  have hc := flatMsg_cases t b
  unfold flatNext
  simp only [flatNextLoop]
  rcases h : flatMsg t b with ⟨o, b'⟩
  rw [h] at hc
  cases o with
  | ok f =>
    have := hc.2.2.2 f rfl
    rw [M.bind_ok h]
    simp only [M.bind_apply, M.bind, M.ofRes]
    cases Info.parse f with
    | ok p =>
      dsimp only at *
      by_cases hm : p.1.mid = mid
      · rw [if_pos hm, if_pos hm]; rfl
      · rw [if_neg hm, if_neg hm]; exact flatNextLoop_fuel t mid b.length (b'.length + 1) b' (by omega) (by omega)
    | _ => rfl
  | err e => rw [M.bind_err h]
  | panic => rw [M.bind_panic h]
  | pending => rw [M.bind_pending h]
  | running => rw [M.bind_running h]

theorem flatNext_cases (t : Tail) (mid : UInt16) (b : Bytes) :
    (flatNext t mid b).1 ≠ .running ∧ (flatNext t mid b).2.length ≤ b.length ∧
      (∀ m, (flatNext t mid b).1 = .ok m → (flatNext t mid b).2.length + 4 ≤ b.length) :=
  flatNextLoop_cases t mid _ b (by omega)

theorem flatReply_eq {α : Type} (R : Reply α) (mid : UInt16) (t : Tail) :
    flatReply R mid t = (flatNext t mid >>= fun p => M.ofRes id (accept R p.1 p.2)) := rfl

theorem flatReply_cases {α : Type} (R : Reply α) (mid : UInt16) (t : Tail) (b : Bytes) :
    (flatReply R mid t b).1 ≠ .running ∧ (flatReply R mid t b).2.length ≤ b.length ∧
      (∀ m, (flatReply R mid t b).1 = .ok m → (flatReply R mid t b).2.length + 4 ≤ b.length) := by
  have hc := flatNext_cases t mid b
  rw [flatReply_eq]
  rcases h : flatNext t mid b with ⟨o, b'⟩
  rw [h] at hc
  obtain ⟨h1, h3, h4⟩ := hc
  cases o with
  | ok p =>
    have := h4 p rfl
    rw [M.bind_ok h]
    unfold M.ofRes
    cases accept R p.1 p.2 <;> simp at * <;> omega
  | err e => rw [M.bind_err h]; exact ⟨by simp, h3, by simp⟩
  | panic => rw [M.bind_panic h]; exact ⟨by simp, h3, by simp⟩
  | pending => rw [M.bind_pending h]; exact ⟨by simp, h3, by simp⟩
  | running => exact absurd rfl h1

/-! ## Reassembly loop -/

/-- `collectLoop` on the flat stream. -/
def flatCollectLoop (t : Tail) (mid : UInt16) : Nat → CollectTrans2 → M Error Bytes CollectTrans2
  | 0, _ => fun b => (.running, b)
  | k + 1, ctx => do
    let reply ← flatReply trans2Reply mid t
    let p ← M.ofRes Error.SMBError (ctx.add reply)
    if p.2 then pure p.1 else flatCollectLoop t mid k p.1

theorem collectLoop_flatC (E : Env σ) (mid : UInt16) (k : Nat) (ctx : CollectTrans2) :
    FlatC E (collectLoop E mid k ctx) (fun t => flatCollectLoop t mid k ctx) := by
  induction k generalizing ctx with
  | zero => exact FlatC.running E
  | succ k ih =>
    refine FlatC.bind (recv_flatC E _ _) fun r => FlatC.bind (FlatC.ofRes E _ _) fun p => ?_
    obtain ⟨c, rd⟩ := p
    dsimp only
    cases rd
    · exact ih c
    · exact FlatC.pure E _

theorem flatCollectLoop_cases (t : Tail) (mid : UInt16) (k : Nat) (ctx : CollectTrans2) (b : Bytes) (hk : b.length < k) :
    (flatCollectLoop t mid k ctx b).1 ≠ .running := by
  induction k generalizing b ctx with
  | zero => omega
  | succ k ih =>
    have hc := flatReply_cases trans2Reply mid t b
    unfold flatCollectLoop
    rcases h : flatReply trans2Reply mid t b with ⟨o, b'⟩
    rw [h] at hc
    obtain ⟨h1, h3, h4⟩ := hc
    cases o with
    | ok r =>
      have := h4 r rfl
      rw [M.bind_ok h]
      simp only [M.bind_apply, M.bind, M.ofRes]
      cases ctx.add r with
      | ok p =>
        dsimp only at *
        cases p.2
        · exact ih p.1 b' (by omega)
        · simp
      | _ => simp
    | err e => rw [M.bind_err h]; simp
    | panic => rw [M.bind_panic h]; simp
    | pending => rw [M.bind_pending h]; simp
    | running => exact absurd rfl h1

theorem flatCollectLoop_fuel (t : Tail) (mid : UInt16) (k k' : Nat) (ctx : CollectTrans2) (b : Bytes) (hk : b.length < k)
    (hk' : b.length < k') : flatCollectLoop t mid k ctx b = flatCollectLoop t mid k' ctx b := by
  induction k generalizing b k' ctx with
  | zero => omega
  | succ k ih =>
    cases k' with
    | zero => omega
    | succ k' =>
      have hc := flatReply_cases trans2Reply mid t b
      simp only [flatCollectLoop]
      rcases h : flatReply trans2Reply mid t b with ⟨o, b'⟩
      rw [h] at hc
      cases o with
      | ok f =>
        have := hc.2.2 f rfl
        rw [M.bind_ok h, M.bind_ok h]
        simp only [M.bind_apply, M.bind, M.ofRes]
        cases ctx.add f with
        | ok p =>
          dsimp only at *
          cases p.2
          · exact ih k' p.1 b' (by omega) (by omega)
          · rfl
        | _ => rfl
      | err e => rw [M.bind_err h, M.bind_err h]
      | panic => rw [M.bind_panic h, M.bind_panic h]
      | pending => rw [M.bind_pending h, M.bind_pending h]
      | running => rw [M.bind_running h, M.bind_running h]

/-- Collect fragments until complete. -/
def flatGather (t : Tail) (mid : UInt16) (ctx : CollectTrans2) : M Error Bytes CollectTrans2 := fun b =>
  flatCollectLoop t mid (b.length + 1) ctx b

/-- One step of collecting fragments. -/
theorem flatGather_eq (t : Tail) (mid : UInt16) (ctx : CollectTrans2) (b : Bytes) : flatGather t mid ctx b =
    match flatReply trans2Reply mid t b with
    | (.ok r, b') => (match ctx.add r with
      | .ok p => if p.2 then (.ok p.1, b') else flatGather t mid p.1 b'
      | .err e => (.err (.SMBError e), b')
      | .panic => (.panic, b'))
    | (.err e, b') => (.err e, b')
    | (.panic, b') => (.panic, b')
    | (.pending, b') => (.pending, b')
    | (.running, b') => (.running, b') := by
  have hc := flatReply_cases trans2Reply mid t b
  unfold flatGather
  simp only [flatCollectLoop]
  rcases h : flatReply trans2Reply mid t b with ⟨o, b'⟩
  rw [h] at hc
  cases o with
  | ok f =>
    have := hc.2.2 f rfl
    rw [M.bind_ok h]
    simp only [M.bind_apply, M.bind, M.ofRes]
    cases ctx.add f with
    | ok p =>
      dsimp only at *
      cases p.2
      · exact flatCollectLoop_fuel t mid b.length (b'.length + 1) p.1 b' (by omega) (by omega)
      · rfl
    | _ => rfl
  | err e => rw [M.bind_err h]
  | panic => rw [M.bind_panic h]
  | pending => rw [M.bind_pending h]
  | running => rw [M.bind_running h]

/-- `collect` on the flat stream. -/
def flatCollect {α : Type} (sub : SubReply2 α) (mid : UInt16) (t : Tail) : M Error Bytes α :=
  flatGather t mid .new >>= fun ctx => M.ofRes Error.SMBError (ctx.getSubreply sub)

theorem collect_flatC {α : Type} (E : Env σ) (sub : SubReply2 α) (mid : UInt16) : FlatC E (collect E sub mid) (flatCollect sub mid) := by
  intro s
  exact FlatC.bind (collectLoop_flatC E mid (s.w.avail + 1) .new) (fun ctx => FlatC.ofRes E Error.SMBError (ctx.getSubreply sub)) s

theorem flatCollect_not_running {α : Type} (sub : SubReply2 α) (mid : UInt16) (t : Tail) (b : Bytes) :
    (flatCollect sub mid t b).1 ≠ .running := by
  have hc := flatCollectLoop_cases t mid (b.length + 1) .new b (by omega)
  unfold flatCollect
  rcases h : flatGather t mid .new b with ⟨o, b'⟩
  unfold flatGather at h
  rw [h] at hc
  cases o with
  | ok r => rw [M.bind_ok (show flatGather t mid .new b = _ from h)]; unfold M.ofRes; cases r.getSubreply sub <;> simp
  | err e => rw [M.bind_err (show flatGather t mid .new b = _ from h)]; simp
  | panic => rw [M.bind_panic (show flatGather t mid .new b = _ from h)]; simp
  | pending => rw [M.bind_pending (show flatGather t mid .new b = _ from h)]; simp
  | running => exact absurd rfl hc

end Cifs
