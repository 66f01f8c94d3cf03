import Verif.Lemmas.Recv
import Verif.Lemmas.Mids
import Verif.Spec.Servers
/-! # Two runs of the client against related servers -/

namespace Cifs
open Spec

variable {σ σ' : Type}

/-- Two clients that differ at most in their credentials, which are related by `pw`. -/
def SameBut (pw : Auth → Auth → Prop) (c c' : Cli) : Prop := c' = { c with auth := c'.auth } ∧ pw c.auth c'.auth

/-- How two servers, their states and the unread bytes are related. `bad`: the first run has used a multiplex id that is not `safe`. -/
structure Related (E : Env σ) (V' : Server σ') where
  rel : σ → σ' → Prop
  stream : Bytes → Bytes → Prop
  safe : UInt16 → Prop
  bad : σ → Prop
  pw : Auth → Auth → Prop
  pw_refl : ∀ a, pw a a
  bad_mono : ∀ a p, bad a → bad (E.V.react a p).1
  bad_unsafe : ∀ a a' c m f, rel a a' → KeepsMid m → requestFrame c m = .ok f → ¬ safe c.mid → bad (E.V.react a (message f)).1
  react : ∀ a a' p, rel a a' → rel (E.V.react a p).1 (V'.react a' p).1
  append : ∀ a a' p b b', rel a a' → stream b b' → stream (b ++ (E.V.react a p).2.flatten) (b' ++ (V'.react a' p).2.flatten)
  tail : ∀ a a', rel a a' → E.V.tail a = V'.tail a'
  next : ∀ t mid b b', safe mid → stream b b' →
    (flatNext t mid b).1 = (flatNext t mid b').1 ∧ stream (flatNext t mid b).2 (flatNext t mid b').2

namespace Related
variable {E : Env σ} {V' : Server σ'} (P : Related E V') {α β : Type}

/-- Related states. -/
def Q (s : St σ) (s' : St σ') : Prop :=
  SameBut P.pw s.cli s'.cli ∧ s.w.out = s'.w.out ∧ s.w.wsched = s'.w.wsched ∧ P.rel s.w.srv s'.w.srv ∧ P.stream s.w.flat s'.w.flat

/-- Two programs that, from related states, give the same outcome and related states, unless the first has become bad. -/
structure Sim (m : CM σ α) (m' : CM σ' α) : Prop where
  mono : ∀ s, P.bad s.w.srv → P.bad (m s).2.w.srv
  sim : ∀ s s', P.Q s s' → P.bad (m s).2.w.srv ∨ ((m s).1 = (m' s').1 ∧ P.Q (m s).2 (m' s').2)

variable {P}

theorem Sim.bind {m : CM σ α} {m' : CM σ' α} {f : α → CM σ β} {f' : α → CM σ' β} (hm : P.Sim m m') (hf : ∀ a, P.Sim (f a) (f' a)) :
    P.Sim (m >>= f) (m' >>= f') where
  mono := by
    intro s hb
    have h1 := hm.mono s hb
    rcases h : m s with ⟨o, s1⟩
    rw [h] at h1
    cases o with
    | ok a => rw [M.bind_ok h]; exact (hf a).mono s1 h1
    | err e => rw [M.bind_err h]; exact h1
    | panic => rw [M.bind_panic h]; exact h1
    | pending => rw [M.bind_pending h]; exact h1
    | running => rw [M.bind_running h]; exact h1
  sim := by
    intro s s' hq
    have h1 := hm.sim s s' hq
    rcases h : m s with ⟨o, s1⟩
    rcases h' : m' s' with ⟨o', s1'⟩
    rw [h, h'] at h1
    cases o with
    | ok a =>
      rw [M.bind_ok h]
      rcases h1 with h1 | ⟨h1, h2⟩
      · exact .inl ((hf a).mono s1 h1)
      · cases h1; rw [M.bind_ok h']; exact (hf a).sim s1 s1' h2
    | err e =>
      rw [M.bind_err h]
      rcases h1 with h1 | ⟨h1, h2⟩
      · exact .inl h1
      · cases h1; rw [M.bind_err h']; exact .inr ⟨rfl, h2⟩
    | panic =>
      rw [M.bind_panic h]
      rcases h1 with h1 | ⟨h1, h2⟩
      · exact .inl h1
      · cases h1; rw [M.bind_panic h']; exact .inr ⟨rfl, h2⟩
    | pending =>
      rw [M.bind_pending h]
      rcases h1 with h1 | ⟨h1, h2⟩
      · exact .inl h1
      · cases h1; rw [M.bind_pending h']; exact .inr ⟨rfl, h2⟩
    | running =>
      rw [M.bind_running h]
      rcases h1 with h1 | ⟨h1, h2⟩
      · exact .inl h1
      · cases h1; rw [M.bind_running h']; exact .inr ⟨rfl, h2⟩

theorem Sim.pure (a : α) : P.Sim (pure a : CM σ α) (pure a : CM σ' α) := ⟨fun _ h => h, fun _ _ h => .inr ⟨rfl, h⟩⟩
theorem Sim.fail (e : Error) : P.Sim (M.fail e : CM σ α) (M.fail e : CM σ' α) := ⟨fun _ h => h, fun _ _ h => .inr ⟨rfl, h⟩⟩
theorem Sim.ofRes {ε : Type} (g : ε → Error) (r : Res ε α) : P.Sim (M.ofRes g r : CM σ α) (M.ofRes g r : CM σ' α) := by
  cases r <;> exact ⟨fun _ h => h, fun _ _ h => .inr ⟨rfl, h⟩⟩
theorem Sim.const (o : Out Error α) : P.Sim (fun s => (o, s)) (fun s => (o, s)) := ⟨fun _ h => h, fun _ _ h => .inr ⟨rfl, h⟩⟩

theorem Sim.map' {m : CM σ α} {m' : CM σ' α} (g : α → β) (hm : P.Sim m m') : P.Sim (M.map' g m) (M.map' g m') :=
  Sim.bind hm (fun a => Sim.const (.ok (g a)))

theorem Q.setInbox {s : St σ} {s' : St σ'} (hq : P.Q s s') (ib ib') (h : P.stream ib.flatten ib'.flatten) :
    P.Q (s.setInbox ib) (s'.setInbox ib') := ⟨hq.1, hq.2.1, hq.2.2.1, hq.2.2.2.1, h⟩

/-- A program that only reads. -/
theorem Sim.reads {m : CM σ α} {m' : CM σ' α} {f : Tail → M Error Bytes α} (hm : FlatC E m f) (hm' : FlatC (E.withV V') m' f)
    (hf : ∀ t b b', P.stream b b' → (f t b).1 = (f t b').1 ∧ P.stream (f t b).2 (f t b').2) : P.Sim m m' where
  mono := by intro s hb; obtain ⟨ib, _, h⟩ := hm s; rw [h]; exact hb
  sim := by
    intro s s' hq
    obtain ⟨ib, h1, h2⟩ := hm s
    obtain ⟨ib', h1', h2'⟩ := hm' s'
    have ht : (E.withV V').V.tail s'.w.srv = E.V.tail s.w.srv := (P.tail _ _ hq.2.2.2.1).symm
    rw [ht] at h1' h2'
    obtain ⟨e1, e2⟩ := hf (E.V.tail s.w.srv) s.w.flat s'.w.flat hq.2.2.2.2
    rw [h2, h2']
    exact .inr ⟨e1, hq.setInbox ib ib' (by rw [h1, h1']; exact e2)⟩

theorem requestFrame_same {pw : Auth → Auth → Prop} {c c' : Cli} (h : SameBut pw c c') (m : Msg) : requestFrame c m = requestFrame c' m := by
  rw [h.1]; rfl

theorem _root_.Cifs.SameBut.mid {pw : Auth → Auth → Prop} {c c' : Cli} (h : SameBut pw c c') : c'.mid = c.mid := by rw [h.1]
theorem _root_.Cifs.SameBut.bump {pw : Auth → Auth → Prop} {c c' : Cli} (h : SameBut pw c c') (k k' : UInt16) (hk : k = k') :
    SameBut pw { c with mid := k } { c' with mid := k' } := by
  subst hk
  refine ⟨?_, h.2⟩
  conv => lhs; rw [h.1]

/-- What `send` does, as a function of the transport. -/
theorem send_unfold (E : Env σ) (m : Msg) (s : St σ) : send E m s =
    if E.checked ∧ s.cli.mid.toNat = 65535 then (.panic, s)
    else match requestFrame s.cli m with
      | .err e => (.err (.SMBError e), s.bump)
      | .panic => (.panic, s.bump)
      | .ok f => if f.length > MAX_FRAME_LENGTH then (.err (.NetBios .InvalidFrame), s.bump) else
        match writeLoop s.w.wsched (message f) s.w.out with
        | (.done, ws, out) => (.ok s.cli.mid, { s.bump with w := { inbox := s.w.inbox ++ (E.V.react s.w.srv (message f)).2, wsched := ws
                                                                   out, srv := (E.V.react s.w.srv (message f)).1 } })
        | (.failed e, ws, out) => (.err (.NetBios (.IoError e)), { s.bump with w := { s.w with wsched := ws, out } })
        | (.blocked, ws, out) => (.pending, { s.bump with w := { s.w with wsched := ws, out } }) := by
  unfold send
  by_cases h : E.checked = true ∧ s.cli.mid.toNat = 65535
  · rw [if_pos h, if_pos h]
  · rw [if_neg h, if_neg h]
    cases requestFrame s.cli m with
    | err e => rfl
    | panic => rfl
    | ok f =>
      simp only [M.bind, liftNet_eq, sendMessage_eq, be24_packet]
      by_cases hl : f.length > MAX_FRAME_LENGTH
      · rw [if_pos hl, if_pos hl]; rfl
      · rw [if_neg hl, if_neg hl]
        simp only [writeExactly, message]
        rcases writeLoop s.w.wsched (packet 0 f) s.w.out with ⟨r, ws, out⟩
        cases r <;> rfl

/-- `send`, and the multiplex id it returns is safe unless the run has become bad. -/
theorem Sim.send (m : Msg) : P.Sim (send E m) (send (E.withV V') m) where
  mono := by
    intro s hb
    rw [send_unfold]
    split
    · exact hb
    · split
      · exact hb
      · exact hb
      · split
        · exact hb
        · split
          · exact P.bad_mono _ _ hb
          · exact hb
          · exact hb
  sim := by
    intro s s' hq
    obtain ⟨hc, ho, hw, hr, hs⟩ := hq
    rw [send_unfold, send_unfold, show (E.withV V').checked = E.checked from rfl, hc.mid, ← requestFrame_same hc, ← ho, ← hw]
    have hb : SameBut P.pw s.bump.cli s'.bump.cli := SameBut.bump hc _ _ (by rw [SameBut.mid hc])
    split
    · exact .inr ⟨rfl, hc, ho, hw, hr, hs⟩
    · split
      · exact .inr ⟨rfl, hb, ho, hw, hr, hs⟩
      · exact .inr ⟨rfl, hb, ho, hw, hr, hs⟩
      · split
        · exact .inr ⟨rfl, hb, ho, hw, hr, hs⟩
        · rename_i f hf hl
          rcases writeLoop s.w.wsched (message f) s.w.out with ⟨r, ws, out⟩
          cases r with
          | done =>
            refine .inr ⟨rfl, hb, rfl, rfl, P.react _ _ _ hr, ?_⟩
            have := P.append _ _ (message f) _ _ hr hs
            simpa only [World.flat, List.flatten_append, show (E.withV V').V = V' from rfl] using this
          | failed e => exact .inr ⟨rfl, hb, rfl, rfl, hr, hs⟩
          | blocked => exact .inr ⟨rfl, hb, rfl, rfl, hr, hs⟩

theorem send_safe (P : Related E V') (m : Msg) (hk : KeepsMid m) (s s1 : St σ) (s' : St σ') (hq : P.Q s s') (mid : UInt16)
    (h : Cifs.send E m s = (.ok mid, s1)) :
    P.safe mid ∨ P.bad s1.w.srv := by
  rw [send_unfold] at h
  split at h
  · cases h
  · split at h
    · cases h
    · cases h
    · rename_i f hf
      split at h
      · cases h
      · rcases hw : writeLoop s.w.wsched (message f) s.w.out with ⟨r, ws, out⟩
        rw [hw] at h
        cases r with
        | done =>
          cases h
          by_cases hs : P.safe s.cli.mid
          · exact .inl hs
          · exact .inr (P.bad_unsafe _ _ _ _ _ hq.2.2.2.1 hk hf hs)
        | failed e => cases h
        | blocked => cases h

/-- A request and what follows, given that the multiplex id is safe. -/
theorem Sim.request (m : Msg) (hk : KeepsMid m) {k : UInt16 → CM σ α} {k' : UInt16 → CM σ' α}
    (hmono : ∀ mid s, P.bad s.w.srv → P.bad (k mid s).2.w.srv) (h : ∀ mid, P.safe mid → P.Sim (k mid) (k' mid)) :
    P.Sim (Cifs.send E m >>= k) (Cifs.send (E.withV V') m >>= k') where
  mono := by
    intro s hb
    have h1 := (Sim.send (P := P) m).mono s hb
    rcases hs : Cifs.send E m s with ⟨o, s1⟩
    rw [hs] at h1
    cases o with
    | ok a => rw [M.bind_ok hs]; exact hmono a s1 h1
    | err e => rw [M.bind_err hs]; exact h1
    | panic => rw [M.bind_panic hs]; exact h1
    | pending => rw [M.bind_pending hs]; exact h1
    | running => rw [M.bind_running hs]; exact h1
  sim := by
    intro s s' hq
    have h1 := (Sim.send (P := P) m).sim s s' hq
    rcases hs : Cifs.send E m s with ⟨o, s1⟩
    rcases hs' : Cifs.send (E.withV V') m s' with ⟨o', s1'⟩
    rw [hs, hs'] at h1
    cases o with
    | ok a =>
      rw [M.bind_ok hs]
      rcases h1 with h1 | ⟨h1, h2⟩
      · exact .inl (hmono a s1 h1)
      · cases h1; rw [M.bind_ok hs']
        rcases send_safe P m hk s s1 s' hq a hs with h3 | h3
        · exact (h a h3).sim s1 s1' h2
        · exact .inl (hmono a s1 h3)
    | err e =>
      rw [M.bind_err hs]
      rcases h1 with h1 | ⟨h1, h2⟩
      · exact .inl h1
      · cases h1; rw [M.bind_err hs']; exact .inr ⟨rfl, h2⟩
    | panic =>
      rw [M.bind_panic hs]
      rcases h1 with h1 | ⟨h1, h2⟩
      · exact .inl h1
      · cases h1; rw [M.bind_panic hs']; exact .inr ⟨rfl, h2⟩
    | pending =>
      rw [M.bind_pending hs]
      rcases h1 with h1 | ⟨h1, h2⟩
      · exact .inl h1
      · cases h1; rw [M.bind_pending hs']; exact .inr ⟨rfl, h2⟩
    | running =>
      rw [M.bind_running hs]
      rcases h1 with h1 | ⟨h1, h2⟩
      · exact .inl h1
      · cases h1; rw [M.bind_running hs']; exact .inr ⟨rfl, h2⟩

theorem flatReply_sim (P : Related E V') (R : Reply α) (mid : UInt16) (hs : P.safe mid) (t : Tail) (b b' : Bytes) (h : P.stream b b') :
    (flatReply R mid t b).1 = (flatReply R mid t b').1 ∧ P.stream (flatReply R mid t b).2 (flatReply R mid t b').2 := by
  obtain ⟨e1, e2⟩ := P.next t mid b b' hs h
  rw [flatReply_eq]
  rcases hn : flatNext t mid b with ⟨o, r⟩
  rcases hn' : flatNext t mid b' with ⟨o', r'⟩
  rw [hn, hn'] at e1 e2
  dsimp only at e1 e2
  subst e1
  cases o with
  | ok p => rw [M.bind_ok hn, M.bind_ok hn']; unfold M.ofRes; cases accept R p.1 p.2 <;> exact ⟨rfl, e2⟩
  | err e => rw [M.bind_err hn, M.bind_err hn']; exact ⟨rfl, e2⟩
  | panic => rw [M.bind_panic hn, M.bind_panic hn']; exact ⟨rfl, e2⟩
  | pending => rw [M.bind_pending hn, M.bind_pending hn']; exact ⟨rfl, e2⟩
  | running => rw [M.bind_running hn, M.bind_running hn']; exact ⟨rfl, e2⟩

theorem flatGather_sim (P : Related E V') (mid : UInt16) (hs : P.safe mid) (t : Tail) (n : Nat) (ctx : CollectTrans2) (b b' : Bytes)
    (hl : b.length < n) (h : P.stream b b') :
    (flatGather t mid ctx b).1 = (flatGather t mid ctx b').1 ∧ P.stream (flatGather t mid ctx b).2 (flatGather t mid ctx b').2 := by
  induction n generalizing ctx b b' with
  | zero => omega
  | succ n ih =>
    obtain ⟨e1, e2⟩ := flatReply_sim P trans2Reply mid hs t b b' h
    have hc := flatReply_cases trans2Reply mid t b
    rw [flatGather_eq, flatGather_eq]
    rcases hn : flatReply trans2Reply mid t b with ⟨o, r⟩
    rcases hn' : flatReply trans2Reply mid t b' with ⟨o', r'⟩
    rw [hn] at hc
    rw [hn, hn'] at e1 e2
    dsimp only at e1 e2
    subst e1
    cases o with
    | ok p =>
      have := hc.2.2 p rfl
      dsimp only at *
      cases ctx.add p with
      | ok q =>
        dsimp only
        split
        · exact ⟨rfl, e2⟩
        · exact ih q.1 r r' (by omega) e2
      | err e => exact ⟨rfl, e2⟩
      | panic => exact ⟨rfl, e2⟩
    | err e => exact ⟨rfl, e2⟩
    | panic => exact ⟨rfl, e2⟩
    | pending => exact ⟨rfl, e2⟩
    | running => exact ⟨rfl, e2⟩

theorem flatCollect_sim (P : Related E V') (sub : SubReply2 α) (mid : UInt16) (hs : P.safe mid) (t : Tail) (b b' : Bytes)
    (h : P.stream b b') :
    (flatCollect sub mid t b).1 = (flatCollect sub mid t b').1 ∧ P.stream (flatCollect sub mid t b).2 (flatCollect sub mid t b').2 := by
  obtain ⟨e1, e2⟩ := flatGather_sim P mid hs t (b.length + 1) .new b b' (by omega) h
  unfold flatCollect
  rcases hn : flatGather t mid .new b with ⟨o, r⟩
  rcases hn' : flatGather t mid .new b' with ⟨o', r'⟩
  rw [hn, hn'] at e1 e2
  dsimp only at e1 e2
  subst e1
  cases o with
  | ok p => rw [M.bind_ok hn, M.bind_ok hn']; unfold M.ofRes; cases p.getSubreply sub <;> exact ⟨rfl, e2⟩
  | err e => rw [M.bind_err hn, M.bind_err hn']; exact ⟨rfl, e2⟩
  | panic => rw [M.bind_panic hn, M.bind_panic hn']; exact ⟨rfl, e2⟩
  | pending => rw [M.bind_pending hn, M.bind_pending hn']; exact ⟨rfl, e2⟩
  | running => rw [M.bind_running hn, M.bind_running hn']; exact ⟨rfl, e2⟩

theorem mono_reads (P : Related E V') {m : CM σ α} (hm : Resp OnlyReads m) (s : St σ) (h : P.bad s.w.srv) : P.bad (m s).2.w.srv := by
  obtain ⟨ib, e⟩ := hm s; rw [e]; exact h

theorem Sim.command (m : Msg) (hk : KeepsMid m) (R : Reply α) : P.Sim (command E m R) (command (E.withV V') m R) :=
  Sim.request m hk (fun mid s h => mono_reads P (recv_reads E R mid) s h)
    (fun mid hs => Sim.reads (recv_flatC E R mid) (recv_flatC _ R mid) (flatReply_sim P R mid hs))

theorem Sim.transact2 (tid : UInt16) (c : SubCmd2) (hk : KeepsMid (transact2Msg tid c)) (sub : SubReply2 α) :
    P.Sim (transact2 E tid c sub) (transact2 (E.withV V') tid c sub) :=
  Sim.request _ hk (fun mid s h => mono_reads P (collect_reads E sub mid) s h)
    (fun mid hs => Sim.reads (collect_flatC E sub mid) (collect_flatC _ sub mid) (flatCollect_sim P sub mid hs))

theorem Sim.downloadLoop (file : Handle) (k : Nat) (data : Bytes) :
    P.Sim (downloadLoop E file k data) (downloadLoop (E.withV V') file k data) := by
  induction k generalizing data with
  | zero => exact Sim.const .running
  | succ k ih =>
    simp only [Cifs.downloadLoop]
    by_cases h : data.length < file.size.toNat
    · simp only [if_pos h]; exact Sim.bind (Sim.command _ (keepsMid_setTid _ _ rfl) _) fun chunk => ih _
    · simp only [if_neg h]; exact Sim.pure _

theorem Sim.listLoop (share : Share) (sid : UInt16) (k : Nat) (result : List DirInfo) :
    P.Sim (listLoop E share sid k result) (listLoop (E.withV V') share sid k result) := by
  induction k generalizing result with
  | zero => exact Sim.const .running
  | succ k ih =>
    simp only [Cifs.listLoop]
    cases result.getLast? with
    | none => exact Sim.const .panic
    | some last =>
      refine Sim.bind (Sim.transact2 _ _ (keepsMid_setTid _ _ rfl) _) fun reply => ?_
      cases reply.done
      · exact ih _
      · exact Sim.pure _

theorem Sim.runOp (op : Op) : P.Sim (runOp E op) (runOp (E.withV V') op) := by
  cases op <;> refine Sim.map' _ ?_
  case download b s p =>
    exact Sim.bind (Sim.command _ (keepsMid_setTid _ _ rfl) _) fun file => Sim.bind (Sim.downloadLoop file b []) fun data =>
      Sim.bind (Sim.command _ (keepsMid_setTid _ _ rfl) _) fun _ => Sim.pure _
  case list b s p =>
    refine Sim.bind (Sim.transact2 _ _ (keepsMid_setTid _ _ rfl) _) fun reply => ?_
    cases reply.done
    · exact Sim.listLoop s _ b _
    · exact Sim.pure _
  case findFirst s p => exact Sim.transact2 _ _ (keepsMid_setTid _ _ rfl) _
  case findNext s i p => exact Sim.transact2 _ _ (keepsMid_setTid _ _ rfl) _
  case mount p w => exact Sim.command _ (keepsMid_id _ rfl) _
  all_goals exact Sim.command _ (keepsMid_setTid _ _ rfl) _

theorem runOps_mono (P : Related E V') (ops : List Op) (s : St σ) (h : P.bad s.w.srv) : P.bad (runOps E ops s).2.w.srv := by
  induction ops generalizing s with
  | nil => exact h
  | cons op ops ih => exact ih _ ((Sim.runOp (P := P) op).mono s h)

/-- Whole histories. -/
theorem runOps_sim (P : Related E V') (ops : List Op) (s : St σ) (s' : St σ') (h : P.Q s s') :
    P.bad (runOps E ops s).2.w.srv ∨
      ((runOps E ops s).1 = (runOps (E.withV V') ops s').1 ∧ P.Q (runOps E ops s).2 (runOps (E.withV V') ops s').2) := by
  induction ops generalizing s s' with
  | nil => exact .inr ⟨rfl, h⟩
  | cons op ops ih =>
    rcases (Sim.runOp (P := P) op).sim s s' h with h1 | ⟨h1, h2⟩
    · exact .inl (runOps_mono P ops _ h1)
    · rcases ih _ _ h2 with h3 | ⟨h3, h4⟩
      · exact .inl h3
      · refine .inr ⟨?_, h4⟩
        simp only [runOps]; rw [h1, h3]

/-! ## Login -/

theorem Sim.modifyCli (f : Cli → Cli) (hf : ∀ c c', SameBut P.pw c c' → SameBut P.pw (f c) (f c')) :
    P.Sim (modifyCli f : CM σ Unit) (modifyCli f : CM σ' Unit) :=
  ⟨fun _ h => h, fun _ _ h => .inr ⟨rfl, hf _ _ h.1, h.2⟩⟩

theorem Sim.getCli {f : Cli → CM σ α} {f' : Cli → CM σ' α} (hm : ∀ c s, P.bad s.w.srv → P.bad (f c s).2.w.srv)
    (h : ∀ c c', SameBut P.pw c c' → P.Sim (f c) (f' c')) : P.Sim (getCli >>= f) (getCli >>= f') where
  mono := fun s hb => hm s.cli s hb
  sim := fun s s' hq => (h s.cli s'.cli hq.1).sim s s' hq

/-- The credentials have the same names, and the same answers to all challenges. -/
structure Alike (C : Crypto) (a a' : Auth) : Prop where
  user : a'.user = a.user
  domain : a'.domain = a.domain
  workstation : a'.workstation = a.workstation
  v1 : ∀ challenge, (ntlmv1Authenticate C a challenge : Res SmbError Bytes) = ntlmv1Authenticate C a' challenge
  v2 : ∀ m time random, (ntlmv2Authenticate C a m time random).2 = (ntlmv2Authenticate C a' m time random).2

theorem alike_refl (C : Crypto) (a : Auth) : Alike C a a := ⟨rfl, rfl, rfl, fun _ => rfl, fun _ _ _ => rfl⟩

theorem response_same {C : Crypto} {a a' : Auth} (h : Alike C a a') (m : ChallengeMsg) (time : UInt64) (random : Bytes) :
    m.response C a time random = m.response C a' time random := by
  simp only [ChallengeMsg.response, h.v2, h.user, h.domain, h.workstation]

theorem _root_.Cifs.SameBut.with {pw : Auth → Auth → Prop} {c c' : Cli} (h : SameBut pw c c') (f : Cli → Cli)
    (hf : ∀ (c : Cli) (a : Auth), f { c with auth := a } = { f c with auth := a }) (ha : ∀ c, (f c).auth = c.auth) :
    SameBut pw (f c) (f c') := by
  refine ⟨?_, by rw [ha, ha]; exact h.2⟩
  conv => lhs; rw [h.1]
  rw [hf, ha]

theorem Sim.sessionSetup (user domain : Str) (secret : Bytes) :
    P.Sim (sessionSetup E user domain secret) (sessionSetup (E.withV V') user domain secret) :=
  Sim.command _ (keepsMid_id _ rfl) _

theorem Sim.sessionSetupNtlmv2 (blob : Bytes) : P.Sim (sessionSetupNtlmv2 E blob) (sessionSetupNtlmv2 (E.withV V') blob) :=
  Sim.command _ (keepsMid_id _ rfl) _

theorem Sim.authenticateNtlm (hp : ∀ a a', P.pw a a' → Alike E.C a a') (ch : Bytes) : P.Sim (authenticateNtlm E ch) (authenticateNtlm (E.withV V') ch) := by
  have key : ∀ c c', SameBut P.pw c c' → P.Sim
      (do let secret ← M.ofRes Error.SMBError (ntlmv1Authenticate E.C c.auth ch)
          let setupReply ← Cifs.sessionSetup E c.auth.user c.auth.domain secret
          Cifs.modifyCli (fun c => { c with uid := setupReply.uid }) : CM σ Unit)
      (do let secret ← M.ofRes Error.SMBError (ntlmv1Authenticate E.C c'.auth ch)
          let setupReply ← Cifs.sessionSetup (E.withV V') c'.auth.user c'.auth.domain secret
          Cifs.modifyCli (fun c => { c with uid := setupReply.uid }) : CM σ' Unit) := by
    intro c c' h
    have ha := hp _ _ h.2
    rw [← ha.v1, ha.user, ha.domain]
    exact Sim.bind (Sim.ofRes _ _) fun secret => Sim.bind (Sim.sessionSetup _ _ _) fun r =>
      Sim.modifyCli _ fun c c' h => SameBut.with h (fun c => { c with uid := r.uid }) (fun _ _ => rfl) (fun _ => rfl)
  exact Sim.getCli (fun c s hb => (key c c (⟨rfl, P.pw_refl _⟩)).mono s hb) key

theorem Sim.authenticateNtlmv2 (hp : ∀ a a', P.pw a a' → Alike E.C a a') : P.Sim (authenticateNtlmv2 E) (authenticateNtlmv2 (E.withV V')) := by
  have key : ∀ c c', SameBut P.pw c c' → P.Sim
      (do let i ← M.ofRes Error.NTLMError (ntlmInit ntlmInitFlags c.auth.domain c.auth.workstation)
          let setupReply ← Cifs.sessionSetupNtlmv2 E i
          Cifs.modifyCli (fun c => { c with uid := setupReply.uid })
          let challenge ← M.ofRes Error.NTLMError (ChallengeMsg.parse setupReply.securityBlob)
          let time ← M.ofRes Error.NTLMError (encodeWindowsTime E.checked E.now)
          let response ← M.ofRes Error.NTLMError (challenge.response E.C c.auth time E.random)
          let _ ← Cifs.sessionSetupNtlmv2 E response
          Pure.pure () : CM σ Unit)
      (do let i ← M.ofRes Error.NTLMError (ntlmInit ntlmInitFlags c'.auth.domain c'.auth.workstation)
          let setupReply ← Cifs.sessionSetupNtlmv2 (E.withV V') i
          Cifs.modifyCli (fun c => { c with uid := setupReply.uid })
          let challenge ← M.ofRes Error.NTLMError (ChallengeMsg.parse setupReply.securityBlob)
          let time ← M.ofRes Error.NTLMError (encodeWindowsTime E.checked E.now)
          let response ← M.ofRes Error.NTLMError (challenge.response E.C c'.auth time E.random)
          let _ ← Cifs.sessionSetupNtlmv2 (E.withV V') response
          Pure.pure () : CM σ' Unit) := by
    intro c c' h
    have ha := hp _ _ h.2
    rw [ha.workstation, ha.domain]
    simp only [← response_same ha]
    exact Sim.bind (Sim.ofRes _ _) fun i => Sim.bind (Sim.sessionSetupNtlmv2 _) fun r =>
      Sim.bind (Sim.modifyCli _ fun c c' h => SameBut.with h (fun c => { c with uid := r.uid }) (fun _ _ => rfl) (fun _ => rfl)) fun _ =>
      Sim.bind (Sim.ofRes _ _) fun _ => Sim.bind (Sim.ofRes _ _) fun _ => Sim.bind (Sim.ofRes _ _) fun _ =>
      Sim.bind (Sim.sessionSetupNtlmv2 _) fun _ => Sim.pure _
  exact Sim.getCli (fun c s hb => (key c c (⟨rfl, P.pw_refl _⟩)).mono s hb) key

theorem Sim.setupConnection (hp : ∀ a a', P.pw a a' → Alike E.C a a') : P.Sim (setupConnection E) (setupConnection (E.withV V')) := by
  refine Sim.bind (Sim.command _ (keepsMid_id _ rfl) _) fun setup => ?_
  refine Sim.bind (Sim.modifyCli _ fun c c' h => SameBut.with h (fun c => { c with
    maxSmbSize := setup.maxBufferSize.toNat, useUnicode := Capabilities.contains setup.capabilities Capabilities.UNICODE })
      (fun _ _ => rfl) (fun _ => rfl)) fun _ => ?_
  split
  · exact Sim.authenticateNtlmv2 hp
  · exact Sim.authenticateNtlm hp _

end Related

end Cifs
