import Verif.Spec.Anytime
import Verif.Props.Streams
/-! # Two runs, the second with late replies to earlier requests -/

namespace Cifs
open Spec

variable {σ σ' α β : Type}

theorem noisy_mono {P Q : Nat → Prop} (h : ∀ m, P m → Q m) {b b' : Bytes} (hn : Noisy P b b') : Noisy Q b b' := by
  induction hn with
  | done => exact .done
  | same ty d hd _ ih => exact .same ty d hd ih
  | keepAlive _ ih => exact .keepAlive ih
  | reply g hl hg m hm hP _ ih => exact .reply g hl hg m hm (h m hP) ih

/-- A server that says nothing. -/
def silentServer : Server Unit := { react := fun _ _ => ((), []), tail := fun _ => .eof }

/-- What reading does about noise does not depend on the server. -/
def silents (E : Env σ) (P : Nat → Prop) : Related (E.withV silentServer) silentServer where
  rel := fun _ _ => True
  stream := Noisy P
  safe := fun m => ¬ P m.toNat
  bad := fun _ => True
  pw := Eq
  pw_refl := fun _ => rfl
  bad_mono := fun _ _ _ => trivial
  bad_unsafe := fun _ _ _ _ _ _ _ _ _ => trivial
  react := fun _ _ _ _ => trivial
  append := fun _ _ _ _ _ _ hb => hb.append .done
  tail := fun _ _ _ => rfl
  next := fun t mid _ _ hs hb => flatNext_noisy hb t mid hs

namespace Late

/-- The second connection has late replies among its unread bytes. `N` requests were tried. -/
structure Q (E : Env σ) (R : σ → σ' → Prop) (N : Nat) (s : St σ) (s' : St σ') : Prop where
  cli : s.cli = s'.cli
  wire : NoisyWire (fun m => m < N) R s.w s'.w
  mid : s.cli.mid = UInt16.ofNat N
  le : N ≤ 65536
  ck : E.checked = true → N ≤ 65535

/-- The number of requests that were tried, at most: those the server was told, and one more if the call did not succeed. -/
def tried (log : σ → List Bytes) (m : CM σ α) (s : St σ) : Nat :=
  ((log (m s).2.w.srv).length - (log s.w.srv).length) + (if (m s).1.isOk then 0 else 1)

/-- Both programs do the same, unless the multiplex ids wrap around. -/
structure Sim (E : Env σ) (log : σ → List Bytes) (R : σ → σ' → Prop) (m : CM σ α) (m' : CM σ' α) : Prop where
  mono : ∀ s, (log s.w.srv).length ≤ (log (m s).2.w.srv).length
  sim : ∀ s s' N, Q E R N s s' → (E.checked = false ∧ 65536 < N + tried log m s) ∨
    ((m s).1 = (m' s').1 ∧ ∃ N', N' ≤ N + tried log m s ∧ Q E R N' (m s).2 (m' s').2)

variable {E : Env σ} {log : σ → List Bytes} {R : σ → σ' → Prop}

theorem Sim.const (o : Out Error α) : Sim E log R (fun s => (o, s)) (fun s => (o, s)) :=
  ⟨fun _ => Nat.le_refl _, fun _ _ N h => .inr ⟨rfl, N, Nat.le_add_right _ _, h⟩⟩

theorem Sim.pure (a : α) : Sim E log R (pure a) (pure a) := Sim.const (.ok a)

theorem Sim.bind {m : CM σ α} {m' : CM σ' α} {f : α → CM σ β} {f' : α → CM σ' β} (hm : Sim E log R m m') (hf : ∀ a, Sim E log R (f a) (f' a)) :
    Sim E log R (m >>= f) (m' >>= f') where
  mono := by
    intro s
    have h1 := hm.mono s
    rcases h : m s with ⟨o, s1⟩
    rw [h] at h1
    cases o with
    | ok a => rw [M.bind_ok h]; exact Nat.le_trans h1 ((hf a).mono s1)
    | err e => rw [M.bind_err h]; exact h1
    | panic => rw [M.bind_panic h]; exact h1
    | pending => rw [M.bind_pending h]; exact h1
    | running => rw [M.bind_running h]; exact h1
  sim := by
    intro s s' N hq
    have h1 := hm.sim s s' N hq
    have hmono := hm.mono s
    unfold tried at h1 ⊢
    rcases h : m s with ⟨o, s1⟩
    rcases h' : m' s' with ⟨o', s1'⟩
    rw [h] at hmono
    rw [h, h'] at h1
    cases o with
    | ok a =>
      rw [M.bind_ok h]
      have hmono2 := (hf a).mono s1
      simp only [Out.isOk, if_true] at h1 hmono
      rcases h1 with ⟨h1, h2⟩ | ⟨h1, N1, h2, h3⟩
      · exact .inl ⟨h1, by omega⟩
      · cases h1
        rw [M.bind_ok h']
        have h4 := (hf a).sim s1 s1' N1 h3
        unfold tried at h4
        rcases h4 with ⟨h4, h5⟩ | ⟨h4, N2, h5, h6⟩
        · exact .inl ⟨h4, by omega⟩
        · exact .inr ⟨h4, N2, by omega, h6⟩
    | err e =>
      rw [M.bind_err h]
      rcases h1 with h1 | ⟨h1, h2⟩
      · exact .inl h1
      · cases h1; rw [M.bind_err h']; exact .inr ⟨rfl, h2⟩
    | panic =>
      rw [M.bind_panic h]
      rcases h1 with h1 | ⟨h1, h2⟩
      · exact .inl h1
      · cases h1; rw [M.bind_panic h']; exact .inr ⟨rfl, h2⟩
    | pending =>
      rw [M.bind_pending h]
      rcases h1 with h1 | ⟨h1, h2⟩
      · exact .inl h1
      · cases h1; rw [M.bind_pending h']; exact .inr ⟨rfl, h2⟩
    | running =>
      rw [M.bind_running h]
      rcases h1 with h1 | ⟨h1, h2⟩
      · exact .inl h1
      · cases h1; rw [M.bind_running h']; exact .inr ⟨rfl, h2⟩

theorem Sim.map' {m : CM σ α} {m' : CM σ' α} (g : α → β) (hm : Sim E log R m m') : Sim E log R (M.map' g m) (M.map' g m') :=
  Sim.bind hm fun a => Sim.const (.ok (g a))

/-- The next multiplex id. -/
theorem Q.bump {N : Nat} {s : St σ} {s' : St σ'} (h : Q E R N s s') (hck : ¬ (E.checked = true ∧ s.cli.mid.toNat = 65535)) (hN : N ≠ 65536) :
    s.cli.mid.toNat = N ∧ s.bump.cli.mid = UInt16.ofNat (N + 1) ∧ N + 1 ≤ 65536 ∧ (E.checked = true → N + 1 ≤ 65535) := by
  have hle := h.le
  have hm : s.cli.mid.toNat = N := by rw [h.mid]; simp; omega
  refine ⟨hm, ?_, by omega, fun hc => ?_⟩
  · show s.cli.mid + 1 = _
    rw [h.mid]
    apply UInt16.toNat_inj.mp
    simp
  · have := h.ck hc
    have : N ≠ 65535 := fun e => hck ⟨hc, hm.trans e⟩
    omega

/-- A request and the reading after it. -/
theorem Sim.request {V' : Server σ'} (hlog : Logs E.V log) (hV : LateServer E.V V' R) (m : Msg) (hk : KeepsMid m) {k : UInt16 → CM σ α} {k' : UInt16 → CM σ' α}
    {f : UInt16 → Tail → M Error Bytes α} (h : ∀ mid, FlatC E (k mid) (f mid)) (h' : ∀ mid, FlatC (E.withV V') (k' mid) (f mid))
    (hf : ∀ (P : Nat → Prop) mid t b b', ¬ P mid.toNat → Noisy P b b' → (f mid t b).1 = (f mid t b').1 ∧ Noisy P (f mid t b).2 (f mid t b').2) :
    Sim E log R (send E m >>= k) (send (E.withV V') m >>= k') := by
  have main : ∀ s, (log s.w.srv).length ≤ (log ((send E m >>= k) s).2.w.srv).length ∧ ∀ s' N, Q E R N s s' →
      (E.checked = false ∧ 65536 < N + tried log (send E m >>= k) s) ∨ (((send E m >>= k) s).1 = ((send (E.withV V') m >>= k') s').1 ∧
        ∃ N', N' ≤ N + tried log (send E m >>= k) s ∧ Q E R N' ((send E m >>= k) s).2 ((send (E.withV V') m >>= k') s').2) := by
    intro s
    have hs := Related.send_unfold E m s
    by_cases hck : E.checked = true ∧ s.cli.mid.toNat = 65535
    · rw [if_pos hck] at hs
      rw [M.bind_panic hs]
      refine ⟨Nat.le_refl _, fun s' N hq => .inr ?_⟩
      have hs' := Related.send_unfold (E.withV V') m s'
      rw [if_pos (by rw [← hq.cli]; exact hck)] at hs'
      rw [M.bind_panic hs']
      exact ⟨rfl, N, Nat.le_add_right _ _, hq⟩
    · rw [if_neg hck] at hs
      -- a request that is not written
      have stop : ∀ (o : Out Error UInt16) (ws : List WriteEv) (out : Bytes), o.isOk = false →
          send E m s = (o, { s.bump with w := { s.w with wsched := ws, out } }) →
          (∀ s' N, Q E R N s s' → send (E.withV V') m s' = (o, { s'.bump with w := { s'.w with wsched := ws, out } })) →
          (log s.w.srv).length ≤ (log ((send E m >>= k) s).2.w.srv).length ∧ ∀ s' N, Q E R N s s' →
            (E.checked = false ∧ 65536 < N + tried log (send E m >>= k) s) ∨ (((send E m >>= k) s).1 = ((send (E.withV V') m >>= k') s').1 ∧
            ∃ N', N' ≤ N + tried log (send E m >>= k) s ∧ Q E R N' ((send E m >>= k) s).2 ((send (E.withV V') m >>= k') s').2) := by
        intro o ws out ho h1 h2
        obtain ⟨p, hp⟩ : ∃ p : Out Error α, p.isOk = false ∧ (∀ {τ : Type} (n : CM τ UInt16) (g : UInt16 → CM τ α) (x y : St τ), n x = (o, y) →
            (n >>= g) x = (p, y)) := by
          cases o with
          | ok a => cases ho
          | err e => exact ⟨.err e, rfl, fun n g x y h => M.bind_err h⟩
          | panic => exact ⟨.panic, rfl, fun n g x y h => M.bind_panic h⟩
          | pending => exact ⟨.pending, rfl, fun n g x y h => M.bind_pending h⟩
          | running => exact ⟨.running, rfl, fun n g x y h => M.bind_running h⟩
        unfold tried
        rw [hp.2 _ k _ _ h1, hp.1]
        refine ⟨Nat.le_refl _, fun s' N hq => ?_⟩
        rw [hp.2 _ k' _ _ (h2 s' N hq)]
        by_cases hN : N = 65536
        · refine .inl ⟨?_, by simp [hN]⟩
          cases hc : E.checked with
          | false => rfl
          | true => have := hq.ck hc; omega
        · obtain ⟨_, b1, b2, b3⟩ := hq.bump hck hN
          refine .inr ⟨rfl, N + 1, by simp, ?_, ⟨rfl, rfl, hq.wire.srv, noisy_mono (fun _ h => Nat.lt_succ_of_lt h) hq.wire.bytes⟩, b1, b2, b3⟩
          show s.bump.cli = s'.bump.cli
          unfold St.bump
          rw [hq.cli]
      have hs' : ∀ s' N, Q E R N s s' → _ := fun s' N (hq : Q E R N s s') => by
        have := Related.send_unfold (E.withV V') m s'
        rw [if_neg (by rw [← hq.cli]; exact hck), ← hq.cli, ← hq.wire.wsched, ← hq.wire.out] at this
        exact this
      cases hr : requestFrame s.cli m with
      | err e =>
        rw [hr] at hs
        exact stop _ s.w.wsched s.w.out rfl hs fun s' N hq => by
          have := hs' s' N hq; rw [hr] at this; rw [this, hq.wire.wsched, hq.wire.out]; rfl
      | panic =>
        rw [hr] at hs
        exact stop _ s.w.wsched s.w.out rfl hs fun s' N hq => by
          have := hs' s' N hq; rw [hr] at this; rw [this, hq.wire.wsched, hq.wire.out]; rfl
      | ok g =>
        rw [hr] at hs
        by_cases hl : g.length > MAX_FRAME_LENGTH
        · dsimp only at hs
          rw [if_pos hl] at hs
          exact stop _ s.w.wsched s.w.out rfl hs fun s' N hq => by
            have := hs' s' N hq; rw [hr] at this; dsimp only at this; rw [if_pos hl] at this; rw [this, hq.wire.wsched, hq.wire.out]; rfl
        · dsimp only at hs
          rw [if_neg hl] at hs
          rcases hw : writeLoop s.w.wsched (message g) s.w.out with ⟨r, ws, out⟩
          rw [hw] at hs
          cases r with
          | failed e =>
            exact stop _ ws out rfl hs fun s' N hq => by
              have := hs' s' N hq; rw [hr] at this; dsimp only at this; rw [if_neg hl, hw] at this; exact this
          | blocked =>
            exact stop _ ws out rfl hs fun s' N hq => by
              have := hs' s' N hq; rw [hr] at this; dsimp only at this; rw [if_neg hl, hw] at this; exact this
          | done =>
            unfold tried
            rw [M.bind_ok hs]
            obtain ⟨ib, i1, i2⟩ := h s.cli.mid { s.bump with w := { inbox := s.w.inbox ++ (E.V.react s.w.srv (message g)).2, wsched := ws, out, srv := (E.V.react s.w.srv (message g)).1 } }
            have hgrow : (log (E.V.react s.w.srv (message g)).1).length = (log s.w.srv).length + 1 := by rw [hlog]; simp
            rw [i2]
            refine ⟨by show _ ≤ (log (E.V.react s.w.srv (message g)).1).length; omega, fun s' N hq => ?_⟩
            have hs'' := hs' s' N hq
            rw [hr] at hs''
            dsimp only at hs''
            rw [if_neg hl, hw] at hs''
            rw [M.bind_ok hs'']
            simp only [St.setInbox_srv, hgrow]
            by_cases hN : N = 65536
            · refine .inl ⟨?_, by omega⟩
              cases hc : E.checked with
              | false => rfl
              | true => have := hq.ck hc; omega
            · obtain ⟨b0, b1, b2, b3⟩ := hq.bump hck hN
              obtain ⟨ib', j1, j2⟩ := h' s.cli.mid { s'.bump with w := { inbox := s'.w.inbox ++ ((E.withV V').V.react s'.w.srv (message g)).2, wsched := ws, out, srv := ((E.withV V').V.react s'.w.srv (message g)).1 } }
              have hn : Noisy (fun m => m < N) (s.w.inbox ++ (E.V.react s.w.srv (message g)).2).flatten (s'.w.inbox ++ ((E.withV V').V.react s'.w.srv (message g)).2).flatten := by
                rw [List.flatten_append, List.flatten_append]
                exact hq.wire.bytes.append (hV.bytes _ _ _ N hq.wire.srv (by rw [requestFrame_mid hk hr, b0]))
              have ht : (E.withV V').V.tail ((E.withV V').V.react s'.w.srv (message g)).1 = E.V.tail (E.V.react s.w.srv (message g)).1 :=
                (hV.tail _ _ (hV.state _ _ _ hq.wire.srv)).symm
              obtain ⟨k1, k2⟩ := hf (fun m => m < N) s.cli.mid (E.V.tail (E.V.react s.w.srv (message g)).1) _ _ (by rw [b0]; omega) hn
              dsimp only at i1 j1 j2
              rw [ht] at j1 j2
              rw [j2]
              refine .inr ⟨k1, N + 1, by omega, ?_, ⟨rfl, rfl, hV.state _ _ _ hq.wire.srv, ?_⟩, b1, b2, b3⟩
              · show s.bump.cli = s'.bump.cli
                unfold St.bump
                rw [hq.cli]
              · show Noisy _ ib.flatten ib'.flatten
                rw [i1, j1]
                exact noisy_mono (fun _ h => Nat.lt_succ_of_lt h) k2
  exact ⟨fun s => (main s).1, fun s => (main s).2⟩

variable {V' : Server σ'} (hlog : Logs E.V log) (hV : LateServer E.V V' R)
include hlog hV

theorem Sim.command (m : Msg) (hk : KeepsMid m) (T : Reply α) : Sim E log R (command E m T) (command (E.withV V') m T) :=
  Sim.request hlog hV m hk (fun mid => recv_flatC E T mid) (fun mid => recv_flatC _ T mid)
    fun P mid t b b' hs hn => Related.flatReply_sim (silents E P) T mid hs t b b' hn

theorem Sim.transact2 (tid : UInt16) (c : SubCmd2) (hk : KeepsMid (transact2Msg tid c)) (sub : SubReply2 α) :
    Sim E log R (transact2 E tid c sub) (transact2 (E.withV V') tid c sub) :=
  Sim.request hlog hV _ hk (fun mid => collect_flatC E sub mid) (fun mid => collect_flatC _ sub mid)
    fun P mid t b b' hs hn => Related.flatCollect_sim (silents E P) sub mid hs t b b' hn

theorem Sim.downloadLoop (file : Handle) (k : Nat) (data : Bytes) :
    Sim E log R (downloadLoop E file k data) (downloadLoop (E.withV V') file k data) := by
  induction k generalizing data with
  | zero => exact Sim.const .running
  | succ k ih =>
    simp only [Cifs.downloadLoop]
    by_cases h : data.length < file.size.toNat
    · simp only [if_pos h]; exact Sim.bind (Sim.command hlog hV _ (keepsMid_setTid _ _ rfl) _) fun chunk => ih _
    · simp only [if_neg h]; exact Sim.pure _

theorem Sim.listLoop (share : Share) (sid : UInt16) (k : Nat) (result : List DirInfo) :
    Sim E log R (listLoop E share sid k result) (listLoop (E.withV V') share sid k result) := by
  induction k generalizing result with
  | zero => exact Sim.const .running
  | succ k ih =>
    simp only [Cifs.listLoop]
    cases result.getLast? with
    | none => exact Sim.const .panic
    | some last =>
      refine Sim.bind (Sim.transact2 hlog hV _ _ (keepsMid_setTid _ _ rfl) _) fun reply => ?_
      cases reply.done
      · exact ih _
      · exact Sim.pure _

theorem Sim.runOp (op : Op) : Sim E log R (runOp E op) (runOp (E.withV V') op) := by
  cases op <;> refine Sim.map' _ ?_
  case download b s p =>
    exact Sim.bind (Sim.command hlog hV _ (keepsMid_setTid _ _ rfl) _) fun file => Sim.bind (Sim.downloadLoop hlog hV file b []) fun data =>
      Sim.bind (Sim.command hlog hV _ (keepsMid_setTid _ _ rfl) _) fun _ => Sim.pure _
  case list b s p =>
    refine Sim.bind (Sim.transact2 hlog hV _ _ (keepsMid_setTid _ _ rfl) _) fun reply => ?_
    cases reply.done
    · exact Sim.listLoop hlog hV s _ b _
    · exact Sim.pure _
  case findFirst s p => exact Sim.transact2 hlog hV _ _ (keepsMid_setTid _ _ rfl) _
  case findNext s i p => exact Sim.transact2 hlog hV _ _ (keepsMid_setTid _ _ rfl) _
  case mount p w => exact Sim.command hlog hV _ (keepsMid_id _ rfl) _
  all_goals exact Sim.command hlog hV _ (keepsMid_setTid _ _ rfl) _

end Late
end Cifs
