import Verif.Spec.Ops
import Verif.Lemmas.Frames
/-! # Multiplex ids over whole connections -/

namespace Cifs
open Spec

variable {σ : Type}

/-- A run that sent the packets `ps`, with consecutive multiplex ids, and made `n` further attempts. -/
def MidTrace (checked : Bool) (log : σ → List Bytes) (b : Bool) (s s' : St σ) : Prop :=
  ∃ (ps : List Bytes) (n : Nat), n ≤ 1 ∧ (b = true → n = 0) ∧ log s'.w.srv = log s.w.srv ++ ps ∧
    s'.cli.mid = s.cli.mid + UInt16.ofNat (ps.length + n) ∧
    (checked = true → s.cli.mid.toNat + (ps.length + n) ≤ 65535) ∧
    ∀ i p, ps[i]? = some p → midOf p = some (s.cli.mid + UInt16.ofNat i).toNat

/-- The messages of this client never change the multiplex id. -/
def KeepsMid (m : Msg) : Prop := ∀ i, (m.fixHeader i).mid = i.mid

theorem keepsMid_id (m : Msg) (h : m.fixHeader = id) : KeepsMid m := by intro i; rw [h]; rfl
theorem keepsMid_setTid (m : Msg) (t : UInt16) (h : m.fixHeader = setTid t) : KeepsMid m := by intro i; rw [h]; rfl

theorem sends_keepsMid {op : Op} {m : Msg} (h : op.sends m) : KeepsMid m := by
  cases op
  case download => rcases h with rfl | ⟨_, _, _, rfl⟩ | ⟨_, _, rfl⟩ <;> exact keepsMid_setTid _ _ rfl
  case list => rcases h with rfl | ⟨_, _, rfl⟩ <;> exact keepsMid_setTid _ _ rfl
  case mount => cases h; exact keepsMid_id _ rfl
  all_goals (cases h; exact keepsMid_setTid _ _ rfl)

theorem requestFrame_mid {c : Cli} {m : Msg} {f : Bytes} (hk : KeepsMid m) (h : requestFrame c m = .ok f) :
    midOf (message f) = some c.mid.toNat := by
  obtain ⟨p, d, _, _, _, rfl⟩ := requestFrame_ok h
  rw [frame_mid, requestInfo, hk]

theorem Trace.mids {checked : Bool} {log : σ → List Bytes} {Q : Cli → Bytes → Prop} {b : Bool} {s s' : St σ}
    (hQ : ∀ c f, Q c f → midOf (message f) = some c.mid.toNat) (h : Trace checked log Q b s s') : MidTrace checked log b s s' := by
  obtain ⟨fs, n, h1, h2, h3, h4, h5, h6⟩ := h
  refine ⟨fs.map message, n, h1, h2, h3, by rw [h4]; simp, by simpa using h5, ?_⟩
  intro i p hp
  rw [List.getElem?_map] at hp
  cases hf : fs[i]? with
  | none => rw [hf] at hp; simp at hp
  | some f =>
    rw [hf] at hp; simp at hp; subst hp
    exact hQ _ _ (h6 i f hf)

theorem MidTrace.ignores (checked : Bool) (log : σ → List Bytes) : Ignores (MidTrace checked log) where
  reads := by
    intro b s ib
    refine ⟨[], 0, by omega, fun _ => rfl, by simp, by simp, ?_, by simp⟩
    intro _; have := s.cli.mid.toNat_lt; simp; omega
  trans := by
    rintro x a b c ⟨fs, n, h1, h2, h3, h4, h5, h6⟩ ⟨fs', n', g1, g2, g3, g4, g5, g6⟩
    have hn := h2 rfl; subst hn
    simp only [Nat.add_zero] at h4 h5
    refine ⟨fs ++ fs', n', g1, g2, ?_, ?_, ?_, ?_⟩
    · rw [g3, h3]; simp
    · rw [g4, h4]; simp only [ofNat_add16, List.length_append, Nat.add_assoc]
    · intro hc
      have e1 := h5 hc; have e2 := g5 hc
      rw [h4, toNat_add16 _ _ e1] at e2
      simp; omega
    · intro i f hi
      by_cases hlt : i < fs.length
      · rw [List.getElem?_append_left hlt] at hi; exact h6 i f hi
      · rw [List.getElem?_append_right (by omega)] at hi
        have := g6 _ _ hi
        rw [h4, ofNat_add16, show fs.length + (i - fs.length) = i by omega] at this
        exact this

theorem MidTrace.same {checked : Bool} {log : σ → List Bytes} {b : Bool} {s s' : St σ} (h1 : s'.cli.mid = s.cli.mid)
    (h2 : s'.w = s.w) : MidTrace checked log b s s' := by
  refine ⟨[], 0, by omega, fun _ => rfl, by simp [h2], by simp [h1], ?_, by simp⟩
  intro _; have := s.cli.mid.toNat_lt; simp; omega

theorem MidTrace.send (E : Env σ) (log : σ → List Bytes) (hlog : Logs E.V log) (m : Msg) (hk : KeepsMid m) :
    RespO (MidTrace E.checked log) (send E m) := fun s =>
  (Trace.send E log hlog m (fun c f => requestFrame c m = .ok f) (fun _ _ h _ => h) s).mids (fun _ _ h => requestFrame_mid hk h)

theorem runOp_mids (E : Env σ) (log : σ → List Bytes) (hlog : Logs E.V log) (op : Op) : RespO (MidTrace E.checked log) (runOp E op) :=
  runOp_resp (MidTrace.ignores _ _) E op (fun m hm => MidTrace.send E log hlog m (sends_keepsMid hm))

theorem setup_mids (E : Env σ) (log : σ → List Bytes) (hlog : Logs E.V log) : RespO (MidTrace E.checked log) (setupConnection E) := by
  have h := MidTrace.ignores E.checked log
  have hsetup : ∀ (m : SessionSetupMsg), RespO (MidTrace E.checked log) (command E m.msg SessionSetupReply.reply) := fun m =>
    RespO.command h E _ _ (MidTrace.send E log hlog _ (keepsMid_id _ rfl))
  have hres : ∀ {ε α : Type} (g : ε → Error) (r : Res ε α), RespO (MidTrace E.checked log) (M.ofRes g r : CM σ α) := by
    intro ε α g r s; cases r <;> exact h.refl _ s
  have hmod : ∀ (f : Cli → Cli), (∀ c, (f c).mid = c.mid) → RespO (MidTrace E.checked log) (modifyCli f : CM σ Unit) :=
    fun f hf s => MidTrace.same (hf _) rfl
  have hget : RespO (MidTrace E.checked log) (getCli : CM σ Cli) := fun s => h.refl _ s
  refine RespO.bind h (RespO.command h E _ _ (MidTrace.send E log hlog _ (keepsMid_id _ rfl))) fun setup => ?_
  refine RespO.bind h (hmod _ (fun _ => rfl)) fun _ => ?_
  split
  · refine RespO.bind h hget fun c => ?_
    refine RespO.bind h (hres _ _) fun i => ?_
    refine RespO.bind h (hsetup _) fun r => ?_
    refine RespO.bind h (hmod _ (fun _ => rfl)) fun _ => ?_
    refine RespO.bind h (hres _ _) fun ch => ?_
    refine RespO.bind h (hres _ _) fun t => ?_
    refine RespO.bind h (hres _ _) fun t => ?_
    refine RespO.bind h (hsetup _) fun r => ?_
    exact RespO.pure h _
  · refine RespO.bind h hget fun c => ?_
    refine RespO.bind h (hres _ _) fun i => ?_
    refine RespO.bind h (hsetup _) fun r => ?_
    exact hmod _ (fun _ => rfl)

/-- The attempts of a whole history: `some p` for a packet that was sent, `none` for an attempt that was not completed. -/
def HistTrace (checked : Bool) (log : σ → List Bytes) (failed : Nat) (s s' : St σ) : Prop :=
  ∃ A : List (Option Bytes), log s'.w.srv = log s.w.srv ++ A.filterMap id ∧
    s'.cli.mid = s.cli.mid + UInt16.ofNat A.length ∧
    (checked = true → s.cli.mid.toNat + A.length ≤ 65535) ∧
    (∀ i p, A[i]? = some (some p) → midOf p = some (s.cli.mid + UInt16.ofNat i).toNat) ∧
    A.countP Option.isNone ≤ failed

theorem HistTrace.trans {checked : Bool} {log : σ → List Bytes} {x y : Nat} {a b c : St σ} (h : HistTrace checked log x a b)
    (g : HistTrace checked log y b c) : HistTrace checked log (x + y) a c := by
  obtain ⟨A, h1, h2, h3, h4, h5⟩ := h
  obtain ⟨B, g1, g2, g3, g4, g5⟩ := g
  refine ⟨A ++ B, by rw [g1, h1]; simp, by rw [g2, h2, ofNat_add16, List.length_append], ?_, ?_, ?_⟩
  · intro hc
    have e1 := h3 hc; have e2 := g3 hc
    rw [h2, toNat_add16 _ _ e1] at e2
    simp; omega
  · intro i p hi
    by_cases hlt : i < A.length
    · rw [List.getElem?_append_left hlt] at hi; exact h4 i p hi
    · rw [List.getElem?_append_right (by omega)] at hi
      have := g4 _ _ hi
      rw [h2, ofNat_add16, show A.length + (i - A.length) = i by omega] at this
      exact this
  · rw [List.countP_append]; omega

theorem MidTrace.hist {checked : Bool} {log : σ → List Bytes} {b : Bool} {s s' : St σ} (h : MidTrace checked log b s s') :
    HistTrace checked log (if b then 0 else 1) s s' := by
  obtain ⟨ps, n, h1, h2, h3, h4, h5, h6⟩ := h
  have hfm : (List.replicate n (none : Option Bytes)).filterMap id = [] := by
    apply List.filterMap_eq_nil_iff.mpr; intro a ha; rw [List.eq_of_mem_replicate ha]; rfl
  refine ⟨ps.map some ++ List.replicate n none, ?_, by simpa using h4, by simpa using h5, ?_, ?_⟩
  · rw [h3, List.filterMap_append, hfm, List.filterMap_map]
    simp
  · intro i p hi
    by_cases hlt : i < ps.length
    · rw [List.getElem?_append_left (by simpa using hlt), List.getElem?_map] at hi
      cases hp : ps[i]? with
      | none => rw [hp] at hi; simp at hi
      | some q => rw [hp] at hi; simp at hi; subst hi; exact h6 i q hp
    · rw [List.getElem?_append_right (by simp; omega), List.getElem?_replicate] at hi
      split at hi <;> simp at hi
  · rw [List.countP_append, List.countP_map]
    have : List.countP (Option.isNone ∘ some) ps = 0 := by
      apply List.countP_eq_zero.mpr; intro a _; simp
    rw [this, List.countP_replicate]
    cases b with
    | true => simp [h2 rfl]
    | false => simp; omega

theorem runOps_hist (E : Env σ) (log : σ → List Bytes) (hlog : Logs E.V log) (ops : List Op) (s : St σ) :
    HistTrace E.checked log ((runOps E ops s).1.countP (fun o => !o.isOk)) s (runOps E ops s).2 := by
  induction ops generalizing s with
  | nil =>
    refine ⟨[], by simp [runOps], by simp [runOps], ?_, by simp, by simp⟩
    intro _; have := s.cli.mid.toNat_lt; simp; omega
  | cons op ops ih =>
    have h1 := (runOp_mids E log hlog op s).hist
    have h2 := h1.trans (ih (runOp E op s).2)
    have e : (runOps E (op :: ops) s).1.countP (fun o => !o.isOk) =
        (if (runOp E op s).1.isOk then 0 else 1) + (runOps E ops (runOp E op s).2).1.countP (fun o => !o.isOk) := by
      simp only [runOps, List.countP_cons]
      cases (runOp E op s).1.isOk <;> simp; omega
    rw [e]; exact h2

/-- The first `k` ≤ 65536 attempts starting at id 0 carry distinct ids. -/
theorem hist_pairwise (A : List (Option Bytes)) (m : UInt16)
    (h : ∀ i p, A[i]? = some (some p) → midOf p = some (m + UInt16.ofNat i).toNat) :
    ((A.take 65536).filterMap id).Pairwise (fun p q => midOf p ≠ midOf q) := by
  rw [List.pairwise_filterMap]
  rw [List.pairwise_iff_getElem]
  intro i j hi hj hij p hp q hq
  simp only [List.length_take] at hi hj
  simp only [List.getElem_take, id] at hp hq
  have e1 := h i p (by rw [List.getElem?_eq_getElem (by omega), hp])
  have e2 := h j q (by rw [List.getElem?_eq_getElem (by omega), hq])
  rw [e1, e2]
  intro he
  simp at he
  have := m.toNat_lt
  omega

/-! ## One request per operation -/

/-- The message of an operation that makes one request. -/
def Op.first : Op → Msg
  | .mount path password => treeConnectMsg (sanitizePath path) password
  | .umount share => treeDisconnectMsg share.tid
  | .openfile share path => (OpenMsg.fileRo share.tid (sanitizePath path)).msg
  | .opendir share path => (OpenMsg.dir share.tid (sanitizePath path)).msg
  | .close file => closeMsg file.tid file.fid
  | .read file offset => readMsg file.tid file.fid offset
  | .download _ share path => (OpenMsg.fileRo share.tid (sanitizePath path)).msg
  | .delete share path => deleteMsg share.tid (sanitizePath path)
  | .rmdir share path => rmdirMsg share.tid (sanitizePath path)
  | .notify handle what => transactMsg handle.tid (notifySetup handle.fid what false)
  | .findFirst share pattern => transact2Msg share.tid
      (findFirst2Cmd (sanitizePath pattern) (FileAttr.HIDDEN ||| FileAttr.SYSTEM ||| FileAttr.DIRECTORY))
  | .findNext share sid lastfile => transact2Msg share.tid (findNext2Cmd sid lastfile)
  | .list _ share pattern => transact2Msg share.tid
      (findFirst2Cmd (sanitizePath pattern) (FileAttr.HIDDEN ||| FileAttr.SYSTEM ||| FileAttr.DIRECTORY))

/-- Every operation starts by sending its first message, and goes on only if that succeeded. -/
theorem runOp_starts (E : Env σ) (op : Op) : ∃ k : UInt16 → CM σ Val, runOp E op = send E op.first >>= k := by
  have mapb : ∀ {α β γ : Type} (m : CM σ α) (f : α → CM σ β) (g : β → γ),
      (M.map' g (m >>= f : CM σ β) : CM σ γ) = (m >>= fun a => (M.map' g (f a) : CM σ γ) : CM σ γ) := by
    intro α β γ m f g
    funext s
    simp only [M.map', M.bind_apply, M.bind]
    rcases m s with ⟨o, s'⟩
    cases o <;> rfl
  have assoc : ∀ {α β γ : Type} (m : CM σ α) (f : α → CM σ β) (g : β → CM σ γ),
      ((m >>= f : CM σ β) >>= g : CM σ γ) = (m >>= fun a => (f a >>= g : CM σ γ) : CM σ γ) := by
    intro α β γ m f g
    funext s
    simp only [M.bind_apply, M.bind]
    rcases m s with ⟨o, s'⟩
    cases o <;> rfl
  cases op
  case download b share path => exact ⟨_, (congrArg (M.map' _) (assoc _ _ _)).trans (mapb _ _ _)⟩
  case list b share pattern => exact ⟨_, (congrArg (M.map' _) (assoc _ _ _)).trans (mapb _ _ _)⟩
  all_goals exact ⟨_, mapb _ _ _⟩

/-- If the first message is not sent, the operation ends there, with the same outcome and state. -/
theorem runOp_send_err (E : Env σ) (op : Op) (s s' : St σ) (e : Error) (h : send E op.first s = (.err e, s')) :
    runOp E op s = (.err e, s') := by
  obtain ⟨k, hk⟩ := runOp_starts E op
  rw [hk]; exact M.bind_err h
theorem runOp_send_panic (E : Env σ) (op : Op) (s s' : St σ) (h : send E op.first s = (.panic, s')) :
    runOp E op s = (.panic, s') := by
  obtain ⟨k, hk⟩ := runOp_starts E op
  rw [hk]; exact M.bind_panic h

/-- An operation that makes one request: afterwards only bytes are read. -/
theorem runOp_single (E : Env σ) (op : Op) (hs : single op = true) (s : St σ) :
    ∃ ib, (runOp E op s).2 = (send E op.first s).2.setInbox ib := by
  have key : ∀ {α : Type} (m : Msg) (f : UInt16 → CM σ α) (g : α → Val), (∀ k, Resp OnlyReads (f k)) →
      ∃ ib, (M.map' g (send E m >>= f : CM σ α) s).2 = (send E m s).2.setInbox ib := by
    intro α m f g hf
    simp only [M.map', M.bind_apply, M.bind]
    rcases hsd : send E m s with ⟨o, s'⟩
    cases o with
    | ok a =>
      obtain ⟨ib, e⟩ := hf a s'
      refine ⟨ib, ?_⟩
      dsimp only
      rcases hr : f a s' with ⟨o2, s2⟩
      rw [hr] at e
      cases o2 <;> exact e
    | _ => exact ⟨s'.w.inbox, rfl⟩
  cases op
  case download => simp [single] at hs
  case list => simp [single] at hs
  case findFirst => exact key _ _ _ (fun k => collect_reads E _ k)
  case findNext => exact key _ _ _ (fun k => collect_reads E _ k)
  all_goals exact key _ _ _ (fun k => recv_reads E _ k)

/-- What an operation does after its first message was sent. -/
theorem cont_resp {R : Bool → St σ → St σ → Prop} (hg : Ignores R) (E : Env σ) (op : Op) (hs : ∀ m, op.sends m → RespO R (send E m))
    (s s1 : St σ) (a : UInt16) (h : send E op.first s = (.ok a, s1)) : R (runOp E op s).1.isOk s1 (runOp E op s).2 := by
  have key : ∀ {α β : Type} (m : Msg) (f : UInt16 → CM σ α) (g : α → β), send E m s = (.ok a, s1) → RespO R (f a) →
      R (M.map' g (send E m >>= f : CM σ α) s).1.isOk s1 (M.map' g (send E m >>= f : CM σ α) s).2 := by
    intro α β m f g hs hf
    have e : (M.map' g (send E m >>= f : CM σ α)) s = M.map' g (f a) s1 := by
      simp only [M.map', M.bind, M.bind_apply, hs]
    rw [e]
    exact RespO.map' hg g hf s1
  cases op
  case download b share path =>
    have assoc : download E b share path = (send E (OpenMsg.fileRo share.tid (sanitizePath path)).msg >>= fun mid =>
        (recv E Handle.reply mid >>= fun file => downloadLoop E file b [] >>= fun data => close E file >>= fun _ => pure data : CM σ Bytes)) := by
      funext s
      show M.bind (M.bind (send E _) _) _ s = M.bind (send E _) _ s
      simp only [M.bind]
      rcases send E (OpenMsg.fileRo share.tid (sanitizePath path)).msg s with ⟨o, s'⟩
      cases o <;> rfl
    show R (M.map' Val.bytes (download E b share path) s).1.isOk s1 (M.map' Val.bytes (download E b share path) s).2
    rw [assoc]
    refine key _ _ _ h ?_
    exact RespO.bind hg (hg.of (recv_reads E _ _)) fun file =>
      RespO.bind hg (RespO.downloadLoop hg E file b [] (fun o => hs _ (.inr (.inl ⟨_, _, o, rfl⟩)))) fun _ =>
        RespO.bind hg (RespO.command hg E _ _ (hs _ (.inr (.inr ⟨_, _, rfl⟩)))) fun _ => RespO.pure hg _
  case list b share pattern =>
    have assoc : list E b share pattern = (send E (transact2Msg share.tid
        (findFirst2Cmd (sanitizePath pattern) (FileAttr.HIDDEN ||| FileAttr.SYSTEM ||| FileAttr.DIRECTORY))) >>= fun mid =>
        (collect E findFirst2Parse mid >>= fun reply =>
          if reply.done then pure reply.info else listLoop E share reply.sid b reply.info : CM σ (List DirInfo))) := by
      funext s
      show M.bind (M.bind (send E _) _) _ s = M.bind (send E _) _ s
      simp only [M.bind]
      rcases send E (transact2Msg share.tid
        (findFirst2Cmd (sanitizePath pattern) (FileAttr.HIDDEN ||| FileAttr.SYSTEM ||| FileAttr.DIRECTORY))) s with ⟨o, s'⟩
      cases o <;> rfl
    show R (M.map' Val.entries (list E b share pattern) s).1.isOk s1 (M.map' Val.entries (list E b share pattern) s).2
    rw [assoc]
    refine key _ _ _ h ?_
    refine RespO.bind hg (hg.of (collect_reads E _ _)) fun reply => ?_
    split
    · exact RespO.pure hg _
    · exact RespO.listLoop hg E _ _ _ _ (fun n => hs _ (.inr ⟨_, n, rfl⟩))
  case findFirst => exact key _ _ _ h (hg.of (collect_reads E _ _))
  case findNext => exact key _ _ _ h (hg.of (collect_reads E _ _))
  all_goals exact key _ _ _ h (hg.of (recv_reads E _ _))

/-! ## Sending -/

/-- Sending a request succeeds when it can be built, fits a packet, the socket accepts and the counter does not overflow. -/
theorem send_ok (E : Env σ) (m : Msg) (s : St σ) (f : Bytes) (hc : ¬ (E.checked = true ∧ s.cli.mid.toNat = 65535))
    (hf : requestFrame s.cli m = .ok f) (hl : f.length ≤ maxPayload) (hw : Accepting s.w.wsched) :
    ∃ ws, Accepting ws ∧ send E m s = (.ok s.cli.mid, { s.bump with w :=
      { inbox := s.w.inbox ++ (E.V.react s.w.srv (message f)).2, wsched := ws, out := s.w.out ++ message f
        srv := (E.V.react s.w.srv (message f)).1 } }) := by
  obtain ⟨h1, h2⟩ := writeLoop_accepting s.w.wsched (message f) s.w.out hw
  obtain ⟨p, q, h3, h4, h5⟩ := writeLoop_out s.w.wsched (message f) s.w.out
  rcases hwl : writeLoop s.w.wsched (message f) s.w.out with ⟨r, ws, out⟩
  rw [hwl] at h1 h2 h4 h5
  simp only at h1 h2 h4 h5
  subst h1
  have := h5.mp rfl; subst this
  rw [List.append_nil] at h3
  refine ⟨ws, h2, ?_⟩
  unfold send
  rw [if_neg hc, hf]
  simp only [M.bind, liftNet_eq, sendMessage_eq]
  rw [if_neg (by simp only [maxPayload, MAX_FRAME_LENGTH] at *; omega), be24_packet]
  have hp : packet 0 f = message f := rfl
  rw [hp]
  simp only [writeExactly, hwl, h4, ← h3]
  rfl

/-- A request that cannot be built costs one multiplex id and nothing else. -/
theorem send_unbuilt (E : Env σ) (m : Msg) (s : St σ) (e : SmbError) (hc : ¬ (E.checked = true ∧ s.cli.mid.toNat = 65535))
    (hf : requestFrame s.cli m = .err e) : send E m s = (.err (.SMBError e), s.bump) := by
  unfold send; rw [if_neg hc, hf]; rfl

theorem send_unbuilt_panic (E : Env σ) (m : Msg) (s : St σ) (hc : ¬ (E.checked = true ∧ s.cli.mid.toNat = 65535))
    (hf : requestFrame s.cli m = .panic) : send E m s = (.panic, s.bump) := by
  unfold send; rw [if_neg hc, hf]; rfl

/-- A single-request operation whose request can be built and written sends exactly that request. -/
theorem runOp_single_sends (E : Env σ) (op : Op) (hs : single op = true) (s : St σ) (f : Bytes)
    (hc : ¬ (E.checked = true ∧ s.cli.mid.toNat = 65535)) (hf : requestFrame s.cli op.first = .ok f) (hl : f.length ≤ maxPayload)
    (hw : Accepting s.w.wsched) :
    ∃ ws ib, Accepting ws ∧ (runOp E op s).2 = { s.bump with w :=
      { inbox := ib, wsched := ws, out := s.w.out ++ message f, srv := (E.V.react s.w.srv (message f)).1 } } := by
  obtain ⟨ws, h1, h2⟩ := send_ok E op.first s f hc hf hl hw
  obtain ⟨ib, h3⟩ := runOp_single E op hs s
  rw [h2] at h3
  exact ⟨ws, ib, h1, h3⟩

theorem requestFrame_umount (c : Cli) (t : UInt16) :
    requestFrame c (treeDisconnectMsg t) = .ok (frameOf (requestInfo c (treeDisconnectMsg t)) [] []) :=
  requestFrame_of_body (p := []) (d := []) rfl (by show 0 / 2 < 256; decide) (by decide)

end Cifs
