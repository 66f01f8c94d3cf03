import Verif.Lemmas.Recv
import Verif.Lemmas.Mids
import Verif.Spec.Replies
import Verif.Props.Codec
/-! # The outcome of an operation as a function of the reply -/

namespace Cifs
open Spec

variable {σ : Type}

/-- Pure results as outcomes. -/
def Res.out {ε α : Type} : Res ε α → Out ε α
  | .ok a => .ok a
  | .err e => .err e
  | .panic => .panic

/-- Apply a function to the value of a result. -/
def Res.mapOk {ε α β : Type} (f : α → β) : Res ε α → Res ε β
  | .ok a => .ok (f a)
  | .err e => .err e
  | .panic => .panic

theorem flatMsg_delivers (t : Tail) {b f rest : Bytes} (h : Delivers b f rest) : flatMsg t b = (.ok f, rest) := by
  unfold flatMsg; rw [flatRecvMessage_delivers t h]; rfl

theorem parse_mid {f : Bytes} {i : Info} {r : Bytes} (h : Info.parse f = .ok (i, r)) : midOf (message f) = some i.mid.toNat :=
  (C17_read f i r h).2.2.2.2.2.2.2.2.2

theorem flatNext_skips (t : Tail) (mid : UInt16) {b b' : Bytes} (h : Skips mid.toNat b b') : flatNext t mid b = flatNext t mid b' := by
  induction h with
  | done => rfl
  | skip hd hg m hm hne hs ih =>
    obtain ⟨i, r, hp⟩ := (C13_accepted_iff _).mpr hg
    rw [flatNext_eq, flatMsg_delivers t hd]
    dsimp only
    rw [hp]
    dsimp only
    rw [if_neg, ih]
    intro h
    rw [parse_mid hp, h] at hm
    exact hne (Option.some.inj hm).symm

theorem flatNext_awaits (t : Tail) (mid : UInt16) {b f rest : Bytes} (h : Awaits mid.toNat b f rest) :
    ∃ i, Info.parse f = .ok (i, f.drop 32) ∧ flatNext t mid b = (.ok (i, f.drop 32), rest) := by
  obtain ⟨b', hs, hd, hg, hm⟩ := h
  obtain ⟨i, r, hp⟩ := (C13_accepted_iff _).mpr hg
  have hr := (C17_read f i r hp).1
  subst hr
  refine ⟨i, hp, ?_⟩
  rw [flatNext_skips t mid hs, flatNext_eq, flatMsg_delivers t hd]
  dsimp only
  rw [hp]
  dsimp only
  rw [if_pos]
  rw [parse_mid hp] at hm
  exact UInt16.toNat_inj.mp (Option.some.inj hm)

/-- Conversely, what is found is the first reply with that multiplex id. -/
theorem awaits_of_flatNext (t : Tail) (mid : UInt16) (n : Nat) (b : Bytes) (hn : b.length < n) (p : Info × Bytes) (rest : Bytes)
    (h : flatNext t mid b = (.ok p, rest)) : ∃ f, Awaits mid.toNat b f rest ∧ Info.parse f = .ok p := by
  induction n generalizing b with
  | zero => omega
  | succ n ih =>
    rw [flatNext_eq] at h
    have hc := flatMsg_cases t b
    rcases hm : flatMsg t b with ⟨o, b'⟩
    rw [hm] at h hc
    cases o with
    | ok f =>
      dsimp only at h
      have hd : Delivers b f b' := by
        apply flatRecvMessage_ok t
        unfold flatMsg at hm
        rcases hr : flatRecvMessage t b with ⟨o, r⟩
        rw [hr] at hm
        cases o <;> simp [Out.net] at hm
        rw [hm.1, hm.2]
      cases hp : Info.parse f with
      | ok q =>
        rw [hp] at h
        dsimp only at h
        have hg := (C13_accepted_iff f).mp ⟨q.1, q.2, hp⟩
        by_cases hq : q.1.mid = mid
        · rw [if_pos hq] at h
          cases h
          exact ⟨f, ⟨b, .done b, hd, hg, by rw [parse_mid hp, hq]⟩, hp⟩
        · rw [if_neg hq] at h
          have := hc.2.2.2 f rfl
          obtain ⟨f', ⟨b'', hs, h2⟩, h3⟩ := ih b' (by dsimp only at this; omega) h
          exact ⟨f', ⟨b'', .skip hd hg _ (parse_mid hp) (fun e => hq (UInt16.toNat_inj.mp e)) hs, h2⟩, h3⟩
      | err e => rw [hp] at h; cases h
      | panic => rw [hp] at h; cases h
    | _ => cases h

/-- The outcome of a single-reply operation as a function of the reply. -/
def Op.decode : Op → Info → Bytes → Res Error Val
  | .mount .., i, b => (accept Share.reply i b).mapOk Val.share
  | .umount .., i, b => (accept treeDisconnectReply i b).mapOk (fun _ => Val.unit)
  | .openfile .., i, b => (accept Handle.reply i b).mapOk Val.handle
  | .opendir .., i, b => (accept Handle.reply i b).mapOk Val.handle
  | .close .., i, b => (accept closeReply i b).mapOk (fun _ => Val.unit)
  | .read .., i, b => (accept readReply i b).mapOk Val.bytes
  | .delete .., i, b => (accept deleteReply i b).mapOk (fun _ => Val.unit)
  | .rmdir .., i, b => (accept rmdirReply i b).mapOk (fun _ => Val.unit)
  | .notify .., i, b => (accept (transactReply notificationParse) i b).mapOk Val.changes
  | _, _, _ => .panic

/-- The outcome of looking for a reply and decoding it. -/
def decodeOut (f : Info → Bytes → Res Error Val) : Out Error (Info × Bytes) → Out Error Val
  | .ok p => (f p.1 p.2).out
  | .err e => .err e
  | .panic => .panic
  | .pending => .pending
  | .running => .running

theorem recv_map {α : Type} (E : Env σ) (R : Reply α) (g : α → Val) (mid : UInt16) (s : St σ) :
    ∃ ib, ib.flatten = (flatNext (E.V.tail s.w.srv) mid s.w.flat).2 ∧
      M.map' g (recv E R mid) s =
        (decodeOut (fun i b => (accept R i b).mapOk g) (flatNext (E.V.tail s.w.srv) mid s.w.flat).1, s.setInbox ib) := by
  obtain ⟨ib, h1, h2⟩ := recv_flatC E R mid s
  rw [flatReply_eq] at h1 h2
  rcases h : flatNext (E.V.tail s.w.srv) mid s.w.flat with ⟨o, b⟩
  refine ⟨ib, ?_, ?_⟩
  · rw [h1]
    cases o with
    | ok p => rw [M.bind_ok h]; unfold M.ofRes; cases accept R p.1 p.2 <;> rfl
    | err e => rw [M.bind_err h]
    | panic => rw [M.bind_panic h]
    | pending => rw [M.bind_pending h]
    | running => rw [M.bind_running h]
  · unfold M.map' M.bind
    rw [h2]
    cases o with
    | ok p => rw [M.bind_ok h]; unfold M.ofRes decodeOut; dsimp only; cases accept R p.1 p.2 <;> rfl
    | err e => rw [M.bind_err h]; rfl
    | panic => rw [M.bind_panic h]; rfl
    | pending => rw [M.bind_pending h]; rfl
    | running => rw [M.bind_running h]; rfl

theorem runOp_oneReply (E : Env σ) (op : Op) (ho : oneReply op = true) (s s1 : St σ) (mid : UInt16) (h : send E op.first s = (.ok mid, s1)) :
    ∃ ib, ib.flatten = (flatNext (E.V.tail s1.w.srv) mid s1.w.flat).2 ∧
      runOp E op s = (decodeOut op.decode (flatNext (E.V.tail s1.w.srv) mid s1.w.flat).1, s1.setInbox ib) := by
  have key : ∀ {α : Type} (m : Msg) (R : Reply α) (g : α → Val), send E m s = (.ok mid, s1) →
      ∃ ib, ib.flatten = (flatNext (E.V.tail s1.w.srv) mid s1.w.flat).2 ∧ M.map' g (command E m R) s =
        (decodeOut (fun i b => (accept R i b).mapOk g) (flatNext (E.V.tail s1.w.srv) mid s1.w.flat).1, s1.setInbox ib) := by
    intro α m R g hs
    have e : M.map' g (command E m R) s = M.map' g (recv E R mid) s1 := by
      show M.bind (M.bind (send E m) fun mid => recv E R mid) _ s = _
      simp only [M.bind, hs, M.map']
    rw [e]
    exact recv_map E R g mid s1
  cases op
  case download => simp [oneReply] at ho
  case list => simp [oneReply] at ho
  case findFirst => simp [oneReply] at ho
  case findNext => simp [oneReply] at ho
  case mount => exact key _ Share.reply Val.share h
  case umount => exact key _ treeDisconnectReply (fun _ => Val.unit) h
  case openfile => exact key _ Handle.reply Val.handle h
  case opendir => exact key _ Handle.reply Val.handle h
  case close => exact key _ closeReply (fun _ => Val.unit) h
  case read => exact key _ readReply Val.bytes h
  case delete => exact key _ deleteReply (fun _ => Val.unit) h
  case rmdir => exact key _ rmdirReply (fun _ => Val.unit) h
  case notify => exact key _ (transactReply notificationParse) Val.changes h

/-- The one request of an operation that made one. -/
theorem single_send (E : Env σ) (log : σ → List Bytes) (hlog : Logs E.V log) (op : Op) (hs : single op = true) (s : St σ) (req : Bytes)
    (h : log (runOp E op s).2.w.srv = log s.w.srv ++ [req]) :
    ∃ f s1, requestFrame s.cli op.first = .ok f ∧ f.length ≤ maxPayload ∧ req = message f ∧ send E op.first s = (.ok s.cli.mid, s1) ∧
      s1.cli = s.bump.cli ∧ s1.w.srv = (E.V.react s.w.srv req).1 ∧ s1.w.flat = s.w.inbox.flatten ++ (E.V.react s.w.srv req).2.flatten := by
  obtain ⟨ib, hr⟩ := runOp_single E op hs s
  rw [hr] at h
  have hne : ∀ s1 : St σ, s1.w.srv = s.w.srv → log (s1.setInbox ib).w.srv ≠ log s.w.srv ++ [req] := by
    intro s1 e h'
    rw [St.setInbox_srv, e] at h'
    have := congrArg List.length h'
    simp at this
  rcases hc : send E op.first s with ⟨o, s1⟩
  rw [hc] at h
  have hu := hc
  unfold send at hu
  split at hu
  · cases hu; exact absurd h (hne _ rfl)
  · cases hf : requestFrame s.cli op.first with
    | err e => rw [hf] at hu; cases hu; exact absurd h (hne _ rfl)
    | panic => rw [hf] at hu; cases hu; exact absurd h (hne _ rfl)
    | ok f =>
      rw [hf] at hu
      simp only [M.bind, liftNet_eq, sendMessage_eq, be24_packet] at hu
      by_cases hl : f.length > MAX_FRAME_LENGTH
      · rw [if_pos hl] at hu; cases hu; exact absurd h (hne _ rfl)
      · rw [if_neg hl] at hu
        simp only [writeExactly] at hu
        rcases hw : writeLoop s.w.wsched (packet 0 f) s.w.out with ⟨r, ws, out⟩
        rw [hw] at hu
        cases r with
        | failed e => cases hu; exact absurd h (hne _ rfl)
        | blocked => cases hu; exact absurd h (hne _ rfl)
        | done =>
          cases hu
          have hm : req = message f := by
            have h' : log (E.V.react s.w.srv (packet 0 f)).1 = _ := h
            rw [hlog] at h'
            have := List.append_cancel_left h'
            cases this; rfl
          subst hm
          refine ⟨f, _, rfl, by simp only [MAX_FRAME_LENGTH, maxPayload] at *; omega, rfl, rfl, rfl, rfl, ?_⟩
          simp [World.flat]; rfl

/-- The outcome of a single-reply operation whose reply has arrived. -/
theorem exchange_eq {E : Env σ} {log : σ → List Bytes} (hlog : Logs E.V log) {op : Op} (ho : oneReply op = true) {s : St σ} {f rest : Bytes}
    (h : Exchange E log op s f rest) : ∃ i, Info.parse f = .ok (i, f.drop 32) ∧ (runOp E op s).1 = (op.decode i (f.drop 32)).out ∧
      (runOp E op s).2.w.inbox.flatten = rest ∧ (runOp E op s).2.cli = s.bump.cli := by
  obtain ⟨req, mid, h1, h2, h3⟩ := h
  have hs : single op = true := by cases op <;> first | rfl | (simp [oneReply] at ho)
  obtain ⟨fr, s1, e1, e2, e3, e4, e5, e6, e7⟩ := single_send E log hlog op hs s req h1
  rw [e3, requestFrame_mid (sends_keepsMid (op := op) (by cases op <;> first | rfl | (simp [oneReply] at ho))) e1] at h2
  have h2 := Option.some.inj h2
  subst h2
  rw [← e7] at h3
  obtain ⟨ib, i1, i2⟩ := runOp_oneReply E op ho s s1 _ e4
  obtain ⟨i, hp, hn⟩ := flatNext_awaits (E.V.tail s1.w.srv) s.cli.mid h3
  rw [hn] at i1 i2
  refine ⟨i, hp, ?_, ?_, ?_⟩
  · rw [i2]; rfl
  · rw [i2]; exact i1
  · rw [i2]; exact e5

/-! ## Replies that are refused -/

/-- What a search operation makes of the bytes that follow its request. -/
def Op.search : Op → UInt16 → Tail → M Error Bytes Val
  | .findFirst .., mid, t => M.map' Val.first (flatCollect findFirst2Parse mid t)
  | .findNext .., mid, t => M.map' Val.next (flatCollect findNext2Parse mid t)
  | _, _, _ => fun b => (.panic, b)

/-- Search operations: one request, possibly several replies. -/
def Op.isFind : Op → Bool
  | .findFirst .. => true
  | .findNext .. => true
  | _ => false

theorem single_cases (op : Op) (hs : single op = true) : oneReply op = true ∨ op.isFind = true := by
  cases op <;> simp [single, oneReply, Op.isFind] at *

theorem runOp_find (E : Env σ) (op : Op) (ho : op.isFind = true) (s s1 : St σ) (mid : UInt16) (h : send E op.first s = (.ok mid, s1)) :
    ∃ ib, ib.flatten = (op.search mid (E.V.tail s1.w.srv) s1.w.flat).2 ∧
      runOp E op s = ((op.search mid (E.V.tail s1.w.srv) s1.w.flat).1, s1.setInbox ib) := by
  have key : ∀ {α : Type} (tid : UInt16) (c : SubCmd2) (sub : SubReply2 α) (g : α → Val), send E (transact2Msg tid c) s = (.ok mid, s1) →
      ∃ ib, ib.flatten = (M.map' g (flatCollect sub mid (E.V.tail s1.w.srv)) s1.w.flat).2 ∧ M.map' g (transact2 E tid c sub) s =
        ((M.map' g (flatCollect sub mid (E.V.tail s1.w.srv)) s1.w.flat).1, s1.setInbox ib) := by
    intro α tid c sub g hs
    have e : M.map' g (transact2 E tid c sub) s = M.map' g (collect E sub mid) s1 := by
      show M.bind (M.bind (send E (transact2Msg tid c)) fun mid => collect E sub mid) _ s = _
      simp only [M.bind, hs, M.map']
    rw [e]
    exact FlatC.bind (collect_flatC E sub mid) (fun a => FlatC.pure E (g a)) s1
  cases op
  case findFirst => exact key _ _ findFirst2Parse Val.first h
  case findNext => exact key _ _ findNext2Parse Val.next h
  all_goals simp [Op.isFind] at ho

/-- A first reply that is refused. -/
theorem search_refused (op : Op) (ho : op.isFind = true) (mid : UInt16) (t : Tail) (b f rest : Bytes) (i : Info) (e : Error)
    (h : flatNext t mid b = (.ok (i, f), rest)) (ha : accept trans2Reply i f = .err e) : op.search mid t b = (.err e, rest) := by
  have hr : flatReply trans2Reply mid t b = (.err e, rest) := by
    rw [flatReply_eq, M.bind_ok h]; simp only [M.ofRes, ha]; rfl
  have hg : flatGather t mid .new b = (.err e, rest) := by rw [flatGather_eq, hr]
  have hc : ∀ {α : Type} (sub : SubReply2 α), flatCollect sub mid t b = (.err e, rest) := by
    intro α sub; exact M.bind_err hg
  cases op
  case findFirst => exact M.bind_err (hc findFirst2Parse)
  case findNext => exact M.bind_err (hc findNext2Parse)
  all_goals simp [Op.isFind] at ho

theorem first_sent (op : Op) (hs : single op = true) : op.sends op.first := by
  cases op <;> first | rfl | (simp [single] at hs)

/-- Where an operation stands when the first reply to its only request has arrived. -/
theorem exchange_send {E : Env σ} {log : σ → List Bytes} (hlog : Logs E.V log) {op : Op} (hs : single op = true) {s : St σ} {f rest : Bytes}
    (h : Exchange E log op s f rest) : ∃ s1 i, send E op.first s = (.ok s.cli.mid, s1) ∧ s1.cli = s.bump.cli ∧
      Info.parse f = .ok (i, f.drop 32) ∧ flatNext (E.V.tail s1.w.srv) s.cli.mid s1.w.flat = (.ok (i, f.drop 32), rest) := by
  obtain ⟨req, mid, h1, h2, h3⟩ := h
  obtain ⟨fr, s1, e1, e2, e3, e4, e5, e6, e7⟩ := single_send E log hlog op hs s req h1
  rw [e3, requestFrame_mid (sends_keepsMid (first_sent op hs)) e1] at h2
  have h2 := Option.some.inj h2
  subst h2
  rw [← e7] at h3
  obtain ⟨i, hp, hn⟩ := flatNext_awaits (E.V.tail s1.w.srv) s.cli.mid h3
  exact ⟨s1, i, e4, e5, hp, hn⟩

theorem exchange_wrong_cmd {E : Env σ} {log : σ → List Bytes} (hlog : Logs E.V log) {op : Op} (hs : single op = true) {s : St σ}
    {f rest : Bytes} (h : Exchange E log op s f rest) (i : Info) (hp : Info.parse f = .ok (i, f.drop 32)) (hc : i.cmd ≠ op.first.cmd) :
    (runOp E op s).1 = .err (.UnexpectedReply op.first.cmd i.cmd) := by
  obtain ⟨s1, i', e1, e2, e3, e4⟩ := exchange_send hlog hs h
  rw [hp] at e3
  cases e3
  have key : ∀ {α : Type} (R : Reply α), i.cmd ≠ R.cmd → accept R i (f.drop 32) = .err (.UnexpectedReply R.cmd i.cmd) := by
    intro α R h1
    rw [accept, if_pos h1]
  rcases single_cases op hs with ho | ho
  · obtain ⟨ib, i1, i2⟩ := runOp_oneReply E op ho s s1 _ e1
    rw [i2, e4]
    cases op <;> first
      | (simp [oneReply] at ho; done)
      | (simp only [decodeOut, Op.decode]; rw [key]; · rfl
         · exact hc)
  · obtain ⟨ib, i1, i2⟩ := runOp_find E op ho s s1 _ e1
    rw [i2, search_refused op ho _ _ _ _ _ _ _ e4 (by
      rw [accept, if_pos]; cases op <;> first | exact hc | (simp [Op.isFind] at ho))]
    cases op <;> first | rfl | (simp [Op.isFind] at ho)

theorem exchange_bad_status {E : Env σ} {log : σ → List Bytes} (hlog : Logs E.V log) {op : Op} (hs : single op = true) {s : St σ}
    {f rest : Bytes} (h : Exchange E log op s f rest) (i : Info) (hp : Info.parse f = .ok (i, f.drop 32)) (hc : i.cmd = op.first.cmd)
    (hst : i.status ≠ .Known .SUCCESS) : (runOp E op s).1 = .err (.ServerError i.status) := by
  obtain ⟨s1, i', e1, e2, e3, e4⟩ := exchange_send hlog hs h
  rw [hp] at e3
  cases e3
  have key : ∀ {α : Type} (R : Reply α), i.cmd = R.cmd → R.cmd ≠ .SessionSetup → accept R i (f.drop 32) = .err (.ServerError i.status) := by
    intro α R h1 h2
    rw [accept, if_neg (by simp [h1]), if_neg]
    rintro (h | ⟨_, h⟩)
    · exact hst h
    · exact h2 (h1 ▸ h)
  rcases single_cases op hs with ho | ho
  · obtain ⟨ib, i1, i2⟩ := runOp_oneReply E op ho s s1 _ e1
    rw [i2, e4]
    cases op <;> first
      | (simp [oneReply] at ho; done)
      | (simp only [decodeOut, Op.decode]; rw [key]; · rfl
         · exact hc
         · simp [Share.reply, treeDisconnectReply, Handle.reply, closeReply, readReply, deleteReply, rmdirReply, transactReply])
  · obtain ⟨ib, i1, i2⟩ := runOp_find E op ho s s1 _ e1
    rw [i2, search_refused op ho _ _ _ _ _ _ _ e4 (key _ (by cases op <;> first | exact hc | (simp [Op.isFind] at ho)) (by decide))]

/-- The first message of a stream that is not a reply to another request is no reply at all. -/
theorem flatNext_garbled (t : Tail) (mid : UInt16) {b b' f rest : Bytes} (hs : Skips mid.toNat b b') (hd : Delivers b' f rest)
    (hg : ¬ Genuine f) : ∃ e, Info.parse f = .err e ∧ flatNext t mid b = (.err (.SMBError e), rest) := by
  cases hp : Info.parse f with
  | ok p => exact absurd ((C13_accepted_iff f).mp ⟨p.1, p.2, hp⟩) hg
  | panic =>
    exfalso
    by_cases h : 32 ≤ f.length ∧ magicOf (message f) = some smbMagic
    · rcases (C13_rejected f).2 hg h.1 h.2 with ⟨_, _, _, e⟩ | ⟨_, _, _, e⟩ <;> rw [hp] at e <;> cases e
    · have e := (C13_rejected f).1.mpr h
      rw [hp] at e; cases e
  | err e =>
    refine ⟨e, rfl, ?_⟩
    rw [flatNext_skips t mid hs, flatNext_eq, flatMsg_delivers t hd]
    dsimp only
    rw [hp]

/-- An operation whose reply cannot be found. -/
theorem single_next_err {E : Env σ} {op : Op} (hs : single op = true) {s s1 : St σ} {mid : UInt16} {e : Error} {rest : Bytes}
    (h : send E op.first s = (.ok mid, s1)) (hn : flatNext (E.V.tail s1.w.srv) mid s1.w.flat = (.err e, rest)) :
    (runOp E op s).1 = .err e := by
  rcases single_cases op hs with ho | ho
  · obtain ⟨ib, i1, i2⟩ := runOp_oneReply E op ho s s1 _ h
    rw [i2, hn]; rfl
  · obtain ⟨ib, i1, i2⟩ := runOp_find E op ho s s1 _ h
    rw [i2]
    have hr : flatReply trans2Reply mid (E.V.tail s1.w.srv) s1.w.flat = (.err e, rest) := by rw [flatReply_eq, M.bind_err hn]
    have hg : flatGather (E.V.tail s1.w.srv) mid .new s1.w.flat = (.err e, rest) := by rw [flatGather_eq, hr]
    have hc : ∀ {α : Type} (sub : SubReply2 α), flatCollect sub mid (E.V.tail s1.w.srv) s1.w.flat = (.err e, rest) := by
      intro α sub; exact M.bind_err hg
    cases op
    case findFirst => exact congrArg Prod.fst (M.bind_err (hc findFirst2Parse))
    case findNext => exact congrArg Prod.fst (M.bind_err (hc findNext2Parse))
    all_goals simp [Op.isFind] at ho

/-- The first reply to an operation that succeeds. -/
theorem single_next_ok {E : Env σ} {op : Op} (hs : single op = true) {s s1 : St σ} {mid : UInt16} {v : Val}
    (h : send E op.first s = (.ok mid, s1)) (hv : (runOp E op s).1 = .ok v) :
    ∃ i f rest, flatNext (E.V.tail s1.w.srv) mid s1.w.flat = (.ok (i, f), rest) ∧ i.cmd = op.first.cmd ∧ i.status = .Known .SUCCESS := by
  have key : ∀ {α : Type} (R : Reply α) (i : Info) (b : Bytes) (a : α), R.cmd ≠ .SessionSetup → accept R i b = .ok a →
      i.cmd = R.cmd ∧ i.status = .Known .SUCCESS := by
    intro α R i b a hR ha
    rw [accept] at ha
    by_cases h1 : i.cmd = R.cmd
    · rw [if_neg (by simp [h1])] at ha
      split at ha
      · rename_i h2
        rcases h2 with h2 | ⟨_, h2⟩
        · exact ⟨h1, h2⟩
        · exact absurd (h1 ▸ h2) hR
      · cases ha
    · rw [if_pos h1] at ha; cases ha
  have key' : ∀ {α : Type} (R : Reply α) (g : α → Val) (i : Info) (b : Bytes), R.cmd ≠ .SessionSetup → (((accept R i b).mapOk g).out = .ok v) →
      i.cmd = R.cmd ∧ i.status = .Known .SUCCESS := by
    intro α R g i b hR ha
    cases hacc : accept R i b with
    | ok a => exact key R i b a hR hacc
    | err e => rw [hacc] at ha; cases ha
    | panic => rw [hacc] at ha; cases ha
  rcases single_cases op hs with ho | ho
  · obtain ⟨ib, i1, i2⟩ := runOp_oneReply E op ho s s1 _ h
    rw [i2] at hv
    rcases hn : flatNext (E.V.tail s1.w.srv) mid s1.w.flat with ⟨o, rest⟩
    rw [hn] at hv
    cases o with
    | ok p =>
      refine ⟨p.1, p.2, rest, rfl, ?_⟩
      cases op
      case download => simp [oneReply] at ho
      case list => simp [oneReply] at ho
      case findFirst => simp [oneReply] at ho
      case findNext => simp [oneReply] at ho
      case mount => exact key' Share.reply _ _ _ (by decide) hv
      case umount => exact key' treeDisconnectReply _ _ _ (by decide) hv
      case openfile => exact key' Handle.reply _ _ _ (by decide) hv
      case opendir => exact key' Handle.reply _ _ _ (by decide) hv
      case close => exact key' closeReply _ _ _ (by decide) hv
      case read => exact key' readReply _ _ _ (by decide) hv
      case delete => exact key' deleteReply _ _ _ (by decide) hv
      case rmdir => exact key' rmdirReply _ _ _ (by decide) hv
      case notify => exact key' (transactReply notificationParse) _ _ _ (by simp [transactReply]) hv
    | _ => cases hv
  · obtain ⟨ib, i1, i2⟩ := runOp_find E op ho s s1 _ h
    rw [i2] at hv
    have hcol : ∀ {α : Type} (sub : SubReply2 α) (g : α → Val), (M.map' g (flatCollect sub mid (E.V.tail s1.w.srv)) s1.w.flat).1 = .ok v →
        ∃ r rest, flatReply trans2Reply mid (E.V.tail s1.w.srv) s1.w.flat = (.ok r, rest) := by
      intro α sub g hg
      rcases hr : flatReply trans2Reply mid (E.V.tail s1.w.srv) s1.w.flat with ⟨o, rest⟩
      have he := flatGather_eq (E.V.tail s1.w.srv) mid .new s1.w.flat
      rw [hr] at he
      cases o with
      | ok r => exact ⟨r, rest, rfl⟩
      | err e => simp only [M.map', M.bind, flatCollect, M.bind_apply, he] at hg; cases hg
      | panic => simp only [M.map', M.bind, flatCollect, M.bind_apply, he] at hg; cases hg
      | pending => simp only [M.map', M.bind, flatCollect, M.bind_apply, he] at hg; cases hg
      | running => simp only [M.map', M.bind, flatCollect, M.bind_apply, he] at hg; cases hg
    obtain ⟨r, rest, hr⟩ : ∃ r rest, flatReply trans2Reply mid (E.V.tail s1.w.srv) s1.w.flat = (.ok r, rest) := by
      cases op
      case findFirst => exact hcol _ _ hv
      case findNext => exact hcol _ _ hv
      all_goals simp [Op.isFind] at ho
    rw [flatReply_eq] at hr
    rcases hn : flatNext (E.V.tail s1.w.srv) mid s1.w.flat with ⟨o, rest'⟩
    cases o with
    | ok p =>
      rw [M.bind_ok hn] at hr
      refine ⟨p.1, p.2, rest', rfl, ?_⟩
      have hc : op.first.cmd = trans2Reply.cmd := by cases op <;> first | rfl | (simp [Op.isFind] at ho)
      rw [hc]
      cases hacc : accept trans2Reply p.1 p.2 with
      | ok a => exact key _ _ _ _ (by decide) hacc
      | err e => simp only [M.ofRes, hacc] at hr; cases hr
      | panic => simp only [M.ofRes, hacc] at hr; cases hr
    | err e => rw [M.bind_err hn] at hr; cases hr
    | panic => rw [M.bind_panic hn] at hr; cases hr
    | pending => rw [M.bind_pending hn] at hr; cases hr
    | running => rw [M.bind_running hn] at hr; cases hr

theorem send_ok_inv {E : Env σ} {m : Msg} {s s1 : St σ} {mid : UInt16} (h : send E m s = (.ok mid, s1)) :
    ∃ f, requestFrame s.cli m = .ok f ∧ f.length ≤ maxPayload ∧ mid = s.cli.mid ∧ s1.cli = s.bump.cli ∧
      s1.w.srv = (E.V.react s.w.srv (message f)).1 ∧ s1.w.flat = s.w.inbox.flatten ++ (E.V.react s.w.srv (message f)).2.flatten := by
  unfold send at h
  split at h
  · cases h
  · cases hf : requestFrame s.cli m with
    | err e => rw [hf] at h; cases h
    | panic => rw [hf] at h; cases h
    | ok f =>
      rw [hf] at h
      simp only [M.bind, liftNet_eq, sendMessage_eq, be24_packet] at h
      by_cases hl : f.length > MAX_FRAME_LENGTH
      · rw [if_pos hl] at h; cases h
      · rw [if_neg hl] at h
        simp only [writeExactly] at h
        rcases hw : writeLoop s.w.wsched (packet 0 f) s.w.out with ⟨r, ws, out⟩
        rw [hw] at h
        cases r with
        | failed e => cases h
        | blocked => cases h
        | done =>
          cases h
          refine ⟨f, rfl, by simp only [MAX_FRAME_LENGTH, maxPayload] at *; omega, rfl, rfl, rfl, ?_⟩
          simp [World.flat]; rfl

/-- An operation that succeeds made its request. -/
theorem ok_send {E : Env σ} {op : Op} {s : St σ} {v : Val} (hv : (runOp E op s).1 = .ok v) : ∃ s1, send E op.first s = (.ok s.cli.mid, s1) := by
  obtain ⟨k, hk⟩ := runOp_starts E op
  rw [hk, M.bind_apply] at hv
  rcases hs : send E op.first s with ⟨o, s1⟩
  simp only [M.bind, hs] at hv
  cases o with
  | ok mid =>
    obtain ⟨_, _, _, e, _⟩ := send_ok_inv hs
    exact ⟨s1, by rw [e]⟩
  | _ => cases hv

/-- The reply that made an operation succeed. -/
theorem exchange_of_ok {E : Env σ} {log : σ → List Bytes} (hlog : Logs E.V log) {op : Op} (hs : single op = true) {s : St σ} {v : Val}
    (hv : (runOp E op s).1 = .ok v) : ∃ f rest i, Exchange E log op s f rest ∧ Info.parse f = .ok (i, f.drop 32) ∧
      i.cmd = op.first.cmd ∧ i.status = .Known .SUCCESS := by
  obtain ⟨s1, h1⟩ := ok_send hv
  obtain ⟨fr, e1, e2, e3, e4, e5, e6⟩ := send_ok_inv h1
  obtain ⟨i, b, rest, hn, hc, hst⟩ := single_next_ok hs h1 hv
  obtain ⟨f, ha, hp⟩ := awaits_of_flatNext _ _ _ _ (Nat.lt_succ_self _) _ _ hn
  refine ⟨f, rest, i, ⟨message fr, s.cli.mid.toNat, ?_, ?_, ?_⟩, ?_, hc, hst⟩
  · obtain ⟨ib, hr⟩ := runOp_single E op hs s
    rw [hr, h1, St.setInbox_srv, e5, hlog]
  · exact requestFrame_mid (sends_keepsMid (first_sent op hs)) e1
  · rw [← e6]; exact ha
  · have := (C17_read f _ _ hp).1
    rw [hp, this]

theorem codes_first (op : Op) (hs : single op = true) : codes op = [op.first.cmd.code.toNat] := by
  cases op <;> first | rfl | (simp [single] at hs)

theorem code_inj {c c' : Cmd} (h : c.code.toNat = c'.code.toNat) : c = c' := by
  have : c.code = c'.code := UInt8.toNat_inj.mp h
  have h1 := tryFrom_code c
  rw [this, tryFrom_code] at h1
  exact (Option.some.inj h1).symm

end Cifs
