import Verif.Spec.Service
import Verif.Lemmas.Listing
import Verif.Lemmas.Transact
import Verif.Props.Setup
/-!
# The client as a stub for a file service (C66)
-/

namespace Cifs
open Spec

variable {σ A α : Type}

/-! ## Requests -/

/-- The request of an operation is a request for its call. -/
theorem isCall_first {c : Cli} {op : Op} {k : Call} (hk : callOf op = some k) {fr : Bytes} (h : requestFrame c op.first = .ok fr) :
    IsCall c.useUnicode (message fr) k := by
  cases op <;> cases hk
  case mount path password =>
    obtain ⟨p, d, hb, _, _, rfl⟩ := requestFrame_ok h
    refine ⟨by rw [frame_cmd]; rfl, ?_⟩
    have := is_treeConnect _ _ _ p d hb
    rw [requestInfo_unicode _ _ rfl] at this
    exact this
  case umount =>
    obtain ⟨p, d, hb, _, _, rfl⟩ := requestFrame_ok h
    exact ⟨by rw [frame_cmd]; rfl, by rw [frame_tid]; rfl, is_treeDisconnect _ _ p d hb⟩
  case openfile => exact openRequest h
  case opendir share path =>
    obtain ⟨p, d, hb, _, _, rfl⟩ := requestFrame_ok h
    exact ⟨by rw [frame_cmd]; rfl, by rw [frame_tid]; rfl,
      is_open _ (OpenMsg.dir share.tid (sanitizePath path)) p d hb rfl rfl rfl rfl rfl rfl rfl⟩
  case close => exact closeRequest h
  case read => exact readRequest h
  case delete =>
    obtain ⟨p, d, hb, _, _, rfl⟩ := requestFrame_ok h
    exact ⟨by rw [frame_cmd]; rfl, by rw [frame_tid]; rfl, is_delete _ _ _ p d hb⟩
  case rmdir =>
    obtain ⟨p, d, hb, _, _, rfl⟩ := requestFrame_ok h
    exact ⟨by rw [frame_cmd]; rfl, by rw [frame_tid]; rfl, is_rmdir _ _ _ p d hb⟩
  case notify =>
    obtain ⟨p, d, hb, _, _, rfl⟩ := requestFrame_ok h
    exact ⟨by rw [frame_cmd]; rfl, by rw [frame_tid]; rfl, is_transact _ _ _ _ p d hb⟩
  case findFirst => exact firstRequest h
  case findNext => exact nextRequest h

/-- It bears the user id of the session. -/
theorem uid_first {c : Cli} {op : Op} {k : Call} (hk : callOf op = some k) {fr : Bytes} (h : requestFrame c op.first = .ok fr) :
    uidOf (message fr) = some c.uid.toNat := by
  obtain ⟨p, d, _, _, _, rfl⟩ := requestFrame_ok h
  rw [frame_uid]
  cases op <;> cases hk <;> rfl

/-! ## Replies -/

theorem rights_unique {ps : Bytes} {o : Nat} {r r' : Option UInt32} (h : IsRights ps o r) (h' : IsRights ps o r') : r = r' := by
  cases r with
  | none =>
    cases r' with
    | none => rfl
    | some y => obtain ⟨n, h1, _⟩ := h'; have := u32At_length h1; simp only [IsRights] at h; omega
  | some x =>
    obtain ⟨n, h1, h2⟩ := h
    cases r' with
    | none => have := u32At_length h1; simp only [IsRights] at h'; omega
    | some y =>
      obtain ⟨m, h3, h4⟩ := h'
      rw [h1] at h3
      cases h3
      rw [UInt32.toNat_inj.mp (h2.trans h4.symm)]

theorem accept_mount {f : Bytes} {i : Info} (hp : Info.parse f = .ok (i, f.drop 32)) {share : Share} (h : Mounts f share) :
    accept Share.reply i (f.drop 32) = .ok share := by
  obtain ⟨ps, ds, unicode, h1, h2, h3, h4, h5, h6, h7, h8⟩ := h
  refine (accept_iff Share.reply (by decide) hp share).mpr ⟨ps, ds, h1, ?_⟩
  have he : ps.length % 2 = 0 := by
    obtain ⟨w, _, _, _, e, _⟩ := body_split ((C13_accepted_iff f).mp ⟨_, _, hp⟩).1 h1.2.2
    omega
  have huc := unicode_contains hp h4
  rw [make_andx Share.reply rfl i h2.1 h2.2]
  rw [← huc] at h8
  obtain ⟨ar, gr, k1, k2, k3⟩ := Share.create_eq i h3 he h8
  have ht := (C17_read f i _ hp).2.2.2.2.2.2.2.1
  rw [ht] at h5
  have e1 := rights_unique k1 h6
  have e2 := rights_unique k2 h7
  have e3 : i.tid = share.tid := UInt16.toNat_inj.mp (Option.some.inj h5)
  rw [e1, e2, e3] at k3
  exact k3

theorem accept_notify {f : Bytes} {i : Info} (hp : Info.parse f = .ok (i, f.drop 32)) {l : List (Str × NotifyAction)} (h : Notifies f l) :
    accept (transactReply notificationParse) i (f.drop 32) = .ok l := by
  obtain ⟨ps, ds, pb, db, h1, h2, h3⟩ := h
  exact (accept_iff _ (by decide) hp l).mpr ⟨ps, ds, h1, by rw [make_plain _ rfl i]; exact ((notify_create i ps ds).1 l).mpr ⟨pb, db, h2, h3⟩⟩

theorem decode_gives {op : Op} {c : Call} (hc : callOf op = some c) {f : Bytes} {i : Info} (hp : Info.parse f = .ok (i, f.drop 32)) {x : Val}
    (h : Gives f c x) : op.decode i (f.drop 32) = .ok x := by
  have unit : ∀ (R : Reply Unit), R.cmd ≠ .SessionSetup → (∀ i ps ds, R.make i ps ds = .ok ()) → (∃ ps ds, Succeeds f R.cmd.code.toNat ps ds) →
      accept R i (f.drop 32) = .ok () := fun R h1 h2 ⟨ps, ds, h3⟩ => (accept_iff R h1 hp ()).mpr ⟨ps, ds, h3, h2 _ _ _⟩
  cases op <;> cases hc <;> cases x <;> first | exact h.elim | skip
  · simp only [Op.decode, accept_mount hp h]; rfl
  · simp only [Op.decode]; rw [unit treeDisconnectReply (by decide) (fun _ _ _ => by rw [make_plain _ rfl]; rfl) h]; rfl
  · simp only [Op.decode, (accept_open hp _).mpr h]; rfl
  · simp only [Op.decode, (accept_open hp _).mpr h]; rfl
  · simp only [Op.decode, (accept_close hp).mpr h]; rfl
  · simp only [Op.decode, (accept_read hp _).mpr h]; rfl
  · simp only [Op.decode]; rw [unit deleteReply (by decide) (fun _ _ _ => by rw [make_plain _ rfl]; rfl) h]; rfl
  · simp only [Op.decode]; rw [unit rmdirReply (by decide) (fun _ _ _ => by rw [make_plain _ rfl]; rfl) h]; rfl
  · simp only [Op.decode, accept_notify hp h]; rfl

/-! ## One request -/

/-- Sending a request. -/
theorem send_serves {E : Env σ} {own : Nat → Prop} {n : Nat} {s : St σ} {m : Msg} (hr : Ready E own (n + 1) s) {fr : Bytes}
    (hf : requestFrame s.cli m = .ok fr) : ∃ s1, send E m s = (.ok s.cli.mid, s1) ∧ s1.cli = s.bump.cli ∧
      s1.w.srv = (E.V.react s.w.srv (message fr)).1 ∧ s1.w.flat = s.w.inbox.flatten ++ (E.V.react s.w.srv (message fr)).2.flatten ∧
      Accepting s1.w.wsched := by
  obtain ⟨ws, k1, k2⟩ := send_ok E _ s fr hr.first.1 hf (C26_fits hf) hr.writes
  exact ⟨_, k2, rfl, rfl, List.flatten_append, k1⟩

/-- The state after an operation that reads up to `rest`. -/
theorem ready_inbox {E : Env σ} {own : Nat → Prop} {n : Nat} {s s1 : St σ} (hr : Ready E own (n + 1) s) (hc : s1.cli = s.bump.cli)
    (hw : Accepting s1.w.wsched) {ib : List Bytes} (hi : Foreign own ib.flatten) : Ready E own n (s1.setInbox ib) :=
  hr.next hc hi hw

/-- An operation with a single reply. -/
theorem reply_serves {E : Env σ} {own : Nat → Prop} {n : Nat} {s : St σ} {op : Op} (ho : oneReply op = true) (hs : single op = true)
    (hr : Ready E own (n + 1) s) {fr f : Bytes} (hf : requestFrame s.cli op.first = .ok fr) (h : Serves E.V own s.w.srv (message fr) f) :
    ∃ i s', Info.parse f = .ok (i, f.drop 32) ∧ runOp E op s = ((op.decode i (f.drop 32)).out, s') ∧ s'.cli = s.bump.cli ∧
      s'.w.srv = (E.V.react s.w.srv (message fr)).1 ∧ Ready E own n s' := by
  obtain ⟨rest, h1, h2⟩ := serves_awaits hr.unread h (requestFrame_mid (sends_keepsMid (first_sent op hs)) hf) hr.first.2
  obtain ⟨s1, k1, k2, k3, k4, k5⟩ := send_serves hr hf
  obtain ⟨ib, g1, g2⟩ := runOp_oneReply E op ho s s1 _ k1
  obtain ⟨i, hp, hn⟩ := flatNext_awaits (E.V.tail s1.w.srv) s.cli.mid h2
  rw [← k4] at hn
  rw [hn] at g1 g2
  exact ⟨i, _, hp, g2, k2, k3, ready_inbox hr k2 k5 (by rw [g1]; exact h1)⟩

/-- A refused reply. -/
theorem accept_refused {β : Type} (R : Reply β) {f : Bytes} {i : Info} (hp : Info.parse f = .ok (i, f.drop 32)) (hc : cmdOf (message f) = some R.cmd.code.toNat)
    (hR : R.cmd ≠ .SessionSetup) {status : UInt32} (hs : statusOf (message f) = some status.toNat) (h0 : status ≠ 0) :
    accept R i (f.drop 32) = .err (.ServerError (Status.ofU32 status)) := by
  have hr := C17_read f i _ hp
  have h1 := hr.2.1
  rw [hc] at h1
  have h1 := code_inj (Option.some.inj h1)
  have h2 := hr.2.2.1
  rw [hs] at h2
  have h2 := UInt32.toNat_inj.mp (Option.some.inj h2)
  obtain ⟨st, hi⟩ := parse_status hp
  rw [hi, C16_roundtrip] at h2
  rw [accept, if_neg (by simp [h1]), if_neg, hi, h2]
  rintro (h | ⟨_, h⟩)
  · rw [hi, ← h2] at h
    have := C16_roundtrip status
    rw [h] at this
    exact h0 this.symm
  · exact hR (h1.trans h)

/-- A search that is refused. -/
theorem search_serves {E : Env σ} {own : Nat → Prop} {n : Nat} {s : St σ} {op : Op} (ho : op.isFind = true) (hs : single op = true)
    (hr : Ready E own (n + 1) s) {fr f : Bytes} (hf : requestFrame s.cli op.first = .ok fr) (h : Serves E.V own s.w.srv (message fr) f)
    (hc : cmdOf (message f) = some 0x32) {status : UInt32} (hst : statusOf (message f) = some status.toNat) (h0 : status ≠ 0) :
    ∃ s', runOp E op s = (.err (.ServerError (Status.ofU32 status)), s') ∧ s'.cli = s.bump.cli ∧
      s'.w.srv = (E.V.react s.w.srv (message fr)).1 ∧ Ready E own n s' := by
  obtain ⟨rest, h1, h2⟩ := serves_awaits hr.unread h (requestFrame_mid (sends_keepsMid (first_sent op hs)) hf) hr.first.2
  obtain ⟨s1, k1, k2, k3, k4, k5⟩ := send_serves hr hf
  obtain ⟨ib, g1, g2⟩ := runOp_find E op ho s s1 _ k1
  obtain ⟨i, hp, hn⟩ := flatNext_awaits (E.V.tail s1.w.srv) s.cli.mid h2
  rw [← k4] at hn
  rw [search_refused op ho _ _ _ _ _ _ _ hn (accept_refused trans2Reply hp hc (by decide) hst h0)] at g1 g2
  exact ⟨_, g2, k2, k3, ready_inbox hr k2 k5 (by rw [g1]; exact h1)⟩

theorem map'_ok {ε S β γ : Type} {m : M ε S β} {g : β → γ} {s s' : S} {a : β} (h : m s = (.ok a, s')) : M.map' g m s = (.ok (g a), s') := by
  unfold M.map' M.bind; rw [h]

/-- An operation that makes one request, against a server that answers it. -/
theorem answer_serves {E : Env σ} {own : Nat → Prop} {n : Nat} {s : St σ} {op : Op} {c : Call} {r : Answer} (hc : callOf op = some c)
    (hr : Ready E own (n + 1) s) {fr : Bytes} (hf : requestFrame s.cli op.first = .ok fr) (h2 : Answers E.V own s.w.srv (message fr) c r) :
    ∃ s', runOp E op s = (r.outcome, s') ∧ s'.cli = s.bump.cli ∧ s'.w.srv = (E.V.react s.w.srv (message fr)).1 ∧ Ready E own n s' := by
  have hs : single op = true := by cases op <;> first | rfl | (simp [callOf] at hc)
  cases r with
  | refused status =>
    have h2 : status ≠ 0 ∧ ∃ f, Serves E.V own s.w.srv (message fr) f ∧ cmdOf (message f) = some c.code ∧
        statusOf (message f) = some status.toNat := by cases c <;> exact h2
    obtain ⟨h0, f, hsv, hcm, hst⟩ := h2
    rcases single_cases op hs with ho | ho
    · obtain ⟨i, s', hp, g1, g2, g3, g4⟩ := reply_serves ho hs hr hf hsv
      refine ⟨s', ?_, g2, g3, g4⟩
      rw [g1]
      have refuse : ∀ {β : Type} (R : Reply β) (g : β → Val), c.code = R.cmd.code.toNat → R.cmd ≠ .SessionSetup →
          ((accept R i (f.drop 32)).mapOk g).out = (Answer.refused status).outcome := by
        intro β R g e1 e2
        rw [accept_refused R hp (by rw [hcm, e1]) e2 hst h0]; rfl
      congr 1
      cases op <;> cases hc <;> first
        | (simp [oneReply] at ho; done)
        | exact refuse _ _ rfl (by decide)
    · refine search_serves ho hs hr hf hsv ?_ hst h0
      cases op <;> cases hc <;> first | exact hcm | (simp [Op.isFind] at ho)
  | value x =>
    by_cases ho : oneReply op = true
    · have h2 : ∃ f, Serves E.V own s.w.srv (message fr) f ∧ Gives f c x := by
        cases op <;> cases hc <;> cases x <;> first | exact h2 | (simp [oneReply] at ho; done)
      obtain ⟨f, hsv, hg⟩ := h2
      obtain ⟨i, s', hp, g1, g2, g3, g4⟩ := reply_serves ho hs hr hf hsv
      exact ⟨s', by rw [g1, decode_gives hc hp hg]; rfl, g2, g3, g4⟩
    · cases op <;> cases hc <;> first | (simp [oneReply] at ho; done) | skip
      · cases x <;> first | (obtain ⟨_, _, h⟩ := h2; exact h.elim) | skip
        obtain ⟨P, D, h4, h5⟩ := h2
        obtain ⟨s', g1, g2, g3, g4⟩ := transact2_serves findFirst2Parse hr hf h4 (((findFirst_parse P D).1 _).mpr h5)
        exact ⟨s', map'_ok g1, g2, g3, g4⟩
      · cases x <;> first | (obtain ⟨_, _, h⟩ := h2; exact h.elim) | skip
        obtain ⟨P, D, h4, h5⟩ := h2
        obtain ⟨s', g1, g2, g3, g4⟩ := transact2_serves findNext2Parse hr hf h4 (((findNext_parse P D).1 _).mpr h5)
        exact ⟨s', map'_ok g1, g2, g3, g4⟩

/-- An operation that makes one request, against a server that offers a service. -/
theorem call_serves {E : Env σ} {own : Nat → Prop} {Does : A → Call → Answer → A → Prop} {rel : A → σ → Prop} {n : Nat} {s : St σ} {op : Op} {c : Call}
    {a : A} (hi : Implements E.V own s.cli.useUnicode s.cli.uid.toNat Does rel) (hc : callOf op = some c) (hr : Ready E own (n + 1) s)
    (hfit : Fits s.cli.useUnicode op) (ha : rel a s.w.srv) :
    ∃ r a' s' v req, Does a c r a' ∧ Answers E.V own v req c r ∧ runOp E op s = (r.outcome, s') ∧ rel a' s'.w.srv ∧ s'.cli = s.bump.cli ∧
      Ready E own n s' := by
  obtain ⟨fr, hf⟩ := first_fits s.cli op hfit
  obtain ⟨r, a', h1, h2, h3⟩ := hi a s.w.srv (message fr) c ha (isCall_first hc hf) (uid_first hc hf)
  obtain ⟨s', k1, k2, k3, k4⟩ := answer_serves hc hr hf h2
  exact ⟨r, a', s', _, _, h1, h2, k1, by rw [k3]; exact h3, k2, k4⟩

theorem map'_ok_inv {ε S β γ : Type} {m : M ε S β} {g : β → γ} {s s' : S} {v : γ} (h : M.map' g m s = (.ok v, s')) :
    ∃ a, m s = (.ok a, s') ∧ v = g a := by
  unfold M.map' M.bind at h
  rcases hm : m s with ⟨o, s1⟩
  rw [hm] at h
  cases o <;> cases h
  exact ⟨_, rfl, rfl⟩

theorem map'_err_inv {ε S β γ : Type} {m : M ε S β} {g : β → γ} {s s' : S} {e : ε} (h : M.map' g m s = (.err e, s')) : m s = (.err e, s') := by
  unfold M.map' M.bind at h
  rcases hm : m s with ⟨o, s1⟩
  rw [hm] at h
  cases o <;> cases h
  rfl

theorem map'_err {ε S β γ : Type} {m : M ε S β} {g : β → γ} {s s' : S} {e : ε} (h : m s = (.err e, s')) : M.map' g m s = (.err e, s') := by
  unfold M.map' M.bind; rw [h]

theorem map'_panic_inv {ε S β γ : Type} {m : M ε S β} {g : β → γ} {s s' : S} (h : M.map' g m s = (.panic, s')) : m s = (.panic, s') := by
  unfold M.map' M.bind at h
  rcases hm : m s with ⟨o, s1⟩
  rw [hm] at h
  cases o <;> cases h
  rfl

theorem map'_panic {ε S β γ : Type} {m : M ε S β} {g : β → γ} {s s' : S} (h : m s = (.panic, s')) : M.map' g m s = (.panic, s') := by
  unfold M.map' M.bind; rw [h]

theorem map'_congr {ε S β γ : Type} {m m' : M ε S β} {g : β → γ} {s s' : S} (h : m s = m' s') : M.map' g m s = M.map' g m' s' := by
  unfold M.map' M.bind; rw [h]

theorem bind_congr' {ε S β γ : Type} {m m' : M ε S β} {f : β → M ε S γ} {s s' : S} (h : m s = m' s') : (m >>= f) s = (m' >>= f) s' := by
  show M.bind m f s = M.bind m' f s'
  unfold M.bind; rw [h]

theorem Ready.mono {E : Env σ} {own : Nat → Prop} {n m : Nat} {s : St σ} (h : Ready E own n s) (hm : m ≤ n) : Ready E own m s :=
  ⟨h.writes, h.unread, fun k hk => h.ids k (by omega), fun hc => by have := h.enough hc; omega⟩

/-- An operation whose arguments do not fit. -/
theorem long_serves {E : Env σ} {own : Nat → Prop} {n : Nat} {s : St σ} {op : Op} (hr : Ready E own (n + 1) s) (h : ¬ Fits s.cli.useUnicode op) :
    ∃ o s', TooLong s.cli.useUnicode op o ∧ runOp E op s = (o, s') ∧ s'.w.srv = s.w.srv ∧ s'.cli = s.bump.cli ∧ Ready E own n s' := by
  by_cases hp : Panics op
  · exact ⟨_, _, ⟨h, .inl ⟨hp, rfl⟩⟩, C25_violated_panic E op s hr.first.1 hp, rfl, rfl, hr.next rfl hr.unread hr.writes⟩
  · obtain ⟨e, he⟩ := C25_refused E op s hr.first.1 h hp
    exact ⟨_, _, ⟨h, .inr ⟨hp, e, rfl⟩⟩, he, rfl, rfl, hr.next rfl hr.unread hr.writes⟩

/-! ## Downloads and listings -/

section
variable {E : Env σ} {own : Nat → Prop} {Does : A → Call → Answer → A → Prop} {rel : A → σ → Prop}

/-- The same session: the same setting and the same user id. -/
def SameUser (c c' : Cli) : Prop := c'.useUnicode = c.useUnicode ∧ c'.uid = c.uid

theorem SameUser.trans {c c' c'' : Cli} (h' : SameUser c' c'') (h : SameUser c c') : SameUser c c'' := ⟨h'.1.trans h.1, h'.2.trans h.2⟩

/-- What the two loops and the operations have in common: the state they leave. -/
def Left (E : Env σ) (own : Nat → Prop) (rel : A → σ → Prop) (n : Nat) (s s' : St σ) (a' : A) : Prop :=
  rel a' s'.w.srv ∧ SameUser s.cli s'.cli ∧ Ready E own n s'

/-- The loop of a download, with the closing of the file. -/
theorem fetches_serves (unicode : Bool) (uid : UInt16) (hi : Implements E.V own unicode uid.toNat Does rel) (h : Handle) (k : Nat) :
    ∀ (n : Nat) (data : Bytes) (s : St σ) (a : A), s.cli.useUnicode = unicode ∧ s.cli.uid = uid → Ready E own (n + k) s → rel a s.w.srv →
    ∃ o a' s', Fetches Does h k data a o a' ∧ M.map' Val.bytes (downloadLoop E h k data >>= fun d => close E h >>= fun _ => pure d) s = (o, s') ∧
      Left E own rel n s s' a' := by
  induction k with
  | zero => intro n data s a hu hr ha; exact ⟨.running, a, s, .budget _ _, rfl, ha, ⟨rfl, rfl⟩, hr⟩
  | succ k ih =>
    intro n data s a hu hr ha
    obtain ⟨rfl, rfl⟩ := hu
    by_cases hl : data.length < h.size.toNat
    · have eo : (UInt64.ofNat data.length).toNat = data.length := UInt64.toNat_ofNat_of_lt' (by have := h.size.toNat_lt; simp only [UInt64.size] at *; omega)
      obtain ⟨r, a1, s1, v, req, h1, h2, h3, h4, h5, h6⟩ := call_serves (n := n + k) (op := .read h (UInt64.ofNat data.length)) hi rfl hr trivial ha
      rw [eo] at h1 h2
      rw [show (downloadLoop E h (k + 1) data) = (if data.length < h.size.toNat then
        read E h (UInt64.ofNat data.length) >>= fun chunk => downloadLoop E h k (data ++ chunk) else pure data) from rfl, if_pos hl]
      cases r with
      | refused status =>
        refine ⟨_, a1, s1, .refused hl h1, ?_, h4, by rw [h5]; exact ⟨rfl, rfl⟩, h6.mono (by omega)⟩
        have := map'_err_inv (show M.map' Val.bytes (read E h (UInt64.ofNat data.length)) s = _ from h3)
        exact map'_err (M.bind_err (M.bind_err this))
      | value x =>
        cases x <;> first | (obtain ⟨_, _, h⟩ := h2; exact h.elim) | skip
        rename_i chunk
        obtain ⟨c, h7, h8⟩ := map'_ok_inv (show M.map' Val.bytes (read E h (UInt64.ofNat data.length)) s = _ from h3)
        cases h8
        obtain ⟨o, a', s', k1, k2, k3, k4, k5⟩ := ih n (data ++ chunk) s1 a1 (by rw [h5]; exact ⟨rfl, rfl⟩) h6 h4
        refine ⟨o, a', s', .chunk hl h1 k1, ?_, k3, k4.trans (by rw [h5]; exact ⟨rfl, rfl⟩), k5⟩
        rw [← k2]
        exact map'_congr (bind_congr' (M.bind_ok h7))
    · obtain ⟨r, a1, s1, v, req, h1, h2, h3, h4, h5, h6⟩ := call_serves (n := n + k) (op := .close h) hi rfl hr trivial ha
      rw [show (downloadLoop E h (k + 1) data) = (if data.length < h.size.toNat then
        read E h (UInt64.ofNat data.length) >>= fun chunk => downloadLoop E h k (data ++ chunk) else pure data) from rfl, if_neg hl]
      cases r with
      | refused status =>
        refine ⟨_, a1, s1, .unclosed (by omega) h1, ?_, h4, by rw [h5]; exact ⟨rfl, rfl⟩, h6.mono (by omega)⟩
        have := map'_err_inv (show M.map' (fun _ => Val.unit) (close E h) s = _ from h3)
        exact map'_err ((M.bind_ok rfl).trans (M.bind_err this))
      | value x =>
        cases x <;> first | (obtain ⟨_, _, h⟩ := h2; exact h.elim) | skip
        obtain ⟨c, h7, h8⟩ := map'_ok_inv (show M.map' (fun _ => Val.unit) (close E h) s = _ from h3)
        refine ⟨_, a1, s1, .closed (by omega) h1, ?_, h4, by rw [h5]; exact ⟨rfl, rfl⟩, h6.mono (by omega)⟩
        exact map'_ok ((M.bind_ok rfl).trans (M.bind_ok h7))

/-- The loop of a listing. -/
theorem continues_serves (unicode : Bool) (uid : UInt16) (hi : Implements E.V own unicode uid.toNat Does rel) (share : Share) (sid : UInt16) (k : Nat) :
    ∀ (n : Nat) (got : List DirInfo) (s : St σ) (a : A), got ≠ [] → s.cli.useUnicode = unicode ∧ s.cli.uid = uid → Ready E own (n + k) s → rel a s.w.srv →
    ∃ o a' s', Continues Does unicode share sid k got a o a' ∧ M.map' Val.entries (listLoop E share sid k got) s = (o, s') ∧
      Left E own rel n s s' a' := by
  induction k with
  | zero => intro n got s a hg hu hr ha; exact ⟨.running, a, s, .budget _ _, rfl, ha, ⟨rfl, rfl⟩, hr⟩
  | succ k ih =>
    intro n got s a hg hu hr ha
    obtain ⟨rfl, rfl⟩ := hu
    obtain ⟨last, hlast⟩ : ∃ last, got.getLast? = some last := by rw [List.getLast?_eq_some_getLast hg]; exact ⟨_, rfl⟩
    have e : listLoop E share sid (k + 1) got = (findNext E share sid last.filename >>= fun reply =>
        if reply.done then pure (got ++ reply.info) else listLoop E share sid k (got ++ reply.info)) := by
      rw [listLoop, hlast]
    rw [e]
    by_cases hfit : Fits s.cli.useUnicode (.findNext share sid last.filename)
    · obtain ⟨r, a1, s1, v, req, h1, h2, h3, h4, h5, h6⟩ := call_serves (n := n + k) (op := .findNext share sid last.filename) hi rfl hr hfit ha
      cases r with
      | refused status =>
        refine ⟨_, a1, s1, .refused hlast h1 hfit, ?_, h4, by rw [h5]; exact ⟨rfl, rfl⟩, h6.mono (by omega)⟩
        have := map'_err_inv (show M.map' Val.next (findNext E share sid last.filename) s = _ from h3)
        exact map'_err (M.bind_err this)
      | value x =>
        cases x <;> first | (obtain ⟨_, _, h⟩ := h2; exact h.elim) | skip
        rename_i r
        obtain ⟨c, h7, h8⟩ := map'_ok_inv (show M.map' Val.next (findNext E share sid last.filename) s = _ from h3)
        cases h8
        rcases r with ⟨done, page⟩
        cases done with
        | true =>
          refine ⟨_, a1, s1, .ended hlast h1 hfit, ?_, h4, by rw [h5]; exact ⟨rfl, rfl⟩, h6.mono (by omega)⟩
          exact map'_ok (M.bind_ok h7)
        | false =>
          obtain ⟨o, a', s', k1, k2, k3, k4, k5⟩ := ih n (got ++ page) s1 a1 (by simp [hg]) (by rw [h5]; exact ⟨rfl, rfl⟩) h6 h4
          refine ⟨o, a', s', .more hlast h1 k1 hfit, ?_, k3, k4.trans (by rw [h5]; exact ⟨rfl, rfl⟩), k5⟩
          rw [← k2]
          exact map'_congr (M.bind_ok h7)
    · obtain ⟨o, s', h1, h2, h3, h4, h5⟩ := long_serves (n := n + k) hr hfit
      refine ⟨o, a, s', .long hlast h1, ?_, by rw [h3]; exact ha, by rw [h4]; exact ⟨rfl, rfl⟩, h5.mono (by omega)⟩
      rcases h1.2 with ⟨_, rfl⟩ | ⟨_, e, rfl⟩
      · exact map'_panic (M.bind_panic (map'_panic_inv (show M.map' Val.next (findNext E share sid last.filename) s = _ from h2)))
      · exact map'_err (M.bind_err (map'_err_inv (show M.map' Val.next (findNext E share sid last.filename) s = _ from h2)))

/-- **C66** One operation, against a server that offers a service: its outcome, and what it does to the service, are as `Behaves` says. -/
theorem C66_operation {s : St σ} (hi : Implements E.V own s.cli.useUnicode s.cli.uid.toNat Does rel) (op : Op) (n : Nat) (a : A) (hr : Ready E own (n + cost op) s)
    (ha : rel a s.w.srv) : ∃ o a' s', Behaves Does s.cli.useUnicode a op o a' ∧ runOp E op s = (o, s') ∧ rel a' s'.w.srv ∧
      SameUser s.cli s'.cli ∧ Ready E own n s' := by
  have hpos : n + 1 ≤ n + cost op := by cases op <;> simp [cost]
  by_cases hfit : Fits s.cli.useUnicode op
  · have one : ∀ c, callOf op = some c → ∃ o a' s', Behaves Does s.cli.useUnicode a op o a' ∧ runOp E op s = (o, s') ∧ rel a' s'.w.srv ∧
        SameUser s.cli s'.cli ∧ Ready E own n s' := by
      intro c hc
      obtain ⟨r, a1, s1, v, req, h1, h2, h3, h4, h5, h6⟩ := call_serves hi hc (hr.mono hpos) hfit ha
      exact ⟨_, a1, s1, .single hc h1 hfit, h3, h4, by rw [h5]; exact ⟨rfl, rfl⟩, h6⟩
    cases op <;> first | exact one _ rfl | skip
    case download k share path =>
      obtain ⟨r, a1, s1, v, req, h1, h2, h3, h4, h5, h6⟩ := call_serves (n := n + k) (op := .openfile share path) hi rfl hr hfit ha
      have e : download E k share path = (openfile E share path >>= fun file => downloadLoop E file k [] >>= fun d => close E file >>= fun _ => pure d) := rfl
      cases r with
      | refused status =>
        refine ⟨_, a1, s1, .unopened h1 hfit, ?_, h4, by rw [h5]; exact ⟨rfl, rfl⟩, h6.mono (by omega)⟩
        have := map'_err_inv (show M.map' Val.handle (openfile E share path) s = _ from h3)
        exact map'_err (M.bind_err this)
      | value x =>
        cases x <;> first | (obtain ⟨_, _, h⟩ := h2; exact h.elim) | skip
        rename_i file
        obtain ⟨c, h7, h8⟩ := map'_ok_inv (show M.map' Val.handle (openfile E share path) s = _ from h3)
        cases h8
        obtain ⟨o, a', s', k1, k2, k3, k4, k5⟩ := fetches_serves _ _ hi file k n [] s1 a1 (by rw [h5]; exact ⟨rfl, rfl⟩) h6 h4
        refine ⟨o, a', s', .opened h1 k1 hfit, ?_, k3, k4.trans (by rw [h5]; exact ⟨rfl, rfl⟩), k5⟩
        rw [← k2]
        exact map'_congr (M.bind_ok h7)
    case list k share pattern =>
      obtain ⟨r, a1, s1, v, req, h1, h2, h3, h4, h5, h6⟩ := call_serves (n := n + k) (op := .findFirst share pattern) hi rfl hr hfit ha
      cases r with
      | refused status =>
        refine ⟨_, a1, s1, .unlisted h1 hfit, ?_, h4, by rw [h5]; exact ⟨rfl, rfl⟩, h6.mono (by omega)⟩
        have := map'_err_inv (show M.map' Val.first (findFirst E share pattern) s = _ from h3)
        exact map'_err (M.bind_err this)
      | value x =>
        cases x <;> first | (obtain ⟨_, _, h⟩ := h2; exact h.elim) | skip
        rename_i r
        obtain ⟨c, h7, h8⟩ := map'_ok_inv (show M.map' Val.first (findFirst E share pattern) s = _ from h3)
        cases h8
        have step := (M.bind_ok (f := fun reply : FindFirst2 =>
          (if reply.done then pure reply.info else listLoop E share reply.sid k reply.info : CM σ _)) h7)
        cases hd : r.done with
        | true =>
          refine ⟨_, a1, s1, .listed hd h1 hfit, ?_, h4, by rw [h5]; exact ⟨rfl, rfl⟩, h6.mono (by omega)⟩
          rw [if_pos hd] at step
          exact map'_ok step
        | false =>
          rw [if_neg (by simp [hd])] at step
          obtain ⟨P, D, _, _, _, hne⟩ := h2
          obtain ⟨o, a', s', k1, k2, k3, k4, k5⟩ := continues_serves _ _ hi share r.sid k n r.info s1 a1 (by simpa [hd] using hne) (by rw [h5]; exact ⟨rfl, rfl⟩) h6 h4
          refine ⟨o, a', s', .listing hd h1 k1 hfit, ?_, k3, k4.trans (by rw [h5]; exact ⟨rfl, rfl⟩), k5⟩
          rw [← k2]
          exact map'_congr step
  · obtain ⟨o, s', h1, h2, h3, h4, h5⟩ := long_serves (hr.mono hpos) hfit
    exact ⟨o, a, s', .long h1, h2, by rw [h3]; exact ha, by rw [h4]; exact ⟨rfl, rfl⟩, h5⟩

/-- **C66** Any program, against a server that offers a service: running it with the client over the network is one of the ways to run it
with the service directly. -/
theorem C66_program (p : Prog α) : ∀ {s : St σ} (_ : Implements E.V own s.cli.useUnicode s.cli.uid.toNat Does rel) (n : Nat) (a : A) (_ : Ready E own n s)
    (_ : p.Within n) (_ : rel a s.w.srv),
    ∃ x a' s', p.Runs Does s.cli.useUnicode a x a' ∧ p.run E s = (x, s') ∧ rel a' s'.w.srv := by
  induction p with
  | done x => intro s hi n a hr hp ha; exact ⟨x, a, s, .done x a, rfl, ha⟩
  | call op next ih =>
    intro s hi n a hr hp ha
    obtain ⟨o, a1, s1, h1, h2, h3, h4, h5⟩ := C66_operation hi op (n - cost op) a (by rw [Nat.sub_add_cancel hp.1]; exact hr) ha
    obtain ⟨x, a', s', k1, k2, k3⟩ := ih o (s := s1) (by rw [h4.1, h4.2]; exact hi) (n - cost op) a1 h5 (hp.2 o) h3
    refine ⟨x, a', s', .call h1 (by rw [← h4.1]; exact k1), ?_, k3⟩
    rw [Prog.run, h2]; exact k2

end

end Cifs
