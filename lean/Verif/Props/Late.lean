import Verif.Spec.Late
import Verif.Props.Service
import Verif.Props.Store
/-!
# Calls that are given up, at a server that takes its time (C98)
-/

namespace Cifs
open Spec

variable {σ A α : Type}

/-! ## Foreign packets -/

theorem Spec.Foreign.weaken {own own' : Nat → Prop} (ho : ∀ m, own' m → own m) {b : Bytes} (h : Foreign own b) : Foreign own' b := by
  induction h with
  | nil => exact .nil
  | keepAlive _ ih => exact .keepAlive ih
  | reply hl hg m hm hn _ ih => exact .reply hl hg m hm (fun h => hn (ho m h)) ih

/-- If nothing but foreign packets arrive, the client reads them all, and waits. -/
theorem flatNext_waits {own : Nat → Prop} {b : Bytes} (h : Foreign own b) (mid : UInt16) (ho : own mid.toNat) : flatNext .blocked mid b = (.pending, []) := by
  induction h with
  | nil => rw [flatNext_eq]; rfl
  | @keepAlive b _ ih =>
    rw [flatNext_eq] at ih ⊢
    have e : flatMsg .blocked (Spec.keepAlive ++ b) = flatMsg .blocked b := by
      unfold flatMsg
      rw [show Spec.keepAlive ++ b = 0x85 :: 0 :: 0 :: 0 :: b from rfl, flatRecvMessage_keepalive]
    rw [e]; exact ih
  | reply hl hg m hm hn _ ih =>
    rw [flatNext_skips .blocked mid (.skip (.message _ _ hl) hg m hm (fun e => hn (e ▸ ho)) (.done _))]
    exact ih

theorem map'_pending {ε S β γ : Type} {m : M ε S β} {g : β → γ} {s s' : S} (h : m s = (.pending, s')) : M.map' g m s = (.pending, s') := by
  unfold M.map' M.bind; rw [h]

theorem map'_pending_inv {ε S β γ : Type} {m : M ε S β} {g : β → γ} {s s' : S} (h : M.map' g m s = (.pending, s')) : m s = (.pending, s') := by
  unfold M.map' M.bind at h
  rcases hm : m s with ⟨o, s1⟩
  rw [hm] at h
  cases o <;> cases h <;> rfl

theorem search_pending (op : Op) (ho : op.isFind = true) (mid : UInt16) (t : Tail) (b : Bytes) (h : flatNext t mid b = (.pending, [])) :
    op.search mid t b = (.pending, []) := by
  have hr : flatReply trans2Reply mid t b = (.pending, []) := by rw [flatReply_eq, M.bind_pending h]
  have hg : flatGather t mid .new b = (.pending, []) := by rw [flatGather_eq, hr]
  have hc : ∀ {α : Type} (sub : SubReply2 α), flatCollect sub mid t b = (.pending, []) := by
    intro α sub; exact M.bind_pending hg
  cases op
  case findFirst => exact M.bind_pending (hc findFirst2Parse)
  case findNext => exact M.bind_pending (hc findNext2Parse)
  all_goals simp [Op.isFind] at ho

theorem single_of_call {op : Op} {c : Call} (hc : callOf op = some c) : single op = true := by
  cases op <;> first | rfl | (simp [callOf] at hc)

/-- If only a part of the answer to a search arrives, the client reads it, and waits. -/
theorem search_waits {own : Nat → Prop} (op : Op) (ho : op.isFind = true) (mid : UInt16) (hm : own mid.toNat) {b0 b : Bytes} (h0 : Foreign own b0)
    {l l' : List Piece} {P D : Bytes} (hb : Brought own mid.toNat b l) (hc : Cuts (l ++ l') P D) (hn : ∀ pre P' D', pre <+: l → ¬ Cuts pre P' D') :
    op.search mid .blocked (b0 ++ b) = (.pending, []) := by
  obtain ⟨rest, h1, h2⟩ := brought_pieces hm hb h0
  have ht : takePieces (ctxOf []) l = none := by
    rcases take_cases l [] agree_nil with ⟨pre, post, rfl, k1, k2, k3, k4⟩ | ⟨r, k1, k2⟩ | ⟨k1, _⟩
    · exact absurd (cuts_prefix (by rw [← List.append_assoc]; exact hc) k1 k3) (hn pre P D (List.prefix_append _ _))
    · exact absurd (agree_prefix (cuts_agree hc).1) k2
    · exact k1
  have hr : flatReply trans2Reply mid .blocked rest = (.pending, []) := by rw [flatReply_eq, M.bind_pending (flatNext_waits h1 mid hm)]
  have hg : flatGather .blocked mid .new (b0 ++ b) = (.pending, []) := by
    have := gather_none .blocked mid h2 [] agree_nil ht
    rw [ctxOf_nil] at this
    rw [this, flatGather_eq, hr]
  have hf : ∀ {α : Type} (sub : SubReply2 α), flatCollect sub mid .blocked (b0 ++ b) = (.pending, []) := by
    intro α sub; exact M.bind_pending hg
  cases op
  case findFirst => exact M.bind_pending (hf findFirst2Parse)
  case findNext => exact M.bind_pending (hf findNext2Parse)
  all_goals simp [Op.isFind] at ho

/-- Only searches are answered by several replies. -/
theorem search_of_code {op : Op} {c : Call} {unicode : Bool} {req : Bytes} (hc : callOf op = some c) (h : IsCall unicode req c)
    (h' : cmdOf req = some 0x32) : op.isFind = true := by
  cases op <;> first | rfl | (cases hc; done) | (cases hc; have := h.1.symm.trans h'; simp at this)

/-- An operation that makes one request, against a server that is silent: the caller has to wait. -/
theorem silent_serves {E : Env σ} {own : Nat → Prop} {n : Nat} {s : St σ} {op : Op} {c : Call} (hs : callOf op = some c) (hr : Ready E own (n + 1) s)
    {fr : Bytes} (hf : requestFrame s.cli op.first = .ok fr) (h : Silent E.V own s.w.srv (message fr)) :
    ∃ s', runOp E op s = (.pending, s') ∧ s'.cli = s.bump.cli ∧ s'.w.srv = (E.V.react s.w.srv (message fr)).1 ∧ Ready E own n s' := by
  obtain ⟨s1, k1, k2, k3, k4, k5⟩ := send_serves hr hf
  obtain ⟨h, ht⟩ := h
  have done : ∀ (ho : op.isFind = true), op.search s.cli.mid (E.V.tail s1.w.srv) s1.w.flat = (.pending, []) →
      ∃ s', runOp E op s = (.pending, s') ∧ s'.cli = s.bump.cli ∧ s'.w.srv = (E.V.react s.w.srv (message fr)).1 ∧ Ready E own n s' := by
    intro ho hp
    obtain ⟨ib, g1, g2⟩ := runOp_find E op ho s s1 _ k1
    rw [hp] at g1 g2
    exact ⟨_, g2, k2, k3, ready_inbox hr k2 k5 (by rw [g1]; exact .nil)⟩
  rcases h with h | ⟨hcode, mid, l, l', P, D, h1, h2, h3, h4⟩
  · have hn : flatNext (E.V.tail s1.w.srv) s.cli.mid s1.w.flat = (.pending, []) := by
      rw [k3, ht, k4]
      exact flatNext_waits (foreign_append hr.unread h) _ hr.first.2
    rcases single_cases op (single_of_call hs) with ho | ho
    · obtain ⟨ib, g1, g2⟩ := runOp_oneReply E op ho s s1 _ k1
      rw [hn] at g1 g2
      exact ⟨_, g2, k2, k3, ready_inbox hr k2 k5 (by rw [g1]; exact .nil)⟩
    · exact done ho (search_pending op ho _ _ _ hn)
  · have ho := search_of_code hs (isCall_first hs hf) hcode
    have hmid := requestFrame_mid (sends_keepsMid (first_sent op (single_of_call hs))) hf
    cases hmid.symm.trans h1
    exact done ho (by rw [k3, ht, k4]; exact search_waits op ho _ hr.first.2 hr.unread h2 h3 h4)

/-! ## The session -/

section
variable {E : Env σ} {Does : A → Call → Answer → A → Prop} {rel : Nat → A → σ → Prop}

/-- A session with a server that takes its time: the service is in the state `a`, what has not been read yet belongs to earlier requests, and
there are enough ids for `n` requests. -/
structure Waiting (E : Env σ) (rel : Nat → A → σ → Prop) (n : Nat) (a : A) (s : St σ) : Prop where
  writes : Accepting s.w.wsched
  unread : Foreign (s.cli.mid.toNat ≤ ·) s.w.inbox.flatten
  enough : s.cli.mid.toNat + n ≤ 65535
  service : ∃ m, m ≤ s.cli.mid.toNat ∧ rel m a s.w.srv

theorem Waiting.ready {n : Nat} {a : A} {s : St σ} (h : Waiting E rel n a s) : Ready E (s.cli.mid.toNat ≤ ·) n s :=
  ⟨h.writes, h.unread, fun k hk => by have := h.enough; rw [Nat.mod_eq_of_lt (by omega)]; omega, fun _ => h.enough⟩

theorem Waiting.mono {n m : Nat} {a : A} {s : St σ} (h : Waiting E rel n a s) (hm : m ≤ n) : Waiting E rel m a s :=
  ⟨h.writes, h.unread, by have := h.enough; omega, h.service⟩

theorem bump_next {n : Nat} {a : A} {s s' : St σ} (h : Waiting E rel (n + 1) a s) (hc : s'.cli = s.bump.cli) : s'.cli.mid.toNat = s.cli.mid.toNat + 1 := by
  have := h.enough
  have e : s'.cli.mid.toNat = (s.cli.mid.toNat + 1) % 65536 := by rw [hc]; simp [St.bump]
  rw [e, Nat.mod_eq_of_lt (by omega)]

theorem Waiting.next {n : Nat} {a a' : A} {s s' : St σ} (h : Waiting E rel (n + 1) a s) (hc : s'.cli = s.bump.cli)
    (hr : Ready E (s.cli.mid.toNat ≤ ·) n s') (hs : ∃ m, m ≤ s.cli.mid.toNat + 1 ∧ rel m a' s'.w.srv) : Waiting E rel n a' s' := by
  have e := bump_next h hc
  refine ⟨hr.writes, hr.unread.weaken fun m hm => ?_, by have := h.enough; omega, by rw [e]; exact hs⟩
  rw [e] at hm
  show s.cli.mid.toNat ≤ m
  omega

/-- An operation that makes one request. -/
theorem call_late {n : Nat} {s : St σ} {op : Op} {c : Call} {a : A} (hi : ImplementsLate E.V s.cli.useUnicode s.cli.uid.toNat Does rel)
    (hc : callOf op = some c) (hr : Waiting E rel (n + 1) a s) (hfit : Fits s.cli.useUnicode op) :
    ∃ r a' s', Does a c r a' ∧ ((∃ own v req, Answers E.V own v req c r) ∧ runOp E op s = (r.outcome, s') ∨ runOp E op s = (.pending, s')) ∧
      s'.cli = s.bump.cli ∧ Waiting E rel n a' s' := by
  obtain ⟨fr, hf⟩ := first_fits s.cli op hfit
  obtain ⟨m, hm, ha⟩ := hr.service
  have hmid := requestFrame_mid (sends_keepsMid (first_sent op (single_of_call hc))) hf
  obtain ⟨r, a', h1, h2, h3⟩ := hi m _ a s.w.srv (message fr) c ha hm hmid (isCall_first hc hf) (uid_first hc hf)
  rcases h2 with h2 | h2
  · obtain ⟨s', k1, k2, k3, k4⟩ := answer_serves hc hr.ready hf h2
    exact ⟨r, a', s', h1, .inl ⟨⟨_, _, _, h2⟩, k1⟩, k2, hr.next k2 k4 ⟨_, Nat.le_refl _, by rw [k3]; exact h3⟩⟩
  · obtain ⟨s', k1, k2, k3, k4⟩ := silent_serves hc hr.ready hf h2
    exact ⟨r, a', s', h1, .inr k1, k2, hr.next k2 k4 ⟨_, Nat.le_refl _, by rw [k3]; exact h3⟩⟩

/-- An operation whose arguments do not fit. -/
theorem long_late {n : Nat} {s : St σ} {op : Op} {a : A} (hr : Waiting E rel (n + 1) a s) (h : ¬ Fits s.cli.useUnicode op) :
    ∃ o s', TooLong s.cli.useUnicode op o ∧ runOp E op s = (o, s') ∧ s'.cli = s.bump.cli ∧ Waiting E rel n a s' := by
  obtain ⟨o, s', h1, h2, h3, h4, h5⟩ := long_serves hr.ready h
  obtain ⟨m, hm, ha⟩ := hr.service
  exact ⟨o, s', h1, h2, h4, hr.next h4 h5 ⟨m, by omega, by rw [h3]; exact ha⟩⟩

/-- The loop of a download, with the closing of the file. -/
theorem fetches_late (unicode : Bool) (uid : UInt16) (hi : ImplementsLate E.V unicode uid.toNat Does rel) (h : Handle) (k : Nat) :
    ∀ (n : Nat) (data : Bytes) (s : St σ) (a : A), s.cli.useUnicode = unicode ∧ s.cli.uid = uid → Waiting E rel (n + k) a s →
    ∃ o a' s', (Fetches Does h k data a o a' ∨ o = .pending ∧ FetchesUp Does h k data a a') ∧
      M.map' Val.bytes (downloadLoop E h k data >>= fun d => close E h >>= fun _ => pure d) s = (o, s') ∧
      SameUser s.cli s'.cli ∧ Waiting E rel n a' s' := by
  induction k with
  | zero => intro n data s a hu hr; exact ⟨.running, a, s, .inl (.budget _ _), rfl, ⟨rfl, rfl⟩, hr⟩
  | succ k ih =>
    intro n data s a hu hr
    obtain ⟨rfl, rfl⟩ := hu
    by_cases hl : data.length < h.size.toNat
    · have eo : (UInt64.ofNat data.length).toNat = data.length := UInt64.toNat_ofNat_of_lt' (by have := h.size.toNat_lt; simp only [UInt64.size] at *; omega)
      obtain ⟨r, a1, s1, h1, h2, h5, h6⟩ := call_late (n := n + k) (op := .read h (UInt64.ofNat data.length)) hi rfl hr trivial
      rw [eo] at h1 h2
      rw [show (downloadLoop E h (k + 1) data) = (if data.length < h.size.toNat then
        read E h (UInt64.ofNat data.length) >>= fun chunk => downloadLoop E h k (data ++ chunk) else pure data) from rfl, if_pos hl]
      rcases h2 with ⟨⟨own, v, req, h2⟩, h3⟩ | h3
      · cases r with
        | refused status =>
          refine ⟨_, a1, s1, .inl (.refused hl h1), ?_, by rw [h5]; exact ⟨rfl, rfl⟩, h6.mono (by omega)⟩
          have := map'_err_inv (show M.map' Val.bytes (read E h (UInt64.ofNat data.length)) s = _ from h3)
          exact map'_err (M.bind_err (M.bind_err this))
        | value x =>
          cases x <;> first | (obtain ⟨_, _, h⟩ := h2; exact h.elim) | skip
          rename_i chunk
          obtain ⟨c, h7, h8⟩ := map'_ok_inv (show M.map' Val.bytes (read E h (UInt64.ofNat data.length)) s = _ from h3)
          cases h8
          obtain ⟨o, a', s', k1, k2, k4, k5⟩ := ih n (data ++ chunk) s1 a1 (by rw [h5]; exact ⟨rfl, rfl⟩) h6
          refine ⟨o, a', s', k1.imp (.chunk hl h1) (fun k1 => ⟨k1.1, .chunk hl h1 k1.2⟩), ?_, k4.trans (by rw [h5]; exact ⟨rfl, rfl⟩), k5⟩
          rw [← k2]
          exact map'_congr (bind_congr' (M.bind_ok h7))
      · refine ⟨_, a1, s1, .inr ⟨rfl, .read hl h1⟩, ?_, by rw [h5]; exact ⟨rfl, rfl⟩, h6.mono (by omega)⟩
        have := map'_pending_inv (show M.map' Val.bytes (read E h (UInt64.ofNat data.length)) s = _ from h3)
        exact map'_pending (M.bind_pending (M.bind_pending this))
    · obtain ⟨r, a1, s1, h1, h2, h5, h6⟩ := call_late (n := n + k) (op := .close h) hi rfl hr trivial
      rw [show (downloadLoop E h (k + 1) data) = (if data.length < h.size.toNat then
        read E h (UInt64.ofNat data.length) >>= fun chunk => downloadLoop E h k (data ++ chunk) else pure data) from rfl, if_neg hl]
      rcases h2 with ⟨⟨own, v, req, h2⟩, h3⟩ | h3
      · cases r with
        | refused status =>
          refine ⟨_, a1, s1, .inl (.unclosed (by omega) h1), ?_, by rw [h5]; exact ⟨rfl, rfl⟩, h6.mono (by omega)⟩
          have := map'_err_inv (show M.map' (fun _ => Val.unit) (close E h) s = _ from h3)
          exact map'_err ((M.bind_ok rfl).trans (M.bind_err this))
        | value x =>
          cases x <;> first | (obtain ⟨_, _, h⟩ := h2; exact h.elim) | skip
          obtain ⟨c, h7, h8⟩ := map'_ok_inv (show M.map' (fun _ => Val.unit) (close E h) s = _ from h3)
          refine ⟨_, a1, s1, .inl (.closed (by omega) h1), ?_, by rw [h5]; exact ⟨rfl, rfl⟩, h6.mono (by omega)⟩
          exact map'_ok ((M.bind_ok rfl).trans (M.bind_ok h7))
      · refine ⟨_, a1, s1, .inr ⟨rfl, .close (by omega) h1⟩, ?_, by rw [h5]; exact ⟨rfl, rfl⟩, h6.mono (by omega)⟩
        have := map'_pending_inv (show M.map' (fun _ => Val.unit) (close E h) s = _ from h3)
        exact map'_pending ((M.bind_ok rfl).trans (M.bind_pending this))

/-- The loop of a listing. -/
theorem continues_late (unicode : Bool) (uid : UInt16) (hi : ImplementsLate E.V unicode uid.toNat Does rel) (share : Share) (sid : UInt16) (k : Nat) :
    ∀ (n : Nat) (got : List DirInfo) (s : St σ) (a : A), got ≠ [] → s.cli.useUnicode = unicode ∧ s.cli.uid = uid → Waiting E rel (n + k) a s →
    ∃ o a' s', (Continues Does unicode share sid k got a o a' ∨ o = .pending ∧ ContinuesUp Does unicode share sid k got a a') ∧
      M.map' Val.entries (listLoop E share sid k got) s = (o, s') ∧ SameUser s.cli s'.cli ∧ Waiting E rel n a' s' := by
  induction k with
  | zero => intro n got s a hg hu hr; exact ⟨.running, a, s, .inl (.budget _ _), rfl, ⟨rfl, rfl⟩, hr⟩
  | succ k ih =>
    intro n got s a hg hu hr
    obtain ⟨rfl, rfl⟩ := hu
    obtain ⟨last, hlast⟩ : ∃ last, got.getLast? = some last := by rw [List.getLast?_eq_some_getLast hg]; exact ⟨_, rfl⟩
    have e : listLoop E share sid (k + 1) got = (findNext E share sid last.filename >>= fun reply =>
        if reply.done then pure (got ++ reply.info) else listLoop E share sid k (got ++ reply.info)) := by
      rw [listLoop, hlast]
    rw [e]
    by_cases hfit : Fits s.cli.useUnicode (.findNext share sid last.filename)
    · obtain ⟨r, a1, s1, h1, h2, h5, h6⟩ := call_late (n := n + k) (op := .findNext share sid last.filename) hi rfl hr hfit
      rcases h2 with ⟨⟨own, v, req, h2⟩, h3⟩ | h3
      · cases r with
        | refused status =>
          refine ⟨_, a1, s1, .inl (.refused hlast h1 hfit), ?_, by rw [h5]; exact ⟨rfl, rfl⟩, h6.mono (by omega)⟩
          have := map'_err_inv (show M.map' Val.next (findNext E share sid last.filename) s = _ from h3)
          exact map'_err (M.bind_err this)
        | value x =>
          cases x <;> first | (obtain ⟨_, _, h⟩ := h2; exact h.elim) | skip
          rename_i r
          obtain ⟨c, h7, h8⟩ := map'_ok_inv (show M.map' Val.next (findNext E share sid last.filename) s = _ from h3)
          cases h8
          rcases r with ⟨done, page⟩
          cases done with
          | true =>
            refine ⟨_, a1, s1, .inl (.ended hlast h1 hfit), ?_, by rw [h5]; exact ⟨rfl, rfl⟩, h6.mono (by omega)⟩
            exact map'_ok (M.bind_ok h7)
          | false =>
            obtain ⟨o, a', s', k1, k2, k4, k5⟩ := ih n (got ++ page) s1 a1 (by simp [hg]) (by rw [h5]; exact ⟨rfl, rfl⟩) h6
            refine ⟨o, a', s', k1.imp (fun k1 => .more hlast h1 k1 hfit) (fun k1 => ⟨k1.1, .more hlast h1 k1.2 hfit⟩), ?_,
              k4.trans (by rw [h5]; exact ⟨rfl, rfl⟩), k5⟩
            rw [← k2]
            exact map'_congr (M.bind_ok h7)
      · refine ⟨_, a1, s1, .inr ⟨rfl, .page hlast h1 hfit⟩, ?_, by rw [h5]; exact ⟨rfl, rfl⟩, h6.mono (by omega)⟩
        have := map'_pending_inv (show M.map' Val.next (findNext E share sid last.filename) s = _ from h3)
        exact map'_pending (M.bind_pending this)
    · obtain ⟨o, s', h1, h2, h4, h5⟩ := long_late (n := n + k) hr hfit
      refine ⟨o, a, s', .inl (.long hlast h1), ?_, by rw [h4]; exact ⟨rfl, rfl⟩, h5.mono (by omega)⟩
      rcases h1.2 with ⟨_, rfl⟩ | ⟨_, e, rfl⟩
      · exact map'_panic (M.bind_panic (map'_panic_inv (show M.map' Val.next (findNext E share sid last.filename) s = _ from h2)))
      · exact map'_err (M.bind_err (map'_err_inv (show M.map' Val.next (findNext E share sid last.filename) s = _ from h2)))

/-- **C98** One operation, at a server that takes its time: either its outcome, and what it does to the service, are as `Behaves` says; or
the caller has to wait and may give it up, and then the service has carried out every request that was made, once. Either way nothing of it
is left but packets that no later call takes for its own. -/
theorem C98_operation {s : St σ} (hi : ImplementsLate E.V s.cli.useUnicode s.cli.uid.toNat Does rel) (op : Op) (n : Nat) (a : A)
    (hr : Waiting E rel (n + cost op) a s) : ∃ o a' s', BehavesLate Does s.cli.useUnicode a op o a' ∧ runOp E op s = (o, s') ∧
      SameUser s.cli s'.cli ∧ Waiting E rel n a' s' := by
  have hpos : n + 1 ≤ n + cost op := by cases op <;> simp [cost]
  by_cases hfit : Fits s.cli.useUnicode op
  · have one : ∀ c, callOf op = some c → ∃ o a' s', BehavesLate Does s.cli.useUnicode a op o a' ∧ runOp E op s = (o, s') ∧
        SameUser s.cli s'.cli ∧ Waiting E rel n a' s' := by
      intro c hc
      obtain ⟨r, a1, s1, h1, h2, h5, h6⟩ := call_late hi hc (hr.mono hpos) hfit
      rcases h2 with ⟨_, h3⟩ | h3
      · exact ⟨_, a1, s1, .inl (.single hc h1 hfit), h3, by rw [h5]; exact ⟨rfl, rfl⟩, h6⟩
      · exact ⟨_, a1, s1, .inr ⟨rfl, .single hc h1 hfit⟩, h3, by rw [h5]; exact ⟨rfl, rfl⟩, h6⟩
    cases op <;> first | exact one _ rfl | skip
    case download k share path =>
      obtain ⟨r, a1, s1, h1, h2, h5, h6⟩ := call_late (n := n + k) (op := .openfile share path) hi rfl hr hfit
      have e : download E k share path = (openfile E share path >>= fun file => downloadLoop E file k [] >>= fun d => close E file >>= fun _ => pure d) := rfl
      rcases h2 with ⟨⟨own, v, req, h2⟩, h3⟩ | h3
      · cases r with
        | refused status =>
          refine ⟨_, a1, s1, .inl (.unopened h1 hfit), ?_, by rw [h5]; exact ⟨rfl, rfl⟩, h6.mono (by omega)⟩
          have := map'_err_inv (show M.map' Val.handle (openfile E share path) s = _ from h3)
          exact map'_err (M.bind_err this)
        | value x =>
          cases x <;> first | (obtain ⟨_, _, h⟩ := h2; exact h.elim) | skip
          rename_i file
          obtain ⟨c, h7, h8⟩ := map'_ok_inv (show M.map' Val.handle (openfile E share path) s = _ from h3)
          cases h8
          obtain ⟨o, a', s', k1, k2, k4, k5⟩ := fetches_late _ _ hi file k n [] s1 a1 (by rw [h5]; exact ⟨rfl, rfl⟩) h6
          refine ⟨o, a', s', k1.imp (fun k1 => .opened h1 k1 hfit) (fun k1 => ⟨k1.1, .fetching h1 k1.2 hfit⟩), ?_, k4.trans (by rw [h5]; exact ⟨rfl, rfl⟩), k5⟩
          rw [← k2]
          exact map'_congr (M.bind_ok h7)
      · refine ⟨_, a1, s1, .inr ⟨rfl, .opening h1 hfit⟩, ?_, by rw [h5]; exact ⟨rfl, rfl⟩, h6.mono (by omega)⟩
        have := map'_pending_inv (show M.map' Val.handle (openfile E share path) s = _ from h3)
        exact map'_pending (M.bind_pending this)
    case list k share pattern =>
      obtain ⟨r, a1, s1, h1, h2, h5, h6⟩ := call_late (n := n + k) (op := .findFirst share pattern) hi rfl hr hfit
      rcases h2 with ⟨⟨own, v, req, h2⟩, h3⟩ | h3
      · cases r with
        | refused status =>
          refine ⟨_, a1, s1, .inl (.unlisted h1 hfit), ?_, by rw [h5]; exact ⟨rfl, rfl⟩, h6.mono (by omega)⟩
          have := map'_err_inv (show M.map' Val.first (findFirst E share pattern) s = _ from h3)
          exact map'_err (M.bind_err this)
        | value x =>
          cases x <;> first | (obtain ⟨_, _, h⟩ := h2; exact h.elim) | skip
          rename_i r
          obtain ⟨c, h7, h8⟩ := map'_ok_inv (show M.map' Val.first (findFirst E share pattern) s = _ from h3)
          cases h8
          have step := (M.bind_ok (f := fun reply : FindFirst2 =>
            (if reply.done then pure reply.info else listLoop E share reply.sid k reply.info : CM σ _)) h7)
          cases hd : r.done with
          | true =>
            refine ⟨_, a1, s1, .inl (.listed hd h1 hfit), ?_, by rw [h5]; exact ⟨rfl, rfl⟩, h6.mono (by omega)⟩
            rw [if_pos hd] at step
            exact map'_ok step
          | false =>
            rw [if_neg (by simp [hd])] at step
            obtain ⟨P, D, _, _, _, hne⟩ := h2
            obtain ⟨o, a', s', k1, k2, k4, k5⟩ := continues_late _ _ hi share r.sid k n r.info s1 a1 (by simpa [hd] using hne) (by rw [h5]; exact ⟨rfl, rfl⟩) h6
            refine ⟨o, a', s', k1.imp (fun k1 => .listing hd h1 k1 hfit) (fun k1 => ⟨k1.1, .listing hd h1 k1.2 hfit⟩), ?_,
              k4.trans (by rw [h5]; exact ⟨rfl, rfl⟩), k5⟩
            rw [← k2]
            exact map'_congr step
      · refine ⟨_, a1, s1, .inr ⟨rfl, .searching h1 hfit⟩, ?_, by rw [h5]; exact ⟨rfl, rfl⟩, h6.mono (by omega)⟩
        have := map'_pending_inv (show M.map' Val.first (findFirst E share pattern) s = _ from h3)
        exact map'_pending (M.bind_pending this)
  · obtain ⟨o, s', h1, h2, h4, h5⟩ := long_late (hr.mono hpos) hfit
    exact ⟨o, a, s', .inl (.long h1), h2, by rw [h4]; exact ⟨rfl, rfl⟩, h5⟩

/-- **C98** Any program, at a server that takes its time: running it with the client over the network, giving up each call that is not
answered, is one of the ways to run it with the service directly. -/
theorem C98_program (p : Prog α) : ∀ {s : St σ} (_ : ImplementsLate E.V s.cli.useUnicode s.cli.uid.toNat Does rel) (n : Nat) (a : A) (_ : Waiting E rel n a s)
    (_ : p.Within n), ∃ x a' s' m, p.RunsLate Does s.cli.useUnicode a x a' ∧ p.run E s = (x, s') ∧ rel m a' s'.w.srv := by
  induction p with
  | done x => intro s hi n a hr hp; exact ⟨x, a, s, _, .done x a, rfl, hr.service.choose_spec.2⟩
  | call op next ih =>
    intro s hi n a hr hp
    obtain ⟨o, a1, s1, h1, h2, h4, h5⟩ := C98_operation hi op (n - cost op) a (by rw [Nat.sub_add_cancel hp.1]; exact hr)
    obtain ⟨x, a', s', m, k1, k2, k3⟩ := ih o (s := s1) (by rw [h4.1, h4.2]; exact hi) (n - cost op) a1 h5 (hp.2 o)
    refine ⟨x, a', s', m, .call h1 (by rw [← h4.1]; exact k1), ?_, k3⟩
    rw [Prog.run, h2]; exact k2

end

/-! ## Such servers -/

/-- What was brought is not changed by foreign packets in front of it. -/
theorem brought_behind {own own' : Nat → Prop} (ho : ∀ m, own' m → own m) {held : Bytes} (hh : Foreign own' held) {mid : Nat} {b : Bytes} {l : List Piece}
    (h : Brought own mid b l) : Brought own' mid (held ++ b) l := by
  have wk : ∀ {b : Bytes} {l : List Piece}, Brought own mid b l → Brought own' mid b l := by
    intro b l h
    induction h with
    | nil h => exact .nil (h.weaken ho)
    | cons h hl hg hm hp _ ih => exact .cons (h.weaken ho) hl hg hm hp ih
  cases h with
  | nil h => exact .nil (foreign_append hh (h.weaken ho))
  | cons h hl hg hm hp hs =>
    have := Brought.cons (own := own') (foreign_append hh (h.weaken ho)) hl hg hm hp (wk hs)
    simpa using this

/-- For later requests, what was brought is foreign. -/
theorem brought_foreign {n : Nat} {b : Bytes} {l : List Piece} (h : Brought (n ≤ ·) n b l) : Foreign (n + 1 ≤ ·) b := by
  have ho : ∀ m, n + 1 ≤ m → n ≤ m := fun m h => by omega
  induction h with
  | nil h => exact h.weaken ho
  | cons h hl hg hm' hp _ ih =>
    rw [List.append_assoc]
    exact foreign_append (h.weaken ho) (.reply hl hg n hm' (by omega) ih)

/-- For later requests, what a silent server sends is foreign. -/
theorem silent_foreign {V : Server σ} {n : Nat} {v : σ} {req : Bytes} (hm : midOf req = some n) (h : Silent V (n ≤ ·) v req) :
    Foreign (n + 1 ≤ ·) (V.react v req).2.flatten := by
  rcases h.1 with h | ⟨_, mid, l, l', P, D, h1, h2, _⟩
  · exact h.weaken fun k (hk : n + 1 ≤ k) => show n ≤ k by omega
  · cases hm.symm.trans h1
    exact brought_foreign h2

/-- A silent server is silent behind foreign packets. -/
theorem silent_behind {V : Server σ} {W : Server A} {own own' : Nat → Prop} {v : σ} {w : A} {req held : Bytes} (ho : ∀ m, own' m → own m)
    (hh : Foreign own' held) (e : (W.react w req).2.flatten = held ++ (V.react v req).2.flatten) (h : Silent V own v req)
    (ht : W.tail (W.react w req).1 = .blocked) : Silent W own' w req := by
  refine ⟨?_, ht⟩
  rcases h.1 with h | ⟨h0, mid, l, l', P, D, h1, h2, h3⟩
  · exact .inl (by rw [e]; exact foreign_append hh (h.weaken ho))
  · exact .inr ⟨h0, mid, l, l', P, D, h1, by rw [e]; exact brought_behind ho hh h2, h3⟩

/-- What a server says is not changed by foreign packets in front of it. -/
theorem answers_behind {V : Server σ} {W : Server A} {own own' : Nat → Prop} {v : σ} {w : A} {req held : Bytes} {c : Call} {r : Answer}
    (ho : ∀ m, own' m → own m) (hh : Foreign own' held) (e : (W.react w req).2.flatten = held ++ (V.react v req).2.flatten)
    (h : Answers V own v req c r) : Answers W own' w req c r := by
  have s : ∀ f, Serves V own v req f → Serves W own' w req f := fun f ⟨b, a, h1, h2, h3, h4⟩ =>
    ⟨held ++ b, a, by rw [e, h1]; simp, foreign_append hh (h2.weaken ho), h3.weaken ho, h4⟩
  have p : ∀ P D, ServesPage V own v req P D → ServesPage W own' w req P D := fun P D ⟨m, l, h1, h2, h3⟩ => ⟨m, l, h1, by rw [e]; exact brought_behind ho hh h2, h3⟩
  cases r with
  | refused status => obtain ⟨h0, f, h1, h2⟩ := h; exact ⟨h0, f, s f h1, h2⟩
  | value x =>
    cases c <;> cases x <;> first
      | (obtain ⟨f, h1, h2⟩ := h; exact ⟨f, s f h1, h2⟩)
      | (obtain ⟨P, D, h1, h2⟩ := h; exact ⟨P, D, p P D h1, h2⟩)

/-- For later requests, an answer is foreign. -/
theorem answers_foreign {V : Server σ} {n : Nat} {v : σ} {req : Bytes} {c : Call} {r : Answer} (hm : midOf req = some n)
    (h : Answers V (n ≤ ·) v req c r) : Foreign (n + 1 ≤ ·) (V.react v req).2.flatten := by
  have ho : ∀ m, n + 1 ≤ m → n ≤ m := fun m h => by omega
  have s : ∀ f, Serves V (n ≤ ·) v req f → Foreign (n + 1 ≤ ·) (V.react v req).2.flatten := by
    rintro f ⟨b, a, h1, h2, h3, h4, h5, h6⟩
    rw [h1, List.append_assoc]
    exact foreign_append (h2.weaken ho) (.reply h4 h5 n (h6.trans hm) (by omega) (h3.weaken ho))
  have p : ∀ P D, ServesPage V (n ≤ ·) v req P D → Foreign (n + 1 ≤ ·) (V.react v req).2.flatten := by
    rintro P D ⟨m, l, h1, h2, h3⟩
    cases Option.some.inj (hm.symm.trans h1)
    exact brought_foreign h2
  cases r with
  | refused status => obtain ⟨h0, f, h1, h2⟩ := h; exact s f h1
  | value x =>
    cases c <;> cases x <;> first
      | (obtain ⟨f, h1, h2⟩ := h; exact s f h1)
      | (obtain ⟨P, D, h1, h2⟩ := h; exact p P D h1)

/-- **C98** A server that answers at once is one of those. -/
theorem C98_prompt {V : Server σ} {unicode : Bool} {uid : Nat} {Does : A → Call → Answer → A → Prop} {rel : A → σ → Prop}
    (h : Implements V (fun _ => True) unicode uid Does rel) : ImplementsLate V unicode uid Does (fun _ a v => rel a v) := by
  intro m n a v req c ha hmn hm hc hu
  obtain ⟨r, a', h1, h2, h3⟩ := h a v req c ha hc hu
  exact ⟨r, a', h1, .inl (answers_behind (held := []) (fun _ _ => trivial) .nil rfl h2), h3⟩

/-- **C98** And so is every server behind a device that holds back answers, however it chooses which. -/
theorem C98_delayed {V : Server σ} {unicode : Bool} {uid : Nat} {Does : A → Call → Answer → A → Prop} {rel : Nat → A → σ → Prop}
    (h : ImplementsLate V unicode uid Does rel) (hold : σ → Bytes → Bool) :
    ImplementsLate (delayed V hold) unicode uid Does (fun m a v => rel m a v.1 ∧ Foreign (m ≤ ·) v.2.flatten) := by
  rintro m n a v req c ⟨ha, hf⟩ hmn hm hc hu
  obtain ⟨r, a', h1, h2, h3⟩ := h m n a v.1 req c ha hmn hm hc hu
  have hfn : Foreign (n ≤ ·) v.2.flatten := hf.weaken fun k (hk : n ≤ k) => show m ≤ k by omega
  have hlater : Foreign (n + 1 ≤ ·) (V.react v.1 req).2.flatten := by
    rcases h2 with h2 | h2
    · exact answers_foreign hm h2
    · exact silent_foreign hm h2
  refine ⟨r, a', h1, ?_⟩
  by_cases hh : hold v.1 req = true
  · have e : (delayed V hold).react v req = (((V.react v.1 req).1, v.2 ++ (V.react v.1 req).2), []) := by simp [delayed, hh]
    rw [e]
    refine ⟨.inr ⟨.inl (by rw [e]; exact .nil), rfl⟩, h3, ?_⟩
    rw [List.flatten_append]
    exact foreign_append (hfn.weaken fun k (hk : n + 1 ≤ k) => show n ≤ k by omega) hlater
  · have e : (delayed V hold).react v req = (((V.react v.1 req).1, []), v.2 ++ (V.react v.1 req).2) := by simp [delayed, hh]
    rw [e]
    refine ⟨?_, h3, .nil⟩
    rcases h2 with h2 | h2
    · exact .inl (answers_behind (held := v.2.flatten) (fun _ h => h) hfn (by rw [e, List.flatten_append]) h2)
    · exact .inr (silent_behind (fun _ h => h) hfn (by rw [e, List.flatten_append]) h2 rfl)

/-! ## Passing packets on one by one -/

theorem u24_packet (ty : UInt8) (d rest : Bytes) (h : d.length ≤ maxPayload) : u24beAt (packet ty d ++ rest) 1 = some d.length := by
  have h' : d.length < 131072 := by unfold maxPayload at h; omega
  simp only [u24beAt, u8At, packet, List.cons_append, List.nil_append]
  show some _ = some _
  congr 1
  simp only [UInt8.toNat_ofNat']
  omega

theorem split_packet (k : Nat) (ty : UInt8) (d rest : Bytes) (h : d.length ≤ maxPayload) :
    splitPackets (k + 1) (packet ty d ++ rest) = (packet ty d ++ (splitPackets k rest).1, (splitPackets k rest).2) := by
  have hl : (packet ty d).length = 4 + d.length := by simp [packet]; omega
  simp only [splitPackets, u24_packet ty d rest h, Option.getD_some]
  rw [← hl, List.take_left, List.drop_left]

theorem split_keepAlive (k : Nat) (rest : Bytes) : splitPackets (k + 1) (keepAlive ++ rest) = (keepAlive ++ (splitPackets k rest).1, (splitPackets k rest).2) :=
  split_packet k 0x85 [] rest (Nat.zero_le _)

/-- Cutting foreign packets gives foreign packets. -/
theorem split_foreign {own : Nat → Prop} {b : Bytes} (h : Foreign own b) (k : Nat) : Foreign own (splitPackets k b).1 ∧ Foreign own (splitPackets k b).2 := by
  induction h generalizing k with
  | nil =>
    have e : splitPackets k [] = ([], []) := by induction k with
      | zero => rfl
      | succ k ih => simp [splitPackets, ih]
    rw [e]; exact ⟨.nil, .nil⟩
  | keepAlive h ih =>
    cases k with
    | zero => exact ⟨.nil, .keepAlive h⟩
    | succ k => rw [split_keepAlive]; exact ⟨.keepAlive (ih k).1, (ih k).2⟩
  | reply hl hg m hm ho h ih =>
    cases k with
    | zero => exact ⟨.nil, .reply hl hg m hm ho h⟩
    | succ k => rw [message, split_packet k _ _ _ hl]; exact ⟨.reply hl hg m hm ho (ih k).1, (ih k).2⟩

/-- The cut is in the foreign packets in front, or behind them. -/
theorem split_behind {own : Nat → Prop} {b : Bytes} (h : Foreign own b) (c : Bytes) (k : Nat) :
    (∃ x y, splitPackets k (b ++ c) = (x, y ++ c) ∧ Foreign own x ∧ Foreign own y) ∨
    ∃ j, splitPackets k (b ++ c) = (b ++ (splitPackets (j + 1) c).1, (splitPackets (j + 1) c).2) := by
  induction h generalizing k with
  | nil =>
    cases k with
    | zero => exact .inl ⟨[], [], rfl, .nil, .nil⟩
    | succ j => exact .inr ⟨j, rfl⟩
  | @keepAlive b h ih =>
    cases k with
    | zero => exact .inl ⟨[], _, rfl, .nil, .keepAlive h⟩
    | succ k =>
      rw [List.append_assoc, split_keepAlive]
      rcases ih k with ⟨x, y, e, hx, hy⟩ | ⟨j, e⟩
      · exact .inl ⟨keepAlive ++ x, y, by rw [e], .keepAlive hx, hy⟩
      · exact .inr ⟨j, by rw [e, List.append_assoc]⟩
  | @reply b g hl hg m hm ho h ih =>
    cases k with
    | zero => exact .inl ⟨[], _, rfl, .nil, .reply hl hg m hm ho h⟩
    | succ k =>
      rw [List.append_assoc, message, split_packet k _ _ _ hl]
      rcases ih k with ⟨x, y, e, hx, hy⟩ | ⟨j, e⟩
      · exact .inl ⟨message g ++ x, y, by rw [e]; rfl, .reply hl hg m hm ho hx, hy⟩
      · exact .inr ⟨j, by rw [e, List.append_assoc]⟩

/-- Cutting what brings pieces: some of the pieces come first. -/
theorem split_brought {own : Nat → Prop} {mid : Nat} {b : Bytes} {l : List Piece} (h : Brought own mid b l) (k : Nat) :
    ∃ l1 l2, l = l1 ++ l2 ∧ Brought own mid (splitPackets k b).1 l1 := by
  induction h generalizing k with
  | nil h => exact ⟨[], [], rfl, .nil (split_foreign h k).1⟩
  | @cons b f rest p l h hl hg hm hp hs ih =>
    rw [List.append_assoc]
    rcases split_behind h (message f ++ rest) k with ⟨x, y, e, hx, _⟩ | ⟨j, e⟩
    · exact ⟨[], _, rfl, by rw [e]; exact .nil hx⟩
    · obtain ⟨l1, l2, hl', hb⟩ := ih j
      refine ⟨p :: l1, l2, by rw [hl']; rfl, ?_⟩
      rw [e, message, split_packet j _ _ _ hl, ← List.append_assoc]
      exact .cons h hl hg hm hp hb

/-- A silent server is silent if some of its packets are held back. -/
theorem silent_split {V : Server σ} {W : Server A} {own : Nat → Prop} {v : σ} {w : A} {req held : Bytes} {k : Nat} (hh : Foreign own held)
    (h : Silent V own v req) (e : (W.react w req).2.flatten = held ++ (splitPackets k (V.react v req).2.flatten).1)
    (ht : W.tail (W.react w req).1 = .blocked) : Silent W own w req := by
  refine ⟨?_, ht⟩
  rcases h.1 with h | ⟨h0, mid, l, l', P, D, h1, h2, h3, h4⟩
  · exact .inl (by rw [e]; exact foreign_append hh (split_foreign h k).1)
  · obtain ⟨l1, l2, rfl, hb⟩ := split_brought h2 k
    refine .inr ⟨h0, mid, l1, l2 ++ l', P, D, h1, by rw [e]; exact brought_behind (fun _ h => h) hh hb, by simpa using h3, ?_⟩
    intro pre P' D' hp
    exact h4 pre P' D' (hp.trans (List.prefix_append _ _))

/-- If some of the packets of an answer are held back, the rest is the answer nevertheless, or the server is silent. -/
theorem answers_split {V : Server σ} {W : Server A} {own : Nat → Prop} {v : σ} {w : A} {req held : Bytes} {k : Nat} {unicode : Bool} {c : Call} {r : Answer}
    (hh : Foreign own held) (hc : IsCall unicode req c) (h : Answers V own v req c r)
    (e : (W.react w req).2.flatten = held ++ (splitPackets k (V.react v req).2.flatten).1)
    (ht : W.tail (W.react w req).1 = .blocked) : Answers W own w req c r ∨ Silent W own w req := by
  have s : ∀ f, Serves V own v req f → Serves W own w req f ∨ Silent W own w req := by
    rintro f ⟨b, a, h1, h2, h3, h4, h5, h6⟩
    rw [h1, List.append_assoc] at e
    rcases split_behind h2 (message f ++ a) k with ⟨x, y, e', hx, _⟩ | ⟨j, e'⟩
    · exact .inr ⟨.inl (by rw [e, e']; exact foreign_append hh hx), ht⟩
    · rw [e', message, split_packet j _ _ _ h4] at e
      exact .inl ⟨held ++ b, _, by rw [e]; simp [message], foreign_append hh h2, (split_foreign h3 j).1, h4, h5, h6⟩
  have p : ∀ P D, cmdOf req = some 0x32 → ServesPage V own v req P D → ServesPage W own w req P D ∨ Silent W own w req := by
    rintro P D h0 ⟨m, l, h1, h2, h3, h4⟩
    obtain ⟨l1, l2, rfl, hb⟩ := split_brought h2 k
    have hb' := brought_behind (fun _ h => h) hh hb
    rw [← e] at hb'
    by_cases hl : l2 = []
    · subst hl
      rw [List.append_nil] at h3 h4
      exact .inl ⟨m, l1, h1, hb', h3, h4⟩
    · refine .inr ⟨.inr ⟨h0, m, l1, l2, P, D, h1, hb', h3, ?_⟩, ht⟩
      rintro pre P' D' ⟨t, rfl⟩
      exact h4 pre (t ++ l2) P' D' (by simp) (by simp [hl])
  cases r with
  | refused status =>
    obtain ⟨h0, f, h1, h2⟩ := h
    exact (s f h1).imp (fun h => ⟨h0, f, h, h2⟩) id
  | value x =>
    cases c <;> cases x <;> first
      | (obtain ⟨f, h1, h2⟩ := h; exact (s f h1).imp (fun h => ⟨f, h, h2⟩) id)
      | (obtain ⟨P, D, h1, h2⟩ := h; exact (p P D hc.1 h1).imp (fun h => ⟨P, D, h, h2⟩) id)

/-- **C98** And every server behind a device that passes on as many packets at a time as it likes. -/
theorem C98_metered {V : Server σ} {unicode : Bool} {uid : Nat} {Does : A → Call → Answer → A → Prop} {rel : Nat → A → σ → Prop}
    (h : ImplementsLate V unicode uid Does rel) (count : σ → Bytes → Bytes → Nat) :
    ImplementsLate (metered V count) unicode uid Does (fun m a v => rel m a v.1 ∧ Foreign (m ≤ ·) v.2) := by
  rintro m n a v req c ⟨ha, hf⟩ hmn hm hc hu
  obtain ⟨r, a', h1, h2, h3⟩ := h m n a v.1 req c ha hmn hm hc hu
  have hfn : Foreign (n ≤ ·) v.2 := hf.weaken fun k (hk : n ≤ k) => show m ≤ k by omega
  have hlater : Foreign (n + 1 ≤ ·) (V.react v.1 req).2.flatten := by
    rcases h2 with h2 | h2
    · exact answers_foreign hm h2
    · exact silent_foreign hm h2
  generalize hk : count v.1 v.2 req = k
  have e1 : ((metered V count).react v req).1 = ((V.react v.1 req).1, (splitPackets k (v.2 ++ (V.react v.1 req).2.flatten)).2) := by rw [← hk]; rfl
  have e2 : ((metered V count).react v req).2.flatten = (splitPackets k (v.2 ++ (V.react v.1 req).2.flatten)).1 := by
    rw [← hk]
    simp only [metered]
    split
    · rename_i e; rw [e]; rfl
    · simp
  refine ⟨r, a', h1, ?_, by rw [e1]; exact h3, ?_⟩
  · rcases split_behind hfn (V.react v.1 req).2.flatten k with ⟨x, y, e, hx, _⟩ | ⟨j, e⟩
    · exact .inr ⟨.inl (by rw [e2, e]; exact hx), rfl⟩
    · rw [e] at e2
      rcases h2 with h2 | h2
      · exact answers_split hfn hc h2 e2 rfl
      · exact .inr (silent_split hfn h2 e2 rfl)
  · rw [e1]
    exact (split_foreign (foreign_append (hfn.weaken fun k (hk : n + 1 ≤ k) => show n ≤ k by omega) hlater) k).2

/-! ## An example -/

namespace Demo

/-- Delete the file, without waiting for the answer if it does not come, and try to open it. -/
def haste (share : Share) : Prog (Out Error Val × Out Error Val) :=
  .call (.delete share ['/', 'a']) fun x => .call (.openfile share ['/', 'a']) fun y => .done (x, y)

theorem haste_delete {share : Share} {o : Out Error Val} {a' : Option Bytes}
    (h : BehavesLate (fun a c r a' => shop a c = (r, a')) true (some [1, 2, 3]) (.delete share ['/', 'a']) o a') : (o = .ok .unit ∨ o = .pending) ∧ a' = none := by
  have hb : backslashed ['/', 'a'] = ['\\', 'a'] := by decide +kernel
  rcases h with h | ⟨rfl, h⟩
  · cases h with
    | long ho => exact absurd (by decide +kernel : utf16Len ['/', 'a'] ≤ nameLimit) ho.1
    | single hc hr => cases hc; rw [hb, shop, if_pos rfl] at hr; cases hr; exact ⟨.inl rfl, rfl⟩
  · cases h with
    | single hc hr => cases hc; rw [hb, shop, if_pos rfl] at hr; cases hr; exact ⟨.inr rfl, rfl⟩

/-- The file is deleted whether the caller waits for the answer or not; and the answer is not taken for the answer to the second call. -/
theorem haste_runs {share : Share} {x : Out Error Val × Out Error Val} {a' : Option Bytes}
    (h1 : (haste share).RunsLate (fun a c r a' => shop a c = (r, a')) true (some [1, 2, 3]) x a') :
    (x.1 = .ok .unit ∨ x.1 = .pending) ∧ (x.2 = .err (.ServerError (.Known .NAME_NOT_FOUND)) ∨ x.2 = .pending) ∧ a' = none := by
  have ho : ∀ {o a'}, BehavesLate (fun a c r a' => shop a c = (r, a')) true none (.openfile share ['/', 'a']) o a' →
      (o = .err (.ServerError (.Known .NAME_NOT_FOUND)) ∨ o = .pending) ∧ a' = none := by
    rintro o a' (h | ⟨rfl, h⟩)
    · cases h with
      | long ho => exact absurd (by decide +kernel : utf16Len ['/', 'a'] ≤ nameLimit) ho.1
      | single hc hr => cases hc; cases hr; exact ⟨.inl rfl, rfl⟩
    · cases h with
      | single hc hr => cases hc; cases hr; exact ⟨.inr rfl, rfl⟩
  cases h1 with
  | call b1 r1 =>
    obtain ⟨h2, rfl⟩ := haste_delete b1
    cases r1 with
    | call b2 r2 =>
      obtain ⟨h3, rfl⟩ := ho b2
      cases r2
      exact ⟨h2, h3, rfl⟩

/-- A shop whose answers are held back as long as there is a file before the request. -/
noncomputable def slowShop : Server (Option Bytes × List Bytes) := delayed (shopServer (fun _ => True)) (fun f _ => f.isSome)

theorem slowShop_late (uid : Nat) : ImplementsLate slowShop true uid (fun a c r a' => shop a c = (r, a'))
    (fun m a v => a = v.1 ∧ Foreign (m ≤ ·) v.2.flatten) :=
  C98_delayed (C98_prompt ((C66_services (fun _ => True) true shop shop_speakable).choose_spec uid)) _

/-- The environment with that server, and a session. -/
noncomputable def hasteEnv : Env (Option Bytes × List Bytes) := { env true with V := slowShop }
def hasteStart : St (Option Bytes × List Bytes) :=
  { cli := cli, w := { inbox := [], wsched := [.accept 3, .accept 10], out := [], srv := (some [1, 2, 3], []) } }

theorem hasteStart_waiting : Waiting hasteEnv (fun m a v => a = v.1 ∧ Foreign (m ≤ ·) v.2.flatten) 2 (some [1, 2, 3]) hasteStart :=
  ⟨by intro ev he; simp [hasteStart] at he; rcases he with rfl | rfl <;> exact ⟨_, rfl⟩, .nil, by decide, 0, Nat.zero_le _, rfl, .nil⟩

/-- In this session, the first call is given up, the second one gets its own answer (and not that of the first, which arrives before it),
and the file is gone. -/
example (share : Share) : ∃ s', (haste share).run hasteEnv hasteStart = ((.pending, .err (.ServerError (.Known .NAME_NOT_FOUND))), s') ∧ s'.w.srv.1 = none := by
  have hfit : ∀ {u : Bool}, Fits u (.delete share ['/', 'a']) := fun {u} => show utf16Len ['/', 'a'] ≤ nameLimit by decide +kernel
  have hfit' : ∀ {u : Bool}, Fits u (.openfile share ['/', 'a']) := fun {u} => show utf16Len ['/', 'a'] ≤ nameLimit by decide +kernel
  obtain ⟨o, a1, s1, h1, h2, h3, h4⟩ := C98_operation (E := hasteEnv) (s := hasteStart) (slowShop_late _) (.delete share ['/', 'a']) 1 _ hasteStart_waiting
  obtain ⟨fr, hf⟩ := first_fits hasteStart.cli (.delete share ['/', 'a']) hfit
  obtain ⟨s2, k1, _⟩ := silent_serves (E := hasteEnv) (n := 1) (op := .delete share ['/', 'a']) rfl hasteStart_waiting.ready hf ⟨.inl .nil, rfl⟩
  cases h2.symm.trans k1
  obtain ⟨_, rfl⟩ := haste_delete h1
  obtain ⟨m, hm, h5, h6⟩ := h4.service
  obtain ⟨fr', hf'⟩ := first_fits s1.cli (.openfile share ['/', 'a']) hfit'
  have hu : s1.cli.useUnicode = true := h3.1
  have hc := isCall_first (op := .openfile share ['/', 'a']) rfl hf'
  rw [hu] at hc
  obtain ⟨r, a2, g1, g2, g3⟩ := (C66_services (fun _ => True) true shop shop_speakable).choose_spec s1.cli.uid.toNat none none (message fr') _ rfl hc
    (uid_first (op := .openfile share ['/', 'a']) rfl hf')
  cases g1
  have e : hasteEnv.V.react s1.w.srv (message fr') =
      ((((shopServer (fun _ => True)).react none (message fr')).1, []), s1.w.srv.2 ++ ((shopServer (fun _ => True)).react none (message fr')).2) := by
    show slowShop.react s1.w.srv (message fr') = _
    simp [slowShop, delayed, ← h5]
  obtain ⟨s2, j1, j2, j3, j4⟩ := answer_serves (n := 0) (op := .openfile share ['/', 'a']) (r := .refused 0xC0000034) rfl h4.ready hf'
    (answers_behind (held := s1.w.srv.2.flatten) (fun _ _ => trivial) (h6.weaken fun k (hk : _ ≤ k) => show m ≤ k by omega)
      (by rw [e, List.flatten_append]; rfl) g2)
  refine ⟨s2, ?_, ?_⟩
  · show ((Prog.call _ _).run hasteEnv hasteStart) = _
    rw [Prog.run, h2, Prog.run, j1]; rfl
  · rw [j3, e]; exact g3.symm

/-- The same with a device that passes on one packet with each request. -/
example (uid : Nat) : ImplementsLate (metered (shopServer (fun _ => True)) fun _ _ _ => 1) true uid (fun a c r a' => shop a c = (r, a'))
    (fun m a v => a = v.1 ∧ Foreign (m ≤ ·) v.2) :=
  C98_metered (C98_prompt ((C66_services (fun _ => True) true shop shop_speakable).choose_spec uid)) _

/-- One of two packets. -/
example : splitPackets 1 (message [1, 2] ++ keepAlive) = (message [1, 2], keepAlive) := by decide +kernel

/-- The server with prepared answers, if the connection stays open. -/
def patient : Server (List (List Bytes)) := { script with tail := fun _ => .blocked }

/-- A server that sends one of the two replies that make up the answer to a search. -/
example (req : Bytes) (hm : midOf req = some 7) (hc : cmdOf req = some 0x32) : Silent patient (7 ≤ ·) [[message head]] req := by
  refine ⟨.inr ⟨hc, 7, [headPiece], [tailPiece], _, _, hm, ?_, cuts, ?_⟩, rfl⟩
  · obtain ⟨h1, h2, h3, h4, h5⟩ := body_of (r := head) (ps := pieceParams 10 55 0 50 65 0) (ds := firstParams ++ entryBytes.take 50) (by decide +kernel)
    obtain ⟨_, _, _, hg, hm'⟩ := awaits head [] h1 h2
    exact .cons (b := []) (rest := []) .nil h1 hg hm' ⟨h3, h4, _, _, h5, headIs⟩ (.nil .nil)
  · intro pre P' D' hp hcut
    have he := (cuts_agree hcut).2
    cases pre with
    | nil => exact he
    | cons x pre =>
      obtain ⟨t, ht⟩ := hp
      obtain ⟨rfl, he2⟩ := List.cons.inj ht
      obtain ⟨rfl, rfl⟩ := List.append_eq_nil_iff.mp he2
      exact absurd he.2 (by decide +kernel)

/-- The search is given up; the rest of its answer, which arrives during the next call, does not disturb that call. -/
example : (runOps { (env true) with V := logged patient } [search, .umount share]
    (st [[message head], [message (tail 55), message (reply .TreeDisconnect 8 [] [])]])).1 = [.pending, .ok .unit] := by decide +kernel

end Demo

end Cifs
