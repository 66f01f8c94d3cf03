import Verif.Spec.Download
import Verif.Lemmas.Short
import Verif.Lemmas.Gather
import Verif.Lemmas.Ends
import Verif.Props.Decode
import Verif.Props.Requests
/-! # The steps of a download -/

namespace Cifs
open Spec

variable {σ : Type}

theorem u16At_small {p : Bytes} {o m : Nat} (h : u16At p o = some m) : m < 65536 := by
  unfold u16At at h
  have hb : ∀ o n, u8At p o = some n → n < 256 := fun o n hn => by
    unfold u8At at hn
    cases hx : p[o]? with
    | none => rw [hx] at hn; cases hn
    | some x => rw [hx] at hn; cases hn; exact x.toNat_lt
  cases h1 : u8At p o with
  | none => rw [h1] at h; cases h
  | some a =>
    cases h2 : u8At p (o + 1) with
    | none => rw [h1, h2] at h; cases h
    | some b =>
      rw [h1, h2] at h
      cases h
      have := hb _ _ h1
      have := hb _ _ h2
      omega

/-- The server after a command: it got nothing, or the request. -/
theorem command_srv {α : Type} (E : Env σ) (m : Msg) (R : Reply α) (s : St σ) :
    ((∀ mid, (send E m s).1 ≠ .ok mid) ∧ (command E m R s).2.w.srv = s.w.srv) ∨
      ∃ fr s1, requestFrame s.cli m = .ok fr ∧ send E m s = (.ok s.cli.mid, s1) ∧ (command E m R s).2.w.srv = (E.V.react s.w.srv (message fr)).1 ∧
        s1.w.flat = s.w.inbox.flatten ++ (E.V.react s.w.srv (message fr)).2.flatten := by
  by_cases h : ∀ mid, (send E m s).1 ≠ .ok mid
  · left
    rw [(command_unsent R h).2, (send_fails h).1]
    exact ⟨h, rfl⟩
  · right
    have h' : ∃ mid, (send E m s).1 = .ok mid := by
      rcases hs : (send E m s).1 with mid | e | _ | _ | _
      · exact ⟨mid, rfl⟩
      all_goals exact absurd (fun mid => by rw [hs]; simp) h
    obtain ⟨mid, hm⟩ := h'
    have hs : send E m s = (.ok mid, (send E m s).2) := by rw [← hm]
    obtain ⟨ib, _, h2⟩ := command_eq R hs
    obtain ⟨fr, h3, _, h5, _, h6, h7⟩ := send_ok_inv hs
    subst h5
    refine ⟨fr, _, h3, hs, ?_, h7⟩
    rw [h2, St.setInbox_srv, h6]

/-- A command that fails although its request was sent got no reply that is accepted. -/
theorem command_refused {α : Type} {E : Env σ} {m : Msg} (hk : KeepsMid m) (R : Reply α) {s : St σ} (hf : ∀ a, (command E m R s).1 ≠ .ok a) :
    ((∀ mid, (send E m s).1 ≠ .ok mid) ∧ (command E m R s).2.w.srv = s.w.srv) ∨
      ∃ fr, requestFrame s.cli m = .ok fr ∧ (command E m R s).2.w.srv = (E.V.react s.w.srv (message fr)).1 ∧
        ∀ f v' b', Round E.V s.w.srv s.w.inbox.flatten (message fr) f v' b' →
          ∃ i, Info.parse f = .ok (i, f.drop 32) ∧ ∀ a, accept R i (f.drop 32) ≠ .ok a := by
  rcases command_srv E m R s with h | ⟨fr, s1, h1, h2, h3, h4⟩
  · exact .inl h
  · refine .inr ⟨fr, h1, h3, ?_⟩
    rintro f v' b' ⟨_, mid, hm, ha⟩
    rw [requestFrame_mid hk h1] at hm
    cases hm
    obtain ⟨i, ib, hp, _, hc⟩ := command_round R h2 (f := f) (rest := b') (by rw [h4]; exact ha)
    refine ⟨i, hp, fun a hacc => hf a ?_⟩
    rw [hc, hacc]; rfl

/-! ## Requests -/

theorem openRequest {c : Cli} {tid : UInt16} {path : Str} {fr : Bytes} (h : requestFrame c (OpenMsg.fileRo tid (sanitizePath path)).msg = .ok fr) :
    OpenRequest (message fr) tid.toNat path := by
  obtain ⟨p, d, hb, _, _, rfl⟩ := requestFrame_ok h
  refine ⟨by rw [frame_cmd]; rfl, by rw [frame_tid]; rfl, ?_⟩
  exact is_open _ (OpenMsg.fileRo tid (sanitizePath path)) p d hb rfl rfl rfl rfl rfl rfl rfl

theorem readRequest {c : Cli} {file : Handle} {offset : UInt64} {fr : Bytes} (h : requestFrame c (readMsg file.tid file.fid offset) = .ok fr) :
    ReadRequest (message fr) file offset.toNat := by
  obtain ⟨p, d, hb, _, _, rfl⟩ := requestFrame_ok h
  exact ⟨by rw [frame_cmd]; rfl, by rw [frame_tid]; rfl, is_read _ _ _ _ p d hb⟩

theorem closeRequest {c : Cli} {file : Handle} {fr : Bytes} (h : requestFrame c (closeMsg file.tid file.fid) = .ok fr) :
    CloseRequest (message fr) file := by
  obtain ⟨p, d, hb, _, _, rfl⟩ := requestFrame_ok h
  exact ⟨by rw [frame_cmd]; rfl, by rw [frame_tid]; rfl, is_close _ _ _ p d hb⟩

/-! ## Replies -/

theorem make_read (i : Info) (ps ds chunk : Bytes) : readReply.make i ps ds = .ok chunk ↔
    LastAndX ps ∧ ∃ pad, pad.length ≤ 1 ∧ ds = pad ++ chunk ∧ u16At ps 10 = some chunk.length := by
  constructor
  · intro hm
    have hlast := make_andx_ok readReply rfl i hm
    rw [make_andx readReply rfl i hlast.1 hlast.2] at hm
    simp only [readReply] at hm
    have hl : 12 ≤ ps.length := by
      by_cases h : (ps.drop 4).length < 8
      · rw [readCreate_short i _ h] at hm; cases hm
      · simp at h; omega
    obtain ⟨n, hn⟩ : ∃ n, u16At ps 10 = some n := by
      obtain ⟨q, r, hq, rfl⟩ := split_n 10 ps (by omega)
      obtain ⟨x, r, rfl⟩ := split_u16 r (by simp [hq] at hl; omega)
      exact ⟨x.toNat, by rw [u16At_append_right _ _ _ (by omega), hq, u16At_put]⟩
    rw [readCreate_eq i _ hn] at hm
    refine ⟨hlast, if ds.length = n then [] else ds.take 1, ?_⟩
    split at hm
    · rename_i h1
      rw [if_pos h1]
      cases hm
      exact ⟨by simp, rfl, by rw [hn, h1]⟩
    · rename_i h1
      rw [if_neg h1]
      split at hm
      · rename_i h2
        cases hm
        exact ⟨by simp; omega, (List.take_append_drop 1 ds).symm, by rw [hn]; simp; omega⟩
      · cases hm
  · rintro ⟨hx, pad, hp, rfl, hn⟩
    rw [make_andx readReply rfl i hx.1 hx.2]
    simp only [readReply]
    rw [readCreate_eq i _ hn]
    rcases pad with _ | ⟨x, _ | ⟨y, pad⟩⟩
    · simp
    · simp
    · simp at hp

theorem make_open (i : Info) (ps ds : Bytes) (h : Handle) : Handle.reply.make i ps ds = .ok h ↔ LastAndX ps ∧ IsOpenReply ps i.tid.toNat h := by
  constructor
  · intro hm
    have hlast := make_andx_ok Handle.reply rfl i hm
    refine ⟨hlast, ?_⟩
    rw [make_andx Handle.reply rfl i hlast.1 hlast.2] at hm
    have hl : 68 ≤ ps.length := by
      by_cases hl : 68 ≤ ps.length
      · exact hl
      · rw [show Handle.reply.create = Handle.create from rfl, Handle.create_short i _ (by simp; omega)] at hm; cases hm
    obtain ⟨d, hd⟩ : ∃ d, u8At ps 67 = some d := ⟨_, by rw [u8At, List.getElem?_eq_getElem (by omega)]; rfl⟩
    have hc := Handle.create_eq (ds := ds) i (35 + ps.length) hl d hd
    split at hc
    · obtain ⟨v, hv, hi⟩ := hc
      have : Handle.create _ = .ok h := hm
      rw [hv] at this; cases this
      exact hi
    · have : Handle.create _ = .ok h := hm
      rw [hc] at this; cases this
  · rintro ⟨hx, hi⟩
    rw [make_andx Handle.reply rfl i hx.1 hx.2]
    have hl := u8At_lt hi.directory
    have hc := Handle.create_eq (ds := ds) i (35 + ps.length) (by omega) _ hi.directory
    rw [if_pos (by split <;> omega)] at hc
    obtain ⟨v, hv, hi'⟩ := hc
    rw [C30_unique _ _ _ _ hi hi']
    exact hv

/-- A reply that is accepted, for all types but session setup. -/
theorem accept_iff {α : Type} (R : Reply α) (hR : R.cmd ≠ .SessionSetup) {f : Bytes} {i : Info} (hp : Info.parse f = .ok (i, f.drop 32)) (a : α) :
    accept R i (f.drop 32) = .ok a ↔ ∃ ps ds, Succeeds f R.cmd.code.toNat ps ds ∧ R.make i ps ds = .ok a := by
  constructor
  · intro h
    obtain ⟨h1, h2, ps, ds, h3, h4⟩ := accept_inv R hR hp h
    exact ⟨ps, ds, ⟨h1, h2, h3⟩, h4⟩
  · rintro ⟨ps, ds, ⟨h1, h2, h3⟩, h4⟩
    rw [accept_body R hp h1 h2, parse_body R i ((C13_accepted_iff f).mp ⟨_, _, hp⟩).1 h3, h4]
    rfl

theorem accept_open {f : Bytes} {i : Info} (hp : Info.parse f = .ok (i, f.drop 32)) (h : Handle) :
    accept Handle.reply i (f.drop 32) = .ok h ↔ Opens f h := by
  have ht := (C17_read f i _ hp).2.2.2.2.2.2.2.1
  rw [accept_iff Handle.reply (by decide) hp]
  constructor
  · rintro ⟨ps, ds, h1, h2⟩
    rw [make_open] at h2
    exact ⟨ps, ds, _, h1, h2.1, ht, h2.2⟩
  · rintro ⟨ps, ds, tid, h1, h2, h3, h4⟩
    rw [ht] at h3
    cases h3
    exact ⟨ps, ds, h1, (make_open _ _ _ _).mpr ⟨h2, h4⟩⟩

theorem accept_read {f : Bytes} {i : Info} (hp : Info.parse f = .ok (i, f.drop 32)) (chunk : Bytes) :
    accept readReply i (f.drop 32) = .ok chunk ↔ Yields f chunk := by
  rw [accept_iff readReply (by decide) hp]
  constructor
  · rintro ⟨ps, ds, h1, h2⟩
    obtain ⟨hx, pad, h3, rfl, h4⟩ := (make_read _ _ _ _).mp h2
    exact ⟨ps, pad, h1, hx, h3, h4⟩
  · rintro ⟨ps, pad, h1, h2, h3, h4⟩
    exact ⟨ps, _, h1, (make_read _ _ _ _).mpr ⟨h2, pad, h3, rfl, h4⟩⟩

theorem accept_close {f : Bytes} {i : Info} (hp : Info.parse f = .ok (i, f.drop 32)) : accept closeReply i (f.drop 32) = .ok () ↔ Closes f := by
  rw [accept_iff closeReply (by decide) hp]
  constructor
  · rintro ⟨ps, ds, h1, _⟩
    exact ⟨ps, ds, h1⟩
  · rintro ⟨ps, ds, h1⟩
    exact ⟨ps, ds, h1, by rw [make_plain closeReply rfl]; rfl⟩

/-! ## Steps -/

theorem openfile_ok {E : Env σ} {share : Share} {path : Str} {s s' : St σ} {h : Handle} (ho : openfile E share path s = (.ok h, s')) :
    ∃ req f, OpenRequest req share.tid.toNat path ∧ Round E.V s.w.srv s.w.inbox.flatten req f s'.w.srv s'.w.inbox.flatten ∧ Opens f h := by
  obtain ⟨fr, f, i, h1, _, h3, h4, h5, _⟩ := command_ok (keepsMid_setTid _ _ rfl) Handle.reply ho
  exact ⟨_, f, openRequest h1, h3, (accept_open h4 h).mp h5⟩

theorem read_ok {E : Env σ} {file : Handle} {o : UInt64} {s s' : St σ} {chunk : Bytes} (ho : read E file o s = (.ok chunk, s')) :
    ∃ req f, ReadRequest req file o.toNat ∧ Round E.V s.w.srv s.w.inbox.flatten req f s'.w.srv s'.w.inbox.flatten ∧ Yields f chunk := by
  obtain ⟨fr, f, i, h1, _, h3, h4, h5, _⟩ := command_ok (keepsMid_setTid _ _ rfl) readReply ho
  exact ⟨_, f, readRequest h1, h3, (accept_read h4 chunk).mp h5⟩

theorem close_ok {E : Env σ} {file : Handle} {s s' : St σ} (ho : close E file s = (.ok (), s')) :
    ∃ req f, CloseRequest req file ∧ Round E.V s.w.srv s.w.inbox.flatten req f s'.w.srv s'.w.inbox.flatten ∧ Closes f := by
  obtain ⟨fr, f, i, h1, _, h3, h4, h5, _⟩ := command_ok (keepsMid_setTid _ _ rfl) closeReply ho
  exact ⟨_, f, closeRequest h1, h3, (accept_close h4).mp h5⟩

/-- The successful reads of a download. -/
inductive ReadSteps (E : Env σ) (file : Handle) : St σ → Bytes → List Bytes → St σ → Prop
  | done (s : St σ) (data : Bytes) : ReadSteps E file s data [] s
  | step {s s1 s2 : St σ} {data chunk : Bytes} {chunks : List Bytes} (hl : data.length < file.size.toNat)
      (h : read E file (UInt64.ofNat data.length) s = (.ok chunk, s1)) (hs : ReadSteps E file s1 (data ++ chunk) chunks s2) :
      ReadSteps E file s data (chunk :: chunks) s2

/-- An outcome other than success. -/
def Out.Fails {ε α : Type} (o : Out ε α) : Prop := ∀ a, o ≠ .ok a

/-- An outcome other than success has no value, so it is an outcome for values of any type. -/
def Out.recast {ε α β : Type} : Out ε α → Out ε β
  | .ok _ => .running
  | .err e => .err e
  | .panic => .panic
  | .pending => .pending
  | .running => .running

theorem M.bind_fails {ε S α β : Type} {m : M ε S α} {f : α → M ε S β} {s s1 : S} {o : Out ε α} (h : m s = (o, s1)) (ho : o.Fails) :
    (m >>= f) s = (o.recast, s1) := by
  cases o with
  | ok a => exact absurd rfl (ho a)
  | err e => exact M.bind_err h
  | panic => exact M.bind_panic h
  | pending => exact M.bind_pending h
  | running => exact M.bind_running h

theorem recast_fails {ε α β : Type} {o : Out ε α} : (o.recast : Out ε β).Fails := by
  cases o <;> exact fun a h => by cases h

theorem out_cases {ε α : Type} (o : Out ε α) : (∃ a, o = .ok a) ∨ o.Fails := by
  cases o with
  | ok a => exact .inl ⟨a, rfl⟩
  | _ => exact .inr (fun a h => by cases h)

/-- The loop of a download: some successful reads; then the budget is used up, or a read fails, or everything is there. -/
theorem downloadLoop_cases (E : Env σ) (file : Handle) (k : Nat) : ∀ (data : Bytes) (s : St σ), ∃ chunks s1, ReadSteps E file s data chunks s1 ∧
    ((chunks.length = k ∧ downloadLoop E file k data s = (.running, s1)) ∨
     (chunks.length < k ∧ (data ++ chunks.flatten).length < file.size.toNat ∧
       ∃ o s2, read E file (UInt64.ofNat (data ++ chunks.flatten).length) s1 = (o, s2) ∧ o.Fails ∧ downloadLoop E file k data s = (o.recast, s2)) ∨
     (chunks.length < k ∧ file.size.toNat ≤ (data ++ chunks.flatten).length ∧ downloadLoop E file k data s = (.ok (data ++ chunks.flatten), s1))) := by
  induction k with
  | zero => intro data s; exact ⟨[], s, .done s data, .inl ⟨rfl, rfl⟩⟩
  | succ k ih =>
    intro data s
    by_cases hl : data.length < file.size.toNat
    · have e : downloadLoop E file (k + 1) data = (read E file (UInt64.ofNat data.length) >>= fun chunk => downloadLoop E file k (data ++ chunk)) := by
        rw [downloadLoop, if_pos hl]
      rw [e]
      rcases hr : read E file (UInt64.ofNat data.length) s with ⟨o, s1⟩
      rcases out_cases o with ⟨chunk, rfl⟩ | ho
      · rw [M.bind_ok hr]
        obtain ⟨chunks, s2, h1, h2⟩ := ih (data ++ chunk) s1
        refine ⟨chunk :: chunks, s2, .step hl hr h1, ?_⟩
        simpa only [List.length_cons, List.flatten_cons, List.append_assoc, Nat.add_right_cancel_iff, Nat.add_lt_add_iff_right] using h2
      · rw [M.bind_fails hr ho]
        refine ⟨[], s, .done s data, .inr (.inl ⟨by simp, by simpa using hl, o, s1, ?_, ho, rfl⟩)⟩
        simpa using hr
    · refine ⟨[], s, .done s data, .inr (.inr ⟨by simp, by simpa using hl, ?_⟩)⟩
      rw [downloadLoop, if_neg hl]
      simp

/-- The steps of a download. -/
theorem download_cases (E : Env σ) (k : Nat) (share : Share) (path : Str) (s : St σ) :
    (∃ o s1, openfile E share path s = (o, s1) ∧ o.Fails ∧ download E k share path s = (o.recast, s1)) ∨
    ∃ file s1 chunks s2, openfile E share path s = (.ok file, s1) ∧ ReadSteps E file s1 [] chunks s2 ∧
      ((chunks.length = k ∧ download E k share path s = (.running, s2)) ∨
       (chunks.length < k ∧ chunks.flatten.length < file.size.toNat ∧
         ∃ o s3, read E file (UInt64.ofNat chunks.flatten.length) s2 = (o, s3) ∧ o.Fails ∧ download E k share path s = (o.recast, s3)) ∨
       (chunks.length < k ∧ file.size.toNat ≤ chunks.flatten.length ∧ ∃ o s3, close E file s2 = (o, s3) ∧
         ((o = .ok () ∧ download E k share path s = (.ok chunks.flatten, s3)) ∨ (o.Fails ∧ download E k share path s = (o.recast, s3))))) := by
  have e : download E k share path = (openfile E share path >>= fun file => downloadLoop E file k [] >>= fun data => close E file >>= fun _ => pure data) := rfl
  rw [e]
  rcases hop : openfile E share path s with ⟨o, s1⟩
  rcases out_cases o with ⟨file, rfl⟩ | ho
  · right
    rw [M.bind_ok hop]
    obtain ⟨chunks, s2, h1, h2⟩ := downloadLoop_cases E file k [] s1
    refine ⟨file, s1, chunks, s2, rfl, h1, ?_⟩
    rcases h2 with ⟨h2, h3⟩ | ⟨h2, h3, o, s3, h4, h5, h6⟩ | ⟨h2, h3, h4⟩
    · exact .inl ⟨h2, M.bind_running h3⟩
    · exact .inr (.inl ⟨h2, h3, o, s3, h4, h5, (M.bind_fails h6 recast_fails).trans (by cases o <;> rfl)⟩)
    · refine .inr (.inr ⟨h2, h3, ?_⟩)
      rw [M.bind_ok h4]
      rcases hc : close E file s2 with ⟨o, s3⟩
      refine ⟨o, s3, rfl, ?_⟩
      rcases out_cases o with ⟨⟨⟩, rfl⟩ | ho
      · left; rw [M.bind_ok hc]; exact ⟨rfl, rfl⟩
      · right; rw [M.bind_fails hc ho]; exact ⟨ho, rfl⟩
  · exact .inl ⟨o, s1, rfl, ho, M.bind_fails hop ho⟩

/-! ## What a working connection adds -/

theorem command_accepting {α : Type} (E : Env σ) (m : Msg) (R : Reply α) {s : St σ} (h : Accepting s.w.wsched) :
    Accepting (command E m R s).2.w.wsched := by
  have hs : Accepting (send E m s).2.w.wsched := (send_ends E m s h).2
  by_cases hu : ∀ mid, (send E m s).1 ≠ .ok mid
  · rw [(command_unsent R hu).2]; exact hs
  · have h' : ∃ mid, (send E m s).1 = .ok mid := by
      rcases out_cases (send E m s).1 with h | h
      · exact h
      · exact absurd h hu
    obtain ⟨mid, hm⟩ := h'
    have hs' : send E m s = (.ok mid, (send E m s).2) := by rw [← hm]
    obtain ⟨ib, _, h2⟩ := command_eq R hs'
    rw [h2]; exact hs

/-- A request that can be built is sent, unless the multiplex ids are used up. -/
theorem command_sent {α : Type} (E : Env σ) (m : Msg) (R : Reply α) {s : St σ} {fr : Bytes} (h : Accepting s.w.wsched) (hf : requestFrame s.cli m = .ok fr) :
    (command E m R s).1 = .panic ∨ (command E m R s).2.w.srv = (E.V.react s.w.srv (message fr)).1 := by
  by_cases hc : E.checked = true ∧ s.cli.mid.toNat = 65535
  · left
    have : send E m s = (.panic, (send E m s).2) := by unfold send; rw [if_pos hc]
    exact congrArg Prod.fst (M.bind_panic this)
  · right
    obtain ⟨ws, h1, h2⟩ := send_ok E m s fr hc hf (C26_fits hf) h
    obtain ⟨ib, _, h3⟩ := command_eq R h2
    rw [h3]; rfl

/-- A request that is answered. -/
theorem command_served {α : Type} (E : Env σ) (m : Msg) (R : Reply α) {s : St σ} {fr f rest : Bytes} (hw : Accepting s.w.wsched)
    (hc : ¬ (E.checked = true ∧ s.cli.mid.toNat = 65535)) (hf : requestFrame s.cli m = .ok fr)
    (ha : Awaits s.cli.mid.toNat (s.w.inbox.flatten ++ (E.V.react s.w.srv (message fr)).2.flatten) f rest) {a : α}
    (hok : ∀ i, Info.parse f = .ok (i, f.drop 32) → accept R i (f.drop 32) = .ok a) :
    ∃ s', command E m R s = (.ok a, s') ∧ s'.cli = s.bump.cli ∧ s'.w.srv = (E.V.react s.w.srv (message fr)).1 ∧
      s'.w.inbox.flatten = rest ∧ Accepting s'.w.wsched := by
  obtain ⟨ws, h1, h2⟩ := send_ok E m s fr hc hf (C26_fits hf) hw
  obtain ⟨i, ib, hp, hib, h3⟩ := command_round R h2 (f := f) (rest := rest) (by
    show Awaits _ (s.w.inbox ++ (E.V.react s.w.srv (message fr)).2).flatten f rest
    rw [List.flatten_append]; exact ha)
  rw [hok i hp] at h3
  exact ⟨_, h3, rfl, rfl, hib, h1⟩

theorem foreign_skips {own : Nat → Prop} {b x f rest : Bytes} (h : Foreign own b) {mid : Nat} (hm : own mid) (hd : Delivers x f rest) :
    ∃ b', Skips mid (b ++ x) b' ∧ Delivers b' f rest := by
  induction h with
  | nil => exact ⟨x, .done _, hd⟩
  | keepAlive h ih =>
    obtain ⟨b', h1, h2⟩ := ih
    rw [List.append_assoc]
    cases h1 with
    | done => exact ⟨_, .done _, .keepAlive h2⟩
    | skip hx hg m hm hne hs => exact ⟨b', .skip (.keepAlive hx) hg m hm hne hs, h2⟩
  | reply hl hg m hm' ho h ih =>
    obtain ⟨b', h1, h2⟩ := ih
    rw [List.append_assoc]
    exact ⟨b', .skip (.message _ _ hl) hg m hm' (fun e => ho (e ▸ hm)) h1, h2⟩

theorem foreign_append {own : Nat → Prop} {b b' : Bytes} (h : Foreign own b) (h' : Foreign own b') : Foreign own (b ++ b') := by
  induction h with
  | nil => exact h'
  | keepAlive h ih => rw [List.append_assoc]; exact .keepAlive ih
  | reply hl hg m hm ho h ih => rw [List.append_assoc]; exact .reply hl hg m hm ho ih

/-- A served request is answered by its own reply. -/
theorem serves_awaits {V : Server σ} {own : Nat → Prop} {v : σ} {b req f : Bytes} (hb : Foreign own b) (h : Serves V own v req f) {mid : Nat}
    (hm : midOf req = some mid) (ho : own mid) : ∃ rest, Foreign own rest ∧ Awaits mid (b ++ (V.react v req).2.flatten) f rest := by
  obtain ⟨before, after, h1, h2, h3, h4, h5, h6⟩ := h
  obtain ⟨b', h7, h8⟩ := foreign_skips (foreign_append hb h2) ho (.message f after h4)
  refine ⟨after, h3, b', ?_, h8, h5, h6.trans hm⟩
  rw [h1]
  simpa using h7

/-! ## The wire -/

theorem reading_log {V : Server σ} {log : σ → List Bytes} (hlog : Logs V log) {quit : Prop} {h : Handle} {v v' : σ} {b data : Bytes}
    {reqs chunks : List Bytes} {r : Option Bytes} (hr : Reading V quit h v b data reqs chunks r v') : log v' = log v ++ reqs := by
  induction hr with
  | stop => simp
  | read hl hq hr hf hs ih => rw [ih, hr.1, hlog, List.append_assoc]; rfl
  | unread hl hq => exact hlog _ _
  | close hl hq hr hf => rw [hr.1]; exact hlog _ _
  | unclosed hl hq => exact hlog _ _

theorem downloading_log {V : Server σ} {log : σ → List Bytes} (hlog : Logs V log) {quit : Prop} {tid : Nat} {path : Str} {v v' : σ} {b : Bytes}
    {reqs chunks : List Bytes} {file : Option Handle} {r : Option Bytes} (hr : Downloading V quit tid path v b reqs file chunks r v') :
    log v' = log v ++ reqs := by
  cases hr with
  | none => simp
  | unopened hq => exact hlog _ _
  | opened hq hr hf hs => rw [reading_log hlog hs, hr.1, hlog, List.append_assoc]; rfl

theorem ReadSteps.wire {E : Env σ} {file : Handle} {s s1 : St σ} {data : Bytes} {chunks : List Bytes} (h : ReadSteps E file s data chunks s1)
    {quit : Prop} {reqs chunks' : List Bytes} {r : Option Bytes} {v' : σ}
    (hr : Reading E.V quit file s1.w.srv s1.w.inbox.flatten (data ++ chunks.flatten) reqs chunks' r v') :
    ∃ reqs', Reading E.V quit file s.w.srv s.w.inbox.flatten data (reqs' ++ reqs) (chunks ++ chunks') r v' := by
  induction h with
  | done s data => exact ⟨[], by simpa using hr⟩
  | step hl h hs ih =>
    obtain ⟨reqs', h1⟩ := ih (by simpa using hr)
    obtain ⟨req, f, h2, h3, h4⟩ := read_ok h
    rw [UInt64.toNat_ofNat_of_lt' (by have := file.size.toNat_lt; simp only [UInt64.size] at *; omega)] at h2
    exact ⟨req :: reqs', .read hl h2 h3 h4 h1⟩

theorem ReadSteps.accepting {E : Env σ} {file : Handle} {s s1 : St σ} {data : Bytes} {chunks : List Bytes} (h : ReadSteps E file s data chunks s1)
    (hw : Accepting s.w.wsched) : Accepting s1.w.wsched := by
  induction h with
  | done s data => exact hw
  | step hl h hs ih =>
    apply ih
    have ha := congrArg (fun r => Accepting r.2.w.wsched) h
    exact ha.mp (command_accepting E _ readReply hw)

theorem recast_running {ε α β : Type} {o : Out ε α} (ho : o.Fails) (h : (o.recast : Out ε β) = .running) : o = .running := by
  cases o with
  | ok a => exact absurd rfl (ho a)
  | running => rfl
  | _ => cases h

theorem recast_panic {ε α β : Type} {o : Out ε α} (h : o = .panic) : (o.recast : Out ε β) = .panic := by rw [h]; rfl

/-- What can make a download give up without a cause on the wire: the socket takes no data, the multiplex ids are used up, or the budget is. -/
def Quits {α : Type} (s : St σ) (o : Out Error α) : Prop := o = .running ∨ o = .panic ∨ ¬ Accepting s.w.wsched

/-- A command of a download that fails. -/
theorem failed_step {α : Type} {E : Env σ} {m : Msg} (hk : KeepsMid m) (R : Reply α) {s s0 s1 : St σ} {o : Out Error α} (h : command E m R s = (o, s1))
    (ho : o.Fails) (hb : ∃ fr, requestFrame s.cli m = .ok fr) (hw : Accepting s0.w.wsched → Accepting s.w.wsched) {β : Type} :
    (Quits s0 (o.recast : Out Error β) ∧ s1.w.srv = s.w.srv) ∨
      ∃ fr, requestFrame s.cli m = .ok fr ∧ s1.w.srv = (E.V.react s.w.srv (message fr)).1 ∧
        ∀ f v' b', Round E.V s.w.srv s.w.inbox.flatten (message fr) f v' b' →
          ∃ i, Info.parse f = .ok (i, f.drop 32) ∧ ∀ a, accept R i (f.drop 32) ≠ .ok a := by
  have hr := command_refused hk R (E := E) (s := s) (by rw [h]; exact ho)
  rw [h] at hr
  rcases hr with hr | hr
  · by_cases hq : Quits s0 (o.recast : Out Error β)
    · exact .inl ⟨hq, hr.2⟩
    · exfalso
      obtain ⟨fr, hfr⟩ := hb
      have hacc : Accepting s.w.wsched := hw (by
        apply Classical.byContradiction
        intro hn
        exact hq (.inr (.inr hn)))
      by_cases hc : E.checked = true ∧ s.cli.mid.toNat = 65535
      · have : send E m s = (.panic, (send E m s).2) := by unfold send; rw [if_pos hc]
        have := congrArg Prod.fst (M.bind_panic (f := fun mid => recv E R mid) this)
        rw [show (send E m >>= fun mid => recv E R mid) s = _ from h] at this
        exact hq (.inr (.inl (recast_panic this)))
      · obtain ⟨ws, _, h2⟩ := send_ok E m s fr hc hfr (C26_fits hfr) hacc
        exact hr.1 s.cli.mid (by rw [h2])
  · exact .inr hr


/-- The course of a download. -/
theorem download_course (E : Env σ) (k : Nat) (share : Share) (path : Str) (s : St σ) :
    ∃ reqs file chunks r, Downloading E.V (Quits s (download E k share path s).1) share.tid.toNat path s.w.srv s.w.inbox.flatten reqs file chunks r
        (download E k share path s).2.w.srv ∧
      (∀ d, (download E k share path s).1 = .ok d ↔ r = some d) ∧
      ((download E k share path s).1 = .running → file ≠ none ∧ chunks.length = k) := by
  have fails : ∀ {α : Type} {o : Out Error α} (d : Bytes), (o.recast : Out Error Bytes) = .ok d ↔ (none : Option Bytes) = some d :=
    fun d => ⟨fun h' => absurd h' (recast_fails d), fun h' => by cases h'⟩
  rcases download_cases E k share path s with ⟨o, s1, h1, h2, h3⟩ | ⟨file, s1, chunks, s2, h1, h2, h3⟩
  · rw [h3]
    have hrun : (o.recast : Out Error Bytes) ≠ .running := fun h => by
      have := command_stops E (OpenMsg.fileRo share.tid (sanitizePath path)).msg Handle.reply s
      rw [show command E _ _ s = _ from h1] at this
      exact this (recast_running h2 h)
    have hr := command_refused (keepsMid_setTid _ _ rfl) Handle.reply (E := E) (m := (OpenMsg.fileRo share.tid (sanitizePath path)).msg) (s := s)
      (by rw [show command E _ _ s = _ from h1]; exact h2)
    rw [show command E _ _ s = _ from h1] at hr
    rcases hr with ⟨_, h⟩ | ⟨fr, h, h', h''⟩
    · refine ⟨[], none, [], none, ?_, fails, fun h => absurd h hrun⟩
      rw [h]; exact .none _ _
    · refine ⟨[message fr], none, [], none, ?_, fails, fun h => absurd h hrun⟩
      rw [h']
      refine .unopened (openRequest h) fun f v' b' hd hr hop => ?_
      obtain ⟨i, hp, hn⟩ := h'' f v' b' hr
      exact hn hd ((accept_open hp hd).mpr hop)
  · obtain ⟨req, f, g1, g2, g3⟩ := openfile_ok h1
    have hw : Accepting s.w.wsched → Accepting s2.w.wsched := fun h => h2.accepting (by
      have := command_accepting E (OpenMsg.fileRo share.tid (sanitizePath path)).msg Handle.reply h
      rw [show command E _ _ s = _ from h1] at this
      exact this)
    rcases h3 with ⟨h4, h5⟩ | ⟨h4, h5, o, s3, h6, h7, h8⟩ | ⟨h4, h5, o, s3, h6, h7⟩
    · rw [h5]
      obtain ⟨reqs, hw⟩ := h2.wire (quit := Quits s (.running : Out Error Bytes)) (.stop (.inl rfl) s2.w.srv s2.w.inbox.flatten _)
      refine ⟨req :: reqs, some file, chunks, none, ?_, fun d => ⟨fun h => (by cases h), fun h => (by cases h)⟩, fun _ => ⟨by simp, h4⟩⟩
      exact .opened g1 g2 g3 (by simpa using hw)
    · rw [h8]
      have hrun : (o.recast : Out Error Bytes) ≠ .running := fun h => by
        have := command_stops E (readMsg file.tid file.fid (UInt64.ofNat chunks.flatten.length)) readReply s2
        rw [show command E _ _ s2 = _ from h6] at this
        exact this (recast_running h7 h)
      rcases failed_step (keepsMid_setTid _ _ rfl) readReply h6 h7 (first_fits _ (.read file _) trivial) hw (β := Bytes) with ⟨hq, h⟩ | ⟨fr, h, h', h''⟩
      · obtain ⟨reqs, hw⟩ := h2.wire (.stop hq s2.w.srv s2.w.inbox.flatten _)
        refine ⟨req :: reqs, some file, chunks, none, ?_, fails, fun h => absurd h hrun⟩
        rw [h]
        exact .opened g1 g2 g3 (by simpa using hw)
      · have hq := readRequest h
        rw [UInt64.toNat_ofNat_of_lt' (by have := file.size.toNat_lt; simp only [UInt64.size] at *; omega)] at hq
        obtain ⟨reqs, hw⟩ := h2.wire (quit := Quits s (o.recast : Out Error Bytes)) (.unread (V := E.V) (v := s2.w.srv) (b := s2.w.inbox.flatten)
          (data := [] ++ chunks.flatten) (req := message fr) h5 hq (fun f v' b' c hr hy => by
            obtain ⟨i, hp, hn⟩ := h'' f v' b' hr
            exact hn c ((accept_read hp c).mpr hy)))
        refine ⟨req :: (reqs ++ [message fr]), some file, chunks, none, ?_, fails, fun h => absurd h hrun⟩
        rw [h']
        exact .opened g1 g2 g3 (by simpa using hw)
    · rcases h7 with ⟨rfl, h8⟩ | ⟨h7, h8⟩
      · rw [h8]
        obtain ⟨creq, cf, c1, c2, c3⟩ := close_ok h6
        obtain ⟨reqs, hw⟩ := h2.wire (quit := Quits s (.ok chunks.flatten : Out Error Bytes)) (.close (data := [] ++ chunks.flatten) h5 c1 c2 c3)
        refine ⟨req :: (reqs ++ [creq]), some file, chunks, some chunks.flatten, ?_, fun d => ⟨fun h => ?_, fun h => ?_⟩, fun h => ?_⟩
        · exact .opened g1 g2 g3 (by simpa using hw)
        · cases h; rfl
        · cases h; rfl
        · cases h
      · rw [h8]
        have hrun : (o.recast : Out Error Bytes) ≠ .running := fun h => by
          have := command_stops E (closeMsg file.tid file.fid) closeReply s2
          rw [show command E _ _ s2 = _ from h6] at this
          exact this (recast_running h7 h)
        rcases failed_step (keepsMid_setTid _ _ rfl) closeReply h6 h7 (first_fits _ (.close file) trivial) hw (β := Bytes) with ⟨hq, h⟩ | ⟨fr, h, h', h''⟩
        · obtain ⟨reqs, hw⟩ := h2.wire (.stop hq s2.w.srv s2.w.inbox.flatten _)
          refine ⟨req :: reqs, some file, chunks, none, ?_, fails, fun h => absurd h hrun⟩
          rw [h]
          exact .opened g1 g2 g3 (by simpa using hw)
        · obtain ⟨reqs, hw⟩ := h2.wire (quit := Quits s (o.recast : Out Error Bytes)) (.unclosed (V := E.V) (v := s2.w.srv) (b := s2.w.inbox.flatten)
            (data := [] ++ chunks.flatten) h5 (closeRequest h) (fun f v' b' hr hy => by
              obtain ⟨i, hp, hn⟩ := h'' f v' b' hr
              exact hn () ((accept_close hp).mpr hy)))
          refine ⟨req :: (reqs ++ [message fr]), some file, chunks, none, ?_, fails, fun h => absurd h hrun⟩
          rw [h']
          exact .opened g1 g2 g3 (by simpa using hw)

/-! ## A server that serves a file -/

/-- A request that is served. -/
theorem command_serves {α : Type} {E : Env σ} {m : Msg} (hk : KeepsMid m) (R : Reply α) {own : Nat → Prop} {s : St σ} {fr f : Bytes}
    (hw : Accepting s.w.wsched) (hc : ¬ (E.checked = true ∧ s.cli.mid.toNat = 65535)) (hb : Foreign own s.w.inbox.flatten) (ho : own s.cli.mid.toNat)
    (hf : requestFrame s.cli m = .ok fr) (hs : Serves E.V own s.w.srv (message fr) f) {a : α}
    (hok : ∀ i, Info.parse f = .ok (i, f.drop 32) → accept R i (f.drop 32) = .ok a) :
    ∃ s', command E m R s = (.ok a, s') ∧ s'.cli = s.bump.cli ∧ s'.w.srv = (E.V.react s.w.srv (message fr)).1 ∧
      Foreign own s'.w.inbox.flatten ∧ Accepting s'.w.wsched := by
  obtain ⟨rest, h1, h2⟩ := serves_awaits hb hs (requestFrame_mid hk hf) ho
  obtain ⟨s', h3, h4, h5, h6, h7⟩ := command_served E m R hw hc hf h2 hok
  exact ⟨s', h3, h4, h5, by rw [h6]; exact h1, h7⟩

/-- A session in which `n` further requests can be made. -/
structure Ready (E : Env σ) (own : Nat → Prop) (n : Nat) (s : St σ) : Prop where
  writes : Accepting s.w.wsched
  unread : Foreign own s.w.inbox.flatten
  ids : ∀ k < n, own ((s.cli.mid.toNat + k) % 65536)
  enough : E.checked = true → s.cli.mid.toNat + n ≤ 65535

theorem Ready.first {E : Env σ} {own : Nat → Prop} {n : Nat} {s : St σ} (h : Ready E own (n + 1) s) :
    ¬ (E.checked = true ∧ s.cli.mid.toNat = 65535) ∧ own s.cli.mid.toNat := by
  refine ⟨fun hc => ?_, ?_⟩
  · have := h.enough hc.1; omega
  · have := h.ids 0 (by omega)
    rwa [Nat.add_zero, Nat.mod_eq_of_lt s.cli.mid.toNat_lt] at this

theorem Ready.next {E : Env σ} {own : Nat → Prop} {n : Nat} {s s' : St σ} (h : Ready E own (n + 1) s) (hc : s'.cli = s.bump.cli)
    (hf : Foreign own s'.w.inbox.flatten) (hw : Accepting s'.w.wsched) : Ready E own n s' := by
  have e : s'.cli.mid.toNat = (s.cli.mid.toNat + 1) % 65536 := by rw [hc]; simp [St.bump]
  refine ⟨hw, hf, fun k hk => ?_, fun hc => ?_⟩
  · rw [e]
    have := h.ids (k + 1) (by omega)
    have e' : ((s.cli.mid.toNat + 1) % 65536 + k) % 65536 = (s.cli.mid.toNat + (k + 1)) % 65536 := by omega
    rw [e']; exact this
  · have := h.enough hc; omega

theorem served_loop {E : Env σ} {own : Nat → Prop} {tid : Nat} {path : Str} {content : Bytes} {least : Nat} {idle : σ → Prop}
    {opened : Handle → σ → Prop} {closed : σ → Prop} (hs : FileServer E.V own tid path content least idle opened closed) {h : Handle}
    (hh : h.size.toNat = content.length) (n : Nat) : ∀ (data : Bytes) (s : St σ), opened h s.w.srv → data <+: content →
      content.length - data.length ≤ n * least → Ready E own (n + 1) s → ∀ budget, n < budget →
      ∃ s', downloadLoop E h budget data s = (.ok content, s') ∧ opened h s'.w.srv ∧ ∃ m, Ready E own (m + 1) s' := by
  induction n with
  | zero =>
    intro data s ho hd hl hr budget hb
    obtain ⟨b, rfl⟩ : ∃ b, budget = b + 1 := ⟨budget - 1, by omega⟩
    have e : data = content := hd.eq_of_length_le (by omega)
    rw [downloadLoop, if_neg (by rw [e]; omega), e]
    exact ⟨s, rfl, ho, 0, hr⟩
  | succ n ih =>
    intro data s ho hd hl hr budget hb
    obtain ⟨b, rfl⟩ : ∃ b, budget = b + 1 := ⟨budget - 1, by omega⟩
    by_cases hlt : data.length < h.size.toNat
    · rw [downloadLoop, if_pos hlt]
      obtain ⟨fr, hfr⟩ := first_fits s.cli (.read h (UInt64.ofNat data.length)) trivial
      have hq : ReadRequest (message fr) h data.length := by
        have := readRequest hfr
        rwa [UInt64.toNat_ofNat_of_lt' (by have := h.size.toNat_lt; simp only [UInt64.size] at *; omega)] at this
      obtain ⟨f, chunk, h1, h2, h3, h4, h5⟩ := hs.reads _ _ h data.length ho hq (by omega)
      obtain ⟨s', g1, g2, g3, g4, g5⟩ := command_serves (keepsMid_setTid _ _ rfl) readReply hr.writes hr.first.1 hr.unread hr.first.2 hfr h1
        (fun i hp => (accept_read hp chunk).mpr h2)
      have hd' : data ++ chunk <+: content := by
        obtain ⟨t, rfl⟩ := hd
        rw [List.drop_left] at h3
        exact (List.prefix_append_right_inj data).mpr h3
      obtain ⟨s'', k1, k2, k3⟩ := ih (data ++ chunk) s' (by rw [g3]; exact h5) hd' (by
        rw [Nat.succ_mul] at hl
        simp only [List.length_append]
        omega) (hr.next g2 g4 g5) b (by omega)
      exact ⟨s'', (M.bind_ok g1).trans k1, k2, k3⟩
    · have e : data = content := hd.eq_of_length_le (by omega)
      rw [downloadLoop, if_neg hlt, e]
      exact ⟨s, rfl, ho, n + 1, hr⟩

theorem served_download {E : Env σ} {own : Nat → Prop} {path : Str} {content : Bytes} {least : Nat} {idle : σ → Prop}
    {opened : Handle → σ → Prop} {closed : σ → Prop} {share : Share} (hs : FileServer E.V own share.tid.toNat path content least idle opened closed)
    (n : Nat) (hn : content.length ≤ n * least) (s : St σ) (hi : idle s.w.srv) (hp : Fits s.cli.useUnicode (.openfile share path))
    (hr : Ready E own (n + 2) s) (budget : Nat) (hb : n < budget) :
    ∃ s', download E budget share path s = (.ok content, s') ∧ closed s'.w.srv := by
  obtain ⟨fr, hfr⟩ := first_fits s.cli (.openfile share path) hp
  obtain ⟨f, h, h1, h2, h3, h4⟩ := hs.opens _ _ hi (openRequest hfr)
  obtain ⟨s1, g1, g2, g3, g4, g5⟩ := command_serves (keepsMid_setTid _ _ rfl) Handle.reply hr.writes hr.first.1 hr.unread hr.first.2 hfr h1
    (fun i hp => (accept_open hp h).mpr h2)
  obtain ⟨s2, k1, k2, m, k3⟩ := served_loop hs h3 n [] s1 (by rw [g3]; exact h4) (List.nil_prefix) (by simpa using hn) (hr.next g2 g4 g5) budget hb
  obtain ⟨cf, hcf⟩ := first_fits s2.cli (.close h) trivial
  obtain ⟨f', c1, c2, c3⟩ := hs.closes _ _ h k2 (closeRequest hcf)
  obtain ⟨s3, d1, d2, d3, d4, d5⟩ := command_serves (keepsMid_setTid _ _ rfl) closeReply k3.writes k3.first.1 k3.unread k3.first.2 hcf c1
    (fun i hp => (accept_close hp).mpr c2)
  refine ⟨s3, ?_, by rw [d3]; exact c3⟩
  exact (M.bind_ok g1).trans ((M.bind_ok k1).trans (M.bind_ok d1))

end Cifs
