import Verif.Spec.Door
import Verif.Props.Store
import Verif.Props.Ntlm
/-!
# Logging in to a server that lets users in by their passwords (C69)
-/

namespace Cifs
open Spec

variable {σ A α : Type}

/-! ## Requests and replies -/

/-- One request and its reply, whatever that is. -/
theorem exchange {α : Type} {E : Env σ} {own : Nat → Prop} {n : Nat} {s : St σ} {m : Msg} (hk : KeepsMid m) (R : Reply α) (hr : Ready E own (n + 1) s)
    {fr f : Bytes} (hf : requestFrame s.cli m = .ok fr) (h : Serves E.V own s.w.srv (message fr) f) :
    ∃ i s', Info.parse f = .ok (i, f.drop 32) ∧ command E m R s = ((accept R i (f.drop 32)).out, s') ∧ s'.cli = s.bump.cli ∧
      s'.w.srv = (E.V.react s.w.srv (message fr)).1 ∧ s'.w.out = s.w.out ++ message fr ∧ Ready E own n s' := by
  obtain ⟨rest, h1, h2⟩ := serves_awaits hr.unread h (requestFrame_mid hk hf) hr.first.2
  obtain ⟨ws, h3, h4⟩ := send_ok E m s fr hr.first.1 hf (C26_fits hf) hr.writes
  obtain ⟨i, ib, hp, hib, h5⟩ := command_round R h4 (f := f) (rest := rest) (by
    show Awaits _ (s.w.inbox ++ (E.V.react s.w.srv (message fr)).2).flatten f rest
    rw [List.flatten_append]; exact h2)
  exact ⟨i, _, hp, h5, rfl, rfl, rfl, hr.next rfl (by show Foreign own ib.flatten; rw [hib]; exact h1) h3⟩

theorem Ready.withCli {E : Env σ} {own : Nat → Prop} {n : Nat} {s : St σ} (h : Ready E own n s) {c : Cli} (hc : c.mid = s.cli.mid) :
    Ready E own n (s.withCli c) :=
  ⟨h.writes, h.unread, fun k hk => by show own ((c.mid.toNat + k) % 65536); rw [hc]; exact h.ids k hk,
    fun hk => by show c.mid.toNat + n ≤ _; rw [hc]; exact h.enough hk⟩

theorem accept_greets {f ps ds : Bytes} {i : Info} (hp : Info.parse f = .ok (i, f.drop 32)) (h : Greets f ps ds) :
    ∃ v, accept ServerSetup.reply i (f.drop 32) = .ok v ∧ IsNegotiateReply ps ds v := by
  obtain ⟨h1, h2, h3, n, h4, h5⟩ := h
  have := ServerSetup.create_eq i ds (35 + ps.length) h2 h3 n h4
  rw [if_pos h5] at this
  obtain ⟨v, h6, h7⟩ := this
  exact ⟨v, (accept_iff ServerSetup.reply (by decide) hp v).mpr ⟨ps, ds, h1, by rw [make_plain _ rfl]; exact h6⟩, h7⟩

/-- A session setup that is answered with an accepted status. -/
theorem accept_session {f ps ds : Bytes} {i : Info} (hp : Info.parse f = .ok (i, f.drop 32)) (hc : cmdOf (message f) = some 0x73) {st : Nat}
    (hst : st = 0 ∨ st = moreProcessing) (hs : statusOf (message f) = some st) (hb : ReplyBody (message f) ps ds) (hx : LastAndX ps)
    (hl : 6 ≤ ps.length) (hn : ∀ n, u16At ps 6 = some n → n ≤ ds.length) :
    ∃ v, accept SessionSetupReply.reply i (f.drop 32) = .ok v ∧ uidOf (message f) = some v.uid.toNat ∧ IsSessionReply ps ds v.uid.toNat v := by
  obtain ⟨v, h1, h2⟩ := SessionSetupReply.create_eq i ds (35 + ps.length) hl hn
  have hi : i.cmd = .SessionSetup := parse_code hp hc
  have hu := (C17_read f i _ hp).2.2.2.2.2.2.2.2.1
  have hv : i.uid.toNat = v.uid.toNat := h2.uid.symm
  refine ⟨v, ?_, by rw [hu, hv], hv ▸ h2⟩
  have hst' : i.status = .Known .SUCCESS ∨ (i.status = .Known .MORE_PROCESSING ∧ i.cmd = .SessionSetup) := by
    rcases hst with rfl | rfl
    · left
      have := (C17_read f i _ hp).2.2.1
      rw [hs] at this
      exact status_zero (parse_status hp) (Option.some.inj this).symm
    · exact .inr ⟨parse_status_more hp hs, hi⟩
  rw [accept, if_neg (by simp [hi]; rfl), if_pos hst', parse_body _ i ((C13_accepted_iff f).mp ⟨_, _, hp⟩).1 hb, make_andx _ rfl i hx.1 hx.2]
  have e : SessionSetupReply.reply.create { info := i, parameter := ps.drop 4, data := ds, dataOffset := 35 + ps.length } = .ok v := h1
  rw [e]; rfl

theorem accept_prompts {f blob : Bytes} {uid : Nat} {i : Info} (hp : Info.parse f = .ok (i, f.drop 32)) (h : Prompts f uid blob) :
    ∃ v, accept SessionSetupReply.reply i (f.drop 32) = .ok v ∧ v.uid.toNat = uid ∧ v.securityBlob = blob := by
  obtain ⟨h1, h2, h3, ps, more, h4, h5, h6⟩ := h
  have hl := u16At_length h6
  obtain ⟨v, k1, k2, k3⟩ := accept_session hp h1 (.inr rfl) h2 h4 h5 (by omega) (fun n hn => by rw [h6] at hn; cases hn; simp)
  refine ⟨v, k1, Option.some.inj (k2.symm.trans h3), ?_⟩
  rcases k3.blob with ⟨k4, _⟩ | ⟨k4, more', k5⟩
  · omega
  · rw [h6] at k4
    exact (List.append_inj k5 (Option.some.inj k4)).1.symm

theorem accept_admits {f : Bytes} {uid : Nat} {i : Info} (hp : Info.parse f = .ok (i, f.drop 32)) (h : Admits f uid) :
    ∃ v, accept SessionSetupReply.reply i (f.drop 32) = .ok v ∧ v.uid.toNat = uid := by
  obtain ⟨ps, ds, ⟨h1, h2, h3⟩, h4, h5, h6, h7⟩ := h
  obtain ⟨v, k1, k2, _⟩ := accept_session hp h1 (.inl rfl) h2 h3 h5 h6 h7
  exact ⟨v, k1, Option.some.inj (k2.symm.trans h4)⟩

theorem accept_rejects {f : Bytes} {status : UInt32} {i : Info} (hp : Info.parse f = .ok (i, f.drop 32)) (h : Rejects f status) :
    accept SessionSetupReply.reply i (f.drop 32) = .err (.ServerError (Status.ofU32 status)) := by
  obtain ⟨h1, h2, h3, h4⟩ := h
  have hi : i.cmd = .SessionSetup := parse_code hp h1
  have hr := (C17_read f i _ hp).2.2.1
  rw [h2] at hr
  have hr := UInt32.toNat_inj.mp (Option.some.inj hr)
  obtain ⟨st, hst⟩ := parse_status hp
  rw [hst, C16_roundtrip] at hr
  rw [accept, if_neg (by simp [hi]; rfl), if_neg, hst, hr]
  rintro (h | ⟨h, _⟩)
  · rw [hst, ← hr] at h
    have := C16_roundtrip status
    rw [h] at this
    exact h3 this.symm
  · rw [hst, ← hr] at h
    have := C16_roundtrip status
    rw [h] at this
    exact h4 (by rw [← this]; rfl)

theorem negotiate_frame (c : Cli) : ∃ fr, requestFrame c negotiateMsg = .ok fr :=
  ⟨_, requestFrame_of_body (m := negotiateMsg) rfl (by decide) (by decide)⟩

theorem blob_frame (c : Cli) {blob : Bytes} (h : blob.length + 5 < 65536) : ∃ fr, requestFrame c (SessionSetupMsg.withBlob blob).msg = .ok fr := by
  have hl : (SessionSetupMsg.withBlob blob).lengths = .ok (putU16 (UInt16.ofNat blob.length)) := by
    simp only [SessionSetupMsg.lengths, SessionSetupMsg.withBlob, tryInto, if_pos (show blob.length < 65536 by omega), Res.ok_bind]
  refine ⟨_, requestFrame_of_body (m := (SessionSetupMsg.withBlob blob).msg) (by simp only [SessionSetupMsg.msg]; rw [hl]; rfl) ?_ ?_⟩
  · show 24 / 2 < 256; decide
  · have e : ∀ i, (SessionSetupMsg.withBlob blob).dataBlock i = (blob ++ (if blob.length % 2 = 0 then [0] else [])) ++
      (if Flags2.contains i.flags2 Flags2.UNICODE then putU16 0 ++ putU16 0 else zeros 2) := fun _ => rfl
    rw [e, List.length_append, List.length_append]
    have h1 : (if blob.length % 2 = 0 then [0] else [] : Bytes).length ≤ 1 := by split <;> decide
    have h2 : ∀ b : Bool, (if b then putU16 0 ++ putU16 0 else zeros 2 : Bytes).length ≤ 4 := by decide
    generalize Flags2.contains _ _ = b
    have := h2 b
    omega

theorem auth_frame (c : Cli) {user domain : Str} {secret : Bytes} (hs : secret.length = 24)
    (h : 57 + (encodeUtf16le user).length + (encodeUtf16le domain).length < 65536) :
    ∃ fr, requestFrame c (SessionSetupMsg.withAuth user domain secret).msg = .ok fr := by
  have hl : (SessionSetupMsg.withAuth user domain secret).lengths = .ok (putU16 (UInt16.ofNat 24) ++ putU16 (UInt16.ofNat 24)) := by
    simp only [SessionSetupMsg.lengths, SessionSetupMsg.withAuth, tryInto, hs]
    rfl
  refine ⟨_, requestFrame_of_body (m := (SessionSetupMsg.withAuth user domain secret).msg) (by simp only [SessionSetupMsg.msg]; rw [hl]; rfl) ?_ ?_⟩
  · show 26 / 2 < 256; decide
  · have e : ∀ i, (SessionSetupMsg.withAuth user domain secret).dataBlock i = ((secret ++ secret) ++ (if (secret ++ secret).length % 2 = 0 then [0] else []) ++
      (encodeUtf16le user ++ [0, 0]) ++ (encodeUtf16le domain ++ [0, 0])) ++
      (if Flags2.contains i.flags2 Flags2.UNICODE then putU16 0 ++ putU16 0 else zeros 2) := fun _ => rfl
    rw [e, if_pos (by rw [List.length_append, hs])]
    have h2 : ∀ b : Bool, (if b then putU16 0 ++ putU16 0 else zeros 2 : Bytes).length ≤ 4 := by decide
    generalize Flags2.contains _ _ = b
    have := h2 b
    simp only [List.length_append, hs, List.length_cons, List.length_nil] at this ⊢
    omega

/-! ## What a server reads -/

theorem delimits_unique {m : Bytes} {d o o' : Nat} {p p' : Bytes} (h : Delimits m d o p) (h' : Delimits m d o' p') : p = p' := by
  obtain ⟨h1, h2, h3⟩ := h
  obtain ⟨h4, h5, h6⟩ := h'
  rw [h1] at h4; rw [h2] at h5
  rw [← Option.some.inj h4, ← Option.some.inj h5, h3] at h6
  exact Option.some.inj h6

theorem authenticate_unique {m lm nt d u w lm' nt' d' u' w' : Bytes} (h : IsNtlmAuthenticate m lm nt d u w) (h' : IsNtlmAuthenticate m lm' nt' d' u' w') :
    nt = nt' ∧ d = d' ∧ u = u' := by
  obtain ⟨_, _, _, _, _, h⟩ := h.fields
  obtain ⟨_, _, _, _, _, h'⟩ := h'.fields
  exact ⟨delimits_unique (h.delimits _ (.tail _ (.head _))).2.2 (h'.delimits _ (.tail _ (.head _))).2.2,
    delimits_unique (h.delimits _ (.tail _ (.tail _ (.head _)))).2.2 (h'.delimits _ (.tail _ (.tail _ (.head _)))).2.2,
    delimits_unique (h.delimits _ (.tail _ (.tail _ (.tail _ (.head _))))).2.2 (h'.delimits _ (.tail _ (.tail _ (.tail _ (.head _))))).2.2⟩

theorem text_unique {flags : Nat} {s t : Str} {b : Bytes} (h : NtlmText flags s b) (h' : NtlmText flags t b) : s = t := by
  unfold NtlmText at h h'
  split at h
  · rw [if_pos (by assumption)] at h'; exact wide_unique h h'
  · rw [if_neg (by assumption)] at h'
    rw [h, utf8Bytes_eq, utf8Bytes_eq] at h'
    exact utf8_inj h'

/-- A server that accepts a message of the third type has read the names in it. -/
theorem accepts_read {H : NtlmHashes} {password : Str → Str → Option Str} {flags : Nat} {challenge m lm nt d u w : Bytes} {user domain : Str}
    (h : NtlmAccepts H password flags challenge m) (hm : IsNtlmAuthenticate m lm nt d u w) (hd : NtlmText flags domain d) (hu : NtlmText flags user u) :
    ∃ pw, password user domain = some pw ∧ NtlmProves H user domain pw challenge nt := by
  obtain ⟨lm', nt', d', u', w', domain', user', pw, h1, h2, h3, h4, h5⟩ := h
  obtain ⟨rfl, rfl, rfl⟩ := authenticate_unique hm h1
  cases text_unique hd h2
  cases text_unique hu h3
  exact ⟨pw, h4, h5⟩

theorem classic_unique {req response response' : Bytes} {user domain user' domain' : Str} (h : IsClassicSetup req response user domain)
    (h' : IsClassicSetup req response' user' domain') (hu : '\x00' ∉ user) (hd : '\x00' ∉ domain) (hu' : '\x00' ∉ user') (hd' : '\x00' ∉ domain') :
    response = response' ∧ user = user' ∧ domain = domain' := by
  obtain ⟨_, ps, u, d, h1, _, _, h2, _, _, _, h3, h4, h5⟩ := h
  obtain ⟨_, ps', u', d', h1', _, _, h2', _, _, _, h3', h4', h5'⟩ := h'
  cases Option.some.inj (h1.symm.trans h1')
  have el := Option.some.inj (h2.symm.trans h2')
  have e := Option.some.inj (h5.symm.trans h5')
  simp only [List.append_assoc] at e
  obtain ⟨e1, e⟩ := List.append_inj e el
  obtain ⟨_, e⟩ := List.append_inj e el
  have e := List.append_cancel_left e
  rw [utf16le_unique h3, utf16le_unique h3', utf16le_unique h4, utf16le_unique h4'] at e
  have p := congrArg (parseUtf16le0 SmbError.InvalidData) e
  simp only [List.cons_append, List.nil_append] at p
  rw [parseUtf16le0_encode _ _ _ hu, parseUtf16le0_encode _ _ _ hu'] at p
  simp only [Res.ok.injEq, Prod.mk.injEq] at p
  have q := congrArg (parseUtf16le0 SmbError.InvalidData) p.2
  rw [parseUtf16le0_encode _ _ _ hd, parseUtf16le0_encode _ _ _ hd'] at q
  simp only [Res.ok.injEq, Prod.mk.injEq] at q
  exact ⟨e1, p.1, q.1⟩

/-! ## C69 -/

theorem clock_ok (checked : Bool) (t : Instant) (h0 : 0 ≤ t) (h1 : 10 * (t / 1000) < 2 ^ 64) :
    ∃ time : UInt64, (encodeWindowsTime checked t : Res NtlmError UInt64) = .ok time := by
  obtain ⟨time, ht, _⟩ := C53_encode checked t h0 h1
  refine ⟨time, ?_⟩
  revert ht
  unfold encodeWindowsTime
  dsimp only
  split
  · intro h; cases h
  · split
    · intro h; cases h
    · intro h; injection h with h; rw [h]

theorem init_fits {user workstation domain : Str} {room : Nat} (h : NamesFit user workstation domain room) (flags : UInt32) :
    ∃ m, ntlmInit flags domain workstation = .ok m ∧ IsNtlmNegotiate m flags.toNat (utf8Bytes domain) (utf8Bytes workstation) ∧ m.length + 5 < 65536 := by
  have hl := h.first
  obtain ⟨m, h1, h2⟩ := (C49_negotiate flags domain workstation).1 ⟨by omega, by omega⟩
  obtain ⟨_, _, h3⟩ := h2.fields
  have := h3.full
  simp only [List.map_cons, List.map_nil, List.sum_cons, List.sum_nil] at this
  exact ⟨m, h1, h2, by omega⟩

section
variable {E : Env σ} {own : Nat → Prop} {password : Str → Str → Option Str} {room : Nat} {fresh : σ → Prop} {asked : Bool → σ → Prop}
  {challenged : Bool → Nat → Bytes → Nat → σ → Prop} {legacy : Bool → Bytes → σ → Prop} {inside : Bool → Nat → σ → Prop} {outside : σ → Prop}

/-- A login that makes the requests `sent` and `last`, and ends in `o` and `s'`. -/
def LogsIn (E : Env σ) (own : Nat → Prop) (password : Str → Str → Option Str) (challenged : Bool → Nat → Bytes → Nat → σ → Prop)
    (legacy : Bool → Bytes → σ → Prop) (inside : Bool → Nat → σ → Prop) (outside : σ → Prop) (n : Nat) (s : St σ) (sent : List Bytes) (last : Bytes)
    (o : Out Error Unit) (s' : St σ) : Prop :=
  Ready E own n s' ∧ s'.cli.auth = s.cli.auth ∧ s'.w.out = s.w.out ++ (sent ++ [last]).flatten ∧
    s'.w.srv = (E.V.react (afterAll E.V s.w.srv sent) last).1 ∧
    Decided E.C.hashes E.C.des (password s.cli.auth.user s.cli.auth.domain) challenged legacy (inside s'.cli.useUnicode s'.cli.uid.toNat) outside
      s.cli.auth.user s.cli.auth.domain s.cli.auth.password (afterAll E.V s.w.srv sent) last o s'.w.srv

/-- The legacy half of a login. -/
theorem classic_login (hD : Doorkeeper E.V own E.C.hashes E.C.des password room fresh asked challenged legacy inside outside) {n : Nat} {t : St σ}
    (hr : Ready E own (n + 1) t) {challenge : Bytes} (hl : challenge.length = 8) (hs : legacy t.cli.useUnicode challenge t.w.srv)
    (fit : NamesFit t.cli.auth.user t.cli.auth.workstation t.cli.auth.domain room) :
    ∃ o s', authenticateNtlm E challenge t = (o, s') ∧ ∃ last, LogsIn E own password challenged legacy inside outside n t [] last o s' := by
  obtain ⟨k1, k2, k3, q1, q2, q3, hsec, hsl⟩ := C52_response E.C t.cli.auth challenge hl
  have hpr : ClassicProves E.C.md4 E.C.des t.cli.auth.password challenge (E.C.des k1 challenge ++ E.C.des k2 challenge ++ E.C.des k3 challenge) :=
    ⟨_, k1, k2, k3, utf16le_encode _, q1, q2, q3, rfl⟩
  generalize E.C.des k1 challenge ++ E.C.des k2 challenge ++ E.C.des k3 challenge = secret at hsec hsl hpr
  obtain ⟨fr, hf⟩ := auth_frame t.cli hsl (fit.classic _ _ (utf16le_encode _) (utf16le_encode _))
  have hq := is_classic hsl hf
  have step : authenticateNtlm E challenge t = (sessionSetup E t.cli.auth.user t.cli.auth.domain secret >>= fun r =>
      modifyCli (fun c => { c with uid := r.uid })) t := by
    unfold authenticateNtlm
    rw [M.bind_ok (show getCli t = (.ok t.cli, t) from rfl)]
    rw [M.bind_ok (show M.ofRes Error.SMBError (ntlmv1Authenticate E.C t.cli.auth challenge) t = (.ok secret, t) by rw [hsec]; rfl)]
  obtain ⟨c1, c2⟩ := hD.checksLegacy _ _ _ _ _ _ _ hs hq
  by_cases ha : ClassicAccepts E.C.hashes.md4 E.C.des password challenge (message fr)
  · obtain ⟨f, uid, g1, g2, g3⟩ := c1 ha
    obtain ⟨i, s', hp, e1, e2, e3, e5, e4⟩ := exchange (keeps_setup _) SessionSetupReply.reply hr hf g1
    obtain ⟨v, k1, k2⟩ := accept_admits hp g2
    rw [k1] at e1
    refine ⟨.ok (), s'.withCli (s'.cli.assigned v.uid), ?_, message fr, e4.withCli rfl, by show s'.cli.auth = _; rw [e2]; rfl, (show s'.w.out = _ by simpa using e5), e3, .inl ⟨rfl, ?_, ?_⟩⟩
    · rw [step]; exact (M.bind_ok e1).trans rfl
    · show inside s'.cli.useUnicode v.uid.toNat s'.w.srv
      rw [e2, k2, e3]; exact g3
    · obtain ⟨r', u', d', pw, a1, a2, a3, a4, a5⟩ := ha
      obtain ⟨rfl, rfl, rfl⟩ := classic_unique hq a1 fit.user fit.domain a2 a3
      exact ⟨pw, a4, .classic hs hq a5 hpr⟩
  · obtain ⟨f, status, g1, g2, g3⟩ := c2 ha
    obtain ⟨i, s', hp, e1, e2, e3, e5, e4⟩ := exchange (keeps_setup _) SessionSetupReply.reply hr hf g1
    rw [accept_rejects hp g2] at e1
    refine ⟨_, s', by rw [step]; exact M.bind_err e1, message fr, e4, by rw [e2]; rfl, by simpa using e5, e3, .inr ⟨status, rfl, g2.2.2.1, by rw [e3]; exact g3, ?_⟩⟩
    intro hpw
    exact ha ⟨secret, _, _, _, hq, fit.user, fit.domain, hpw, hpr⟩

/-- The other half of a login with extended security. -/
theorem extended_login (hD : Doorkeeper E.V own E.C.hashes E.C.des password room fresh asked challenged legacy inside outside) {n : Nat} {t : St σ}
    (hr : Ready E own (n + 2) t) (hs : asked t.cli.useUnicode t.w.srv) (fit : NamesFit t.cli.auth.user t.cli.auth.workstation t.cli.auth.domain room)
    (h0 : 0 ≤ E.now) (h1 : 10 * (E.now / 1000) < 2 ^ 64) :
    ∃ o s', authenticateNtlmv2 E t = (o, s') ∧ ∃ first last, LogsIn E own password challenged legacy inside outside n t [first] last o s' := by
  obtain ⟨blob, hb, hbi, hbl⟩ := init_fits fit ntlmInitFlags
  obtain ⟨fr, hf⟩ := blob_frame t.cli hbl
  obtain ⟨f, uid, m, target, flags, challenge, info, g1, g2, g3, g4, g5⟩ := hD.challenges _ _ _ _ _ _ _ hs (is_extended hf).1 hbi
  obtain ⟨i, t1, hp, e1, e2, e3, e5, e4⟩ := exchange (keeps_setup _) SessionSetupReply.reply hr hf g1
  obtain ⟨v, k1, k2, k3⟩ := accept_prompts hp g2
  rw [k1] at e1
  obtain ⟨fl, hfl, hc⟩ := C50_decode g3
  obtain ⟨time, ht⟩ := clock_ok E.checked E.now h0 h1
  have step := ntlmv2_step hb (show sessionSetupNtlmv2 E blob t = (.ok v, t1) from e1) (by rw [k3]; exact hc) ht
  have hau : t1.cli.auth = t.cli.auth := by rw [e2]; rfl
  have hun : t1.cli.useUnicode = t.cli.useUnicode := by rw [e2]; rfl
  have hth := fit.third flags _ _ _ (ntlmName_text flags t.cli.auth.domain) (ntlmName_text flags t.cli.auth.user) (ntlmName_text flags t.cli.auth.workstation)
  obtain ⟨m', nt, hm', hnt, hA⟩ := (C49_authenticate E.C t.cli.auth (c := ⟨target, fl, challenge, info⟩) hfl time E.random_len
    (ntlmName_text _ _) (ntlmName_text _ _) (ntlmName_text _ _)).1 ⟨by show 48 + info.length < _; omega, by omega, by omega, by omega⟩
  have hml : m'.length + 5 < 65536 := by
    obtain ⟨_, _, _, _, _, hS⟩ := hA.fields
    have := hS.full
    simp only [List.map_cons, List.map_nil, List.sum_cons, List.sum_nil, List.length_replicate] at this
    have hnt : nt.length = 48 + info.length := hnt
    omega
  have hpr : NtlmProves E.C.hashes t.cli.auth.user t.cli.auth.domain t.cli.auth.password challenge nt := by
    obtain ⟨pw, hpw, hpr⟩ := accepts_read (C48_response E.C t.cli.auth g3 hc time E.random_len hm' (password := fun _ _ => some t.cli.auth.password) rfl).1
      hA (ntlmName_text _ _) (ntlmName_text _ _)
    cases hpw
    exact hpr
  have e4' : Ready E own (n + 1) (t1.withCli (t1.cli.assigned v.uid)) := e4.withCli rfl
  obtain ⟨fr2, hf2⟩ := blob_frame (t1.withCli (t1.cli.assigned v.uid)).cli hml
  have hq2 := is_extended hf2
  have hs2 : challenged t.cli.useUnicode flags challenge uid (t1.withCli (t1.cli.assigned v.uid)).w.srv := by
    show challenged _ _ _ _ t1.w.srv
    rw [e3]; exact g5
  have hu2 : uidOf (message fr2) = some uid := by rw [hq2.2]; exact congrArg some k2
  have hsrv : (t1.withCli (t1.cli.assigned v.uid)).w.srv = afterAll E.V t.w.srv [message fr] := e3
  have hout : ∀ {o : Bytes}, o = (t1.withCli (t1.cli.assigned v.uid)).w.out ++ message fr2 → o = t.w.out ++ ([message fr] ++ [message fr2]).flatten := by
    intro o ho
    have : (t1.withCli (t1.cli.assigned v.uid)).w.out = t.w.out ++ message fr := e5
    simp [ho, this]
  rw [hm'] at step
  replace step := step.trans (M.bind_ok rfl)
  obtain ⟨c1, c2⟩ := hD.checks _ _ _ _ _ _ _ hs2 hq2.1 hu2
  by_cases ha : NtlmAccepts E.C.hashes password flags challenge m'
  · obtain ⟨f2, uid', j1, j2, j3⟩ := c1 ha
    obtain ⟨i2, s', hp2, l1, l2, l3, l5, l4⟩ := exchange (keeps_setup _) SessionSetupReply.reply e4' hf2 j1
    obtain ⟨v2, n1, _⟩ := accept_admits hp2 j2
    rw [n1] at l1
    refine ⟨.ok (), s', by rw [step]; exact (M.bind_ok l1).trans rfl, message fr, message fr2, l4, by rw [l2]; exact hau, hout l5, l3.trans (by rw [hsrv]), .inl ⟨rfl, ?_, ?_⟩⟩
    · rw [l2, l3]
      show inside t1.cli.useUnicode v.uid.toNat _
      rw [hun, k2]; exact j3
    · obtain ⟨pw, hpw, hpr'⟩ := accepts_read ha hA (ntlmName_text _ _) (ntlmName_text _ _)
      exact ⟨pw, hpw, .extended (hsrv ▸ hs2) hq2.1 hA hpr' hpr⟩
  · obtain ⟨f2, status, j1, j2, j3⟩ := c2 ha
    obtain ⟨i2, s', hp2, l1, l2, l3, l5, l4⟩ := exchange (keeps_setup _) SessionSetupReply.reply e4' hf2 j1
    rw [accept_rejects hp2 j2] at l1
    refine ⟨_, s', by rw [step]; exact M.bind_err l1, message fr, message fr2, l4, by rw [l2]; exact hau, hout l5, l3.trans (by rw [hsrv]), .inr ⟨status, rfl, j2.2.2.1, by rw [l3]; exact j3, ?_⟩⟩
    intro hpw
    exact ha (C48_response E.C t.cli.auth g3 hc time E.random_len hm' hpw).1

/-- **C69** A login to such a server comes to an end, after three requests or two: either the user is let in, or the server's refusal is
reported. In the first case the session has the server's user id and Unicode setting, and the response of the last request is right for the
password of the account; in the second case the password of the account is another one. -/
theorem C69_login (hD : Doorkeeper E.V own E.C.hashes E.C.des password room fresh asked challenged legacy inside outside) {n : Nat} {s : St σ}
    (hr : Ready E own (n + 3) s) (hs : fresh s.w.srv) (fit : NamesFit s.cli.auth.user s.cli.auth.workstation s.cli.auth.domain room)
    (h0 : 0 ≤ E.now) (h1 : 10 * (E.now / 1000) < 2 ^ 64) :
    ∃ o s' sent last, setupConnection E s = (o, s') ∧ sent.length ≤ 2 ∧ Ready E own n s' ∧ s'.cli.auth = s.cli.auth ∧
      s'.w.out = s.w.out ++ (sent ++ [last]).flatten ∧ s'.w.srv = (E.V.react (afterAll E.V s.w.srv sent) last).1 ∧
      Decided E.C.hashes E.C.des (password s.cli.auth.user s.cli.auth.domain) challenged legacy (inside s'.cli.useUnicode s'.cli.uid.toNat) outside
        s.cli.auth.user s.cli.auth.domain s.cli.auth.password (afterAll E.V s.w.srv sent) last o s'.w.srv := by
  obtain ⟨fr, hf⟩ := negotiate_frame s.cli
  obtain ⟨f, ps, ds, unicode, g1, g2, g3, g4⟩ := hD.greets _ _ hs (is_negotiate hf)
  obtain ⟨i, s1, hp, e1, e2, e3, e5, e4⟩ := exchange keeps_negotiate ServerSetup.reply hr hf g1
  obtain ⟨setup, k1, k2⟩ := accept_greets hp g2
  rw [k1] at e1
  have step := setup_step (show negotiate E s = (.ok setup, s1) from e1)
  have hau : (s1.withCli (s1.cli.configured setup)).cli.auth = s.cli.auth := by show s1.cli.auth = _; rw [e2]; rfl
  have hun : (s1.withCli (s1.cli.configured setup)).cli.useUnicode = unicode := by
    show Capabilities.contains setup.capabilities Capabilities.UNICODE = unicode
    have := (offers_unicode k2).trans g3.symm
    cases hc : Capabilities.contains setup.capabilities Capabilities.UNICODE <;> rw [hc] at this <;> cases unicode <;> simp at this <;> rfl
  have hsr : (s1.withCli (s1.cli.configured setup)).w.srv = (E.V.react s.w.srv (message fr)).1 := e3
  have hrd : Ready E own (n + 2) (s1.withCli (s1.cli.configured setup)) := e4.withCli rfl
  have hou : (s1.withCli (s1.cli.configured setup)).w.out = s.w.out ++ message fr := e5
  generalize s1.withCli (s1.cli.configured setup) = t at step hau hun hsr hrd hou
  have haf : ∀ l, afterAll E.V s.w.srv (message fr :: l) = afterAll E.V t.w.srv l := fun l => by rw [hsr]; rfl
  rw [← hau, step]
  rw [← hau] at fit
  rcases g4 with ⟨hx, g5⟩ | ⟨hx, challenge, more, j1, j2, j3, g5⟩
  · rw [if_pos ((offers_extended k2).mpr hx)]
    obtain ⟨o, s', l1, first, last, l2, l3, l4, l5, l6⟩ := extended_login hD hrd (by rw [hun, hsr]; exact g5) fit h0 h1
    exact ⟨o, s', [message fr, first], last, l1, by simp, l2, l3, by rw [l4, hou]; simp, by rw [haf]; exact l5, by rw [haf]; exact l6⟩
  · rw [if_neg (fun h => hx ((offers_extended k2).mp h))]
    have hch : setup.challenge = challenge := by
      obtain ⟨q1, more', q2⟩ := k2.challenge
      rw [j1] at q1
      rw [j2] at q2
      exact (List.append_inj q2 (by rw [j3]; exact Option.some.inj q1)).1.symm
    rw [hch]
    obtain ⟨o, s', l1, last, l2, l3, l4, l5, l6⟩ := classic_login hD (n := n) (hrd.mono (by omega)) j3 (by rw [hun, hsr]; exact g5) fit
    exact ⟨o, s', [message fr], last, l1, by simp, l2, l3, by rw [l4, hou]; simp, by rw [haf]; exact l5, by rw [haf]; exact l6⟩

end

end Cifs
