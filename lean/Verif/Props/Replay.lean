import Verif.Props.Gate
import Verif.Lemmas.Des
/-!
# What a recorded login is worth, and who can weaken one (C84)
-/

namespace Cifs
open Spec Gate

variable {σ : Type}

/-! ## Specification -/

/-- **C84** The response `nt` to the challenge `challenge` comes from the account with the key `key`. Whoever accepts a message with the same
proof for an account with the key `key'`, after the challenge `challenge'`, either has made the same challenge and been told the same, or the
keyed hash is the same for these two keys and texts, which are not the same. -/
def C84_Bound (H : NtlmHashes) (user domain password : Str) (challenge nt : Bytes) : Prop :=
  ∃ key proof client, IsNtlmKey H user domain password key ∧ nt = proof ++ client ∧ proof.length = 16 ∧
    ∀ (accounts : Str → Str → Option Str) (flags : Nat) (challenge' m : Bytes) {lm nt' d u w : Bytes}, challenge'.length = 8 →
      IsNtlmAuthenticate m lm nt' d u w → nt'.take 16 = proof → NtlmAccepts H accounts flags challenge' m →
      ∃ user' domain' pw key', NtlmText flags user' u ∧ NtlmText flags domain' d ∧ accounts user' domain' = some pw ∧
        IsNtlmKey H user' domain' pw key' ∧ H.hmacMd5 key (challenge ++ client) = H.hmacMd5 key' (challenge' ++ nt'.drop 16) ∧
        (challenge' = challenge ∧ nt' = nt ∨ challenge ++ client ≠ challenge' ++ nt'.drop 16)

/-- The session setup `req` has the legacy response to `challenge`. Who accepts it after another challenge, from the same account, has found
two blocks with the same cipher text under each of the three keys. -/
def C84_LegacyBound (md4 : Bytes → Bytes) (des : Bytes → Bytes → Bytes) (user domain password : Str) (challenge req : Bytes) : Prop :=
  ∃ response, IsClassicSetup req response user domain ∧ ClassicProves md4 des password challenge response ∧
    ∀ (accounts : Str → Str → Option Str) (challenge' : Bytes), '\x00' ∉ user → '\x00' ∉ domain → accounts user domain = some password →
      ClassicAccepts md4 des accounts challenge' req → ∃ p k1 k2 k3, Utf16le password p ∧ IsDesKey ((md4 p).take 7) k1 ∧
        IsDesKey (((md4 p).drop 7).take 7) k2 ∧ IsDesKey ((md4 p).drop 14) k3 ∧ ∀ k ∈ [k1, k2, k3], des k challenge = des k challenge'

/-- A server, and a third party on the way to it that replaces the replies to the negotiation, and forwards everything else. -/
def C84_between (V : Server σ) (forged : Bytes → Bytes) : Server σ where
  react := fun v req => ((V.react v req).1, if cmdOf req = some 0x72 then [forged req] else (V.react v req).2)
  tail := V.tail

/-! ## The response is bound to the challenge -/

theorem proves_bound {H : NtlmHashes} {user domain password : Str} {challenge nt : Bytes} (hc : challenge.length = 8)
    (h : NtlmProves H user domain password challenge nt) : C84_Bound H user domain password challenge nt := by
  obtain ⟨key, proof, client, h1, rfl, h3, h4⟩ := h
  refine ⟨key, proof, client, h1, rfl, h3, fun accounts flags challenge' m lm nt' d u w hc' hm hp ha => ?_⟩
  obtain ⟨lm', nt2, d', u', w', domain', user', pw, g1, g2, g3, g4, key', proof', client', g5, g6, g7, g8⟩ := ha
  obtain ⟨rfl, rfl, rfl⟩ := authenticate_unique hm g1
  have e1 : nt'.take 16 = proof' := by rw [g6, ← g7, List.take_left]
  have e2 : nt'.drop 16 = client' := by rw [g6, ← g7, List.drop_left]
  refine ⟨user', domain', pw, key', g3, g2, g4, g5, by rw [e2, ← g8, ← h4, ← hp, e1], ?_⟩
  by_cases he : challenge ++ client = challenge' ++ nt'.drop 16
  · obtain ⟨q1, q2⟩ := List.append_inj he (by rw [hc, hc'])
    refine .inl ⟨q1.symm, ?_⟩
    rw [g6, ← e1, hp, ← e2, ← q2]
  · exact .inr he

/-- **C84** In every login that comes to its third packet, the NT response in that packet is bound to the challenge the server has sent in
the reply before. -/
theorem C84_bound_partial {E : Env σ} {log : σ → List Bytes} (hlog : Logs E.V log) (s : St σ) :
    ∃ packets, log (setupConnection E s).2.w.srv = log s.w.srv ++ packets ∧ ∀ p p' p'', packets = [p, p', p''] →
      ∃ ps ds v' b' st uid ps' ds' v'' b'' m target flags challenge info m' lm nt d u w,
        NegotiateRound E.V s.w.srv s.w.inbox.flatten p ps ds v' b' ∧ SetupRound E.V v' b' p' st uid ps' ds' v'' b'' ∧
        (∃ more, ds' = m ++ more) ∧ IsNtlmChallenge m target flags challenge info ∧ IsExtendedSetup p'' m' ∧
        IsNtlmAuthenticate m' lm nt d u w ∧
        C84_Bound E.C.hashes s.cli.auth.user s.cli.auth.domain s.cli.auth.password challenge nt := by
  obtain ⟨packets, h1, _, h2⟩ := C48_login hlog s (fun user domain => if user = s.cli.auth.user ∧ domain = s.cli.auth.domain then some s.cli.auth.password else none)
    (if_pos ⟨rfl, rfl⟩)
  refine ⟨packets, h1, fun p p' p'' he => ?_⟩
  obtain ⟨ps, ds, v', b', st, uid, ps', ds', v'', b'', m, target, flags, challenge, info, m', time, lm, nt, d, u, w, proof, client, g1, g2, g3, g4, g5, g6, g7, g8,
    _⟩ := h2 p p' p'' he
  refine ⟨ps, ds, v', b', st, uid, ps', ds', v'', b'', m, target, flags, challenge, info, m', lm, nt, d, u, w, g1, g2, g4, g5, g6, g8, ?_⟩
  obtain ⟨lm', nt', d', u', w', domain', user', pw, k1, _, _, k4, k5⟩ := g7
  obtain ⟨rfl, _, _⟩ := authenticate_unique g8 k1
  dsimp only at k4
  split at k4
  · obtain ⟨rfl, rfl⟩ := ‹_ ∧ _›
    cases k4
    exact proves_bound (sliceAt_length g5.challenge).2 k5
  · cases k4

/-- **C84** In particular, who accepts the recorded third packet after another challenge has found two texts with the same keyed hash. -/
theorem C84_replay {H : NtlmHashes} {user domain password : Str} {challenge challenge' m lm nt d u w : Bytes} {flags : Nat}
    {accounts : Str → Str → Option Str} (hb : C84_Bound H user domain password challenge nt) (hm : IsNtlmAuthenticate m lm nt d u w)
    (hd : NtlmText flags domain d) (hu : NtlmText flags user u) (hp : accounts user domain = some password)
    (hc : challenge'.length = 8) (hne : challenge' ≠ challenge) (ha : NtlmAccepts H accounts flags challenge' m) :
    ∃ key client, IsNtlmKey H user domain password key ∧ nt.drop 16 = client ∧ challenge ++ client ≠ challenge' ++ client ∧
      H.hmacMd5 key (challenge ++ client) = H.hmacMd5 key (challenge' ++ client) := by
  obtain ⟨key, proof, client, h1, rfl, h3, h4⟩ := hb
  obtain ⟨user', domain', pw, key', g1, g2, g3, g4, g5, g6⟩ := h4 accounts flags challenge' m hc hm (by rw [← h3, List.take_left]) ha
  cases text_unique hu g1
  cases text_unique hd g2
  rw [hp] at g3; cases g3
  have hk : key = key' := by
    obtain ⟨p, n, a1, a2, rfl⟩ := h1
    obtain ⟨p', n', b1, b2, rfl⟩ := g4
    rw [utf16le_unique a1, utf16le_unique a2, utf16le_unique b1, utf16le_unique b2]
  subst hk
  have e : (proof ++ client).drop 16 = client := by rw [← h3, List.drop_left]
  rw [e] at g5 g6
  refine ⟨key, client, h1, e, ?_, g5⟩
  intro he
  exact hne (List.append_cancel_right he).symm

/-! ## The legacy response -/

theorem classic_proves_unique {md4 : Bytes → Bytes} {des : Bytes → Bytes → Bytes} {password : Str} {challenge r r' : Bytes}
    (h : ClassicProves md4 des password challenge r) (h' : ClassicProves md4 des password challenge r') : r = r' := by
  obtain ⟨p, k1, k2, k3, hp, q1, q2, q3, rfl⟩ := h
  obtain ⟨p', k1', k2', k3', hp', q1', q2', q3', rfl⟩ := h'
  rw [utf16le_unique hp'] at q1' q2' q3'
  rw [utf16le_unique hp] at q1 q2 q3
  rw [C52_key_unique _ _ _ q1 q1', C52_key_unique _ _ _ q2 q2', C52_key_unique _ _ _ q3 q3']

/-- **C84** Nothing in a legacy response is fresh from the client: all responses to one challenge are the same. -/
theorem C84_stale {E : Env σ} {τ : Type} {E' : Env τ} (hC : E'.C = E.C) {a a' : Auth} (ha : a'.password = a.password) {challenge r r' : Bytes}
    (h : (ntlmv1Authenticate E.C a challenge : Res SmbError Bytes) = .ok r) (h' : (ntlmv1Authenticate E'.C a' challenge : Res SmbError Bytes) = .ok r') :
    r' = r := by
  have e : (ntlmv1Authenticate E.C a' challenge : Res SmbError Bytes) = ntlmv1Authenticate E.C a challenge := by
    simp only [ntlmv1Authenticate, ntlmHash, ha]
  rw [hC, e, h] at h'
  exact (Res.ok.inj h').symm

theorem ntlmv1_challenge {C : Crypto} {a : Auth} {ch secret : Bytes} (h : (ntlmv1Authenticate C a ch : Res SmbError Bytes) = .ok secret) : ch.length = 8 := by
  by_cases hc : ch.length = 8
  · exact hc
  · unfold ntlmv1Authenticate at h
    have : ∀ d, ∀ b, (desOneshot C d ch : Res SmbError Bytes) ≠ .ok b := by
      intro d b hb
      unfold desOneshot at hb
      cases hk : (expandDesKey d : Res SmbError Bytes) with
      | ok k => rw [hk, Res.ok_bind, if_pos hc] at hb; cases hb
      | err e => rw [hk] at hb; cases hb
      | panic => rw [hk] at hb; cases hb
    dsimp only at h
    cases hd : (desOneshot C (((ntlmHash C a).take 7).drop 0) ch : Res SmbError Bytes) with
    | ok b => exact absurd hd (this _ _)
    | err e => rw [hd] at h; cases h
    | panic => rw [hd] at h; cases h

theorem legacy_bound {C : Crypto} {user domain password : Str} {challenge response req : Bytes} (hq : IsClassicSetup req response user domain)
    (h : ClassicProves C.md4 C.des password challenge response) : C84_LegacyBound C.md4 C.des user domain password challenge req := by
  refine ⟨response, hq, h, fun accounts challenge' hu hd hp ha => ?_⟩
  obtain ⟨r', u', d', pw, a1, a2, a3, a4, p', k1', k2', k3', hp', q1', q2', q3', e'⟩ := ha
  obtain ⟨rfl, rfl, rfl⟩ := classic_unique hq a1 hu hd a2 a3
  rw [hp] at a4; cases a4
  obtain ⟨p, k1, k2, k3, hp, q1, q2, q3, e⟩ := h
  rw [utf16le_unique hp', ← utf16le_unique hp] at q1' q2' q3'
  cases C52_key_unique _ _ _ q1 q1'
  cases C52_key_unique _ _ _ q2 q2'
  cases C52_key_unique _ _ _ q3 q3'
  rw [e] at e'
  obtain ⟨e1, e3⟩ := List.append_inj e' (by simp [C.des_len])
  obtain ⟨e1, e2⟩ := List.append_inj e1 (by simp [C.des_len])
  exact ⟨p, _, _, _, hp, q1, q2, q3, by simp [e1, e2, e3]⟩

/-- **C52** In every login without extended security, the second packet has, for the user and domain of the login, the response made in this way of
its password and the challenge that the reply to the negotiation brought. -/
theorem C52_login {E : Env σ} {log : σ → List Bytes} (hlog : Logs E.V log) (s : St σ) :
    ∃ packets, log (setupConnection E s).2.w.srv = log s.w.srv ++ packets ∧ ∀ p p', packets = [p, p'] →
      ∃ ps ds v' b', NegotiateRound E.V s.w.srv s.w.inbox.flatten p ps ds v' b' ∧ (¬ OffersExtended ps →
        ∃ challenge more response, ds = challenge ++ more ∧ challenge.length = 8 ∧ u8At ps 33 = some 8 ∧
          IsClassicSetup p' response s.cli.auth.user s.cli.auth.domain ∧ ClassicProves E.C.md4 E.C.des s.cli.auth.password challenge response) := by
  obtain ⟨packets, hps, hf⟩ := setup_flow hlog s
  refine ⟨packets, hps, fun p p' he => ?_⟩
  subst he
  generalize hq' : [p, p'] = q at hf
  cases hf with
  | none => cases hq'
  | one h => cases hq'
  | response => cases hq'
  | classic h run hx hs h' =>
    cases hq'
    obtain ⟨fr, ps, ds, g1, g2, g3, _⟩ := negotiated run
    rw [h] at g1; cases g1
    refine ⟨ps, ds, _, _, g2, fun _ => ?_⟩
    obtain ⟨e8, more, e⟩ := g3.challenge
    have hl := ntlmv1_challenge hs
    rw [hl] at e8
    obtain ⟨k1, k2, k3, q1, q2, q3, hsec, hsl⟩ := C52_response E.C s.cli.auth _ hl
    rw [hs] at hsec
    cases hsec
    exact ⟨_, more, _, e, hl, e8, is_classic hsl h', _, k1, k2, k3, utf16le_encode _, q1, q2, q3, rfl⟩
  | extended h run hx hb h' =>
    cases hq'
    obtain ⟨fr, ps, ds, g1, g2, g3, _⟩ := negotiated run
    rw [h] at g1; cases g1
    exact ⟨ps, ds, _, _, g2, fun hn => absurd ((offers_extended g3).mp hx) hn⟩

/-- **C84** In every login without extended security, the second packet has the legacy response to the challenge of the negotiation. -/
theorem C84_legacy {E : Env σ} {log : σ → List Bytes} (hlog : Logs E.V log) (s : St σ) :
    ∃ packets, log (setupConnection E s).2.w.srv = log s.w.srv ++ packets ∧ ∀ p p', packets = [p, p'] →
      ∃ ps ds v' b', NegotiateRound E.V s.w.srv s.w.inbox.flatten p ps ds v' b' ∧ (¬ OffersExtended ps →
        ∃ challenge more, ds = challenge ++ more ∧ challenge.length = 8 ∧
          C84_LegacyBound E.C.md4 E.C.des s.cli.auth.user s.cli.auth.domain s.cli.auth.password challenge p') := by
  obtain ⟨packets, hps, hf⟩ := setup_flow hlog s
  refine ⟨packets, hps, fun p p' he => ?_⟩
  subst he
  generalize hq' : [p, p'] = q at hf
  cases hf with
  | none => cases hq'
  | one h => cases hq'
  | response => cases hq'
  | classic h run hx hs h' =>
    cases hq'
    obtain ⟨fr, ps, ds, g1, g2, g3, _⟩ := negotiated run
    rw [h] at g1; cases g1
    refine ⟨ps, ds, _, _, g2, fun _ => ?_⟩
    obtain ⟨_, more, e⟩ := g3.challenge
    have hl := ntlmv1_challenge hs
    obtain ⟨k1, k2, k3, q1, q2, q3, hsec, hsl⟩ := C52_response E.C s.cli.auth _ hl
    rw [hs] at hsec
    cases hsec
    exact ⟨_, more, e, hl, legacy_bound (is_classic hsl h') ⟨_, k1, k2, k3, utf16le_encode _, q1, q2, q3, rfl⟩⟩
  | extended h run hx hb h' =>
    cases hq'
    obtain ⟨fr, ps, ds, g1, g2, g3, _⟩ := negotiated run
    rw [h] at g1; cases g1
    exact ⟨ps, ds, _, _, g2, fun hn => absurd ((offers_extended g3).mp hx) hn⟩

/-- **C84** The cipher can be undone: under one key, no two blocks have the same cipher text. -/
theorem C84_cipher (key : Bytes) {b c : Bytes} (hb : b.length = 8) (hc : c.length = 8) (h : Crypto.real.des key b = Crypto.real.des key c) : b = c :=
  desEncrypt_inj key hb hc h

/-- **C84** With the real cipher, the recorded packet is of no use after another challenge. -/
theorem C84_replay_legacy {user domain password : Str} {challenge challenge' req : Bytes} {accounts : Str → Str → Option Str}
    (h : C84_LegacyBound Crypto.real.md4 Crypto.real.des user domain password challenge req) (hu : '\x00' ∉ user) (hd : '\x00' ∉ domain)
    (hp : accounts user domain = some password) (hc : challenge.length = 8) (hc' : challenge'.length = 8)
    (ha : ClassicAccepts Crypto.real.md4 Crypto.real.des accounts challenge' req) : challenge' = challenge := by
  obtain ⟨_, _, _, h⟩ := h
  obtain ⟨p, k1, k2, k3, _, _, _, _, h⟩ := h accounts challenge' hu hd hp ha
  exact (C84_cipher k1 hc hc' (h k1 (by simp))).symm

/-! ## A login can be weakened -/

theorem greeting_serves {V : Server σ} {own : Nat → Prop} {v : σ} {extended : Bool} {challenge req : Bytes} (hc : challenge.length = 8) (hq : IsNegotiate req)
    (hv : (V.react v req).2 = [message (greeting extended challenge req)]) :
    ∃ ps, Serves V own v req (greeting extended challenge req) ∧ Greets (greeting extended challenge req) ps challenge ∧
      (OffersExtended ps ↔ extended = true) ∧ u8At ps 33 = some 8 := by
  refine ⟨_, replyAs_serves own (params_mid hq.2.1) hv (by cases extended <;> decide) (by rw [hc]; decide),
      ⟨⟨frame_cmd _ _ _, by rw [greeting, replyAs, frame_status]; rfl, replyAs_body _ _ _ _ _ _ (by cases extended <;> decide) (by cases extended <;> decide)
        (by rw [hc]; decide)⟩, by cases extended <;> decide, by cases extended <;> decide, 8, by cases extended <;> decide, by rw [hc]; decide⟩, ?_,
      by cases extended <;> decide⟩
  cases extended
  · refine ⟨?_, fun h => by cases h⟩
    rintro ⟨n, h1, h2⟩
    have : n = 0xf3fd := Option.some.inj (h1.symm.trans (by decide))
    subst this
    revert h2; decide
  · exact ⟨fun _ => rfl, fun _ => ⟨0x8000f3fd, by decide, by decide⟩⟩

/-- The beginning of a login after such a greeting. -/
theorem greeted {E : Env σ} {own : Nat → Prop} {n : Nat} {s : St σ} (hr : Ready E own (n + 1) s) {challenge : Bytes} (hc : challenge.length = 8)
    {extended : Bool} (hv : ∀ req, IsNegotiate req → (E.V.react s.w.srv req).2 = [message (greeting extended challenge req)]) :
    ∃ p t, IsNegotiate p ∧ setupConnection E s = (if extended then authenticateNtlmv2 E t else authenticateNtlm E challenge t) ∧ Ready E own n t ∧
      t.cli.auth = s.cli.auth ∧ t.w.srv = (E.V.react s.w.srv p).1 ∧ t.w.out = s.w.out ++ p := by
  obtain ⟨fr, hf⟩ := negotiate_frame s.cli
  have hq := is_negotiate hf
  obtain ⟨ps, g1, g2, g3, g4⟩ := greeting_serves (own := own) hc hq (hv _ hq)
  obtain ⟨i, s1, hp, e1, e2, e3, e5, e4⟩ := exchange keeps_negotiate ServerSetup.reply hr hf g1
  obtain ⟨setup, k1, k2⟩ := accept_greets hp g2
  rw [k1] at e1
  have step := setup_step (show negotiate E s = (.ok setup, s1) from e1)
  refine ⟨_, s1.withCli (s1.cli.configured setup), hq, ?_, e4.withCli rfl, by show s1.cli.auth = _; rw [e2]; rfl, e3, e5⟩
  have hch : setup.challenge = challenge := by
    obtain ⟨q1, more', q2⟩ := k2.challenge
    rw [g4] at q1
    have := Option.some.inj q1
    have hm := congrArg List.length q2
    rw [List.length_append] at hm
    rw [q2, List.length_eq_zero_iff.mp (show more'.length = 0 by omega), List.append_nil]
  rw [step, hch]
  cases extended
  · rw [if_neg (fun h => by have := g3.mp ((offers_extended k2).mp h); cases this)]
    rfl
  · rw [if_pos ((offers_extended k2).mpr (g3.mpr rfl))]
    rfl

theorem classic_step {E : Env σ} {t : St σ} {challenge secret : Bytes} (hsec : (ntlmv1Authenticate E.C t.cli.auth challenge : Res SmbError Bytes) = .ok secret) :
    authenticateNtlm E challenge t = (sessionSetup E t.cli.auth.user t.cli.auth.domain secret >>= fun r => modifyCli (fun c => { c with uid := r.uid })) t := by
  unfold authenticateNtlm
  rw [M.bind_ok (show getCli t = (.ok t.cli, t) from rfl)]
  rw [M.bind_ok (show M.ofRes Error.SMBError (ntlmv1Authenticate E.C t.cli.auth challenge) t = (.ok secret, t) by rw [hsec]; rfl)]

/-- A login after a greeting without extended security. -/
theorem weakened {E : Env σ} {own : Nat → Prop} {s : St σ} {challenge : Bytes} (hc : challenge.length = 8)
    (hr : Ready E own (1 + 1) s) (hv : ∀ req, IsNegotiate req → (E.V.react s.w.srv req).2 = [message (greeting false challenge req)])
    (fit : ∀ u d, Utf16le s.cli.auth.user u → Utf16le s.cli.auth.domain d → 57 + u.length + d.length < 65536) :
    ∃ p p' response, IsNegotiate p ∧ (setupConnection E s).2.w.out = s.w.out ++ p ++ p' ∧
      IsClassicSetup p' response s.cli.auth.user s.cli.auth.domain ∧ ClassicProves E.C.md4 E.C.des s.cli.auth.password challenge response := by
  obtain ⟨p, t, g1, g2, g3, g4, g5, g6⟩ := greeted hr hc hv
  obtain ⟨k1, k2, k3, q1, q2, q3, hsec, hsl⟩ := C52_response E.C t.cli.auth challenge hc
  have hpr : ClassicProves E.C.md4 E.C.des t.cli.auth.password challenge (E.C.des k1 challenge ++ E.C.des k2 challenge ++ E.C.des k3 challenge) :=
    ⟨_, k1, k2, k3, utf16le_encode _, q1, q2, q3, rfl⟩
  generalize E.C.des k1 challenge ++ E.C.des k2 challenge ++ E.C.des k3 challenge = secret at hsec hsl hpr
  rw [← g4] at fit
  obtain ⟨fr, hf⟩ := auth_frame t.cli hsl (fit _ _ (utf16le_encode _) (utf16le_encode _))
  have hq := is_classic hsl hf
  rw [g4] at hq hpr
  refine ⟨p, message fr, secret, g1, ?_, hq, hpr⟩
  rw [g2, if_neg (by decide), classic_step hsec, ← g6]
  obtain ⟨ws, h3, h4⟩ := send_ok E _ t fr g3.first.1 hf (C26_fits hf) g3.writes
  obtain ⟨ib, _, h5⟩ := command_eq SessionSetupReply.reply h4
  obtain ⟨o, u, h6, h7⟩ : ∃ o u, sessionSetup E t.cli.auth.user t.cli.auth.domain secret t = (o, u) ∧ u.w.out = t.w.out ++ message fr := ⟨_, _, h5, rfl⟩
  show (M.bind (sessionSetup E t.cli.auth.user t.cli.auth.domain secret) _ t).2.w.out = _
  simp only [M.bind, h6]
  cases o <;> exact h7

/-- **C84 violated.** Whatever the server, and whatever it offers: a third party that replaces the reply to the negotiation, and nothing else,
gets from the client the legacy response to a challenge of its own choice. -/
theorem C84_violated (E : Env σ) (own : Nat → Prop) (s : St σ) (challenge : Bytes) (hc : challenge.length = 8)
    (hr : Ready E own 2 s) (fit : ∀ u d, Utf16le s.cli.auth.user u → Utf16le s.cli.auth.domain d → 57 + u.length + d.length < 65536) :
    ∃ forged p p' response, IsNegotiate p ∧
      (setupConnection { E with V := C84_between E.V forged } s).2.w.out = s.w.out ++ p ++ p' ∧
      IsClassicSetup p' response s.cli.auth.user s.cli.auth.domain ∧ ClassicProves E.C.md4 E.C.des s.cli.auth.password challenge response :=
  ⟨fun req => message (greeting false challenge req), weakened (E := { E with V := C84_between E.V (fun req => message (greeting false challenge req)) }) hc
    ⟨hr.writes, hr.unread, hr.ids, hr.enough⟩ (fun _ hq => if_pos hq.1) fit⟩

/-- A server that lets everybody in, and has no accounts. -/
def C84_anyone (extended : Bool) (challenge : Bytes) (uid : UInt16) : Server Nat where
  react := fun v req => (v + 1, [message (if v = 0 then greeting extended challenge req
    else if v = 1 ∧ extended then replyAs req .SessionSetup (.Known .MORE_PROCESSING) uid [0xff, 0, 0, 0, 0, 0, 54, 0] (challengeMsg challenge)
    else if extended then replyAs req .SessionSetup (.Known .SUCCESS) uid [0xff, 0, 0, 0, 0, 0, 0, 0] []
    else replyAs req .SessionSetup (.Known .SUCCESS) uid [0xff, 0, 0, 0, 0, 0] [])])
  tail := fun _ => .eof

/-- **C84 violated.** The client does not ask for a proof that the server knows the password: it logs in to such a server with any password,
with and without extended security. -/
theorem C84_violated_server (E : Env Nat) (own : Nat → Prop) (s : St Nat) (extended : Bool) (challenge : Bytes) (uid : UInt16) (hc : challenge.length = 8)
    (hV : E.V = C84_anyone extended challenge uid) (h0 : s.w.srv = 0)
    (hr : Ready E own 3 s) (fit : NamesFit s.cli.auth.user s.cli.auth.workstation s.cli.auth.domain 4)
    (ht : 0 ≤ E.now) (ht' : 10 * (E.now / 1000) < 2 ^ 64) :
    ∃ s', setupConnection E s = (.ok (), s') ∧ s'.cli.uid = uid ∧ s'.cli.auth = s.cli.auth := by
  obtain ⟨p, t, g1, g2, g3, g4, g5, g6⟩ := greeted (n := 2) (extended := extended) hr hc (fun req _ => by rw [hV, h0]; rfl)
  have h1 : t.w.srv = 1 := by rw [g5, hV, h0]; rfl
  rw [g2]
  rw [← g4] at fit ⊢
  cases extended
  · rw [if_neg (by decide)]
    obtain ⟨k1, k2, k3, q1, q2, q3, hsec, hsl⟩ := C52_response E.C t.cli.auth challenge hc
    generalize E.C.des k1 challenge ++ E.C.des k2 challenge ++ E.C.des k3 challenge = secret at hsec hsl
    obtain ⟨fr, hf⟩ := auth_frame t.cli hsl (fit.classic _ _ (utf16le_encode _) (utf16le_encode _))
    have hq := is_classic hsl hf
    have hm := params_mid hq.2.choose_spec.choose_spec.choose_spec.1
    obtain ⟨i, s', hp, e1, e2, e3, e5, e4⟩ := exchange (keeps_setup _) SessionSetupReply.reply g3 hf
      (replyAs_serves own hm (cmd := .SessionSetup) (st := .Known .SUCCESS) (uid := uid) (ps := [0xff, 0, 0, 0, 0, 0]) (ds := []) (by rw [hV, h1]; rfl) (by decide) (by decide))
    obtain ⟨v, l1, l2⟩ := accept_admits hp (granted_admits uid (message fr) _ ⟨rfl, by decide⟩ ⟨⟨rfl, by decide⟩, by decide⟩ (fun n hn => by
      have hn : none = some n := hn
      cases hn))
    rw [l1] at e1
    rw [classic_step hsec]
    exact ⟨_, (M.bind_ok (show sessionSetup E _ _ _ t = _ from e1)).trans rfl, UInt16.toNat.inj l2, by show s'.cli.auth = _; rw [e2]; rfl⟩
  · rw [if_pos rfl]
    obtain ⟨blob, hb, hbi, hbl⟩ := init_fits fit ntlmInitFlags
    obtain ⟨fr, hf⟩ := blob_frame t.cli hbl
    have hq := (is_extended hf).1
    have hl := challengeMsg_length hc
    obtain ⟨i, t1, hp, e1, e2, e3, e5, e4⟩ := exchange (keeps_setup _) SessionSetupReply.reply g3 hf
      (replyAs_serves own (params_mid hq.2.choose_spec.1) (cmd := .SessionSetup) (st := .Known .MORE_PROCESSING) (uid := uid)
        (ps := [0xff, 0, 0, 0, 0, 0, 54, 0]) (ds := challengeMsg challenge) (by rw [hV, h1]; rfl) (by decide) (by omega))
    have hpr : Prompts (replyAs (message fr) .SessionSetup (.Known .MORE_PROCESSING) uid [0xff, 0, 0, 0, 0, 0, 54, 0] (challengeMsg challenge)) uid.toNat
        (challengeMsg challenge) := by
      refine ⟨frame_cmd _ _ _, by rw [replyAs, frame_status]; rfl, frame_uid _ _ _, [0xff, 0, 0, 0, 0, 0, 54, 0], [], ?_, ⟨rfl, by decide⟩, by rw [hl]; rfl⟩
      rw [List.append_nil]
      exact replyAs_body _ _ _ _ _ _ (by decide) rfl (by omega)
    obtain ⟨v, k1, k2, k3⟩ := accept_prompts hp hpr
    rw [k1] at e1
    obtain ⟨flags, g3'⟩ : ∃ flags, IsNtlmChallenge (challengeMsg challenge) ['A'] flags challenge [0, 0, 0, 0] := ⟨1, is_challengeMsg hc⟩
    obtain ⟨fl, hfl, hch⟩ := C50_decode g3'
    obtain ⟨time, htm⟩ := clock_ok E.checked E.now ht ht'
    have step := ntlmv2_step hb (show sessionSetupNtlmv2 E blob t = (.ok v, t1) from e1) (by rw [k3]; exact hch) htm
    have hau : t1.cli.auth = t.cli.auth := by rw [e2]; rfl
    have hth := fit.third flags _ _ _ (ntlmName_text flags t.cli.auth.domain) (ntlmName_text flags t.cli.auth.user) (ntlmName_text flags t.cli.auth.workstation)
    obtain ⟨m', nt, hm', hnt, hA⟩ := (C49_authenticate E.C t.cli.auth (c := ⟨['A'], fl, challenge, [0, 0, 0, 0]⟩) hfl time E.random_len
      (ntlmName_text _ _) (ntlmName_text _ _) (ntlmName_text _ _)).1 ⟨by show 48 + 4 < _; omega, by omega, by omega, by omega⟩
    have hml : m'.length + 5 < 65536 := by
      obtain ⟨_, _, _, _, _, hS⟩ := hA.fields
      have := hS.full
      simp only [List.map_cons, List.map_nil, List.sum_cons, List.sum_nil, List.length_replicate] at this
      have hnt : nt.length = 48 + 4 := hnt
      omega
    have e4' : Ready E own 1 (t1.withCli (t1.cli.assigned v.uid)) := e4.withCli rfl
    obtain ⟨fr2, hf2⟩ := blob_frame (t1.withCli (t1.cli.assigned v.uid)).cli hml
    have hq2 := (is_extended hf2).1
    rw [hm'] at step
    replace step := step.trans (M.bind_ok rfl)
    have h2 : (t1.withCli (t1.cli.assigned v.uid)).w.srv = 2 := by show t1.w.srv = 2; rw [e3, hV, h1]; rfl
    obtain ⟨i2, s', hp2, l1, l2, l3, l5, l4⟩ := exchange (keeps_setup _) SessionSetupReply.reply e4' hf2
      (replyAs_serves own (params_mid hq2.2.choose_spec.1) (cmd := .SessionSetup) (st := .Known .SUCCESS) (uid := uid)
        (ps := [0xff, 0, 0, 0, 0, 0, 0, 0]) (ds := []) (by rw [hV, h2]; rfl) (by decide) (by decide))
    obtain ⟨v2, n1, _⟩ := accept_admits hp2 (granted_admits uid (message fr2) _ ⟨rfl, by decide⟩ ⟨⟨rfl, by decide⟩, by decide⟩ (fun n hn => by
      have hn : some 0 = some n := hn
      cases hn; decide))
    rw [n1] at l1
    refine ⟨s', by rw [step]; exact (M.bind_ok l1).trans rfl, ?_, by rw [l2]; exact hau⟩
    rw [l2]
    exact UInt16.toNat.inj k2

/-! ## Examples -/

namespace Demo

/-- non-vacuity of `C84_violated`: the server offers extended security, the client is ready, and the user has a name. -/
example : ∃ forged p p' response, IsNegotiate p ∧
    (setupConnection { doorEnv true with V := C84_between (doorEnv true).V forged } (atDoor (person "me".toList "secret".toList))).2.w.out = [] ++ p ++ p' ∧
    IsClassicSetup p' response "me".toList "home".toList ∧ ClassicProves (doorEnv true).C.md4 (doorEnv true).C.des "secret".toList [0, 0, 0, 0, 0, 0, 0, 0] response :=
  C84_violated (doorEnv true) (fun _ => True) (atDoor (person "me".toList "secret".toList)) [0, 0, 0, 0, 0, 0, 0, 0] rfl (atDoor_ready true _ 2 (by decide))
    (person_fits (by decide) (by decide +kernel) (by decide +kernel)).classic

/-- non-vacuity of `C84_violated_server`. -/
example (extended : Bool) : ∃ s', setupConnection { env true with V := C84_anyone extended [1, 2, 3, 4, 5, 6, 7, 8] 100, C := Crypto.real }
    { cli := .init (person "me".toList "secret".toList), w := { inbox := [], wsched := [.accept 9], out := [], srv := 0 } } = (.ok (), s') ∧ s'.cli.uid = 100 := by
  obtain ⟨s', h1, h2, _⟩ := C84_violated_server { env true with V := C84_anyone extended [1, 2, 3, 4, 5, 6, 7, 8] 100, C := Crypto.real } (fun _ => True)
    { cli := .init (person "me".toList "secret".toList), w := { inbox := [], wsched := [.accept 9], out := [], srv := 0 } } extended [1, 2, 3, 4, 5, 6, 7, 8] 100 rfl rfl rfl
    ⟨by intro ev he; simp at he; subst he; exact ⟨_, rfl⟩, .nil, fun _ _ => trivial, fun _ => by simp [Cli.init]⟩
    (person_fits (by decide) (by decide +kernel) (by decide +kernel)) (show (0 : Int) ≤ 13370000000000000000 by decide)
    (show (10 : Int) * (13370000000000000000 / 1000) < 2 ^ 64 by decide)
  exact ⟨s', h1, h2⟩

/-- non-vacuity of `C84_replay_legacy`: a packet of the client that is accepted after its own challenge. -/
example : ∃ p, C84_LegacyBound Crypto.real.md4 Crypto.real.des "me".toList "home".toList "secret".toList [1, 2, 3, 4, 5, 6, 7, 8] p ∧
    ClassicAccepts Crypto.real.md4 Crypto.real.des accounts [1, 2, 3, 4, 5, 6, 7, 8] p := by
  obtain ⟨_, _, p', response, _, _, h3, h4⟩ := C84_violated (doorEnv false) (fun _ => True) (atDoor (person "me".toList "secret".toList))
    [1, 2, 3, 4, 5, 6, 7, 8] rfl (atDoor_ready false _ 2 (by decide)) (person_fits (by decide) (by decide +kernel) (by decide +kernel)).classic
  exact ⟨p', legacy_bound (C := Crypto.real) h3 h4, response, _, _, _, h3, by decide, by decide, rfl, h4⟩

/-- non-vacuity of `C84_bound_partial`, `C84_legacy` and `C52_login`: logins with three packets and with two. -/
example : (setupConnection (env true) (loginSt defaultAuth (modern (.Known .SUCCESS)))).2.w.srv.2.map cmdOf = [some 0x72, some 0x73, some 0x73] ∧
    (setupConnection (env true) (loginSt defaultAuth (legacy (.Known .SUCCESS)))).2.w.srv.2.map cmdOf = [some 0x72, some 0x73] := by decide +kernel

/-- non-vacuity of `C84_replay`: with a hash function that ignores what it is given, a response is good for all challenges. -/
example : ∃ (H : NtlmHashes) (nt : Bytes), C84_Bound H [] [] [] [1, 2, 3, 4, 5, 6, 7, 8] nt ∧ NtlmProves H [] [] [] [0, 0, 0, 0, 0, 0, 0, 0] nt :=
  ⟨⟨id, fun _ _ => zeros 16, id⟩, zeros 16, proves_bound rfl ⟨_, zeros 16, [], ⟨[], [], utf16le_encode [], utf16le_encode [], rfl⟩, rfl, rfl, rfl⟩,
    ⟨_, zeros 16, [], ⟨[], [], utf16le_encode [], utf16le_encode [], rfl⟩, rfl, rfl, rfl⟩⟩

/-- non-vacuity of `C84_stale`. -/
example : ∃ r, (ntlmv1Authenticate Crypto.real (person "me".toList "secret".toList) [1, 2, 3, 4, 5, 6, 7, 8] : Res SmbError Bytes) = .ok r := by
  obtain ⟨_, _, _, _, _, _, h, _⟩ := C52_response Crypto.real (person "me".toList "secret".toList) [1, 2, 3, 4, 5, 6, 7, 8] rfl
  exact ⟨_, h⟩

end Demo

end Cifs
