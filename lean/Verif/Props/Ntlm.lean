import Verif.Lemmas.Ntlm
import Verif.Props.Connect
/-!
# Properties about NTLM: the response (C48), the messages sent (C49), the challenge received (C50)
-/

namespace Cifs
open Spec

variable {σ : Type}

/-! ## C50 -/

/-- **C50** A challenge message is decoded to a value exactly if it is one, with the fields where the descriptors place them. -/
theorem C50_exact (m : Bytes) (v : ChallengeMsg) :
    ChallengeMsg.parse m = .ok v ↔
      ∃ flags, IsNtlmChallenge m v.target flags v.challenge v.info ∧ v.flags.toNat = flags &&& ntlmFlagMask := by
  constructor
  · intro h
    by_cases h8 : m.length < 8
    · rw [challenge_cut h8] at h; cases h
    by_cases hs : sliceAt m 0 8 = some ntlmSignature
    · by_cases h12 : m.length < 12
      · rw [challenge_untyped hs h12] at h; cases h
      by_cases ht : u32At m 8 = some 2
      · by_cases h48 : m.length < 48
        · rw [challenge_short ⟨hs, ht⟩ h48] at h; cases h
        obtain ⟨tl, tp, il, ip, f, ch, e1, e2, e3, e4, e5, e6, e7⟩ := challenge_long ⟨hs, ht⟩ (Nat.le_of_not_lt h48)
        rw [e7] at h
        cases hb : sliceAt m tp tl with
        | none => rw [hb] at h; cases h
        | some b =>
          rw [hb] at h
          obtain ⟨target, h1, h2⟩ := Res.bind_eq_ok.mp h
          rw [ntlmText_iff] at h1
          cases hi : sliceAt m ip il with
          | none => rw [hi] at h2; cases h2
          | some info =>
            rw [hi] at h2
            cases h2
            have lb := (sliceAt_length hb).2
            have li := (sliceAt_length hi).2
            subst lb; subst li
            exact ⟨f.toNat, ⟨⟨hs, ht⟩, ⟨tp, b, ⟨e1, e2, hb⟩, h1⟩, e3, e4, ip, e5, e6, hi⟩, mask_ntlm f⟩
      · rw [challenge_other hs (Nat.le_of_not_lt h12) ht] at h; cases h
    · rw [challenge_unsigned (Nat.le_of_not_lt h8) hs] at h; cases h
  · rintro ⟨flags, ⟨ht, ⟨o, b, ⟨d1, d2, d3⟩, hx⟩, hf, hc, ⟨o', d4, d5, d6⟩⟩, hm⟩
    obtain ⟨tl, tp, il, ip, f, ch, e1, e2, e3, e4, e5, e6, e7⟩ := challenge_long ht (by have := u32At_length d5; omega)
    rw [d1] at e1; cases e1
    rw [d2] at e2; cases e2
    rw [hf] at e3; cases e3
    rw [hc] at e4; cases e4
    rw [d4] at e5; cases e5
    rw [d5] at e6; cases e6
    rw [e7, d3]
    show Res.bind _ _ = _
    rw [(ntlmText_iff f.toNat v.target b).mpr hx, d6]
    show Res.ok _ = _
    obtain ⟨target, fl, chal, info⟩ := v
    have : fl = NtlmFlags.truncate f := UInt32.toNat_inj.mp (by rw [mask_ntlm]; exact hm)
    rw [this]

/-- **C50** In particular every conforming challenge message is understood. -/
theorem C50_decode {m challenge info : Bytes} {target : Str} {flags : Nat} (h : IsNtlmChallenge m target flags challenge info) :
    ∃ f : UInt32, f.toNat = flags &&& ntlmFlagMask ∧ ChallengeMsg.parse m = .ok { target, flags := f, challenge, info } := by
  have hb : flags &&& ntlmFlagMask < 2 ^ 32 := Nat.lt_of_le_of_lt Nat.and_le_right (by decide)
  have e : (UInt32.ofNat (flags &&& ntlmFlagMask)).toNat = flags &&& ntlmFlagMask := by
    rw [UInt32.toNat_ofNat']; exact Nat.mod_eq_of_lt hb
  exact ⟨_, e, (C50_exact m _).mpr ⟨flags, h, e⟩⟩

/-- Two readings of a challenge message agree. -/
theorem C50_unique {m ch ch' info info' : Bytes} {t t' : Str} {f f' : Nat} (h : IsNtlmChallenge m t f ch info)
    (h' : IsNtlmChallenge m t' f' ch' info') : t = t' ∧ f = f' ∧ ch = ch' ∧ info = info' := by
  have hf : f = f' := Option.some.inj (h.flags.symm.trans h'.flags)
  subst hf
  obtain ⟨u, hu, e⟩ := C50_decode h
  obtain ⟨u', hu', e'⟩ := C50_decode h'
  rw [e] at e'
  injection e' with e'
  injection e' with e1 _ e3 e4
  exact ⟨e1, rfl, e3, e4⟩

/-- **C38** for challenge messages: which of them crash the client. -/
theorem C38_challenge (m : Bytes) : ChallengeMsg.parse m = .panic ↔ BadChallenge m := by
  by_cases h8 : m.length < 8
  · exact ⟨fun _ => .inl h8, fun _ => challenge_cut h8⟩
  by_cases hs : sliceAt m 0 8 = some ntlmSignature
  · by_cases h12 : m.length < 12
    · exact ⟨fun _ => .inr (.inl ⟨hs, h12⟩), fun _ => challenge_untyped hs h12⟩
    by_cases ht : u32At m 8 = some 2
    · by_cases h48 : m.length < 48
      · exact ⟨fun _ => .inr (.inr ⟨⟨hs, ht⟩, .inl h48⟩), fun _ => challenge_short ⟨hs, ht⟩ h48⟩
      obtain ⟨tl, tp, il, ip, f, ch, e1, e2, e3, e4, e5, e6, e7⟩ := challenge_long ⟨hs, ht⟩ (Nat.le_of_not_lt h48)
      have iff : BadChallenge m ↔ (LeadsOut m 12 ∨ ∃ flags o b, u32At m 20 = some flags ∧ Delimits m 12 o b ∧
        (flags % 2 = 1 ∧ OddText b ∨ (∃ target, NtlmText flags target b) ∧ LeadsOut m 40)) := by
        constructor
        · rintro (h | ⟨_, h⟩ | ⟨_, h | h⟩)
          · exact absurd h h8
          · exact absurd h h12
          · exact absurd h h48
          · exact h
        · intro h; exact .inr (.inr ⟨⟨hs, ht⟩, .inr h⟩)
      have out : ∀ d n o, u16At m d = some n → u32At m (d + 4) = some o → (LeadsOut m d ↔ sliceAt m o n = none) := by
        intro d n o h1 h2
        constructor
        · rintro ⟨n', o', h3, h4, h5⟩
          rw [h1] at h3; cases h3
          rw [h2] at h4; cases h4
          exact if_neg (by omega)
        · intro h
          refine ⟨n, o, h1, h2, ?_⟩
          refine Nat.lt_of_not_le (fun hc => ?_)
          rw [sliceAt, if_pos hc] at h; cases h
      rw [e7, iff, out 12 tl tp e1 e2]
      cases hb : sliceAt m tp tl with
      | none => simp
      | some b =>
        have lb := (sliceAt_length hb).2
        have hd : Delimits m 12 tp b := ⟨by rw [lb]; exact e1, e2, by rw [lb]; exact hb⟩
        have huniq : ∀ o b', Delimits m 12 o b' → b' = b := by
          rintro o b' ⟨h1, h2, h3⟩
          rw [e1] at h1; rw [e2] at h2
          cases h2
          rw [← Option.some.inj h1, hb] at h3
          exact (Option.some.inj h3).symm
        show Res.bind _ _ = Res.panic ↔ _
        have rhs : (some b = none ∨ ∃ flags o b', u32At m 20 = some flags ∧ Delimits m 12 o b' ∧
            (flags % 2 = 1 ∧ OddText b' ∨ (∃ target, NtlmText flags target b') ∧ LeadsOut m 40)) ↔
            (f.toNat % 2 = 1 ∧ OddText b ∨ (∃ target, NtlmText f.toNat target b) ∧ LeadsOut m 40) := by
          constructor
          · rintro (h | ⟨fl, o, b', h1, h2, h3⟩)
            · cases h
            · rw [e3] at h1; cases h1
              rw [huniq o b' h2] at h3
              exact h3
          · intro h; exact .inr ⟨f.toNat, tp, b, e3, hd, h⟩
        rw [rhs, out 40 il ip e5 e6]
        have hp : (if f.toNat % 2 = 1 then decodeUtf16le NtlmError.InvalidPacket b else Res.ofOption .InvalidPacket (fromUtf8 b)) = .panic ↔
            f.toNat % 2 = 1 ∧ OddText b := by
          split
          · rename_i h; rw [decodeUtf16le_panic_iff]; simp [h]
          · rename_i h; cases fromUtf8 b <;> simp [Res.ofOption, h]
        have hk := fun t => ntlmText_iff f.toNat t b
        revert hp hk
        generalize (if f.toNat % 2 = 1 then decodeUtf16le NtlmError.InvalidPacket b else Res.ofOption .InvalidPacket (fromUtf8 b)) = x
        intro hp hk
        cases x with
        | panic => exact ⟨fun _ => .inl (hp.mp rfl), fun _ => rfl⟩
        | err e =>
          refine ⟨(fun h => by cases h), ?_⟩
          rintro (h | ⟨⟨t, h⟩, _⟩)
          · have := hp.mpr h; cases this
          · have := (hk t).mpr h; cases this
        | ok t =>
          show (match sliceAt m ip il with | none => Res.panic | some info => Res.ok _) = Res.panic ↔ _
          cases sliceAt m ip il with
          | none => exact ⟨fun _ => .inr ⟨⟨t, (hk t).mp rfl⟩, rfl⟩, fun _ => rfl⟩
          | some info =>
            refine ⟨(fun h => by cases h), ?_⟩
            rintro (h | ⟨_, h⟩)
            · have := hp.mpr h; cases this
            · cases h
    · rw [challenge_other hs (Nat.le_of_not_lt h12) ht]
      refine ⟨(fun h => by cases h), ?_⟩
      rintro (h | ⟨_, h⟩ | ⟨⟨_, h⟩, _⟩)
      · exact absurd h h8
      · exact absurd h h12
      · exact absurd h ht
  · rw [challenge_unsigned (Nat.le_of_not_lt h8) hs]
    refine ⟨(fun h => by cases h), ?_⟩
    rintro (h | ⟨h, _⟩ | ⟨⟨h, _⟩, _⟩)
    · exact absurd h h8
    · exact absurd h hs
    · exact absurd h hs

/-! ## C49 -/

/-- **C49** The first message: names that fit are delimited by their descriptors, others are refused. -/
theorem C49_negotiate (flags : UInt32) (domain workstation : Str) :
    (((utf8Bytes domain).length < 65536 ∧ (utf8Bytes workstation).length < 65536) →
      ∃ m, ntlmInit flags domain workstation = .ok m ∧ IsNtlmNegotiate m flags.toNat (utf8Bytes domain) (utf8Bytes workstation)) ∧
    (¬ ((utf8Bytes domain).length < 65536 ∧ (utf8Bytes workstation).length < 65536) → ntlmInit flags domain workstation = .err .InputParameter) := by
  have e := ntlmInit_eq flags domain workstation
  rw [utf8Bytes_eq, utf8Bytes_eq]
  constructor
  · intro h
    rw [if_pos h] at e
    have := (ntlmInit_ok e).2.2
    rw [utf8Bytes_eq, utf8Bytes_eq] at this
    exact ⟨_, e, this⟩
  · intro h
    rw [if_neg h] at e
    exact e

theorem ntlmName_text (flags : Nat) (s : Str) : NtlmText flags s (ntlmName (decide (flags % 2 = 1)) s) := by
  unfold NtlmText ntlmName
  by_cases h : flags % 2 = 1
  · simp only [h, decide_true, if_true]; exact utf16le_encode s
  · simp only [h, decide_false, if_false]; exact (utf8Bytes_eq s).symm

theorem ntlmText_unique {flags : Nat} {s : Str} {b : Bytes} (h : NtlmText flags s b) : b = ntlmName (decide (flags % 2 = 1)) s := by
  unfold NtlmText at h
  unfold ntlmName
  by_cases h1 : flags % 2 = 1
  · simp only [h1, decide_true, if_true] at h ⊢; exact utf16le_unique h
  · simp only [h1, decide_false, if_false] at h ⊢; rw [h]; exact utf8Bytes_eq s

theorem flags_unicode {f : UInt32} {flags : Nat} (h : f.toNat = flags &&& ntlmFlagMask) :
    NtlmFlags.contains f NtlmFlags.UNICODE = decide (flags % 2 = 1) := by
  have e := contains32 f NtlmFlags.UNICODE 0 rfl
  rw [h, mask_bit _ _ _ (by decide)] at e
  have e' : NtlmFlags.contains f NtlmFlags.UNICODE = decide (flags / 2 ^ 0 % 2 = 1) := e
  simpa using e'

/-- **C49** The third message, in answer to a challenge with the given flags and target information: if the response and the names fit, each
is delimited by its descriptor; otherwise it is refused. The response takes 48 bytes more than the target information. -/
theorem C49_authenticate (C : Crypto) (a : Auth) {c : ChallengeMsg} {flags : Nat} (hf : c.flags.toNat = flags &&& ntlmFlagMask) (time : UInt64)
    {random : Bytes} (hr : random.length = 8) {d u w : Bytes} (hd : NtlmText flags a.domain d) (hu : NtlmText flags a.user u)
    (hw : NtlmText flags a.workstation w) :
    ((48 + c.info.length < 65536 ∧ d.length < 65536 ∧ u.length < 65536 ∧ w.length < 65536) →
      ∃ m nt, c.response C a time random = .ok m ∧ nt.length = 48 + c.info.length ∧ IsNtlmAuthenticate m (List.replicate 24 0) nt d u w) ∧
    (¬ (48 + c.info.length < 65536 ∧ d.length < 65536 ∧ u.length < 65536 ∧ w.length < 65536) →
      c.response C a time random = .err .InputParameter) := by
  have hl := length_ntlmv2 C a c time random
  rw [hr, show 40 + 8 + c.info.length = 48 + c.info.length by omega] at hl
  have hx := flags_unicode hf
  rw [ntlmText_unique hd, ntlmText_unique hu, ntlmText_unique hw, ← hl]
  have e := response_eq C c a time random rfl rfl rfl rfl
  rw [hx] at e
  constructor
  · intro h
    rw [if_pos h] at e
    exact ⟨_, _, e, rfl, (response_ok e hx).2.2.2.2⟩
  · intro h
    rw [if_neg h] at e
    exact e

/-! ## C48 -/

/-- The hash functions of a model, as the verifier sees them. -/
def Crypto.hashes (C : Crypto) : NtlmHashes := { md4 := C.md4, hmacMd5 := C.hmacMd5, upper := C.toUpper }

theorem ntlmv2_proves (C : Crypto) (a : Auth) (c : ChallengeMsg) (time : UInt64) (random : Bytes) (hr : random.length = 8) :
    ∃ proof client, (ntlmv2Authenticate C a c time random).2 = proof ++ client ∧ proof.length = 16 ∧
      IsClientChallenge client time.toNat random c.info ∧
      NtlmProves C.hashes a.user a.domain a.password c.challenge (ntlmv2Authenticate C a c time random).2 := by
  refine ⟨_, _, rfl, C.hmacMd5_len _ _, ?_, _, _, _, ⟨_, _, utf16le_encode _, utf16le_encode _, rfl⟩, rfl, C.hmacMd5_len _ _, rfl⟩
  have hb : ntlmv2Blob time random c.info = [0x01, 0x01] ++ (putU16 0 ++ (putU32 0 ++ (putU64 time ++ (random ++ (putU32 0 ++ (c.info ++ putU32 0)))))) := by
    show [0x01, 0x01, 0x00, 0x00, 0x00, 0x00, 0x00, 0x00] ++ putU64 time ++ random ++ putU32 0 ++ c.info ++ putU32 0 = _
    simp only [List.append_assoc]
    rfl
  show IsClientChallenge (ntlmv2Blob time random c.info) _ _ _
  rw [hb]
  refine ⟨rfl, rfl, rfl, rfl, ?_, ?_, ?_, ?_, ?_, ?_⟩
  · wire
  · wire; exact sliceAt_zero _ _ hr
  · simp only [u32At_append_right, length_putU16, length_putU32, length_putU64, hr, List.length_cons, List.length_nil, Nat.reduceLeDiff, Nat.reduceSub,
      Nat.reduceAdd]
    exact u32At_put 0 _
  · simp only [sliceAt_append_right, length_putU16, length_putU32, length_putU64, hr, List.length_cons, List.length_nil, Nat.reduceLeDiff, Nat.reduceSub,
      Nat.reduceAdd]
    exact sliceAt_zero _ _ rfl
  · have e : [0x01, 0x01] ++ (putU16 0 ++ (putU32 0 ++ (putU64 time ++ (random ++ (putU32 0 ++ (c.info ++ putU32 0)))))) =
        ([0x01, 0x01] ++ putU16 0 ++ putU32 0 ++ putU64 time ++ random ++ putU32 0 ++ c.info) ++ putU32 0 := by simp only [List.append_assoc]
    rw [e, u32At_append_right _ _ _ (by simp [hr]; omega)]
    have e2 : 28 + c.info.length - ([0x01, 0x01] ++ putU16 0 ++ putU32 0 ++ putU64 time ++ random ++ putU32 0 ++ c.info).length = 0 := by
      simp [hr]; omega
    rw [e2]; rfl
  · simp [hr]; omega

/-- **C48** Every message sent in answer to a challenge is accepted by a verifier that knows the password of the account, whatever the hash
functions are. Its response is a proof followed by a client challenge, which holds the time, the client's random and the server's target
information; the proof is over that and the server's challenge. -/
theorem C48_response (C : Crypto) (a : Auth) {m challenge info : Bytes} {target : Str} {flags : Nat}
    (hm : IsNtlmChallenge m target flags challenge info) {c : ChallengeMsg} (hc : ChallengeMsg.parse m = .ok c) (time : UInt64) {random : Bytes}
    (hr : random.length = 8) {m' : Bytes} (h : c.response C a time random = .ok m') {password : Str → Str → Option Str}
    (hp : password a.user a.domain = some a.password) :
    NtlmAccepts C.hashes password flags challenge m' ∧
      ∃ lm nt d u w proof client, IsNtlmAuthenticate m' lm nt d u w ∧ NtlmText flags a.domain d ∧ NtlmText flags a.user u ∧
        NtlmText flags a.workstation w ∧ nt = proof ++ client ∧ proof.length = 16 ∧ IsClientChallenge client time.toNat random info ∧
        ∃ key, IsNtlmKey C.hashes a.user a.domain a.password key ∧ proof = C.hmacMd5 key (challenge ++ client) := by
  obtain ⟨f, hf, e⟩ := C50_decode hm
  rw [hc] at e; cases e
  have hx : NtlmFlags.contains f NtlmFlags.UNICODE = decide (flags % 2 = 1) := flags_unicode hf
  obtain ⟨_, _, _, _, h5⟩ := response_ok h hx
  obtain ⟨proof, client, p1, p2, p3, p4⟩ := ntlmv2_proves C a _ time random hr
  refine ⟨⟨_, _, _, _, _, a.domain, a.user, a.password, h5, ntlmName_text _ _, ntlmName_text _ _, hp, p4⟩, ?_⟩
  obtain ⟨key, proof', client', k1, k2, k3, k4⟩ := p4
  obtain ⟨e1, e2⟩ := List.append_inj (p1.symm.trans k2) (p2.trans k3.symm)
  subst e1; subst e2
  exact ⟨_, _, _, _, _, proof, client, h5, ntlmName_text _ _, ntlmName_text _ _, ntlmName_text _ _, p1, p2, p3, key, k1, k4⟩

/-- **C48** On the wire: if a login comes to its third packet, then it got a challenge message in the reply to the second, and the third
packet carries a message that a verifier with the account's password accepts for that challenge, with the target information of the
challenge, the random drawn at this login and the time of this login. -/
theorem C48_login {E : Env σ} {log : σ → List Bytes} (hlog : Logs E.V log) (s : St σ) (password : Str → Str → Option Str)
    (hp : password s.cli.auth.user s.cli.auth.domain = some s.cli.auth.password) :
    ∃ packets, log (setupConnection E s).2.w.srv = log s.w.srv ++ packets ∧ packets.length ≤ 3 ∧ ∀ p p' p'', packets = [p, p', p''] →
      ∃ ps ds v' b' st uid ps' ds' v'' b'' m target flags challenge info m' time lm nt d u w proof client,
        NegotiateRound E.V s.w.srv s.w.inbox.flatten p ps ds v' b' ∧ SetupRound E.V v' b' p' st uid ps' ds' v'' b'' ∧
        u16At ps' 6 = some m.length ∧ (∃ more, ds' = m ++ more) ∧ IsNtlmChallenge m target flags challenge info ∧
        IsExtendedSetup p'' m' ∧ NtlmAccepts E.C.hashes password flags challenge m' ∧ IsNtlmAuthenticate m' lm nt d u w ∧
        nt = proof ++ client ∧ proof.length = 16 ∧ IsClientChallenge client time E.random info ∧
        (0 ≤ E.now → 10 * (E.now / 1000) < 2 ^ 64 → (time : Int) = 10 * (E.now / 1000)) := by
  obtain ⟨ps, hps, hf⟩ := setup_flow hlog s
  refine ⟨ps, hps, by cases hf <;> simp, ?_⟩
  intro p p' p'' he
  subst he
  generalize hq : [p, p', p''] = q at hf
  cases hf with
  | none => cases hq
  | one h => cases hq
  | classic h run hx hs h' => cases hq
  | extended h run hx hb h' => cases hq
  | @response _ _ _ _ _ _ _ _ r ch time h run hx hb h' run' hch ht hb' h'' =>
    cases hq
    obtain ⟨fr, ps, ds, g1, g2, g3, _⟩ := negotiated run
    rw [h] at g1; cases g1
    obtain ⟨fr', st, ps', ds', k1, k2, k3, _, k5, _⟩ := set_up run'
    have k1 : requestFrame _ _ = _ := k1
    have e := h'.symm.trans k1
    cases e
    obtain ⟨flags, hI, hfl⟩ := (C50_exact _ _).mp hch
    obtain ⟨a1, lm, nt, d, u, w, proof, client, a2, a3, a4, a5, a6, a7, a8, _⟩ := C48_response E.C s.cli.auth hI hch time E.random_len hb' hp
    have hblob : u16At ps' 6 = some r.securityBlob.length ∧ ∃ more, ds' = r.securityBlob ++ more := by
      rcases k5.blob with ⟨_, h0⟩ | hb
      · rw [h0] at hch; cases hch
      · exact hb
    obtain ⟨b1, b2⟩ := hblob
    refine ⟨ps, ds, _, _, st, _, ps', ds', _, _, _, _, flags, _, _, _, time.toNat, lm, nt, d, u, w, proof, client, g2, k3, b1, b2, hI,
      (is_extended h'').1, a1, a2, a6, a7, a8, ?_⟩
    intro h0 h1
    obtain ⟨n, hn, hv⟩ := C53_encode E.checked E.now h0 h1
    have hn' : (encodeWindowsTime E.checked E.now : Res NtlmError UInt64) = .ok n := by
      revert hn
      unfold encodeWindowsTime
      dsimp only
      split
      · intro h; cases h
      · split
        · intro h; cases h
        · intro h; injection h with h; rw [h]
    rw [ht] at hn'
    cases hn'
    exact hv

/-! ## C25 for credentials -/

theorem setup_step {E : Env σ} {s s1 : St σ} {setup : ServerSetup} (h : negotiate E s = (.ok setup, s1)) :
    setupConnection E s = (if Capabilities.contains setup.capabilities Capabilities.EXTENDED_SECURITY then authenticateNtlmv2 E
      else authenticateNtlm E setup.challenge) (s1.withCli (s1.cli.configured setup)) := by
  unfold setupConnection
  rw [M.bind_ok h]
  rfl

theorem ntlmv2_step {E : Env σ} {t t1 : St σ} {blob : Bytes} {r : SessionSetupReply} (hb : ntlmInit ntlmInitFlags t.cli.auth.domain t.cli.auth.workstation = .ok blob)
    (h : sessionSetupNtlmv2 E blob t = (.ok r, t1)) {ch : ChallengeMsg} (hc : ChallengeMsg.parse r.securityBlob = .ok ch) {time : UInt64}
    (ht : (encodeWindowsTime E.checked E.now : Res NtlmError UInt64) = .ok time) :
    authenticateNtlmv2 E t = (M.ofRes Error.NTLMError (ch.response E.C t.cli.auth time E.random) >>= fun response =>
      sessionSetupNtlmv2 E response >>= fun _ => pure ()) (t1.withCli (t1.cli.assigned r.uid)) := by
  unfold authenticateNtlmv2
  rw [M.bind_ok (show getCli t = (.ok t.cli, t) from rfl)]
  rw [M.bind_ok (show M.ofRes Error.NTLMError (ntlmInit ntlmInitFlags t.cli.auth.domain t.cli.auth.workstation) t = (.ok blob, t) by rw [hb]; rfl)]
  rw [M.bind_ok h]
  rw [M.bind_ok (show modifyCli (fun c => { c with uid := r.uid }) t1 = (.ok (), t1.withCli (t1.cli.assigned r.uid)) from rfl)]
  rw [M.bind_ok (show M.ofRes Error.NTLMError (ChallengeMsg.parse r.securityBlob) (t1.withCli (t1.cli.assigned r.uid)) =
    (.ok ch, t1.withCli (t1.cli.assigned r.uid)) by rw [hc]; rfl)]
  rw [M.bind_ok (show M.ofRes Error.NTLMError (encodeWindowsTime E.checked E.now) (t1.withCli (t1.cli.assigned r.uid)) =
    (.ok time, t1.withCli (t1.cli.assigned r.uid)) by rw [ht]; rfl)]

/-- **C25** for credentials, extended security, first message: a domain or workstation name of 65536 bytes or more makes the login fail with
an error after the negotiation, with nothing further sent. -/
theorem C25_negotiate {E : Env σ} {s s1 : St σ} {setup : ServerSetup} (h : negotiate E s = (.ok setup, s1))
    (hx : Capabilities.contains setup.capabilities Capabilities.EXTENDED_SECURITY = true)
    (hl : ¬ ((utf8Bytes s.cli.auth.domain).length < 65536 ∧ (utf8Bytes s.cli.auth.workstation).length < 65536)) :
    setupConnection E s = (.err (.NTLMError .InputParameter), s1.withCli (s1.cli.configured setup)) := by
  rw [setup_step h, if_pos hx]
  have ha : (s1.withCli (s1.cli.configured setup)).cli.auth = s.cli.auth := show s1.cli.auth = s.cli.auth from bump_auth keeps_negotiate h
  generalize s1.withCli (s1.cli.configured setup) = t at ha
  unfold authenticateNtlmv2
  rw [M.bind_ok (show getCli t = (.ok t.cli, t) from rfl), ha]
  exact M.bind_err (show M.ofRes Error.NTLMError (ntlmInit ntlmInitFlags s.cli.auth.domain s.cli.auth.workstation) t = _ by
    rw [(C49_negotiate _ _ _).2 hl]; rfl)

/-- **C25** for credentials, extended security, third message: after a challenge with the given flags, a name of 65536 bytes or more (or
target information that leaves no room in the response) makes the login fail with an error, with nothing further sent. -/
theorem C25_authenticate {E : Env σ} {s s1 s2 : St σ} {setup : ServerSetup} (h : negotiate E s = (.ok setup, s1))
    (hx : Capabilities.contains setup.capabilities Capabilities.EXTENDED_SECURITY = true) {blob : Bytes}
    (hb : ntlmInit ntlmInitFlags s.cli.auth.domain s.cli.auth.workstation = .ok blob) {r : SessionSetupReply}
    (h' : sessionSetupNtlmv2 E blob (s1.withCli (s1.cli.configured setup)) = (.ok r, s2)) {target : Str} {flags : Nat} {challenge info : Bytes}
    (hc : IsNtlmChallenge r.securityBlob target flags challenge info) (h0 : 0 ≤ E.now) (h1 : 10 * (E.now / 1000) < 2 ^ 64) {d u w : Bytes}
    (hd : NtlmText flags s.cli.auth.domain d) (hu : NtlmText flags s.cli.auth.user u) (hw : NtlmText flags s.cli.auth.workstation w)
    (hl : ¬ (48 + info.length < 65536 ∧ d.length < 65536 ∧ u.length < 65536 ∧ w.length < 65536)) :
    setupConnection E s = (.err (.NTLMError .InputParameter), s2.withCli (s2.cli.assigned r.uid)) := by
  rw [setup_step h, if_pos hx]
  have ha : (s1.withCli (s1.cli.configured setup)).cli.auth = s.cli.auth := show s1.cli.auth = s.cli.auth from bump_auth keeps_negotiate h
  generalize s1.withCli (s1.cli.configured setup) = t at ha h'
  obtain ⟨time, ht, _⟩ := C53_encode E.checked E.now h0 h1
  have ht : (encodeWindowsTime E.checked E.now : Res NtlmError UInt64) = .ok time := by
    revert ht
    unfold encodeWindowsTime
    dsimp only
    split
    · intro h; cases h
    · split
      · intro h; cases h
      · intro h; injection h with h; rw [h]
  obtain ⟨f, hf, hc⟩ := C50_decode hc
  rw [ntlmv2_step (ha ▸ hb) h' hc ht, ha]
  exact M.bind_err (show M.ofRes Error.NTLMError _ _ = _ by
    rw [(C49_authenticate E.C s.cli.auth (c := ⟨target, f, challenge, info⟩) hf time E.random_len hd hu hw).2 hl]; rfl)

theorem auth_block_length (user domain : Str) (secret : Bytes) (hs : secret.length = 24) (i : Info) :
    ∃ n, 2 ≤ n ∧ ((SessionSetupMsg.withAuth user domain secret).dataBlock i).length = 53 + 2 * utf16Len user + 2 * utf16Len domain + n := by
  have e : (SessionSetupMsg.withAuth user domain secret).dataBlock i = ((secret ++ secret) ++ (if (secret ++ secret).length % 2 = 0 then [0] else []) ++
      (encodeUtf16le user ++ [0, 0]) ++ (encodeUtf16le domain ++ [0, 0])) ++
      (if Flags2.contains i.flags2 Flags2.UNICODE then putU16 0 ++ putU16 0 else zeros 2) := rfl
  refine ⟨(if Flags2.contains i.flags2 Flags2.UNICODE then putU16 0 ++ putU16 0 else zeros 2).length, ?_, ?_⟩
  · split <;> decide
  · rw [e, if_pos (by rw [List.length_append, hs])]
    simp only [List.length_append, hs, length_utf16le, List.length_cons, List.length_nil]
    omega

/-- **C25** for credentials, legacy login: user and domain so long that the request would take more than 65535 data bytes make the login
fail with an error after the negotiation, with nothing further sent. -/
theorem C25_classic {E : Env σ} {s s1 : St σ} {setup : ServerSetup} (h : negotiate E s = (.ok setup, s1))
    (hx : Capabilities.contains setup.capabilities Capabilities.EXTENDED_SECURITY = false) (hc : setup.challenge.length = 8)
    (hm : ¬ (E.checked = true ∧ s1.cli.mid.toNat = 65535)) (hl : 65536 ≤ 55 + 2 * utf16Len s.cli.auth.user + 2 * utf16Len s.cli.auth.domain) :
    ∃ e, setupConnection E s = (.err (.SMBError (.CreatePacket e)), (s1.withCli (s1.cli.configured setup)).bump) := by
  rw [setup_step h, if_neg (by rw [hx]; decide)]
  have ha : (s1.withCli (s1.cli.configured setup)).cli.auth = s.cli.auth := show s1.cli.auth = s.cli.auth from bump_auth keeps_negotiate h
  have hmid : (s1.withCli (s1.cli.configured setup)).cli.mid = s1.cli.mid := rfl
  generalize s1.withCli (s1.cli.configured setup) = t at ha hmid
  obtain ⟨k1, k2, k3, _, _, _, hs, hsl⟩ := C52_response E.C s.cli.auth setup.challenge hc
  generalize E.C.des k1 setup.challenge ++ E.C.des k2 setup.challenge ++ E.C.des k3 setup.challenge = secret at hs hsl
  unfold authenticateNtlm
  rw [M.bind_ok (show getCli t = (.ok t.cli, t) from rfl), ha]
  rw [M.bind_ok (show M.ofRes Error.SMBError (ntlmv1Authenticate E.C s.cli.auth setup.challenge) t = (.ok secret, t) by rw [hs]; rfl)]
  have hr : ∃ e, requestFrame t.cli (SessionSetupMsg.withAuth s.cli.auth.user s.cli.auth.domain secret).msg = .err (.CreatePacket e) := by
    rw [requestFrame_eq]
    generalize requestInfo t.cli _ = i
    have hlens : ∃ lens, (SessionSetupMsg.withAuth s.cli.auth.user s.cli.auth.domain secret).lengths = .ok lens := by
      simp only [SessionSetupMsg.lengths, SessionSetupMsg.withAuth, tryInto]
      rw [if_pos (by omega)]
      exact ⟨_, rfl⟩
    obtain ⟨lens, hlens⟩ := hlens
    have hb : ∃ p, (SessionSetupMsg.withAuth s.cli.auth.user s.cli.auth.domain secret).msg.body i =
        .ok (p, (SessionSetupMsg.withAuth s.cli.auth.user s.cli.auth.domain secret).dataBlock i) := by
      simp only [SessionSetupMsg.msg]
      rw [hlens]
      exact ⟨_, rfl⟩
    obtain ⟨p, hb⟩ := hb
    rw [hb, Res.bind_ok]
    have hd : 65536 ≤ ((SessionSetupMsg.withAuth s.cli.auth.user s.cli.auth.domain secret).dataBlock i).length := by
      obtain ⟨more, hm, hd⟩ := auth_block_length s.cli.auth.user s.cli.auth.domain secret hsl i
      omega
    dsimp only
    split
    · rw [if_neg (by omega)]
      exact ⟨_, rfl⟩
    · exact ⟨_, rfl⟩
  obtain ⟨e, hr⟩ := hr
  refine ⟨e, M.bind_err (M.bind_err (send_unbuilt E _ t _ (by rw [hmid]; exact hm) hr))⟩

/-! ## Non-vacuity -/

namespace Demo

/-- A challenge message with payloads in the reverse order and a gap. -/
def reversed (flags : UInt32) (name : Bytes) : Bytes :=
  NTLMSSP_MAGIC ++ putU32 2 ++ descBytes name.length 55 ++ putU32 flags ++ [1, 2, 3, 4, 5, 6, 7, 8] ++ zeros 8 ++ descBytes 3 50 ++
    [9, 9] ++ [10, 11, 12] ++ [9, 9] ++ name

/-- C50: a challenge with Unicode, one without; unknown flags are dropped. -/
example : IsNtlmChallenge (reversed 0x01000009 [65, 0, 66, 0]) "AB".toList 0x01000009 [1, 2, 3, 4, 5, 6, 7, 8] [10, 11, 12] ∧
    IsNtlmChallenge (reversed 0 [0xc3, 0xa4]) "ä".toList 0 [1, 2, 3, 4, 5, 6, 7, 8] [10, 11, 12] ∧
    (0x01000009 : Nat) &&& ntlmFlagMask = 1 := by
  refine ⟨⟨⟨rfl, rfl⟩, ⟨55, [65, 0, 66, 0], ⟨rfl, rfl, rfl⟩, ?_⟩, rfl, rfl, 50, rfl, rfl, rfl⟩,
    ⟨⟨rfl, rfl⟩, ⟨55, [0xc3, 0xa4], ⟨rfl, rfl, rfl⟩, ?_⟩, rfl, rfl, 50, rfl, rfl, rfl⟩, by decide⟩
  · exact (ntlmText_iff _ _ _).mp (by decide +kernel)
  · exact (ntlmText_iff _ _ _).mp (by decide +kernel)

/-- C38: a descriptor that leads out of the message, and a name of odd length. -/
example : ChallengeMsg.parse ((reversed 0 []).take 50) = .panic ∧ ChallengeMsg.parse (reversed 1 [65]) = .panic ∧
    ChallengeMsg.parse (reversed 1 [65, 0]) ≠ .panic := by decide +kernel

/-- C49: names of every length exist, on both sides of the limit. -/
example (n : Nat) : (utf8Bytes (List.replicate n 'x')).length = n ∧ utf16Len (List.replicate n 'x') = n := by
  refine ⟨?_, utf16Len_replicate n 'x' (by decide)⟩
  induction n with
  | zero => rfl
  | succ n ih =>
    rw [List.replicate_succ]
    show (String.utf8EncodeChar 'x' ++ utf8Bytes (List.replicate n 'x')).length = _
    rw [List.length_append, ih, show (String.utf8EncodeChar 'x').length = 1 by decide +kernel]; omega

/-- C48: a login that comes to the third packet. -/
example : (setupConnection (env true) { cli := .init defaultAuth, w :=
    { inbox := [], wsched := [], out := [], srv := ((modern (.Known .SUCCESS)).map (fun r => [message r]), []) } }).2.w.srv.2.length = 3 := by
  decide +kernel

/-- C48: the verifier refuses a response to another challenge. -/
example : ∃ (H : NtlmHashes) (r : Bytes), NtlmProves H [] [] [] [1, 2, 3] r ∧ ¬ NtlmProves H [] [] [] [7, 2, 3] r := by
  refine ⟨⟨id, fun _ b => List.replicate 16 (b.headD 0), id⟩, List.replicate 16 1, ⟨_, List.replicate 16 1, [], ⟨[], [], .nil, .nil, rfl⟩, rfl, rfl, rfl⟩, ?_⟩
  rintro ⟨key, proof, client, _, h1, h2, h3⟩
  have : List.replicate 16 (1 : UInt8) = List.replicate 16 7 ++ client := by rw [h1, h3]; rfl
  have := congrArg List.head? this
  simp [List.replicate_succ] at this

/-- A client with these credentials, facing a server with these replies. -/
def loginSt (a : Auth) (answers : List Bytes) : St (List (List Bytes) × List Bytes) :=
  { cli := .init a, w := { inbox := [], wsched := [], out := [], srv := (answers.map (fun r => [message r]), []) } }

theorem utf8_x (n : Nat) : (utf8Bytes (List.replicate n 'x')).length = n := by
  induction n with
  | zero => rfl
  | succ n ih =>
    rw [List.replicate_succ]
    show (String.utf8EncodeChar 'x' ++ utf8Bytes (List.replicate n 'x')).length = _
    rw [List.length_append, ih, show (String.utf8EncodeChar 'x').length = 1 by decide +kernel]; omega

/-- Did it succeed with this property? -/
def okWith {ε α σ : Type} (q : α → Bool) : Out ε α × σ → Bool
  | (.ok a, _) => q a
  | _ => false

theorem okWith_of {ε α σ : Type} {q : α → Bool} {r : Out ε α × σ} (h : okWith q r = true) : ∃ a s, r = (.ok a, s) ∧ q a = true := by
  unfold okWith at h; split at h
  · exact ⟨_, _, rfl, h⟩
  · cases h

/-- non-vacuity of `C25_negotiate`: a domain of 70000 letters. -/
example : ∃ s', setupConnection (env true) (loginSt ⟨[], [], List.replicate 70000 'x', []⟩ (modern (.Known .SUCCESS))) =
    (.err (.NTLMError .InputParameter), s') := by
  obtain ⟨setup, s1, h1, h2⟩ := okWith_of (q := fun setup : ServerSetup => Capabilities.contains setup.capabilities Capabilities.EXTENDED_SECURITY)
    (r := negotiate (env true) (loginSt ⟨[], [], List.replicate 70000 'x', []⟩ (modern (.Known .SUCCESS)))) (by decide +kernel)
  refine ⟨_, C25_negotiate h1 h2 ?_⟩
  rintro ⟨h, _⟩
  have h : (utf8Bytes (List.replicate 70000 'x')).length < 65536 := h
  rw [utf8_x] at h
  omega

/-- non-vacuity of `C25_classic`: a user name of 40000 letters. -/
example : ∃ e s', setupConnection (env true) (loginSt ⟨List.replicate 40000 'x', [], [], []⟩ (legacy (.Known .SUCCESS))) =
    (.err (.SMBError (.CreatePacket e)), s') := by
  obtain ⟨⟨setup, s1⟩, h1, h2⟩ : ∃ r : ServerSetup × St _, negotiate (env true) (loginSt ⟨List.replicate 40000 'x', [], [], []⟩ (legacy (.Known .SUCCESS))) =
      (.ok r.1, r.2) ∧ (!Capabilities.contains r.1.capabilities Capabilities.EXTENDED_SECURITY && r.1.challenge.length == 8 && r.2.cli.mid.toNat == 1) = true := by
    rcases hr : negotiate (env true) (loginSt ⟨List.replicate 40000 'x', [], [], []⟩ (legacy (.Known .SUCCESS))) with ⟨o, s1⟩
    have h : (match negotiate (env true) (loginSt ⟨List.replicate 40000 'x', [], [], []⟩ (legacy (.Known .SUCCESS))) with
      | (.ok r, s) => !Capabilities.contains r.capabilities Capabilities.EXTENDED_SECURITY && r.challenge.length == 8 && s.cli.mid.toNat == 1
      | _ => false) = true := by decide +kernel
    rw [hr] at h
    cases o <;> first | exact ⟨(_, _), rfl, h⟩ | cases h
  simp only [Bool.and_eq_true, beq_iff_eq, Bool.not_eq_true'] at h2
  have hl : 65536 ≤ 55 + 2 * utf16Len (List.replicate 40000 'x') + 2 * utf16Len [] := by rw [utf16Len_replicate _ _ (by decide)]; omega
  generalize List.replicate 40000 'x' = user at h1 hl ⊢
  obtain ⟨e, h⟩ := C25_classic h1 h2.1.1 h2.1.2 (by rintro ⟨_, h⟩; rw [h2.2] at h; cases h) hl
  exact ⟨e, _, h⟩

/-- non-vacuity of `C48_response` and `C49_authenticate`: an answer to the challenge above, and one that does not fit. -/
example : (∃ c m, ChallengeMsg.parse challenge = .ok c ∧ c.response (env true).C defaultAuth 0 (List.replicate 8 0) = .ok m) ∧
    ∃ c : ChallengeMsg, c.response (env true).C { defaultAuth with user := List.replicate 70000 'x' } 0 (List.replicate 8 0) = .err .InputParameter := by
  constructor
  · have h : (match ChallengeMsg.parse challenge with
      | .ok c => (match c.response (env true).C defaultAuth 0 (List.replicate 8 0) with | .ok _ => true | _ => false)
      | _ => false) = true := by decide +kernel
    rcases hc : ChallengeMsg.parse challenge with c | _ | _ <;> rw [hc] at h
    · rcases hm : c.response (env true).C defaultAuth 0 (List.replicate 8 0) with m | _ | _ <;> dsimp only at h <;> rw [hm] at h
      · exact ⟨c, m, rfl, hm⟩
      · cases h
      · cases h
    · cases h
    · cases h
  · have hn : ∀ t, NtlmText 0 t (utf8Bytes t) := fun t => by unfold NtlmText; rw [if_neg (by decide)]
    refine ⟨⟨[], 0, [], []⟩, (C49_authenticate (env true).C { defaultAuth with user := List.replicate 70000 'x' } (c := ⟨[], 0, [], []⟩) (flags := 0) rfl 0 rfl
      (d := utf8Bytes defaultAuth.domain) (u := utf8Bytes (List.replicate 70000 'x')) (w := utf8Bytes defaultAuth.workstation)
      (hn _) (hn _) (hn _)).2 ?_⟩
    rintro ⟨_, _, h, _⟩
    rw [utf8_x] at h
    omega

/-- non-vacuity of `C25_authenticate`: a user name of 40000 letters, found too long only after the challenge has come. -/
example : ∃ s', setupConnection (env true) (loginSt { defaultAuth with user := List.replicate 40000 'x' } (modern (.Known .SUCCESS))) =
    (.err (.NTLMError .InputParameter), s') := by
  have hb : ∃ blob, ntlmInit ntlmInitFlags defaultAuth.domain defaultAuth.workstation = .ok blob := ⟨_, rfl⟩
  obtain ⟨blob, hb⟩ := hb
  have key : (match negotiate (env true) (loginSt { defaultAuth with user := List.replicate 40000 'x' } (modern (.Known .SUCCESS))) with
    | (.ok setup, s1) => Capabilities.contains setup.capabilities Capabilities.EXTENDED_SECURITY &&
      (match ntlmInit ntlmInitFlags defaultAuth.domain defaultAuth.workstation with
      | .ok blob => okWith (fun r : SessionSetupReply => r.securityBlob == challenge) (sessionSetupNtlmv2 (env true) blob (s1.withCli (s1.cli.configured setup)))
      | _ => false)
    | _ => false) = true := by decide +kernel
  rw [hb] at key
  have hu : NtlmText 1 (List.replicate 40000 'x') (encodeUtf16le (List.replicate 40000 'x')) := by
    unfold NtlmText; rw [if_pos (by decide)]; exact utf16le_encode _
  have hl : ¬ (encodeUtf16le (List.replicate 40000 'x')).length < 65536 := by rw [length_utf16le, utf16Len_replicate _ _ (by decide)]; omega
  generalize List.replicate 40000 'x' = user at key hu hl ⊢
  rcases hn : negotiate (env true) (loginSt { defaultAuth with user } (modern (.Known .SUCCESS))) with ⟨o, s1⟩
  rw [hn] at key
  cases o with
  | ok setup =>
    simp only [Bool.and_eq_true] at key
    obtain ⟨r, s2, h1, h2⟩ := okWith_of key.2
    have h2 : r.securityBlob = challenge := eq_of_beq h2
    refine ⟨_, C25_authenticate hn key.1 hb h1 (target := ['A']) (flags := 1) (challenge := [1, 2, 3, 4, 5, 6, 7, 8]) (info := [0, 0, 0, 0])
      (h2 ▸ ?_) (by decide) (by decide) (by unfold NtlmText; rw [if_pos (by decide)]; exact utf16le_encode _) hu
      (by unfold NtlmText; rw [if_pos (by decide)]; exact utf16le_encode _) (fun h => hl h.2.2.1)⟩
    exact ⟨⟨rfl, rfl⟩, ⟨48, [65, 0], ⟨rfl, rfl, rfl⟩, (ntlmText_iff _ _ _).mp (by decide +kernel)⟩, rfl, rfl, 50, rfl, rfl, rfl⟩
  | _ => cases key

/-- non-vacuity of `C46_login` and `C46_session`, with and without extended security. -/
example : (∃ s', setupConnection (env true) (loginSt defaultAuth (modern (.Known .SUCCESS))) = (.ok (), s')) ∧
    ∃ s', setupConnection (env true) (loginSt defaultAuth (legacy (.Known .SUCCESS))) = (.ok (), s') := by
  obtain ⟨_, s1, h1, _⟩ := okWith_of (q := fun _ => true) (r := setupConnection (env true) (loginSt defaultAuth (modern (.Known .SUCCESS))))
    (by decide +kernel)
  obtain ⟨_, s2, h2, _⟩ := okWith_of (q := fun _ => true) (r := setupConnection (env true) (loginSt defaultAuth (legacy (.Known .SUCCESS))))
    (by decide +kernel)
  exact ⟨⟨s1, h1⟩, s2, h2⟩

end Demo

end Cifs
