import Verif.Props.Login
import Verif.Props.Ntlm
import Verif.Props.LoginHeaders
import Verif.Props.Alloc
import Verif.Spec.LoginSizes
/-!
# The sizes of the requests of a login (C27)
-/

namespace Cifs
open Spec

variable {σ : Type} {E : Env σ} {log : σ → List Bytes}

theorem negotiate_size {c : Cli} {fr : Bytes} (h : requestFrame c negotiateMsg = .ok fr) : (message fr).length = 4 + 47 := by
  obtain ⟨p, d, hb, h1, h2, rfl⟩ := requestFrame_ok h
  cases hb
  rw [frame_length]; rfl

theorem names_size (c : Cli) (x : SessionSetupMsg) :
    (if Flags2.contains (requestInfo c x.msg).flags2 Flags2.UNICODE then putU16 0 ++ putU16 0 else zeros 2 : Bytes).length = if c.useUnicode then 4 else 2 := by
  rw [requestInfo_id c x.msg rfl]
  show (if Flags2.contains (Flags2.set Flags2.default Flags2.UNICODE c.useUnicode) Flags2.UNICODE then _ else _ : Bytes).length = _
  cases c.useUnicode <;> rfl

theorem setup_size {c : Cli} {blob fr : Bytes} (h : requestFrame c (SessionSetupMsg.withBlob blob).msg = .ok fr) :
    (message fr).length = 4 + blobSize c.useUnicode blob.length := by
  obtain ⟨p, d, hb, h1, h2, rfl⟩ := requestFrame_ok h
  obtain ⟨lens, hl, rfl, rfl⟩ := setup_body hb
  by_cases hlt : blob.length < 65536
  · simp only [SessionSetupMsg.lengths, SessionSetupMsg.withBlob, tryInto, if_pos hlt, Res.ok_bind] at hl
    cases hl
    have hn := names_size c (SessionSetupMsg.withBlob blob)
    have e : ∀ i, (SessionSetupMsg.withBlob blob).dataBlock i = (blob ++ (if blob.length % 2 = 0 then [0] else [])) ++
      (if Flags2.contains i.flags2 Flags2.UNICODE then putU16 0 ++ putU16 0 else zeros 2) := fun _ => rfl
    rw [frame_length, e, List.length_append, List.length_append, hn]
    have e2 : (if blob.length % 2 = 0 then [0] else [] : Bytes).length = if blob.length % 2 = 0 then 1 else 0 := by split <;> rfl
    have e3 : ∀ l, l.length = 2 → ((SessionSetupMsg.withBlob blob).msg.params (putU16 (SessionSetupMsg.withBlob blob).maxBufferSize ++
      putU16 (SessionSetupMsg.withBlob blob).maxMpxCount ++ putU16 (SessionSetupMsg.withBlob blob).vcNumber ++
      putU32 (SessionSetupMsg.withBlob blob).sessionKey ++ l ++ putU32 0 ++
      putU32 (SessionSetupMsg.withBlob blob).capabilities)).length = 24 := by
      intro l hl
      show ([0xff, 0, 0, 0] ++ (putU16 _ ++ putU16 _ ++ putU16 _ ++ putU32 _ ++ l ++ putU32 0 ++ putU32 _)).length = 24
      simp [hl]
    rw [e2, e3 _ rfl, blobSize]; omega
  · simp only [SessionSetupMsg.lengths, SessionSetupMsg.withBlob, tryInto, if_neg hlt] at hl
    cases hl

theorem legacy_size {c : Cli} {user domain : Str} {secret fr : Bytes} (hs : secret.length = 24)
    (h : requestFrame c (SessionSetupMsg.withAuth user domain secret).msg = .ok fr) :
    (message fr).length = 4 + legacySize c.useUnicode user domain := by
  obtain ⟨p, d, hb, h1, h2, rfl⟩ := requestFrame_ok h
  obtain ⟨lens, hl, rfl, rfl⟩ := setup_body hb
  simp only [SessionSetupMsg.lengths, SessionSetupMsg.withAuth, tryInto, hs, show (24 < 65536) = True by simp, if_true, Res.ok_bind] at hl
  cases hl
  have hn := names_size c (SessionSetupMsg.withAuth user domain secret)
  have e : ∀ i, (SessionSetupMsg.withAuth user domain secret).dataBlock i = ((secret ++ secret) ++ (if (secret ++ secret).length % 2 = 0 then [0] else []) ++
      (encodeUtf16le user ++ [0, 0]) ++ (encodeUtf16le domain ++ [0, 0])) ++
      (if Flags2.contains i.flags2 Flags2.UNICODE then putU16 0 ++ putU16 0 else zeros 2) := fun _ => rfl
  rw [frame_length, e, if_pos (by rw [List.length_append, hs]), List.length_append, hn]
  have e3 : ∀ l, l.length = 4 → ((SessionSetupMsg.withAuth user domain secret).msg.params (putU16 (SessionSetupMsg.withAuth user domain secret).maxBufferSize ++
      putU16 (SessionSetupMsg.withAuth user domain secret).maxMpxCount ++ putU16 (SessionSetupMsg.withAuth user domain secret).vcNumber ++
      putU32 (SessionSetupMsg.withAuth user domain secret).sessionKey ++ l ++ putU32 0 ++
      putU32 (SessionSetupMsg.withAuth user domain secret).capabilities)).length = 26 := by
    intro l hl
    show ([0xff, 0, 0, 0] ++ (putU16 _ ++ putU16 _ ++ putU16 _ ++ putU32 _ ++ l ++ putU32 0 ++ putU32 _)).length = 26
    simp [hl]
  rw [e3 _ rfl]
  simp only [List.length_append, hs, length_utf16le, List.length_cons, List.length_nil, legacySize]
  omega

theorem ntlmInit_size {flags : UInt32} {domain workstation : Str} {m : Bytes} (h : ntlmInit flags domain workstation = .ok m) :
    m.length = 40 + (utf8Bytes domain).length + (utf8Bytes workstation).length := by
  rw [ntlmInit_eq] at h
  split at h
  · injection h with h
    rw [utf8Bytes_eq, utf8Bytes_eq, ← h]
    simp [length_descBytes, NTLMSSP_MAGIC, ntlmVersionBytes]; omega
  · cases h

theorem ntlmName_size (s : Str) {c : ChallengeMsg} {flags : Nat} (hf : c.flags.toNat = flags &&& ntlmFlagMask) :
    (ntlmName (NtlmFlags.contains c.flags NtlmFlags.UNICODE) s).length = ntlmTextLen flags s := by
  rw [flags_unicode hf, ntlmName, ntlmTextLen]
  by_cases h : flags % 2 = 1
  · simp only [h, decide_true, if_true, length_utf16le]
  · simp only [h, decide_false, if_false, utf8Bytes_eq]; simp

theorem answer_size {C : Crypto} {c : ChallengeMsg} {a : Auth} {time : UInt64} {random m : Bytes} (h : c.response C a time random = .ok m)
    (hr : random.length = 8) {flags : Nat} (hf : c.flags.toNat = flags &&& ntlmFlagMask) :
    m.length = 124 + c.info.length + ntlmTextLen flags a.domain + ntlmTextLen flags a.user + ntlmTextLen flags a.workstation := by
  rw [response_eq C c a time random rfl rfl rfl rfl] at h
  split at h
  · injection h with h
    rw [← h]
    simp only [List.length_append, ntlmName_size _ hf, length_ntlmv2, hr, length_descBytes, length_zeros, length_putU32]
    show 8 + _ + _ + _ + _ + _ + _ + _ = _
    omega
  · cases h

/-- **C27** for the login (`_partial`: nothing compares this with the negotiated size): the sizes of its requests are those of `LoginSizes`, whatever
the server does. -/
theorem C27_login_partial (hlog : Logs E.V log) (s : St σ) :
    ∃ ps, log (setupConnection E s).2.w.srv = log s.w.srv ++ ps ∧
      LoginSizes E.V s.cli.auth.user s.cli.auth.domain s.cli.auth.workstation s.w.srv s.w.inbox.flatten ps := by
  obtain ⟨ps, hps, hf⟩ := setup_flow hlog s
  refine ⟨ps, hps, ?_⟩
  cases hf with
  | none => exact .nothing
  | one h => exact .negotiate (negotiate_size h)
  | classic h run hx hs h' =>
    obtain ⟨fr, ps, ds, g1, g2, g3, _⟩ := negotiated run
    rw [h] at g1; cases g1
    exact .legacy (negotiate_size h) g2 (extended_excl g3 hx) (offers_unicode g3) (legacy_size (ntlmv1_length hs) h')
  | extended h run hx hb h' =>
    obtain ⟨fr, ps, ds, g1, g2, g3, _⟩ := negotiated run
    rw [h] at g1; cases g1
    exact .extended (negotiate_size h) g2 ((offers_extended g3).mp hx) (offers_unicode g3) (by rw [setup_size h', ntlmInit_size hb]; rfl)
  | response h run hx hb h' run' hch ht hb' h'' =>
    obtain ⟨fr, ps, ds, g1, g2, g3, _⟩ := negotiated run
    rw [h] at g1; cases g1
    obtain ⟨fr', st, ps', ds', k1, k2, k3, _, k5, k6⟩ := set_up run'
    have k1 : requestFrame _ _ = _ := k1
    have e := h'.symm.trans k1
    cases e
    obtain ⟨flags, hc, hfl⟩ := (C50_exact _ _).mp hch
    have e6 : ∀ u, (Cli.assigned _ u).useUnicode = _ := fun _ => (congrArg Cli.useUnicode k6 : _ = _)
    exact .response (negotiate_size h) g2 ((offers_extended g3).mp hx) (offers_unicode g3) (by rw [setup_size h', ntlmInit_size hb]; rfl) k3 k5 hc
      (by rw [setup_size h'', answer_size hb' E.random_len hfl, e6]; rfl)

namespace Demo

/-- A server without extended security, with the smallest buffer of the protocol (1024 bytes). -/
def small : List Bytes :=
  [replyWith .Negotiate (.Known .SUCCESS) 0 0 (putU16 0 ++ [3] ++ putU16 50 ++ putU16 1 ++ putU32 1024 ++ putU32 65536 ++ putU32 0 ++ putU32 0xf3fd ++
     putU64 133700000000000000 ++ putU16 0xffc4 ++ [8]) [1, 2, 3, 4, 5, 6, 7, 8],
   replyWith .SessionSetup (.Known .SUCCESS) 100 1 [0xff, 0, 0, 0, 0, 0] []]

/-- Somebody with a long name. -/
def longUser : Auth := { defaultAuth with user := List.replicate 500 'x' }

end Demo

/-- **C27 is violated by logins, too**: one that succeeds, with a server that accepts at most 1024 bytes, sends it 1136. -/
theorem C27_violated_login : ∃ (σ : Type) (E : Env σ) (log : σ → List Bytes) (s s' : St σ), Logs E.V log ∧ setupConnection E s = (.ok (), s') ∧
    s'.cli.maxSmbSize = 1024 ∧ (log s'.w.srv).map (fun p => (cmdOf p, p.length - 4)) = (log s.w.srv).map (fun p => (cmdOf p, p.length - 4)) ++
      [(some 0x72, 47), (some 0x73, 1136)] := by
  obtain ⟨_, s', h, hq⟩ := okState_of (q := fun s' : St (List (List Bytes) × List Bytes) => decide (s'.cli.maxSmbSize = 1024 ∧
      s'.w.srv.2.map (fun p => (cmdOf p, p.length - 4)) = [(some 0x72, 47), (some 0x73, 1136)]))
    (r := setupConnection (Demo.env true) (Demo.loginSt Demo.longUser Demo.small)) (by decide +kernel)
  have hq := of_decide_eq_true hq
  exact ⟨_, Demo.env true, Prod.snd, _, s', fun _ _ => rfl, h, hq.1, hq.2⟩

namespace Demo

/-- C27: the sizes of a login of three requests, and of one of two, as `LoginSizes` says. -/
example : (setupConnection (env true) (loginSt defaultAuth (modern (.Known .SUCCESS)))).2.w.srv.2.map List.length =
      [4 + 47, 4 + blobSize true (40 + 9 + 9), 4 + blobSize true (124 + 4 + 18 + 0 + 18)] ∧
    (setupConnection (env true) (loginSt { defaultAuth with user := "me".toList } plain)).2.w.srv.2.map List.length =
      [4 + 47, 4 + legacySize false "me".toList "WORKGROUP".toList] := by decide +kernel

end Demo

end Cifs
