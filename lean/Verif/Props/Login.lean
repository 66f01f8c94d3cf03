import Verif.Lemmas.Short
import Verif.Lemmas.Open
import Verif.Props.Session
import Verif.Props.Codec
import Verif.Props.Transport
/-!
# Properties about opening a connection: the login flow (C46), its success (C47), ports and session requests (C07)
-/

namespace Cifs
open Spec

variable {σ : Type}

/-! ## C46 -/

theorem is_negotiate {c : Cli} {fr : Bytes} (h : requestFrame c negotiateMsg = .ok fr) : IsNegotiate (message fr) := by
  obtain ⟨p, d, hb, h1, h2, rfl⟩ := requestFrame_ok h
  cases hb
  refine ⟨?_, frame_params _ _ _ (by decide) (by decide), ?_⟩
  · rw [frame_cmd]; rfl
  · rw [frame_data _ _ _ (by decide) (by decide)]; decide +kernel

theorem setup_body {x : SessionSetupMsg} {i : Info} {p d : Bytes} (h : x.msg.body i = .ok (p, d)) :
    ∃ lens, x.lengths = .ok lens ∧ p = putU16 x.maxBufferSize ++ putU16 x.maxMpxCount ++ putU16 x.vcNumber ++ putU32 x.sessionKey ++ lens
          ++ putU32 0 ++ putU32 x.capabilities ∧ d = x.dataBlock i := by
  simp only [SessionSetupMsg.msg] at h
  cases hl : x.lengths with
  | err e => rw [hl] at h; cases h
  | panic => rw [hl] at h; cases h
  | ok l => rw [hl, Res.ok_bind] at h; cases h; exact ⟨l, rfl, rfl, rfl⟩

theorem uid_setup (c : Cli) (x : SessionSetupMsg) (p d : Bytes) : uidOf (message (frameOf (requestInfo c x.msg) p d)) = some c.uid.toNat := by
  rw [requestInfo_id c x.msg rfl, frame_uid]

theorem unicode_frame (c : Cli) (x : SessionSetupMsg) (p d : Bytes) :
    emptyNames (message (frameOf (requestInfo c x.msg) p d)) =
      (if Flags2.contains (requestInfo c x.msg).flags2 Flags2.UNICODE then putU16 0 ++ putU16 0 else zeros 2) := by
  rw [requestInfo_id c x.msg rfl, emptyNames, unicodeOf, frame_flags2]
  show (if (some ((Flags2.set Flags2.default Flags2.UNICODE c.useUnicode).toNat)).map _ = some true then _ else _) =
    if Flags2.contains (Flags2.set Flags2.default Flags2.UNICODE c.useUnicode) Flags2.UNICODE then _ else _
  cases c.useUnicode <;> rfl

/-- The words of a session setup, with its length words in the middle. -/
theorem setup_words (lens : Bytes) (caps : UInt32) {P : Bytes}
    (h : P = [0xff, 0, 0, 0] ++ (putU16 65535 ++ putU16 0 ++ putU16 0 ++ putU32 0 ++ lens ++ putU32 0 ++ putU32 caps)) :
    sliceAt P 0 14 = some setupWords ∧ u32At P (14 + lens.length) = some 0 ∧ u32At P (14 + lens.length + 4) = some caps.toNat := by
  have e : P = setupWords ++ (lens ++ (putU32 0 ++ putU32 caps)) := by rw [h]; simp only [List.append_assoc]; rfl
  rw [e]
  refine ⟨sliceAt_left _ _ _ rfl, ?_, ?_⟩
  · rw [u32At_append_right _ _ _ (by show 14 ≤ _; omega), u32At_append_right _ _ _ (by show _ ≤ _ - 14; omega)]
    show u32At _ (14 + lens.length - 14 - lens.length) = _
    rw [show 14 + lens.length - 14 - lens.length = 0 by omega]
    exact u32At_put 0 _
  · rw [u32At_append_right _ _ _ (by show 14 ≤ _; omega), u32At_append_right _ _ _ (by show _ ≤ _ - 14; omega)]
    show u32At _ (14 + lens.length + 4 - 14 - lens.length) = _
    rw [show 14 + lens.length + 4 - 14 - lens.length = 4 by omega]
    exact u32At_put' caps

theorem is_extended {c : Cli} {blob fr : Bytes} (h : requestFrame c (SessionSetupMsg.withBlob blob).msg = .ok fr) :
    IsExtendedSetup (message fr) blob ∧ uidOf (message fr) = some c.uid.toNat := by
  obtain ⟨p, d, hb, h1, h2, rfl⟩ := requestFrame_ok h
  obtain ⟨lens, hl, rfl, rfl⟩ := setup_body hb
  refine ⟨?_, uid_setup c _ _ _⟩
  by_cases hlt : blob.length < 65536
  · simp only [SessionSetupMsg.lengths, SessionSetupMsg.withBlob, tryInto, if_pos hlt, Res.ok_bind] at hl
    cases hl
    generalize hP : (SessionSetupMsg.withBlob blob).msg.params (putU16 (SessionSetupMsg.withBlob blob).maxBufferSize ++
      putU16 (SessionSetupMsg.withBlob blob).maxMpxCount ++ putU16 (SessionSetupMsg.withBlob blob).vcNumber ++
      putU32 (SessionSetupMsg.withBlob blob).sessionKey ++ putU16 (UInt16.ofNat blob.length) ++ putU32 0 ++
      putU32 (SessionSetupMsg.withBlob blob).capabilities) = P
    have hl : P.length = 24 := by rw [← hP]; rfl
    obtain ⟨w1, w2, w3⟩ := setup_words (putU16 (UInt16.ofNat blob.length)) (SessionSetupMsg.withBlob blob).capabilities hP.symm
    refine ⟨by rw [frame_cmd]; rfl, P, frame_params _ _ _ (by omega) (by omega), hl, w1, ?_, w2, w3, ?_⟩
    · subst hP
      show u16At ([0xff, 0, 0, 0] ++ (putU16 _ ++ putU16 _ ++ putU16 _ ++ putU32 _ ++ putU16 (UInt16.ofNat blob.length) ++ putU32 0 ++ putU32 _)) 14 = _
      wire
      rw [UInt16.toNat_ofNat', Nat.mod_eq_of_lt hlt]
    · rw [frame_data _ _ _ (by omega) (by omega), unicode_frame]; rfl
  · simp only [SessionSetupMsg.lengths, SessionSetupMsg.withBlob, tryInto, if_neg hlt] at hl
    cases hl

theorem is_classic {c : Cli} {user domain : Str} {secret fr : Bytes} (hs : secret.length = 24)
    (h : requestFrame c (SessionSetupMsg.withAuth user domain secret).msg = .ok fr) : IsClassicSetup (message fr) secret user domain := by
  obtain ⟨p, d, hb, h1, h2, rfl⟩ := requestFrame_ok h
  obtain ⟨lens, hl, rfl, rfl⟩ := setup_body hb
  simp only [SessionSetupMsg.lengths, SessionSetupMsg.withAuth, tryInto, hs, show (24 < 65536) = True by simp, if_true, Res.ok_bind] at hl
  cases hl
  generalize hP : (SessionSetupMsg.withAuth user domain secret).msg.params (putU16 (SessionSetupMsg.withAuth user domain secret).maxBufferSize ++
    putU16 (SessionSetupMsg.withAuth user domain secret).maxMpxCount ++ putU16 (SessionSetupMsg.withAuth user domain secret).vcNumber ++
    putU32 (SessionSetupMsg.withAuth user domain secret).sessionKey ++ (putU16 (UInt16.ofNat 24) ++ putU16 (UInt16.ofNat 24)) ++ putU32 0 ++
    putU32 (SessionSetupMsg.withAuth user domain secret).capabilities) = P
  have hl : P.length = 26 := by rw [← hP]; rfl
  obtain ⟨w1, w2, w3⟩ := setup_words _ (SessionSetupMsg.withAuth user domain secret).capabilities hP.symm
  refine ⟨by rw [frame_cmd]; rfl, P, encodeUtf16le user, encodeUtf16le domain, frame_params _ _ _ (by omega) (by omega), hl, w1,
    ?_, ?_, w2, w3, utf16le_encode _, utf16le_encode _, ?_⟩
  · rw [hs, ← hP]; rfl
  · rw [hs, ← hP]; rfl
  · have e : ∀ i, (SessionSetupMsg.withAuth user domain secret).dataBlock i = ((secret ++ secret) ++ (if (secret ++ secret).length % 2 = 0 then [0] else []) ++
      (encodeUtf16le user ++ [0, 0]) ++ (encodeUtf16le domain ++ [0, 0])) ++
      (if Flags2.contains i.flags2 Flags2.UNICODE then putU16 0 ++ putU16 0 else zeros 2) := fun _ => rfl
    rw [frame_data _ _ _ (by omega) (by omega), unicode_frame, e, if_pos (by rw [List.length_append, hs])]
    simp only [List.append_assoc]

theorem ntlmv1_length {C : Crypto} {a : Auth} {ch secret : Bytes} (h : (ntlmv1Authenticate C a ch : Res SmbError Bytes) = .ok secret) :
    secret.length = 24 := by
  by_cases hc : ch.length = 8
  · obtain ⟨k1, k2, k3, _, _, _, e, hl⟩ := C52_response C a ch hc
    rw [h] at e; cases e; exact hl
  · unfold ntlmv1Authenticate at h
    have : ∀ d, ∀ b, (desOneshot C d ch : Res SmbError Bytes) ≠ .ok b := by
      intro d b hb
      unfold desOneshot at hb
      cases hk : (expandDesKey d : Res SmbError Bytes) with
      | ok k => rw [hk, Res.ok_bind, if_pos hc] at hb; cases hb
      | err e => rw [hk] at hb; cases hb
      | panic => rw [hk] at hb; cases hb
    dsimp only at h
    cases hd : (desOneshot C (((ntlmHash C a).take 7).drop 0) ch : Res SmbError Bytes) with
    | ok b => exact absurd hd (this _ _)
    | err e => rw [hd] at h; cases h
    | panic => rw [hd] at h; cases h

/-- A successful negotiation, on the wire. -/
theorem negotiated {E : Env σ} {s s1 : St σ} {v : ServerSetup} (h : negotiate E s = (.ok v, s1)) :
    ∃ fr ps ds, requestFrame s.cli negotiateMsg = .ok fr ∧
      NegotiateRound E.V s.w.srv s.w.inbox.flatten (message fr) ps ds s1.w.srv s1.w.inbox.flatten ∧ IsNegotiateReply ps ds v ∧ s1.cli = s.bump.cli := by
  obtain ⟨fr, f, i, ps, ds, h1, h2, _, h4, h5, h6, h7, h8⟩ := command_reply keeps_negotiate ServerSetup.reply h
  have hs : statusOf (message f) = some 0 := by
    rcases h5 with h | ⟨_, h⟩
    · exact h
    · cases h
  rw [make_plain ServerSetup.reply rfl i] at h7
  have h7 : ServerSetup.create { info := i, parameter := ps, data := ds, dataOffset := 35 + ps.length } = .ok v := h7
  rcases ServerSetup.create_cases i ps ds (35 + ps.length) with ⟨_, hd, v', e, hv⟩ | ⟨e, he⟩ | ⟨_, _, _, he⟩
  · rw [h7] at e; cases e
    exact ⟨fr, ps, ds, h1, ⟨is_negotiate h1, f, h2, h4, hs, h6, hd⟩, hv, h8⟩
  · rw [h7] at he; cases he
  · rw [h7] at he; cases he

/-- A successful session setup, on the wire. -/
theorem set_up {E : Env σ} {s s1 : St σ} {x : SessionSetupMsg} {r : SessionSetupReply} (h : command E x.msg SessionSetupReply.reply s = (.ok r, s1)) :
    ∃ fr st ps ds, requestFrame s.cli x.msg = .ok fr ∧ (st = 0 ∨ st = moreProcessing) ∧
      SetupRound E.V s.w.srv s.w.inbox.flatten (message fr) st r.uid.toNat ps ds s1.w.srv s1.w.inbox.flatten ∧
      LastAndX ps ∧ IsSessionReply ps ds r.uid.toNat r ∧ s1.cli = s.bump.cli := by
  obtain ⟨fr, f, i, ps, ds, h1, h2, h3, h4, h5, h6, h7, h8⟩ := command_reply (keeps_setup x) SessionSetupReply.reply h
  have hx := make_andx_ok SessionSetupReply.reply rfl i h7
  rw [make_andx SessionSetupReply.reply rfl i hx.1 hx.2] at h7
  have h7 : SessionSetupReply.create { info := i, parameter := ps.drop 4, data := ds, dataOffset := 35 + ps.length } = .ok r := h7
  have hu := (C17_read f i _ h3).2.2.2.2.2.2.2.2.1
  rcases SessionSetupReply.create_cases i ps ds (35 + ps.length) with ⟨_, _, v', e, hv⟩ | ⟨_, he⟩
  · rw [h7] at e; cases e
    have hui : r.uid.toNat = i.uid.toNat := hv.uid
    rw [← hui] at hu hv
    rcases h5 with h5 | ⟨h5, _⟩
    · exact ⟨fr, 0, ps, ds, h1, .inl rfl, ⟨f, h2, h4, h5, hu, h6⟩, hx, hv, h8⟩
    · exact ⟨fr, moreProcessing, ps, ds, h1, .inr rfl, ⟨f, h2, h4, h5, hu, h6⟩, hx, hv, h8⟩
  · rw [h7] at he; cases he

theorem offers_extended {ps ds : Bytes} {v : ServerSetup} (h : IsNegotiateReply ps ds v) :
    Capabilities.contains v.capabilities Capabilities.EXTENDED_SECURITY = true ↔ OffersExtended ps := by
  obtain ⟨n, hn, hc⟩ := h.capabilities
  rw [contains32 _ _ 31 rfl, decide_eq_true_iff, hc, mask_bit _ _ _ (by decide)]
  constructor
  · intro h; exact ⟨n, hn, h⟩
  · rintro ⟨m, hm, h⟩; rw [hn] at hm; cases hm; exact h

theorem offers_unicode {ps ds : Bytes} {v : ServerSetup} (h : IsNegotiateReply ps ds v) :
    Capabilities.contains v.capabilities Capabilities.UNICODE = true ↔ OffersUnicode ps := by
  obtain ⟨n, hn, hc⟩ := h.capabilities
  rw [contains32 _ _ 2 rfl, decide_eq_true_iff, hc, mask_bit _ _ _ (by decide)]
  constructor
  · intro h; exact ⟨n, hn, h⟩
  · rintro ⟨m, hm, h⟩; rw [hn] at hm; cases hm; exact h

theorem extended_excl {v : ServerSetup} {ps ds : Bytes} (hv : IsNegotiateReply ps ds v)
    (hx : Capabilities.contains v.capabilities Capabilities.EXTENDED_SECURITY = false) : ¬ OffersExtended ps := by
  rw [← offers_extended hv, hx]; simp

/-- **C46** Whatever the server does, a login sends: a negotiation first; then, only after a reply to that which accepts the dialect, a
legacy response of 24 bytes if the reply does not offer extended security and a security blob if it does; in the latter case, only after a
reply to the blob, a second one, under the user id that reply assigned. Nothing else. -/
theorem C46_flow {E : Env σ} {log : σ → List Bytes} (hlog : Logs E.V log) (s : St σ) :
    ∃ ps, log (setupConnection E s).2.w.srv = log s.w.srv ++ ps ∧
      LoginPackets E.V s.cli.auth.user s.cli.auth.domain s.w.srv s.w.inbox.flatten ps := by
  obtain ⟨ps, hps, hf⟩ := setup_flow hlog s
  refine ⟨ps, hps, ?_⟩
  cases hf with
  | none => exact .nothing
  | one h => exact .negotiate (is_negotiate h)
  | classic h run hx hs h' =>
    obtain ⟨fr, ps, ds, g1, g2, g3, _⟩ := negotiated run
    rw [h] at g1; cases g1
    exact .classic g2 (extended_excl g3 hx) (ntlmv1_length hs) (is_classic (ntlmv1_length hs) h')
  | extended h run hx hb h' =>
    obtain ⟨fr, ps, ds, g1, g2, g3, _⟩ := negotiated run
    rw [h] at g1; cases g1
    exact .extended g2 ((offers_extended g3).mp hx) (is_extended h').1
  | response h run hx hb h' run' hch ht hb' h'' =>
    obtain ⟨fr, ps, ds, g1, g2, g3, _⟩ := negotiated run
    rw [h] at g1; cases g1
    obtain ⟨fr', st, ps', ds', k1, k2, k3, _⟩ := set_up run'
    have k1 : requestFrame _ _ = _ := k1
    have e := h'.symm.trans k1
    cases e
    exact .response g2 ((offers_extended g3).mp hx) (is_extended h').1 k3 (is_extended h'').1 (is_extended h'').2

/-- **C46** A login that succeeds went through all of this, with accepted replies throughout; the user id, the encoding and the buffer size
of the session are those the server announced. -/
theorem C46_login {E : Env σ} {log : σ → List Bytes} (hlog : Logs E.V log) {s s' : St σ} (h : setupConnection E s = (.ok (), s')) :
    ∃ packets ps st, log s'.w.srv = log s.w.srv ++ packets ∧ (st = 0 ∨ st = moreProcessing) ∧
      LoggedIn E.V s.cli.auth.user s.cli.auth.domain s.w.srv s.w.inbox.flatten packets ps st s'.cli.uid.toNat s'.w.srv s'.w.inbox.flatten ∧
      (s'.cli.useUnicode = true ↔ OffersUnicode ps) ∧ u32At ps 7 = some s'.cli.maxSmbSize ∧ s'.cli.auth = s.cli.auth := by
  obtain ⟨v, s1, run, hrest⟩ := setup_ok h
  obtain ⟨fr, ps, ds, g1, g2, g3, g4⟩ := negotiated run
  obtain ⟨fr0, l1, l2⟩ := command_ok_log hlog keeps_negotiate run
  rw [g1] at l1; cases l1
  split at hrest
  · rename_i hx
    obtain ⟨blob, r, s2, ch, time, blob', r', hb, run', hch, ht, hb', run''⟩ := hrest
    obtain ⟨fr', st, ps', ds', k1, k2, k3, k4, k5, k6⟩ := set_up run'
    obtain ⟨fr'', st'', ps'', ds'', q1, q2, q3, q4, q5, q6⟩ := set_up run''
    obtain ⟨fr0, l3, l4⟩ := command_ok_log hlog (keeps_setup _) run'
    rw [k1] at l3; cases l3
    obtain ⟨fr0, l5, l6⟩ := command_ok_log hlog (keeps_setup _) run''
    rw [q1] at l5; cases l5
    refine ⟨[message fr, message fr', message fr''], ps, st'', ?_, q2, ?_, ?_, ?_, ?_⟩
    · have l4 : log s2.w.srv = log s1.w.srv ++ [message fr'] := l4
      have l6 : log s'.w.srv = log s2.w.srv ++ [message fr''] := l6
      rw [l6, l4, l2]; simp
    · have e : s'.cli.uid = r.uid := by rw [q6]; rfl
      rw [e]
      exact .extended g2 ((offers_extended g3).mp hx) (is_extended k1).1 k3 (is_extended q1).1 (is_extended q1).2 q3
    · have e : s'.cli.useUnicode = Capabilities.contains v.capabilities Capabilities.UNICODE := by
        rw [q6]; show s2.cli.useUnicode = _
        rw [k6]; rfl
      rw [e]; exact offers_unicode g3
    · have e : s'.cli.maxSmbSize = v.maxBufferSize.toNat := by
        rw [q6]; show s2.cli.maxSmbSize = _
        rw [k6]; rfl
      rw [e]; exact g3.maxBufferSize
    · rw [q6]; show s2.cli.auth = _
      rw [k6]; show s1.cli.auth = _
      rw [g4]; rfl
  · rename_i hx
    obtain ⟨secret, r, s2, hs, run', rfl⟩ := hrest
    obtain ⟨fr', st, ps', ds', k1, k2, k3, k4, k5, k6⟩ := set_up run'
    obtain ⟨fr0, l3, l4⟩ := command_ok_log hlog (keeps_setup _) run'
    rw [k1] at l3; cases l3
    refine ⟨[message fr, message fr'], ps, st, ?_, k2, ?_, ?_, ?_, ?_⟩
    · have l4 : log s2.w.srv = log s1.w.srv ++ [message fr'] := l4
      show log s2.w.srv = _
      rw [l4, l2]; simp
    · exact .classic g2 (fun h => hx ((offers_extended g3).mpr h)) (ntlmv1_length hs) (is_classic (ntlmv1_length hs) k1) k3
    · show s2.cli.useUnicode = true ↔ _
      have e : s2.cli.useUnicode = Capabilities.contains v.capabilities Capabilities.UNICODE := by rw [k6]; rfl
      rw [e]; exact offers_unicode g3
    · show _ = some s2.cli.maxSmbSize
      have e : s2.cli.maxSmbSize = v.maxBufferSize.toNat := by rw [k6]; rfl
      rw [e]; exact g3.maxBufferSize
    · show s2.cli.auth = _
      rw [k6]; show s1.cli.auth = _
      rw [g4]; rfl

/-- **C46** Afterwards, whatever calls are made with whatever outcomes, every request carries the user id assigned at login, and the
Unicode flag according to what the server announced. -/
theorem C46_session {E : Env σ} {log : σ → List Bytes} (hlog : Logs E.V log) {s s' : St σ} (h : setupConnection E s = (.ok (), s')) :
    ∃ packets ps st uid, log s'.w.srv = log s.w.srv ++ packets ∧
      LoggedIn E.V s.cli.auth.user s.cli.auth.domain s.w.srv s.w.inbox.flatten packets ps st uid s'.w.srv s'.w.inbox.flatten ∧
      ∀ (ops : List Op) (op : Op) (p : Bytes), Sent log (runOps E ops s').2.w.srv (runOp E op (runOps E ops s').2).2.w.srv p →
        uidOf p = some uid ∧ (unicodeOf p = some true ↔ OffersUnicode ps) := by
  obtain ⟨packets, ps, st, h1, _, h3, h4, _⟩ := C46_login hlog h
  refine ⟨packets, ps, st, _, h1, h3, fun ops op p hp => ?_⟩
  have hh := C09_header E log hlog op _ p hp
  have hs := C62_stable E ops s'
  rw [hs.1, hs.2.1] at hh
  exact ⟨hh.2.2.2.2.2.2.2.1, by rw [hh.2.2.2.2.2.2.2.2.2.1, ← h4]; simp⟩

end Cifs
