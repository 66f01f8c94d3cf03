import Verif.Spec.LoginCause
import Verif.Props.Cause
import Verif.Props.Crash
/-!
# Lemmas on the steps of a login
-/

namespace Cifs

open Spec

variable {σ : Type}

/-! ## Writing -/

theorem writeLoop_keeps (ws : List WriteEv) (buf out : Bytes) (h : (writeLoop ws buf out).1 = .done) (x : Option IoErr) :
    WriteTrouble (writeLoop ws buf out).2.1 x ↔ WriteTrouble ws x := by
  induction ws generalizing buf out with
  | nil => rfl
  | cons ev ws ih =>
    simp only [writeLoop] at h ⊢
    split
    · rfl
    · rename_i hb
      rw [if_neg hb] at h
      cases ev with
      | fail e => cases h
      | block => cases h
      | accept n =>
        rw [ih _ _ h]
        exact ⟨fun h => .accept n h, fun h => by cases h with | accept _ h => exact h⟩

/-- Sending a request that can be built. -/
theorem send_built {E : Env σ} {m : Msg} {s : St σ} {f : Bytes} (hx : ¬ Exhausted E s) (hf : requestFrame s.cli m = .ok f) :
    (∃ s1, send E m s = (.ok s.cli.mid, s1) ∧ ∀ x, WriteTrouble s1.w.wsched x ↔ WriteTrouble s.w.wsched x) ∨
      ∃ x s1, WriteTrouble s.w.wsched x ∧ send E m s = (stopped (x.map fun e => .NetBios (.IoError e)), s1) ∧ s1.w.srv = s.w.srv := by
  have hl := requestFrame_length hf
  have hs : send E m s = M.bind (liftNet (sendMessage E.V f)) (fun _ => pure s.cli.mid) s.bump := by
    simp only [Exhausted] at hx
    unfold send; rw [if_neg hx, hf]; rfl
  simp only [M.bind, liftNet_eq, sendMessage_eq, be24_packet] at hs
  rw [if_neg (by simp only [MAX_FRAME_LENGTH]; omega)] at hs
  simp only [writeExactly] at hs
  have ht := writeLoop_trouble s.w.wsched (packet 0 f) s.w.out
  have hk := writeLoop_keeps s.w.wsched (packet 0 f) s.w.out
  rcases hw : writeLoop s.w.wsched (packet 0 f) s.w.out with ⟨r, ws, out⟩
  rw [hw] at ht hk
  have hw' : writeLoop s.bump.w.wsched (packet 0 f) s.bump.w.out = (r, ws, out) := hw
  rw [hw'] at hs
  rcases ht with h | ⟨e, h, ht⟩ | ⟨h, ht⟩ <;> cases h
  · exact .inl ⟨_, hs, hk rfl⟩
  · exact .inr ⟨some e, _, ht, hs, rfl⟩
  · exact .inr ⟨none, _, ht, hs, rfl⟩

/-! ## A command -/

/-- Everything that can happen to a command whose request can be built. -/
theorem command_built {α : Type} {E : Env σ} {m : Msg} (hk : KeepsMid m) (R : Reply α) {s : St σ} {fr : Bytes} (hx : ¬ Exhausted E s)
    (hf : requestFrame s.cli m = .ok fr) :
    (∃ x s', WriteTrouble s.w.wsched x ∧ command E m R s = (stopped (x.map fun e => .NetBios (.IoError e)), s') ∧ s'.w.srv = s.w.srv) ∨
    (∃ mid x s', midOf (message fr) = some mid ∧
      NoReply (E.V.tail (E.V.react s.w.srv (message fr)).1) mid (s.w.inbox.flatten ++ (E.V.react s.w.srv (message fr)).2.flatten) x ∧
      command E m R s = (stopped x, s') ∧ s'.w.srv = (E.V.react s.w.srv (message fr)).1) ∨
    ∃ f i s', Round E.V s.w.srv s.w.inbox.flatten (message fr) f s'.w.srv s'.w.inbox.flatten ∧ Info.parse f = .ok (i, f.drop 32) ∧
      command E m R s = ((accept R i (f.drop 32)).out, s') ∧ s'.cli = s.bump.cli ∧ s'.w.srv = (E.V.react s.w.srv (message fr)).1 ∧
      ∀ x, WriteTrouble s'.w.wsched x ↔ WriteTrouble s.w.wsched x := by
  rcases send_built (E := E) (m := m) hx hf with ⟨s1, h1, hw⟩ | ⟨x, s1, ht, h1, h2⟩
  · obtain ⟨fr', e1, e2, _, e4, e5, e6⟩ := send_ok_inv h1
    rw [hf] at e1; cases e1
    have hm : midOf (message fr) = some s.cli.mid.toNat := requestFrame_mid hk hf
    rcases reply_cases (E.V.tail (E.V.react s.w.srv (message fr)).1) s.cli.mid.toNat _
        (s.w.inbox.flatten ++ (E.V.react s.w.srv (message fr)).2.flatten) (Nat.lt_succ_self _) with ⟨f, rest, ha⟩ | ⟨x, hn⟩
    · obtain ⟨i, ib, hp, hib, hc⟩ := command_round R h1 (f := f) (rest := rest) (by rw [e6]; exact ha)
      refine .inr (.inr ⟨f, i, _, ⟨by rw [St.setInbox_srv, e5], s.cli.mid.toNat, hm, ?_⟩, hp, hc, e4, by rw [St.setInbox_srv, e5], hw⟩)
      show Awaits _ _ _ ib.flatten
      rw [hib]; exact ha
    · obtain ⟨ib, _, hc⟩ := command_eq R h1
      refine .inr (.inl ⟨s.cli.mid.toNat, x, s1.setInbox ib, hm, hn, ?_, by rw [St.setInbox_srv, e5]⟩)
      rw [← e6, ← e5] at hn
      rw [hc, flatReply_eq]
      have hfn := noReply_flat hn
      rcases hq : flatNext (E.V.tail s1.w.srv) s.cli.mid s1.w.flat with ⟨o, r⟩
      rw [hq] at hfn
      dsimp only at hfn
      subst hfn
      cases x with
      | none => rw [M.bind_pending hq]; rfl
      | some e => rw [M.bind_err hq]; rfl
  · refine .inl ⟨x, s1, ht, ?_, h2⟩
    cases x with
    | none => exact M.bind_pending h1
    | some e => exact M.bind_err h1

/-! ## Replies to the negotiation -/

theorem accepted_out {α : Type} (R : Reply α) {f : Bytes} {i : Info} (hp : Info.parse f = .ok (i, f.drop 32)) (ha : Accepted R.cmd.code.toNat f)
    {ps ds : Bytes} (hb : ReplyBody (message f) ps ds) : accept R i (f.drop 32) = (R.make i ps ds).mapErr Error.SMBError := by
  rw [accept_body R hp ha.1 ha.2, parse_body R i ((C13_accepted_iff f).mp ⟨_, _, hp⟩).1 hb]

/-- The outcome of a step without its value. -/
def Res.void {α : Type} : Res Error α → Out Error Unit
  | .ok _ => .ok ()
  | .err e => .err e
  | .panic => .panic

theorem negotiate_sound {f : Bytes} {i : Info} (hp : Info.parse f = .ok (i, f.drop 32)) {o : Out Error Unit} (h : NegotiateFails f o) :
    o = (accept ServerSetup.reply i (f.drop 32)).void ∧ o ≠ .ok () := by
  have body : ∀ {ps ds}, Accepted 0x72 f → ReplyBody (message f) ps ds → accept ServerSetup.reply i (f.drop 32) =
      (ServerSetup.create { info := i, parameter := ps, data := ds, dataOffset := 35 + ps.length }).mapErr Error.SMBError := by
    intro ps ds ha hb
    rw [accepted_out ServerSetup.reply hp ha hb, make_plain ServerSetup.reply rfl]; rfl
  cases h with
  | declined h =>
    rcases accept_declined (R := ServerSetup.reply) (by decide) hp with ⟨ha, _⟩ | ⟨e, he, ha⟩
    · exact absurd ha (declined_not h)
    · rw [ha, declined_det h he]; exact ⟨rfl, fun h => by cases h⟩
  | bad h => rw [(negotiate_bad hp).mpr h]; exact ⟨rfl, fun h => by cases h⟩
  | few ha hb hl =>
    rw [body ha hb]; unfold ServerSetup.create; rw [if_pos hl]; exact ⟨rfl, fun h => by cases h⟩
  | none ha hb hl hd =>
    rw [body ha hb, ServerSetup.create_dialect i _ _ hl _ hd (by decide), if_pos rfl]; exact ⟨rfl, fun h => by cases h⟩
  | other ha hb hl hd h0 h1 =>
    rw [body ha hb, ServerSetup.create_dialect i _ _ hl _ hd h0, if_neg h1]; exact ⟨rfl, fun h => by cases h⟩
  | @key ps ds n ha hb hl hd hn hk =>
    have := ServerSetup.create_eq i ds (35 + ps.length) hl hd n hn
    rw [if_neg (by omega)] at this
    rw [body ha hb, this]; exact ⟨rfl, fun h => by cases h⟩

theorem negotiated_ok {f : Bytes} {i : Info} (hp : Info.parse f = .ok (i, f.drop 32)) {ps key : Bytes} (h : Negotiated f ps key) :
    ∃ v, accept ServerSetup.reply i (f.drop 32) = .ok v := by
  obtain ⟨ha, hl, hd, hn, more, hb⟩ := h
  have := ServerSetup.create_eq i (key ++ more) (35 + ps.length) hl hd _ hn
  rw [if_pos (by rw [List.length_append]; omega)] at this
  obtain ⟨v, hv, _⟩ := this
  refine ⟨v, ?_⟩
  rw [accepted_out ServerSetup.reply hp ha hb, make_plain ServerSetup.reply rfl]
  show (ServerSetup.create _).mapErr _ = _
  rw [hv]; rfl

theorem negotiated_det {f ps ps' key key' : Bytes} (h : Negotiated f ps key) (h' : Negotiated f ps' key') : ps = ps' ∧ key = key' := by
  obtain ⟨_, _, _, hn, more, hb⟩ := h
  obtain ⟨_, _, _, hn', more', hb'⟩ := h'
  obtain ⟨rfl, e⟩ := replyBody_det hb hb'
  rw [hn] at hn'
  exact ⟨rfl, (List.append_inj e (Option.some.inj hn')).1⟩

theorem negotiate_total {f : Bytes} {i : Info} (hp : Info.parse f = .ok (i, f.drop 32)) :
    (∃ v ps, accept ServerSetup.reply i (f.drop 32) = .ok v ∧ Negotiated f ps v.challenge ∧
      (Capabilities.contains v.capabilities Capabilities.EXTENDED_SECURITY = true ↔ OffersExtended ps) ∧
      (Capabilities.contains v.capabilities Capabilities.UNICODE = true ↔ OffersUnicode ps)) ∨
    ∃ o, NegotiateFails f o := by
  rcases accept_declined (R := ServerSetup.reply) (by decide) hp with ⟨ha, hacc⟩ | ⟨e, he, _⟩
  · by_cases hb : ∃ ps ds, ReplyBody (message f) ps ds
    · obtain ⟨ps, ds, hb⟩ := hb
      by_cases h17 : ps.length < 17
      · exact .inr ⟨_, .few ha hb h17⟩
      obtain ⟨d, hd⟩ := u16At_some (b := ps) (by omega)
      by_cases h0 : d = 0
      · subst h0
        by_cases h34 : ps.length < 34
        · exact .inr ⟨_, .bad ⟨ha.1, ⟨0, ha.2, rfl⟩, .inr ⟨ps, ds, hb, by omega, h34, hd⟩⟩⟩
        · obtain ⟨n, hn⟩ := u8At_some (b := ps) (o := 33) (by omega)
          have := ServerSetup.create_eq i ds (35 + ps.length) (by omega) hd n hn
          split at this
          · obtain ⟨v, hv, hi⟩ := this
            refine .inl ⟨v, ps, ?_, ⟨ha, by omega, hd, hi.challenge.1, ?_⟩, offers_extended hi, offers_unicode hi⟩
            · rw [accepted_out ServerSetup.reply hp ha hb, make_plain ServerSetup.reply rfl]
              show (ServerSetup.create _).mapErr _ = _
              rw [hv]; rfl
            · obtain ⟨more, e⟩ := hi.challenge.2
              exact ⟨more, e ▸ hb⟩
          · exact .inr ⟨_, .key ha hb (by omega) hd hn (by omega)⟩
      · by_cases h1 : d = 0xffff
        · subst h1; exact .inr ⟨_, .none ha hb (by omega) hd⟩
        · exact .inr ⟨_, .other ha hb (by omega) hd h0 h1⟩
    · exact .inr ⟨_, .bad ⟨ha.1, ⟨0, ha.2, rfl⟩, .inl hb⟩⟩
  · exact .inr ⟨_, .declined he⟩

/-! ## Replies to a session setup -/

theorem granted_out {f : Bytes} {i : Info} (hp : Info.parse f = .ok (i, f.drop 32)) (ha : SetupGranted f) {ps ds : Bytes}
    (hb : ReplyBody (message f) ps ds) :
    accept SessionSetupReply.reply i (f.drop 32) = (SessionSetupReply.reply.make i ps ds).mapErr Error.SMBError := by
  obtain ⟨hc, st, hs, hst⟩ := ha
  have hcc := parse_code hp (c := .SessionSetup) hc
  have hi : i.status = .Known .SUCCESS ∨ (i.status = .Known .MORE_PROCESSING ∧ i.cmd = .SessionSetup) := by
    rcases hst with rfl | rfl
    · refine .inl (status_zero (parse_status hp) ?_)
      have := (C17_read f i _ hp).2.2.1
      rw [hs] at this
      exact (Option.some.inj this).symm
    · exact .inr ⟨parse_status_more hp hs, hcc⟩
  rw [accept, if_neg (by rw [hcc]; decide), if_pos hi, parse_body _ i ((C13_accepted_iff f).mp ⟨_, _, hp⟩).1 hb]

/-- What is said about a further command. -/
theorem make_chained {α : Type} {R : Reply α} (hR : R.andx = true) (i : Info) {ps : Bytes} (ds : Bytes) (hl : 4 ≤ ps.length) (hx : ¬ LastAndX ps) :
    (∃ c, u8At ps 0 = some c ∧ c ≠ 0xff ∧ c ∈ knownCodes ∧ R.make i ps ds = .err (.Unsupported "AndX chaining is currently not supported")) ∨
    ∃ c : UInt8, u8At ps 0 = some c.toNat ∧ c.toNat ∉ knownCodes ∧ R.make i ps ds = .err (.InvalidCommand c) := by
  obtain ⟨e, h1, h2⟩ := make_andx_complaint hR i ds (op := .mount [] []) rfl hl hx
  cases h2 with
  | chained _ h hc hk => exact .inl ⟨_, h, hc, hk, h1⟩
  | unknown _ h hk => exact .inr ⟨_, h, hk, h1⟩
  | data hd => exact absurd ⟨hd rfl, hl⟩ hx

theorem setup_sound {f : Bytes} {i : Info} (hp : Info.parse f = .ok (i, f.drop 32)) {o : Out Error Unit} (h : SetupFails f o) :
    o = (accept SessionSetupReply.reply i (f.drop 32)).void ∧ o ≠ .ok () := by
  have hr := C17_read f i _ hp
  cases h with
  | other hg hne =>
    rw [hr.2.1] at hg
    have hc := code_inj (Option.some.inj hg)
    rw [accept, if_pos (by rw [hc]; exact hne), hc]; exact ⟨rfl, fun h => by cases h⟩
  | @refused status h hm =>
    have hc := parse_code hp (c := .SessionSetup) h.2.1
    obtain ⟨n, hn⟩ := parse_status hp
    have hs := h.2.2
    rw [hr.2.2.1, hn, C16_roundtrip] at hs
    have : n = status := UInt32.toNat_inj.mp (Option.some.inj hs)
    subst this
    rw [accept, if_neg (by rw [hc]; decide), if_neg, hn]
    · exact ⟨rfl, fun h => by cases h⟩
    · rw [hn]
      rintro (h' | ⟨h', _⟩) <;> have h'' := congrArg (fun s => s.toU32.toNat) h' <;> simp only [C16_roundtrip] at h''
      · exact h.1 (UInt32.toNat_inj.mp h'')
      · exact hm h''
  | bad h => rw [(setup_bad hp).mpr h]; exact ⟨rfl, fun h => by cases h⟩
  | chained ha hb hl h hc hk =>
    rw [granted_out hp ha hb]
    rcases make_chained (R := SessionSetupReply.reply) rfl i _ hl (fun hx => hc (Option.some.inj (h.symm.trans hx.1))) with ⟨_, _, _, _, e⟩ | ⟨c', h', hk', _⟩
    · rw [e]; exact ⟨rfl, fun h => by cases h⟩
    · rw [h] at h'; cases h'; exact absurd hk hk'
  | unknown ha hb hl h hk =>
    rw [granted_out hp ha hb]
    rcases make_chained (R := SessionSetupReply.reply) rfl i _ hl (fun hx => hk (by rw [Option.some.inj (h.symm.trans hx.1)]; decide)) with ⟨c', h', _, hk', _⟩ | ⟨c', h', _, e⟩
    · rw [h] at h'; cases h'; exact absurd hk' hk
    · rw [h] at h'
      rw [e, UInt8.toNat_inj.mp (Option.some.inj h')]; exact ⟨rfl, fun h => by cases h⟩

theorem set_up_ok {f : Bytes} {i : Info} (hp : Info.parse f = .ok (i, f.drop 32)) {m : Bytes} (h : SetUp f m) :
    ∃ v, accept SessionSetupReply.reply i (f.drop 32) = .ok v ∧ v.securityBlob = m := by
  obtain ⟨ha, ps, ds, hb, hx, hl, hm⟩ := h
  rw [granted_out hp ha hb, make_andx _ rfl i hx.1 hx.2]
  show ∃ v, (SessionSetupReply.create _).mapErr _ = _ ∧ _
  rcases SessionSetupReply.create_cases i ps ds (35 + ps.length) with ⟨_, _, v, e, hv⟩ | ⟨h1, e⟩
  · refine ⟨v, by rw [e]; rfl, blob_det hv.blob hm⟩
  · rcases h1 with h1 | ⟨n, hn, hd⟩
    · omega
    · rcases hm with ⟨hm, _⟩ | ⟨hm, more, rfl⟩
      · have := u16At_length hn; omega
      · rw [hn] at hm; cases hm; rw [List.length_append] at hd; omega

theorem setup_total {f : Bytes} {i : Info} (hp : Info.parse f = .ok (i, f.drop 32)) :
    (∃ v, accept SessionSetupReply.reply i (f.drop 32) = .ok v ∧ SetUp f v.securityBlob) ∨ ∃ o, SetupFails f o := by
  have hr := C17_read f i _ hp
  by_cases hc : i.cmd = .SessionSetup
  · have hcmd : cmdOf (message f) = some 0x73 := by rw [hr.2.1, hc]; rfl
    obtain ⟨n, hn⟩ := parse_status hp
    have hs : statusOf (message f) = some n.toNat := by rw [hr.2.2.1, hn, C16_roundtrip]
    by_cases hst : SetupAccepted n.toNat
    · have ha : SetupGranted f := ⟨hcmd, _, hs, hst⟩
      by_cases hb : ∃ ps ds, ReplyBody (message f) ps ds
      · obtain ⟨ps, ds, hb⟩ := hb
        by_cases h4 : ps.length < 4
        · exact .inr ⟨_, .bad ⟨hcmd, ⟨_, hs, hst⟩, .inr ⟨ps, ds, hb, .inl h4⟩⟩⟩
        by_cases hx : LastAndX ps
        · rcases SessionSetupReply.create_cases i ps ds (35 + ps.length) with ⟨h1, _, v, e, hv⟩ | ⟨h1, e⟩
          · refine .inl ⟨v, ?_, ha, ps, ds, hb, hx, h1, hv.blob⟩
            rw [granted_out hp ha hb, make_andx _ rfl i hx.1 hx.2]
            show (SessionSetupReply.create _).mapErr _ = _
            rw [e]; rfl
          · exact .inr ⟨_, .bad ⟨hcmd, ⟨_, hs, hst⟩, .inr ⟨ps, ds, hb, .inr ⟨hx, h1⟩⟩⟩⟩
        · rcases make_chained (R := SessionSetupReply.reply) rfl i ds (by omega) hx with ⟨c, h1, h2, h3, _⟩ | ⟨c, h1, h2, _⟩
          · exact .inr ⟨_, .chained ha hb (by omega) h1 h2 h3⟩
          · exact .inr ⟨_, .unknown ha hb (by omega) h1 h2⟩
      · exact .inr ⟨_, .bad ⟨hcmd, ⟨_, hs, hst⟩, .inl hb⟩⟩
    · exact .inr ⟨_, .refused ⟨fun h => hst (.inl (by rw [h]; rfl)), hcmd, hs⟩ fun h => hst (.inr h)⟩
  · exact .inr ⟨_, .other hr.2.1 hc⟩

/-! ## Requests -/

theorem negotiate_built (c : Cli) : ∃ fr, requestFrame c negotiateMsg = .ok fr := by
  rw [requestFrame_eq]
  generalize requestInfo c negotiateMsg = i
  exact ⟨_, rfl⟩

theorem setup_frame (c : Cli) (x : SessionSetupMsg) {lens : Bytes} (h : x.lengths = .ok lens) (hl : lens.length ≤ 4) :
    requestFrame c x.msg = if (x.dataBlock (requestInfo c x.msg)).length < 65536 then
      .ok (frameOf (requestInfo c x.msg) (x.msg.params (putU16 x.maxBufferSize ++ putU16 x.maxMpxCount ++ putU16 x.vcNumber ++ putU32 x.sessionKey ++ lens
          ++ putU32 0 ++ putU32 x.capabilities)) (x.dataBlock (requestInfo c x.msg)))
      else .err (.CreatePacket "data length too big") := by
  have hb : x.msg.body (requestInfo c x.msg) = .ok (putU16 x.maxBufferSize ++ putU16 x.maxMpxCount ++ putU16 x.vcNumber ++ putU32 x.sessionKey ++ lens
          ++ putU32 0 ++ putU32 x.capabilities, x.dataBlock (requestInfo c x.msg)) := by
    show (do let lens ← x.lengths; _) = _
    rw [h]; rfl
  rw [requestFrame_eq, hb, Res.bind_ok]
  dsimp only
  rw [if_pos]
  show ([0xff, 0, 0, 0] ++ _ : Bytes).length / 2 < 256
  simp
  omega

theorem names_length (c : Cli) (x : SessionSetupMsg) :
    (if Flags2.contains (requestInfo c x.msg).flags2 Flags2.UNICODE then putU16 0 ++ putU16 0 else zeros 2).length = if c.useUnicode then 4 else 2 := by
  rw [requestInfo_unicode c x.msg rfl]
  cases c.useUnicode <;> rfl

theorem classic_built (c : Cli) (a : Auth) {secret : Bytes} (hs : secret.length = 24) :
    (classicSize c.useUnicode a < 65536 → ∃ fr, requestFrame c (SessionSetupMsg.withAuth a.user a.domain secret).msg = .ok fr) ∧
    (65536 ≤ classicSize c.useUnicode a → requestFrame c (SessionSetupMsg.withAuth a.user a.domain secret).msg = .err (.CreatePacket "data length too big")) := by
  have hlens : (SessionSetupMsg.withAuth a.user a.domain secret).lengths = .ok (putU16 (UInt16.ofNat secret.length) ++ putU16 (UInt16.ofNat secret.length)) := by
    simp only [SessionSetupMsg.lengths, SessionSetupMsg.withAuth, tryInto]
    rw [if_pos (by omega)]; rfl
  have hd : ((SessionSetupMsg.withAuth a.user a.domain secret).dataBlock (requestInfo c (SessionSetupMsg.withAuth a.user a.domain secret).msg)).length =
      classicSize c.useUnicode a := by
    have e : (SessionSetupMsg.withAuth a.user a.domain secret).dataBlock (requestInfo c (SessionSetupMsg.withAuth a.user a.domain secret).msg) =
      ((secret ++ secret) ++ (if (secret ++ secret).length % 2 = 0 then [0] else []) ++
      (encodeUtf16le a.user ++ [0, 0]) ++ (encodeUtf16le a.domain ++ [0, 0])) ++
      (if Flags2.contains (requestInfo c (SessionSetupMsg.withAuth a.user a.domain secret).msg).flags2 Flags2.UNICODE then putU16 0 ++ putU16 0 else zeros 2) := rfl
    rw [e, List.length_append, names_length, if_pos (by rw [List.length_append, hs])]
    simp only [List.length_append, hs, length_utf16le, List.length_cons, List.length_nil, classicSize]
    omega
  rw [setup_frame c _ hlens (by simp), hd]
  exact ⟨fun h => by rw [if_pos h]; exact ⟨_, rfl⟩, fun h => by rw [if_neg (by omega)]⟩

theorem blob_built (c : Cli) (blob : Bytes) :
    ((∀ t, ¬ LongSetup c.useUnicode blob.length t) → ∃ fr, requestFrame c (SessionSetupMsg.withBlob blob).msg = .ok fr) ∧
    ∀ t, LongSetup c.useUnicode blob.length t → requestFrame c (SessionSetupMsg.withBlob blob).msg = .err (.CreatePacket t) := by
  have hd : ((SessionSetupMsg.withBlob blob).dataBlock (requestInfo c (SessionSetupMsg.withBlob blob).msg)).length =
      blob.length + (if blob.length % 2 = 0 then 1 else 0) + (if c.useUnicode then 4 else 2) := by
    have e : (SessionSetupMsg.withBlob blob).dataBlock (requestInfo c (SessionSetupMsg.withBlob blob).msg) =
      (blob ++ (if blob.length % 2 = 0 then [0] else [])) ++
      (if Flags2.contains (requestInfo c (SessionSetupMsg.withBlob blob).msg).flags2 Flags2.UNICODE then putU16 0 ++ putU16 0 else zeros 2) := rfl
    rw [e, List.length_append, names_length, List.length_append]
    split <;> rfl
  by_cases hb : blob.length < 65536
  · have hlens : (SessionSetupMsg.withBlob blob).lengths = .ok (putU16 (UInt16.ofNat blob.length)) := by
      simp only [SessionSetupMsg.lengths, SessionSetupMsg.withBlob, tryInto]
      rw [if_pos (by omega)]; rfl
    rw [setup_frame c _ hlens (by simp), hd]
    constructor
    · intro h
      rw [if_pos (Nat.lt_of_not_le fun hl => h _ (.data hb hl))]; exact ⟨_, rfl⟩
    · intro t h
      cases h with
      | blob h => omega
      | data _ hl => rw [if_neg (by omega)]
  · constructor
    · intro h; exact absurd (.blob (by omega)) (h _)
    · intro t h
      cases h with
      | data h => omega
      | blob h =>
        rw [requestFrame_eq]
        have : (SessionSetupMsg.withBlob blob).msg.body (requestInfo c (SessionSetupMsg.withBlob blob).msg) = .err (.CreatePacket "blob in SessionSetup too big") := by
          show (do let lens ← (SessionSetupMsg.withBlob blob).lengths; _) = _
          have : (SessionSetupMsg.withBlob blob).lengths = .err (.CreatePacket "blob in SessionSetup too big") := by
            simp only [SessionSetupMsg.lengths, SessionSetupMsg.withBlob, tryInto]
            rw [if_neg hb]; rfl
          rw [this]; rfl
        rw [this]; rfl

theorem longSetup_det {u : Bool} {n : Nat} {t t' : String} (h : LongSetup u n t) (h' : LongSetup u n t') : t = t' := by
  cases h <;> cases h' <;> first | rfl | omega

/-! ## NTLM messages -/

theorem init_cases (fl : UInt32) (d w : Str) :
    (((utf8Bytes d).length < 65536 ∧ (utf8Bytes w).length < 65536) ∧
      ∃ m, ntlmInit fl d w = .ok m ∧ m.length = 40 + (utf8Bytes d).length + (utf8Bytes w).length) ∨
    (¬ ((utf8Bytes d).length < 65536 ∧ (utf8Bytes w).length < 65536) ∧ ntlmInit fl d w = .err .InputParameter) := by
  rw [utf8Bytes_eq, utf8Bytes_eq, ntlmInit_eq]
  by_cases h : (utf8 d).length < 65536 ∧ (utf8 w).length < 65536
  · refine .inl ⟨h, _, if_pos h, ?_⟩
    simp [descBytes, ntlmVersionBytes, NTLMSSP_MAGIC]
    omega
  · exact .inr ⟨h, if_neg h⟩

theorem response_cases (C : Crypto) (a : Auth) {c : ChallengeMsg} {flags : Nat} (hf : c.flags.toNat = flags &&& ntlmFlagMask) (time : UInt64)
    {random : Bytes} (hr : random.length = 8) : ∃ d u w, NtlmText flags a.domain d ∧ NtlmText flags a.user u ∧ NtlmText flags a.workstation w ∧
    (((48 + c.info.length < 65536 ∧ d.length < 65536 ∧ u.length < 65536 ∧ w.length < 65536) ∧
      ∃ m, c.response C a time random = .ok m ∧ m.length = 124 + c.info.length + d.length + u.length + w.length) ∨
    (¬ (48 + c.info.length < 65536 ∧ d.length < 65536 ∧ u.length < 65536 ∧ w.length < 65536) ∧ c.response C a time random = .err .InputParameter)) := by
  have hl := length_ntlmv2 C a c time random
  rw [hr, show 40 + 8 + c.info.length = 48 + c.info.length by omega] at hl
  have hx := flags_unicode hf
  have e := response_eq C c a time random rfl rfl rfl rfl
  rw [hx] at e
  refine ⟨_, _, _, ntlmName_text _ _, ntlmName_text _ _, ntlmName_text _ _, ?_⟩
  rw [e, ← hl]
  generalize (ntlmv2Authenticate C a c time random).2 = nt at hl ⊢
  generalize ntlmName _ a.domain = d
  generalize ntlmName _ a.user = u
  generalize ntlmName _ a.workstation = w
  by_cases h : nt.length < 65536 ∧ d.length < 65536 ∧ u.length < 65536 ∧ w.length < 65536
  · refine .inl ⟨h, _, if_pos h, ?_⟩
    simp [descBytes, NTLMSSP_MAGIC]
    omega
  · exact .inr ⟨h, if_neg h⟩

theorem ntlmText_det {flags : Nat} {s : Str} {b b' : Bytes} (h : NtlmText flags s b) (h' : NtlmText flags s b') : b = b' := by
  rw [ntlmText_unique h, ntlmText_unique h']

theorem challenge_errIs (m : Bytes) : ErrIs .InvalidPacket (ChallengeMsg.parse m) := by
  unfold ChallengeMsg.parse
  have ep : ∀ b, ErrIs NtlmError.InvalidPacket (NtlmBuffer.parse b) := fun b =>
    .bindM (.getU16 _ _) fun _ => .bindM (.getU16 _ _) fun _ => .bindM (.getU32 _ _) fun _ => .ok _ _
  refine .bindM (.copyToBytes _ _ _) fun x => .ite (.err _) (.bindM (.getU32 _ _) fun y => .ite (.err _) (.bindM (ep _) fun t =>
    .bindM (.getU32 _ _) fun fl => .bindM (.copyToBytes _ _ _) fun ch => .bindM (.advance _ _ _) fun z => .bindM (ep _) fun inf => ?_))
  refine .bindM (.bindM (.sliceRange _ _ _ _) fun raw => .ite (.decodeUtf16le _ _ _ (Nat.lt_succ_self _)) ?_) fun tgt => .bindM (.sliceRange _ _ _ _) fun _ => .ok _ _
  cases fromUtf8 raw <;> first | exact .err _ | exact .ok _ _

theorem challenge_parse_cases (m : Bytes) : (BadChallenge m ∧ ChallengeMsg.parse m = .panic) ∨
    (¬ BadChallenge m ∧ (¬ ∃ target flags challenge info, IsNtlmChallenge m target flags challenge info) ∧ ChallengeMsg.parse m = .err .InvalidPacket) ∨
    ∃ c flags, ¬ BadChallenge m ∧ IsNtlmChallenge m c.target flags c.challenge c.info ∧ c.flags.toNat = flags &&& ntlmFlagMask ∧ ChallengeMsg.parse m = .ok c := by
  cases h : ChallengeMsg.parse m with
  | panic => exact .inl ⟨(C38_challenge m).mp h, rfl⟩
  | err e =>
    have hn : ¬ BadChallenge m := fun hb => by rw [(C38_challenge m).mpr hb] at h; cases h
    refine .inr (.inl ⟨hn, ?_, by rw [challenge_errIs m e h]⟩)
    rintro ⟨t, fl, ch, inf, hc⟩
    obtain ⟨f, _, hd⟩ := C50_decode hc
    rw [hd] at h; cases h
  | ok c =>
    have hn : ¬ BadChallenge m := fun hb => by rw [(C38_challenge m).mpr hb] at h; cases h
    obtain ⟨flags, h1, h2⟩ := (C50_exact m c).mp h
    exact .inr (.inr ⟨c, flags, hn, h1, h2, rfl⟩)

theorem clock_cases (checked : Bool) (now : Instant) : (ClockFails checked now ∧ (encodeWindowsTime checked now : Res NtlmError UInt64) = .panic) ∨
    (¬ ClockFails checked now ∧ ∃ time, (encodeWindowsTime checked now : Res NtlmError UInt64) = .ok time) := by
  unfold ClockFails encodeWindowsTime
  dsimp only
  generalize Int.tdiv now 1000 = us
  by_cases h : us < -2 ^ 63 ∨ 2 ^ 63 ≤ us
  · rw [if_pos (by omega)]
    exact .inl ⟨h.elim .inl (fun h => .inr (.inl h)), rfl⟩
  · rw [if_neg (by omega)]
    by_cases hc : checked = true ∧ (us < 0 ∨ 2 ^ 64 ≤ 10 * us)
    · rw [if_pos ⟨hc.1, by omega⟩]
      exact .inl ⟨.inr (.inr hc), rfl⟩
    · rw [if_neg (fun h' => hc ⟨h'.1, by omega⟩)]
      exact .inr ⟨fun h' => by rcases h' with h' | h' | h' <;> first | exact hc h' | omega, _, rfl⟩

end Cifs
