import Verif.Props.Replay
import Verif.Props.Streams
import Verif.Spec.Terms
/-!
# On which terms the client logs in (C87)
-/

namespace Cifs
open Spec Gate

variable {σ σ' : Type}

/-! ## What the reply to the negotiation decides -/

/-- The negotiation with a server that answers it and nothing else. -/
theorem negotiate_replied {E : Env σ} {s : St σ} (hs : E.checked = true → s.cli.mid.toNat < 65535) (hw : Accepting s.w.wsched)
    (hb : s.w.inbox.flatten = []) {fr f ps ds : Bytes} (hf : requestFrame s.cli negotiateMsg = .ok fr)
    (h : Replies E.V s.w.srv (message fr) f) (hg : Greets f ps ds) :
    ∃ setup ib, IsNegotiateReply ps ds setup ∧ ib.flatten = [] ∧
      negotiate E s = (.ok setup, { s.bump with w :=
        { inbox := ib, wsched := (writeLoop s.w.wsched (message fr) s.w.out).2.1, out := s.w.out ++ message fr
          srv := (E.V.react s.w.srv (message fr)).1 } }) := by
  obtain ⟨r1, r2, r3, r4⟩ := h
  have h4 : send E negotiateMsg s = (.ok s.cli.mid, { s.bump with w :=
      { inbox := s.w.inbox ++ (E.V.react s.w.srv (message fr)).2, wsched := (writeLoop s.w.wsched (message fr) s.w.out).2.1
        out := s.w.out ++ message fr, srv := (E.V.react s.w.srv (message fr)).1 } }) := by
    obtain ⟨ws, _, h4⟩ := send_ok E negotiateMsg s fr (fun hc => by have := hs hc.1; omega) hf (C26_fits hf) hw
    have hu := Related.send_unfold E negotiateMsg s
    rw [h4] at hu ⊢
    rw [if_neg (fun hc => by have := hs hc.1; omega), hf] at hu
    have hl := C26_fits hf
    simp only [if_neg (show ¬ fr.length > MAX_FRAME_LENGTH by simp only [maxPayload, MAX_FRAME_LENGTH] at *; omega)] at hu
    rcases hwl : writeLoop s.w.wsched (message fr) s.w.out with ⟨r, ws', out⟩
    rw [hwl] at hu
    cases r with
    | done =>
      have := congrArg (fun x => x.2.w.wsched) hu
      simp only at this
      rw [this]
    | failed e => cases congrArg Prod.fst hu
    | blocked => cases congrArg Prod.fst hu
  obtain ⟨i, ib, hp, hib, h5⟩ := command_round ServerSetup.reply h4 (f := f) (rest := []) (by
    show Awaits _ (s.w.inbox ++ (E.V.react s.w.srv (message fr)).2).flatten f []
    rw [List.flatten_append, hb, r1, List.nil_append]
    refine ⟨_, .done _, ?_, r3, r4.trans (requestFrame_mid keeps_negotiate hf)⟩
    have := Delivers.message f [] r2
    rwa [List.append_nil] at this)
  obtain ⟨setup, k1, k2⟩ := accept_greets hp hg
  rw [k1] at h5
  exact ⟨setup, ib, k2, hib, h5⟩

/-- **C87** Of the reply to the negotiation, the client uses the size of the buffer, whether Unicode and extended security are offered and,
in the older form of the login, the challenge. Whatever else two servers say there, if they agree in these and do the same afterwards, the
client does not tell them apart: the login has the same outcome, all calls after it have the same outcomes, and the same bytes are sent. -/
theorem C87_blind (E : Env σ) (V' : Server σ') (R : σ → σ' → Prop) (hV : SameBytes E.V V' R) (s : St σ) (s' : St σ') (hc : s.cli = s'.cli)
    (ho : s.w.out = s'.w.out) (hw : s.w.wsched = s'.w.wsched) (hb : s.w.inbox.flatten = []) (hb' : s'.w.inbox.flatten = [])
    (ha : Accepting s.w.wsched) (hm : E.checked = true → s.cli.mid.toNat < 65535)
    (hg : ∀ req, IsNegotiate req → ∃ f f' ps ds ps' ds', Replies E.V s.w.srv req f ∧ Greets f ps ds ∧ Replies V' s'.w.srv req f' ∧ Greets f' ps' ds' ∧
      SameTerms ps ds ps' ds' ∧ R (E.V.react s.w.srv req).1 (V'.react s'.w.srv req).1) :
    (setupConnection E s).1 = (setupConnection (E.withV V') s').1 ∧
    (setupConnection E s).2.cli = (setupConnection (E.withV V') s').2.cli ∧
    (setupConnection E s).2.w.out = (setupConnection (E.withV V') s').2.w.out ∧
    ∀ ops, (runOps E ops (setupConnection E s).2).1 = (runOps (E.withV V') ops (setupConnection (E.withV V') s').2).1 ∧
      (runOps E ops (setupConnection E s).2).2.w.out = (runOps (E.withV V') ops (setupConnection (E.withV V') s').2).2.w.out := by
  obtain ⟨fr, hf⟩ := negotiate_frame s.cli
  obtain ⟨f, f', ps, ds, ps', ds', g1, g2, g3, g4, g5, g6⟩ := hg _ (is_negotiate hf)
  obtain ⟨setup, ib, k1, k2, k3⟩ := negotiate_replied hm ha hb hf g1 g2
  obtain ⟨setup', ib', k1', k2', k3'⟩ := negotiate_replied (E := E.withV V') (s := s') (hc ▸ hm) (hw ▸ ha) hb' (hc ▸ hf) g3 g4
  have hx : Capabilities.contains setup.capabilities Capabilities.EXTENDED_SECURITY = Capabilities.contains setup'.capabilities Capabilities.EXTENDED_SECURITY := by
    have := (offers_extended k1).trans (g5.extended.trans (offers_extended k1').symm)
    exact Bool.eq_iff_iff.mpr this
  have hu : Capabilities.contains setup.capabilities Capabilities.UNICODE = Capabilities.contains setup'.capabilities Capabilities.UNICODE :=
    Bool.eq_iff_iff.mpr ((offers_unicode k1).trans (g5.unicode.trans (offers_unicode k1').symm))
  have hbuf : setup.maxBufferSize.toNat = setup'.maxBufferSize.toNat := by
    have := k1.maxBufferSize
    rw [g5.buffer, k1'.maxBufferSize] at this
    exact (Option.some.inj this).symm
  have q0 := setup_step k3
  have q0' := setup_step k3'
  rw [← hx] at q0'
  have hq : (Related.segments hV).Q ({ s.bump with w := { inbox := ib, wsched := (writeLoop s.w.wsched (message fr) s.w.out).2.1, out := s.w.out ++ message fr, srv := (E.V.react s.w.srv (message fr)).1 } : St σ}.withCli (s.bump.cli.configured setup))
      ({ s'.bump with w := { inbox := ib', wsched := (writeLoop s'.w.wsched (message fr) s'.w.out).2.1, out := s'.w.out ++ message fr, srv := (V'.react s'.w.srv (message fr)).1 } : St σ'}.withCli (s'.bump.cli.configured setup')) := by
    refine ⟨?_, ?_, ?_, g6, ?_⟩
    · have : s.bump.cli.configured setup = s'.bump.cli.configured setup' := by
        simp only [Cli.configured, hu, hbuf, St.bump, hc]
      show SameBut Eq (s.bump.cli.configured setup) (s'.bump.cli.configured setup')
      rw [this]; exact ⟨rfl, rfl⟩
    · show s.w.out ++ _ = s'.w.out ++ _; rw [ho]
    · show (writeLoop s.w.wsched _ s.w.out).2.1 = (writeLoop s'.w.wsched _ s'.w.out).2.1; rw [ho, hw]
    · show ib.flatten = ib'.flatten; rw [k2, k2']
  have hsim : (setupConnection E s).1 = (setupConnection (E.withV V') s').1 ∧
      (Related.segments hV).Q (setupConnection E s).2 (setupConnection (E.withV V') s').2 := by
    rw [q0, q0']
    have hp : ∀ a a' : Auth, a = a' → Related.Alike E.C a a' := fun a a' h => h ▸ Related.alike_refl _ _
    by_cases hxx : Capabilities.contains setup.capabilities Capabilities.EXTENDED_SECURITY = true
    · rw [if_pos hxx, if_pos hxx]
      exact ((Related.Sim.authenticateNtlmv2 (P := Related.segments hV) hp).sim _ _ hq).resolve_left id
    · rw [if_neg hxx, if_neg hxx]
      have hch : setup.challenge = setup'.challenge := by
        obtain ⟨n, n1, n2, n3⟩ := g5.challenge (fun h => hxx ((offers_extended k1).mpr h))
        obtain ⟨c1, more, c2⟩ := k1.challenge
        obtain ⟨c1', more', c2'⟩ := k1'.challenge
        rw [n1] at c1; rw [n2] at c1'
        have e1 := Option.some.inj c1; have e1' := Option.some.inj c1'
        rw [c2, c2', e1, List.take_left, ← e1, e1', List.take_left] at n3
        exact n3
      rw [hch]
      exact ((Related.Sim.authenticateNtlm (P := Related.segments hV) hp _).sim _ _ hq).resolve_left id
  obtain ⟨e1, e2⟩ := hsim
  refine ⟨e1, SameBut.eq e2.1, e2.2.1, fun ops => ?_⟩
  obtain ⟨r1, r2⟩ := (Related.runOps_sim (Related.segments hV) ops _ _ e2).resolve_left id
  exact ⟨r1, r2.2.1⟩

/-! ## Terms the client cannot keep -/

/-- A server that announces `ps` with the challenge `ds` and lets everybody in. -/
def C87_server (ps ds : Bytes) (uid : UInt16) : Server Nat where
  react := fun v req => if v = 0 then (1, [message (replyAs req .Negotiate (.Known .SUCCESS) 0 ps ds)]) else (C84_anyone true ds uid).react v req
  tail := fun _ => .eof

/-- Parameters that agree in what the client uses with those of a server with extended security. -/
structure C87_Like (ps : Bytes) : Prop where
  length : ps.length = 34
  dialect : u16At ps 0 = some 0
  buffer : u32At ps 7 = some 16644
  challenge : u8At ps 33 = some 8
  unicode : OffersUnicode ps
  extended : OffersExtended ps

/-- What the client should see to: if a login succeeds, it can keep the terms that the server announced. -/
def C87_Careful (E : Env σ) (s : St σ) : Prop :=
  ∀ req f ps ds, IsNegotiate req → midOf req = some s.cli.mid.toNat → Replies E.V s.w.srv req f → Greets f ps ds →
    (setupConnection E s).1 = .ok () → Keepable ps

theorem like_greets {ps ds : Bytes} (hl : C87_Like ps) (hd : ds.length = 8) {V : Server σ} {v : σ} {req : Bytes} (hq : IsNegotiate req)
    (hv : (V.react v req).2 = [message (replyAs req .Negotiate (.Known .SUCCESS) 0 ps ds)]) :
    Replies V v req (replyAs req .Negotiate (.Known .SUCCESS) 0 ps ds) ∧ Greets (replyAs req .Negotiate (.Known .SUCCESS) 0 ps ds) ps ds := by
  have hg := replyAs_genuine req .Negotiate (.Known .SUCCESS) 0 ps ds (params_mid hq.2.1)
  refine ⟨⟨by rw [hv]; simp, Demo.frame_short _ _ _ (by rw [hl.length]; decide) (by rw [hd]; decide), hg.1, hg.2⟩, ?_⟩
  exact ⟨⟨frame_cmd _ _ _, by rw [replyAs, frame_status]; rfl,
    replyAs_body _ _ _ _ _ _ (by rw [hl.length]; decide) (by rw [hl.length]) (by rw [hd]; decide)⟩, by rw [hl.length]; decide, hl.dialect,
    8, hl.challenge, by rw [hd]; decide⟩

theorem like_usual : C87_Like (Demo.negotiateParams 0 0x8000f3fd 8) :=
  ⟨by decide, by decide, by decide, by decide, ⟨0x8000f3fd, by decide, by decide⟩, ⟨0x8000f3fd, by decide, by decide⟩⟩

/-- **C87 violated.** The client logs in on whatever terms the server announces, in particular if it demands signatures, has no user-level
access, or does not take the requests the client sends. -/
theorem C87_violated (E : Env Nat) (own : Nat → Prop) (s : St Nat) (ps challenge : Bytes) (uid : UInt16) (hc : challenge.length = 8)
    (hl : C87_Like ps) (hk : ¬ Keepable ps) (hV : E.V = C87_server ps challenge uid) (h0 : s.w.srv = 0) (hb : s.w.inbox.flatten = [])
    (hr : Ready E own 3 s) (fit : NamesFit s.cli.auth.user s.cli.auth.workstation s.cli.auth.domain 4)
    (ht : 0 ≤ E.now) (ht' : 10 * (E.now / 1000) < 2 ^ 64) :
    (∃ s', setupConnection E s = (.ok (), s') ∧ s'.cli.uid = uid) ∧ ¬ C87_Careful E s := by
  have hE : (E.withV (C84_anyone true challenge uid)).withV E.V = E := rfl
  obtain ⟨t, e1, e2, _⟩ := C84_violated_server (E.withV (C84_anyone true challenge uid)) own s true challenge uid hc rfl h0
    ⟨hr.writes, hr.unread, hr.ids, hr.enough⟩ fit ht ht'
  have same : SameBytes (E.withV (C84_anyone true challenge uid)).V E.V (fun a b => a = b ∧ a ≠ 0) := by
    rw [hV]
    refine ⟨?_, ?_, fun _ _ _ => rfl⟩
    · rintro a _ p ⟨rfl, h⟩
      show _ = (if a = 0 then _ else _ : Nat × List Bytes).1 ∧ _
      rw [if_neg h]
      exact ⟨rfl, Nat.succ_ne_zero _⟩
    · rintro a _ p ⟨rfl, h⟩
      show _ = (if a = 0 then _ else _ : Nat × List Bytes).2.flatten
      rw [if_neg h]; rfl
  have hb1 := C87_blind (E.withV (C84_anyone true challenge uid)) E.V _ same s s rfl rfl rfl hb hb hr.writes (fun h => by have := hr.enough h; omega) (by
    intro req hq
    obtain ⟨g1, g2⟩ := like_greets (V := E.V) (v := s.w.srv) hl hc hq (by rw [hV, h0]; rfl)
    obtain ⟨k1, k2⟩ := like_greets (V := C84_anyone true challenge uid) (v := s.w.srv) like_usual hc hq (by rw [h0]; rfl)
    refine ⟨_, _, _, _, _, _, k1, k2, g1, g2, ⟨like_usual.buffer.trans hl.buffer.symm, iff_of_true like_usual.unicode hl.unicode,
      iff_of_true like_usual.extended hl.extended, fun h => absurd like_usual.extended h⟩, ?_⟩
    rw [hV, h0]
    exact ⟨rfl, Nat.succ_ne_zero _⟩)
  rw [hE, e1] at hb1
  have hok : (setupConnection E s).1 = .ok () := hb1.1.symm
  refine ⟨⟨_, Prod.ext hok rfl, by rw [← hb1.2.1]; exact e2⟩, fun hcar => hk ?_⟩
  obtain ⟨fr, hf⟩ := negotiate_frame s.cli
  have hq := is_negotiate hf
  obtain ⟨g1, g2⟩ := like_greets (V := E.V) (v := s.w.srv) hl hc hq (by rw [hV, h0]; rfl)
  exact hcar _ _ _ _ hq (requestFrame_mid keeps_negotiate hf) g1 g2 hok

theorem mode_iff {ps : Bytes} {m k : Nat} (h : u8At ps 2 = some m) : Mode ps k ↔ m / 2 ^ k % 2 = 1 :=
  ⟨fun ⟨n, h1, h2⟩ => by rw [h] at h1; cases h1; exact h2, fun h2 => ⟨m, h, h2⟩⟩

theorem capable_iff {ps : Bytes} {m k : Nat} (h : u32At ps 19 = some m) : Capable ps k ↔ m / 2 ^ k % 2 = 1 :=
  ⟨fun ⟨n, h1, h2⟩ => by rw [h] at h1; cases h1; exact h2, fun h2 => ⟨m, h, h2⟩⟩

/-- Parameters with these demands and capabilities. -/
def C87_terms (mode : UInt8) (caps : UInt32) : Bytes :=
  putU16 0 ++ [mode] ++ putU16 1 ++ putU16 1 ++ putU32 16644 ++ putU32 0 ++ putU32 7 ++ putU32 caps ++ putU64 0 ++ putU16 0 ++ [8]

/-- **C87 violated**, by each of the terms alone: the server may have no user-level access, no challenges, require signatures, not take NT requests
or not have 32-bit statuses, with all other terms such that the client can keep them, and the client logs in. -/
theorem C87_violated_each (i : Fin 5) : ∃ ps, (Mode ps 0 ↔ i ≠ 0) ∧ (Mode ps 1 ↔ i ≠ 1) ∧ (¬ Mode ps 3 ↔ i ≠ 2) ∧ (Capable ps 4 ↔ i ≠ 3) ∧
    (Capable ps 6 ↔ i ≠ 4) ∧
    ∀ (E : Env Nat) (own : Nat → Prop) (s : St Nat) (challenge : Bytes) (uid : UInt16), challenge.length = 8 → E.V = C87_server ps challenge uid →
      s.w.srv = 0 → s.w.inbox.flatten = [] → Ready E own 3 s → NamesFit s.cli.auth.user s.cli.auth.workstation s.cli.auth.domain 4 →
      0 ≤ E.now → 10 * (E.now / 1000) < 2 ^ 64 → (∃ s', setupConnection E s = (.ok (), s') ∧ s'.cli.uid = uid) ∧ ¬ C87_Careful E s := by
  suffices key : ∃ (m : UInt8) (c : UInt32), C87_Like (C87_terms m c) ∧ u8At (C87_terms m c) 2 = some m.toNat ∧
      u32At (C87_terms m c) 19 = some c.toNat ∧ (m.toNat / 2 ^ 0 % 2 = 1 ↔ i ≠ 0) ∧ (m.toNat / 2 ^ 1 % 2 = 1 ↔ i ≠ 1) ∧
      (¬ m.toNat / 2 ^ 3 % 2 = 1 ↔ i ≠ 2) ∧ (c.toNat / 2 ^ 4 % 2 = 1 ↔ i ≠ 3) ∧ (c.toNat / 2 ^ 6 % 2 = 1 ↔ i ≠ 4) by
    obtain ⟨m, c, hl, hm, hc, h0, h1, h2, h3, h4⟩ := key
    rw [← mode_iff hm] at h0 h1 h2
    rw [← capable_iff hc] at h3 h4
    refine ⟨C87_terms m c, h0, h1, h2, h3, h4, fun E own s challenge uid k1 k2 k3 k4 k5 k6 k7 k8 => ?_⟩
    refine C87_violated E own s _ challenge uid k1 hl (fun hk => ?_) k2 k3 k4 k5 k6 k7 k8
    have e0 := h0.mp hk.users; have e1 := h1.mp hk.challenges; have e2 := h2.mp hk.unsigned
    have e3 := h3.mp hk.nt; have e4 := h4.mp hk.status
    omega
  match i with
  | 0 => exact ⟨2, 0x80000054, ⟨by decide, by decide, by decide, by decide, ⟨0x80000054, by decide, by decide⟩, ⟨0x80000054, by decide, by decide⟩⟩,
              by decide, by decide, by decide, by decide, by decide, by decide, by decide⟩
  | 1 => exact ⟨1, 0x80000054, ⟨by decide, by decide, by decide, by decide, ⟨0x80000054, by decide, by decide⟩, ⟨0x80000054, by decide, by decide⟩⟩,
              by decide, by decide, by decide, by decide, by decide, by decide, by decide⟩
  | 2 => exact ⟨11, 0x80000054, ⟨by decide, by decide, by decide, by decide, ⟨0x80000054, by decide, by decide⟩, ⟨0x80000054, by decide, by decide⟩⟩,
              by decide, by decide, by decide, by decide, by decide, by decide, by decide⟩
  | 3 => exact ⟨3, 0x80000044, ⟨by decide, by decide, by decide, by decide, ⟨0x80000044, by decide, by decide⟩, ⟨0x80000044, by decide, by decide⟩⟩,
              by decide, by decide, by decide, by decide, by decide, by decide, by decide⟩
  | 4 => exact ⟨3, 0x80000014, ⟨by decide, by decide, by decide, by decide, ⟨0x80000014, by decide, by decide⟩, ⟨0x80000014, by decide, by decide⟩⟩,
              by decide, by decide, by decide, by decide, by decide, by decide, by decide⟩

/-- **C87** The terms that the client does keep to: a login succeeds only if the server took the dialect; the encoding and the size of the
buffer are those announced from then on; without extended security, the challenge had eight bytes. Missing: demands that the client cannot
meet are not noticed. -/
theorem C87_kept_partial {E : Env σ} {s s' : St σ} (h : setupConnection E s = (.ok (), s')) :
    ∃ p ps ds v b, NegotiateRound E.V s.w.srv s.w.inbox.flatten p ps ds v b ∧ u16At ps 0 = some 0 ∧
      (OffersExtended ps ∨ u8At ps 33 = some 8 ∧ 8 ≤ ds.length) ∧
      ∀ ops, ((runOps E ops s').2.cli.useUnicode = true ↔ OffersUnicode ps) ∧ u32At ps 7 = some (runOps E ops s').2.cli.maxSmbSize := by
  obtain ⟨v, s1, run, hrest⟩ := setup_ok h
  obtain ⟨fr, ps, ds, g1, g2, g3, g4⟩ := negotiated run
  have hd := g2.2.choose_spec.2.2.2.2
  have hu : s'.cli.useUnicode = Capabilities.contains v.capabilities Capabilities.UNICODE ∧ s'.cli.maxSmbSize = v.maxBufferSize.toNat := by
    split at hrest
    · obtain ⟨blob, r, s2, ch, time, blob', r', hb, run', hch, ht, hb', run''⟩ := hrest
      obtain ⟨fr', st, ps', ds', k1, k2, k3, k4, k5, k6⟩ := set_up run'
      obtain ⟨fr'', st'', ps'', ds'', q1, q2, q3, q4, q5, q6⟩ := set_up run''
      rw [q6]
      show s2.cli.useUnicode = _ ∧ s2.cli.maxSmbSize = _
      rw [k6]
      exact ⟨rfl, rfl⟩
    · obtain ⟨secret, r, s2, hs, run', rfl⟩ := hrest
      obtain ⟨fr', st, ps', ds', k1, k2, k3, k4, k5, k6⟩ := set_up run'
      show s2.cli.useUnicode = _ ∧ s2.cli.maxSmbSize = _
      rw [k6]
      exact ⟨rfl, rfl⟩
  refine ⟨_, ps, ds, _, _, g2, hd, ?_, fun ops => ?_⟩
  · split at hrest
    · rename_i hx
      exact .inl ((offers_extended g3).mp hx)
    · obtain ⟨secret, r, s2, hs, run', rfl⟩ := hrest
      have h8 := ntlmv1_challenge hs
      obtain ⟨c1, more, c2⟩ := g3.challenge
      rw [h8] at c1
      exact .inr ⟨c1, by rw [c2, List.length_append]; omega⟩
  · obtain ⟨_, o2, o3, _⟩ := C62_stable E ops s'
    rw [o2, o3, hu.1, hu.2]
    exact ⟨offers_unicode g3, g3.maxBufferSize⟩

namespace Demo

/-- Signatures required, access by share, passwords in the clear, no NT requests, no 32-bit statuses. -/
def harsh : Bytes :=
  putU16 0 ++ [0x0c] ++ putU16 1 ++ putU16 1 ++ putU32 16644 ++ putU32 0 ++ putU32 7 ++ putU32 0x80000004 ++ putU64 0 ++ putU16 0 ++ [8]

theorem harsh_like : C87_Like harsh :=
  ⟨by decide, by decide, by decide, by decide, ⟨0x80000004, by decide, by decide⟩, ⟨0x80000004, by decide, by decide⟩⟩

/-- There are terms that the client can keep, and terms of which it can keep none. -/
example : Keepable (negotiateParams 0 0x8000f3fd 8) ∧ Mode harsh 3 ∧ ¬ Mode harsh 0 ∧ ¬ Mode harsh 1 ∧ ¬ Capable harsh 4 ∧ ¬ Capable harsh 6 := by
  have hm : ∀ {k : Nat} {m : Nat}, u8At harsh 2 = some m → m / 2 ^ k % 2 ≠ 1 → ¬ Mode harsh k := fun h h' ⟨n, h1, h2⟩ => by
    rw [h] at h1; cases h1; exact h' h2
  have hn : ∀ {k : Nat} {m : Nat}, u32At harsh 19 = some m → m / 2 ^ k % 2 ≠ 1 → ¬ Capable harsh k := fun h h' ⟨n, h1, h2⟩ => by
    rw [h] at h1; cases h1; exact h' h2
  refine ⟨⟨⟨3, by decide, by decide⟩, ⟨3, by decide, by decide⟩, ?_, ⟨0x8000f3fd, by decide, by decide⟩, ⟨0x8000f3fd, by decide, by decide⟩⟩, ⟨12, by decide, by decide⟩,
    hm (m := 12) (by decide) (by decide), hm (m := 12) (by decide) (by decide), hn (m := 0x80000004) (by decide) (by decide), hn (m := 0x80000004) (by decide) (by decide)⟩
  rintro ⟨n, h1, h2⟩
  have : n = 3 := Option.some.inj (h1.symm.trans (by decide))
  subst this
  revert h2; decide

/-- non-vacuity of `C87_violated`, and with it of `C87_blind` and `C87_kept_partial`. -/
example : let E : Env Nat := { env true with V := C87_server harsh [1, 2, 3, 4, 5, 6, 7, 8] 100, C := Crypto.real }
    let s : St Nat := { cli := .init (person "me".toList "secret".toList), w := { inbox := [], wsched := [.accept 9], out := [], srv := 0 } }
    (∃ s', setupConnection E s = (.ok (), s') ∧ s'.cli.uid = 100) ∧ ¬ C87_Careful E s :=
  C87_violated _ (fun _ => True) _ harsh [1, 2, 3, 4, 5, 6, 7, 8] 100 rfl harsh_like (fun h => h.unsigned ⟨12, by decide, by decide⟩) rfl rfl rfl
    ⟨by intro ev he; simp at he; subst he; exact ⟨_, rfl⟩, .nil, fun _ _ => trivial, fun _ => by simp [Cli.init]⟩
    (person_fits (by decide) (by decide +kernel) (by decide +kernel)) (show (0 : Int) ≤ 13370000000000000000 by decide)
    (show (10 : Int) * (13370000000000000000 / 1000) < 2 ^ 64 by decide)

/-- non-vacuity of `C87_violated_each`. -/
example (i : Fin 5) : ∃ (E : Env Nat) (s s' : St Nat), setupConnection E s = (.ok (), s') ∧ ¬ C87_Careful E s := by
  obtain ⟨ps, -, -, -, -, -, h⟩ := C87_violated_each i
  obtain ⟨⟨s', h1, -⟩, h2⟩ := h { env true with V := C87_server ps [1, 2, 3, 4, 5, 6, 7, 8] 100, C := Crypto.real } (fun _ => True)
    { cli := .init (person "me".toList "secret".toList), w := { inbox := [], wsched := [.accept 9], out := [], srv := 0 } }
    [1, 2, 3, 4, 5, 6, 7, 8] 100 rfl rfl rfl rfl
    ⟨by intro ev he; simp at he; subst he; exact ⟨_, rfl⟩, .nil, fun _ _ => trivial, fun _ => by simp [Cli.init]⟩
    (person_fits (by decide) (by decide +kernel) (by decide +kernel)) (show (0 : Int) ≤ 13370000000000000000 by decide)
    (show (10 : Int) * (13370000000000000000 / 1000) < 2 ^ 64 by decide)
  exact ⟨_, _, s', h1, h2⟩

end Demo

end Cifs
