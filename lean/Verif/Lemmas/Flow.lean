import Verif.Lemmas.Step
/-! # The steps of a login -/

namespace Cifs
open Spec

variable {σ : Type}

theorem M.bind_inv {ε S α β : Type} {m : M ε S α} {f : α → M ε S β} {s s' : S} {b : β} (h : (m >>= f) s = (.ok b, s')) :
    ∃ a s1, m s = (.ok a, s1) ∧ f a s1 = (.ok b, s') := by
  rcases hm : m s with ⟨o, s1⟩
  cases o with
  | ok a => rw [M.bind_ok hm] at h; exact ⟨a, s1, rfl, h⟩
  | err e => rw [M.bind_err hm] at h; cases h
  | panic => rw [M.bind_panic hm] at h; cases h
  | pending => rw [M.bind_pending hm] at h; cases h
  | running => rw [M.bind_running hm] at h; cases h

/-- The state in which a sequence ends: that of its first part, if that fails, or that of its second. -/
theorem M.bind_state {ε S α β : Type} (P : S → Prop) {m : M ε S α} {f : α → M ε S β} {s : S} (h : P (m s).2)
    (h' : ∀ a s1, m s = (.ok a, s1) → P (f a s1).2) : P ((m >>= f) s).2 := by
  rcases hm : m s with ⟨o, s1⟩
  rw [hm] at h
  cases o with
  | ok a => rw [M.bind_ok hm]; exact h' a s1 hm
  | err e => rw [M.bind_err hm]; exact h
  | panic => rw [M.bind_panic hm]; exact h
  | pending => rw [M.bind_pending hm]; exact h
  | running => rw [M.bind_running hm]; exact h

/-- The client after the negotiation. -/
def Cli.configured (c : Cli) (setup : ServerSetup) : Cli :=
  { c with maxSmbSize := setup.maxBufferSize.toNat, useUnicode := Capabilities.contains setup.capabilities Capabilities.UNICODE }

/-- The client after a session setup. -/
def Cli.assigned (c : Cli) (uid : UInt16) : Cli := { c with uid := uid }

/-- The same state with another client. -/
def St.withCli (s : St σ) (c : Cli) : St σ := { s with cli := c }

/-- What a login sends, by how far it comes. -/
inductive Flow (E : Env σ) (s : St σ) : List Bytes → Prop
  | none : Flow E s []
  | one {fr : Bytes} (h : requestFrame s.cli negotiateMsg = .ok fr) : Flow E s [message fr]
  | classic {fr fr' secret : Bytes} {setup : ServerSetup} {s1 : St σ} (h : requestFrame s.cli negotiateMsg = .ok fr)
      (run : negotiate E s = (.ok setup, s1)) (hx : Capabilities.contains setup.capabilities Capabilities.EXTENDED_SECURITY = false)
      (hs : (ntlmv1Authenticate E.C s.cli.auth setup.challenge : Res SmbError Bytes) = .ok secret)
      (h' : requestFrame (s1.cli.configured setup) (SessionSetupMsg.withAuth s.cli.auth.user s.cli.auth.domain secret).msg = .ok fr') :
      Flow E s [message fr, message fr']
  | extended {fr fr' blob : Bytes} {setup : ServerSetup} {s1 : St σ} (h : requestFrame s.cli negotiateMsg = .ok fr)
      (run : negotiate E s = (.ok setup, s1)) (hx : Capabilities.contains setup.capabilities Capabilities.EXTENDED_SECURITY = true)
      (hb : ntlmInit ntlmInitFlags s.cli.auth.domain s.cli.auth.workstation = .ok blob)
      (h' : requestFrame (s1.cli.configured setup) (SessionSetupMsg.withBlob blob).msg = .ok fr') :
      Flow E s [message fr, message fr']
  | response {fr fr' fr'' blob blob' : Bytes} {setup : ServerSetup} {s1 s2 : St σ} {r : SessionSetupReply} {ch : ChallengeMsg} {time : UInt64}
      (h : requestFrame s.cli negotiateMsg = .ok fr) (run : negotiate E s = (.ok setup, s1))
      (hx : Capabilities.contains setup.capabilities Capabilities.EXTENDED_SECURITY = true)
      (hb : ntlmInit ntlmInitFlags s.cli.auth.domain s.cli.auth.workstation = .ok blob)
      (h' : requestFrame (s1.cli.configured setup) (SessionSetupMsg.withBlob blob).msg = .ok fr')
      (run' : sessionSetupNtlmv2 E blob (s1.withCli (s1.cli.configured setup)) = (.ok r, s2))
      (hch : ChallengeMsg.parse r.securityBlob = .ok ch) (ht : (encodeWindowsTime E.checked E.now : Res NtlmError UInt64) = .ok time)
      (hb' : ch.response E.C s.cli.auth time E.random = .ok blob')
      (h'' : requestFrame (s2.cli.assigned r.uid) (SessionSetupMsg.withBlob blob').msg = .ok fr'') :
      Flow E s [message fr, message fr', message fr'']

theorem bump_auth {α : Type} {E : Env σ} {m : Msg} (hk : KeepsMid m) {R : Reply α} {s s' : St σ} {a : α} (h : command E m R s = (.ok a, s')) :
    s'.cli.auth = s.cli.auth := by
  obtain ⟨_, _, _, _, _, _, _, _, e⟩ := command_ok hk R h
  rw [e]; rfl

theorem command_ok_log {α : Type} {E : Env σ} {log : σ → List Bytes} (hlog : Logs E.V log) {m : Msg} (hk : KeepsMid m) {R : Reply α}
    {s s' : St σ} {a : α} (h : command E m R s = (.ok a, s')) : ∃ fr, requestFrame s.cli m = .ok fr ∧ log s'.w.srv = log s.w.srv ++ [message fr] := by
  obtain ⟨fr, f, i, h1, _, ⟨h2, _⟩, _⟩ := command_ok hk R h
  exact ⟨fr, h1, by rw [h2, hlog]⟩

theorem keeps_negotiate : KeepsMid negotiateMsg := by intro i; rfl
theorem keeps_setup (x : SessionSetupMsg) : KeepsMid x.msg := by intro i; rfl

theorem M.ofRes_state {ε : Type} {α : Type} (g : ε → Error) (r : Res ε α) (s : St σ) : ((M.ofRes g r : CM σ α) s).2 = s := by cases r <;> rfl
theorem M.ofRes_inv {ε : Type} {α : Type} {g : ε → Error} {r : Res ε α} {s s' : St σ} {a : α} (h : (M.ofRes g r : CM σ α) s = (.ok a, s')) :
    r = .ok a ∧ s' = s := by
  cases r with
  | ok b => cases h; exact ⟨rfl, rfl⟩
  | err e => cases h
  | panic => cases h

/-- Whatever happens, a login follows this flow. -/
theorem setup_flow {E : Env σ} {log : σ → List Bytes} (hlog : Logs E.V log) (s : St σ) :
    ∃ ps, log (setupConnection E s).2.w.srv = log s.w.srv ++ ps ∧ Flow E s ps := by
  let P : St σ → Prop := fun s' => ∃ ps, log s'.w.srv = log s.w.srv ++ ps ∧ Flow E s ps
  show P (setupConnection E s).2
  unfold setupConnection
  refine M.bind_state P ?_ ?_
  · rcases command_log hlog negotiateMsg ServerSetup.reply s with h | ⟨fr, h1, h2⟩
    · exact ⟨[], by rw [List.append_nil]; exact h, .none⟩
    · exact ⟨_, h2, .one h1⟩
  intro setup s1 h1
  obtain ⟨fr, hfr, hl1⟩ := command_ok_log hlog keeps_negotiate h1
  have ha : s1.cli.auth = s.cli.auth := bump_auth keeps_negotiate h1
  refine M.bind_state P ⟨_, hl1, .one hfr⟩ ?_
  intro u s2 h2
  have e2 : s2 = s1.withCli (s1.cli.configured setup) := by cases h2; rfl
  clear h2
  have hl2 : log s2.w.srv = log s.w.srv ++ [message fr] := by rw [e2]; exact hl1
  have hauth : s2.cli.auth = s.cli.auth := by rw [e2]; exact ha
  have hcli : s2.cli = s1.cli.configured setup := by rw [e2]; rfl
  by_cases hx : Capabilities.contains setup.capabilities Capabilities.EXTENDED_SECURITY = true
  · rw [if_pos hx]
    unfold authenticateNtlmv2
    refine M.bind_state P ⟨_, hl2, .one hfr⟩ ?_
    intro c s3 h3
    cases h3
    rw [hauth]
    refine M.bind_state P ?_ ?_
    · rw [M.ofRes_state]; exact ⟨_, hl2, .one hfr⟩
    intro blob s3 h3
    obtain ⟨hb, rfl⟩ := M.ofRes_inv h3
    refine M.bind_state P ?_ ?_
    · rcases command_log hlog (SessionSetupMsg.withBlob blob).msg SessionSetupReply.reply s3 with h | ⟨fr', h3, h4⟩
      · exact ⟨[message fr], h.trans hl2, .one hfr⟩
      · exact ⟨_, h4.trans (by rw [hl2, List.append_assoc]; rfl), .extended hfr h1 hx hb (hcli ▸ h3)⟩
    intro r s4 h4
    obtain ⟨fr', hfr', hl3⟩ := command_ok_log hlog (keeps_setup _) h4
    rw [hl2, List.append_assoc] at hl3
    rw [hcli] at hfr'
    refine M.bind_state P ⟨_, hl3, .extended hfr h1 hx hb hfr'⟩ ?_
    intro u s5 h5
    have e5 : s5 = s4.withCli (s4.cli.assigned r.uid) := by cases h5; rfl
    clear h5
    have hl5 : log s5.w.srv = log s.w.srv ++ ([message fr] ++ [message fr']) := by rw [e5]; exact hl3
    have hcli5 : s5.cli = s4.cli.assigned r.uid := by rw [e5]; rfl
    refine M.bind_state P ?_ ?_
    · rw [M.ofRes_state]; exact ⟨_, hl5, .extended hfr h1 hx hb hfr'⟩
    intro ch s6 h6
    obtain ⟨hch, rfl⟩ := M.ofRes_inv h6
    refine M.bind_state P ?_ ?_
    · rw [M.ofRes_state]; exact ⟨_, hl5, .extended hfr h1 hx hb hfr'⟩
    intro time s7 h7
    obtain ⟨ht, rfl⟩ := M.ofRes_inv h7
    refine M.bind_state P ?_ ?_
    · rw [M.ofRes_state]; exact ⟨_, hl5, .extended hfr h1 hx hb hfr'⟩
    intro blob' s8 h8
    obtain ⟨hb', rfl⟩ := M.ofRes_inv h8
    have hlast : P (sessionSetupNtlmv2 E blob' s8).2 := by
      rcases command_log hlog (SessionSetupMsg.withBlob blob').msg SessionSetupReply.reply s8 with h | ⟨fr'', h5, h6⟩
      · exact ⟨_, h.trans hl5, .extended hfr h1 hx hb hfr'⟩
      · exact ⟨_, h6.trans (by rw [hl5, List.append_assoc]; rfl), .response hfr h1 hx hb hfr' (e2 ▸ h4) hch ht hb' (hcli5 ▸ h5)⟩
    refine M.bind_state P hlast ?_
    intro r' s9 h9
    rw [h9] at hlast
    exact hlast
  · rw [if_neg hx]
    have hx : Capabilities.contains setup.capabilities Capabilities.EXTENDED_SECURITY = false := by simpa using hx
    unfold authenticateNtlm
    refine M.bind_state P ⟨_, hl2, .one hfr⟩ ?_
    intro c s3 h3
    cases h3
    rw [hauth]
    refine M.bind_state P ?_ ?_
    · rw [M.ofRes_state]; exact ⟨_, hl2, .one hfr⟩
    intro secret s3 h3
    obtain ⟨hb, rfl⟩ := M.ofRes_inv h3
    have hlast : P (sessionSetup E s.cli.auth.user s.cli.auth.domain secret s3).2 := by
      rcases command_log hlog (SessionSetupMsg.withAuth s.cli.auth.user s.cli.auth.domain secret).msg SessionSetupReply.reply s3 with h | ⟨fr', h3, h4⟩
      · exact ⟨_, h.trans hl2, .one hfr⟩
      · exact ⟨_, h4.trans (by rw [hl2, List.append_assoc]; rfl), .classic hfr h1 hx hb (hcli ▸ h3)⟩
    refine M.bind_state P hlast ?_
    intro r' s9 h9
    rw [h9] at hlast
    exact hlast

/-- A login that succeeds went all the way: the final state. -/
theorem setup_ok {E : Env σ} {s s' : St σ} (h : setupConnection E s = (.ok (), s')) :
    ∃ setup s1, negotiate E s = (.ok setup, s1) ∧
      if Capabilities.contains setup.capabilities Capabilities.EXTENDED_SECURITY = true then
        ∃ blob r s2 ch time blob' r', ntlmInit ntlmInitFlags s.cli.auth.domain s.cli.auth.workstation = .ok blob ∧
          sessionSetupNtlmv2 E blob (s1.withCli (s1.cli.configured setup)) = (.ok r, s2) ∧
          ChallengeMsg.parse r.securityBlob = .ok ch ∧ (encodeWindowsTime E.checked E.now : Res NtlmError UInt64) = .ok time ∧
          ch.response E.C s.cli.auth time E.random = .ok blob' ∧
          sessionSetupNtlmv2 E blob' (s2.withCli (s2.cli.assigned r.uid)) = (.ok r', s')
      else
        ∃ secret r s2, (ntlmv1Authenticate E.C s.cli.auth setup.challenge : Res SmbError Bytes) = .ok secret ∧
          sessionSetup E s.cli.auth.user s.cli.auth.domain secret (s1.withCli (s1.cli.configured setup)) = (.ok r, s2) ∧
          s' = s2.withCli (s2.cli.assigned r.uid) := by
  unfold setupConnection at h
  obtain ⟨setup, s1, h1, h⟩ := M.bind_inv h
  refine ⟨setup, s1, h1, ?_⟩
  have ha : s1.cli.auth = s.cli.auth := bump_auth keeps_negotiate h1
  obtain ⟨u, s2, h2, h⟩ := M.bind_inv h
  have e2 : s2 = s1.withCli (s1.cli.configured setup) := by cases h2; rfl
  clear h2
  have hauth : s2.cli.auth = s.cli.auth := by rw [e2]; exact ha
  by_cases hx : Capabilities.contains setup.capabilities Capabilities.EXTENDED_SECURITY = true
  · rw [if_pos hx] at h ⊢
    unfold authenticateNtlmv2 at h
    obtain ⟨c, s3, h3, h⟩ := M.bind_inv h
    cases h3
    rw [hauth] at h
    obtain ⟨blob, s3, h2, h⟩ := M.bind_inv h
    obtain ⟨hb, e3⟩ := M.ofRes_inv h2
    obtain ⟨r, s3, h3, h⟩ := M.bind_inv h
    rw [e3, e2] at h3
    obtain ⟨u, s4, h4, h⟩ := M.bind_inv h
    have e4 : s4 = s3.withCli (s3.cli.assigned r.uid) := by cases h4; rfl
    clear h4
    obtain ⟨ch, s5, h5, h⟩ := M.bind_inv h
    obtain ⟨hch, e5⟩ := M.ofRes_inv h5
    obtain ⟨time, s6, h6, h⟩ := M.bind_inv h
    obtain ⟨ht, e6⟩ := M.ofRes_inv h6
    obtain ⟨blob', s7, h7, h⟩ := M.bind_inv h
    obtain ⟨hb', e7⟩ := M.ofRes_inv h7
    obtain ⟨r', s8, h8, h⟩ := M.bind_inv h
    rw [e7, e6, e5, e4] at h8
    cases h
    exact ⟨blob, r, s3, ch, time, blob', r', hb, h3, hch, ht, hb', h8⟩
  · rw [if_neg hx] at h ⊢
    unfold authenticateNtlm at h
    obtain ⟨c, s3, h3, h⟩ := M.bind_inv h
    cases h3
    rw [hauth] at h
    obtain ⟨secret, s3, h2, h⟩ := M.bind_inv h
    obtain ⟨hb, e3⟩ := M.ofRes_inv h2
    obtain ⟨r, s3, h3, h⟩ := M.bind_inv h
    rw [e3, e2] at h3
    cases h
    exact ⟨secret, r, s3, hb, h3, rfl⟩

end Cifs
