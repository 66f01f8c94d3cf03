import Verif.Props.Dead
import Verif.Lemmas.Open
/-!
# Logging in on a connection that has ended (C94)
-/

namespace Cifs
open Spec

variable {σ : Type}

/-- **C94.** A login on a lost connection fails, too: it does not succeed, and it does not wait. -/
theorem C94_login {E : Env σ} (hV : StaysOver E.V) {s : St σ} (h : IsLost E.V s.w) (hb : NoBlock s.w) :
    ((∃ e, (setupConnection E s).1 = .err e) ∨ (setupConnection E s).1 = .panic ∧ Exhausted E s) ∧
      IsLost E.V (setupConnection E s).2.w ∧ NoBlock (setupConnection E s).2.w := by
  obtain ⟨h1, h2, h3, -⟩ := ruined_bind (fun setup => do
    modifyCli (fun c => { c with
      maxSmbSize := setup.maxBufferSize.toNat, useUnicode := Capabilities.contains setup.capabilities Capabilities.UNICODE })
    if Capabilities.contains setup.capabilities Capabilities.EXTENDED_SECURITY then authenticateNtlmv2 E
    else authenticateNtlm E setup.challenge) (lost_command hV negotiateMsg ServerSetup.reply h hb)
  refine ⟨h1.imp_right fun ⟨h4, h5⟩ => ⟨h4, h5.resolve_right (negotiate_no_panic s.cli)⟩, h2, h3⟩

theorem notices_getCli (E : Env σ) : Notices E (getCli : CM σ Cli) := fun _ => ⟨fun _ h => h, fun e he => by cases he⟩
theorem notices_modifyCli (E : Env σ) (f : Cli → Cli) : Notices E (modifyCli f : CM σ Unit) := fun _ => ⟨fun _ h => h, fun e he => by cases he⟩
theorem notices_ofRes {ε α : Type} (E : Env σ) (g : ε → Error) (hg : ∀ e x, g e ≠ .NetBios x) (r : Res ε α) : Notices E (M.ofRes g r : CM σ α) := by
  intro s
  refine ⟨fun ev h => by cases r <;> exact h, fun e he hs => ?_⟩
  cases r with
  | ok a => cases he
  | panic => cases he
  | err x =>
    cases he
    rcases hs with hs | ⟨_, hs, _⟩ <;> exact absurd hs (hg _ _)

theorem notices_login (E : Env σ) : Notices E (setupConnection E) := by
  refine .bind (notices_command E _ _) fun setup => .bind (notices_modifyCli E _) fun _ => ?_
  split
  · refine .bind (notices_getCli E) fun c => .bind (notices_ofRes E _ (fun _ _ h => by cases h) _) fun i => .bind (notices_command E _ _) fun r =>
      .bind (notices_modifyCli E _) fun _ => .bind (notices_ofRes E _ (fun _ _ h => by cases h) _) fun ch =>
      .bind (notices_ofRes E _ (fun _ _ h => by cases h) _) fun t => .bind (notices_ofRes E _ (fun _ _ h => by cases h) _) fun a =>
      .bind (notices_command E _ _) fun _ => .pure E _
  · exact .bind (notices_getCli E) fun c => .bind (notices_ofRes E _ (fun _ _ h => by cases h) _) fun a => .bind (notices_command E _ _) fun r =>
      notices_modifyCli E _

/-- **C94.** If a login says that the stream has ended or broken, then it has. -/
theorem C94_login_noticed (E : Env σ) (s : St σ) (e : Error) (h : (setupConnection E s).1 = .err e) (he : SaysLost s.w e) :
    IsLost E.V (setupConnection E s).2.w :=
  (notices_login E s).2 e h he

theorem lost_session {V : Server σ} (hV : StaysOver V) (name : Str) {w : World σ} (h : IsLost V w) (hb : NoBlock w) :
    ∃ e, (createSession V "*SMBSERVER".toList name w).1 = .err e := by
  have hw : ∀ b, (∃ e w', writeExactly V b w = (.err e, w')) ∨ ∃ w', writeExactly V b w = (.ok (), w') ∧ IsLost V w' := by
    intro b
    obtain ⟨-, h2, h3⟩ := writeLoop_rest w.wsched b w.out
    unfold writeExactly
    rcases hr : writeLoop w.wsched b w.out with ⟨r, ws, out⟩
    rw [hr] at h2 h3
    cases r with
    | done =>
      obtain ⟨h4, h5⟩ := hV _ h.2 b
      exact .inr ⟨_, rfl, by simp only [IsLost, List.flatten_append, h.1, h4]; exact ⟨rfl, h5⟩⟩
    | failed e => exact .inl ⟨_, _, rfl⟩
    | blocked => exact absurd (h3 rfl) hb
  have hs : ∀ f, Frame.encode f ≠ .panic → (∃ e w', sendFrame V f w = (.err e, w')) ∨ ∃ w', sendFrame V f w = (.ok (), w') ∧ IsLost V w' := by
    intro f hf
    unfold sendFrame
    simp only [M.bind_apply, M.bind, M.ofRes]
    cases he : Frame.encode f with
    | ok b => exact hw b
    | err e => exact .inl ⟨_, _, rfl⟩
    | panic => exact absurd he hf
  unfold createSession
  rcases hs (.SessionRequest (sessionRequestPayload "*SMBSERVER".toList name)) (by rw [sessionRequest_encode]; exact fun h => by cases h) with ⟨e, w', h1⟩ | ⟨w', h1, h2⟩
  · exact ⟨e, by rw [M.bind_err h1]⟩
  · rw [M.bind_ok h1]
    obtain ⟨ib, h3, h4⟩ := recvFrame_flat V w'
    rw [show w'.flat = [] from h2.1, flatRecv_short1] at h3 h4
    have ht := h2.2
    cases hv : V.tail w'.srv with
    | blocked => exact absurd hv ht
    | eof => rw [hv] at h4; exact ⟨_, by rw [M.bind_err h4]⟩
    | ioErr e => rw [hv] at h4; exact ⟨_, by rw [M.bind_err h4]⟩

/-- **C94.** Opening a connection that is lost at once fails, whatever the port, with or without a session request. -/
theorem C94_open {E : Env σ} (hV : StaysOver E.V) (dial : Dial σ) (hd : ∀ p w, dial p = .ok w → IsLost E.V w ∧ NoBlock w) (port : Option UInt16)
    (auth : Option Auth) : ∃ e, (openCifs E dial port auth).outcome = .err e := by
  have setup : ∀ a w, IsLost E.V w → NoBlock w → ∃ e, (setupConnection E { cli := .init a, w }).1 = .err e := by
    intro a w h hb
    rcases (C94_login hV (s := { cli := .init a, w }) h hb).1 with h1 | ⟨-, -, h1⟩
    · exact h1
    · simp [Cli.init] at h1
  rw [openCifs_eq]
  generalize auth.getD defaultAuth = a
  have raw : ∀ p ps, ∃ e, (finishOpen E a (match dial p with
      | .ok w => { outcome := .ok (), world := some w, ports := ps }
      | .error e => { outcome := .err (.IoError e), world := none, ports := ps })).outcome = .err e := by
    intro p ps
    cases h : dial p with
    | error e => exact ⟨_, rfl⟩
    | ok w => exact setup a w (hd p w h).1 (hd p w h).2
  cases port with
  | some p => exact raw p [p]
  | none =>
    show ∃ e, (finishOpen E a (openNetbios E.V dial a.workstation)).outcome = .err e
    unfold openNetbios
    cases h : dial 445 with
    | ok w => exact setup a w (hd _ w h).1 (hd _ w h).2
    | error e =>
      cases h' : dial 139 with
      | error e => exact ⟨_, rfl⟩
      | ok w =>
        obtain ⟨e, he⟩ := lost_session hV a.workstation (hd _ w h').1 (hd _ w h').2
        refine ⟨.NetBios e, ?_⟩
        simp only [finishOpen, he, Out.netErr]

namespace Demo

/-- non-vacuity of `C94_open` and `C94_login`: a server that accepts connections, on either port, and closes them at once. -/
example (port : Option UInt16) (open445 : Bool) (auth : Option Auth) : ∃ e, (openCifs briefEnv (fun p => if p = 445 ∧ open445 = false then .error .unexpectedEof else
    .ok { inbox := [], wsched := [.accept 3], out := [], srv := false }) port auth).outcome = .err e := by
  refine C94_open brief_stays _ (fun p w h => ?_) port auth
  split at h
  · cases h
  · cases h; exact ⟨⟨rfl, by simp [briefEnv, brief]⟩, by simp [NoBlock]⟩

/-- non-vacuity of `C94_login_noticed`: the server has closed the connection. -/
example : (setupConnection briefEnv briefly).1 = .err (.NetBios (.IoError .unexpectedEof)) ∧ SaysLost briefly.w (.NetBios (.IoError .unexpectedEof)) := by
  refine ⟨by decide +kernel, .inr ⟨_, rfl, by decide +kernel⟩⟩

end Demo

end Cifs
