import Verif.Lemmas.Crash
import Verif.Props.Login
import Verif.Props.Ntlm
import Verif.Props.Connect
import Verif.Props.Entries
/-!
# Properties about hostile servers at login (C38)
-/

namespace Cifs
open Spec

variable {σ : Type}

theorem ntlmv1_panics (C : Crypto) (a : Auth) (ch : Bytes) : (ntlmv1Authenticate C a ch : Res SmbError Bytes) = .panic ↔ ch.length ≠ 8 := by
  refine ⟨ntlmv1_panic C a ch, fun h => ?_⟩
  have hd : ∀ d, (desOneshot C d ch : Res SmbError Bytes) = .panic := by
    intro d
    unfold desOneshot
    by_cases hl : d.length ≤ 7
    · obtain ⟨k, h1, _⟩ := C52_key d hl
      rw [h1, Res.ok_bind, if_pos h]
    · unfold expandDesKey
      rw [if_pos (by omega)]
      rfl
  unfold ntlmv1Authenticate
  dsimp only
  rw [hd]
  rfl

/-- **C52** There is a legacy response exactly for challenges of eight bytes; any other one is a panic, and never an error. -/
theorem C52_response_exactly (C : Crypto) (a : Auth) (ch : Bytes) :
    ((∃ r, (ntlmv1Authenticate C a ch : Res SmbError Bytes) = .ok r) ↔ ch.length = 8) ∧
      ((ntlmv1Authenticate C a ch : Res SmbError Bytes) = .panic ↔ ch.length ≠ 8) := by
  refine ⟨⟨fun ⟨r, h⟩ => ?_, fun h => ?_⟩, ntlmv1_panics C a ch⟩
  · by_cases h8 : ch.length = 8
    · exact h8
    · rw [(ntlmv1_panics C a ch).mpr h8] at h; cases h
  · obtain ⟨_, _, _, _, _, _, e, _⟩ := C52_response C a ch h
    exact ⟨_, e⟩

example (C : Crypto) : (ntlmv1Authenticate C ⟨[], [], [], []⟩ (zeros 9) : Res SmbError Bytes) = .panic := (C52_response_exactly _ _ _).2.mpr (by decide)

theorem sent_append {σ : Type} {log : σ → List Bytes} {a b : σ} {p q : List Bytes} (h : log a = log b ++ p) (h' : log a = log b ++ q) : p = q :=
  List.append_cancel_left (h.symm.trans h')

/-- When a session setup without extended security panics. -/
theorem classic_crash {E : Env σ} {log : σ → List Bytes} (hlog : Logs E.V log) {t : St σ} (ch : Bytes) (hm : ¬ (E.checked = true ∧ t.cli.mid.toNat = 65535)) :
    (authenticateNtlm E ch t).1 = .panic ↔ ∃ l, log (authenticateNtlm E ch t).2.w.srv = log t.w.srv ++ l ∧
      (l = [] ∧ ch.length ≠ 8 ∨ ∃ p, l = [p] ∧ SetupCrash E.V t.w.srv t.w.inbox.flatten p) := by
  unfold authenticateNtlm
  rw [M.bind_ok (show getCli t = (.ok t.cli, t) from rfl)]
  cases hs : (ntlmv1Authenticate E.C t.cli.auth ch : Res SmbError Bytes) with
  | panic =>
    rw [M.bind_panic (show (M.ofRes Error.SMBError (.panic : Res SmbError Bytes) : CM σ Bytes) t = (.panic, t) from rfl)]
    exact ⟨fun _ => ⟨[], by simp, .inl ⟨rfl, (ntlmv1_panics _ _ _).mp hs⟩⟩, fun _ => rfl⟩
  | err e =>
    exfalso
    by_cases h8 : ch.length = 8
    · obtain ⟨_, _, _, _, _, _, e, _⟩ := C52_response E.C t.cli.auth ch h8
      rw [hs] at e; cases e
    · rw [(ntlmv1_panics _ _ _).mpr h8] at hs; cases hs
  | ok secret =>
    rw [M.bind_ok (show (M.ofRes Error.SMBError (.ok secret : Res SmbError Bytes) : CM σ Bytes) t = (.ok secret, t) from rfl)]
    have h8 : ¬ ch.length ≠ 8 := fun h => by rw [(ntlmv1_panics E.C t.cli.auth _).mpr h] at hs; cases hs
    have hc := setup_crash hlog (SessionSetupMsg.withAuth t.cli.auth.user t.cli.auth.domain secret) hm
    have hcm : sessionSetup E t.cli.auth.user t.cli.auth.domain secret =
      command E (SessionSetupMsg.withAuth t.cli.auth.user t.cli.auth.domain secret).msg SessionSetupReply.reply := rfl
    rw [← hcm] at hc
    generalize sessionSetup E t.cli.auth.user t.cli.auth.domain secret = m at hc
    rcases hr : m t with ⟨o, t1⟩
    by_cases ho : ∃ r, o = .ok r
    · obtain ⟨r, rfl⟩ := ho
      rw [hr] at hc
      rw [M.bind_ok hr]
      refine ⟨fun h => ?_, ?_⟩
      · cases h
      · rintro ⟨l, h1, ⟨rfl, h2⟩ | ⟨p, rfl, h2⟩⟩
        · exact absurd h2 h8
        · cases hc.mpr ⟨p, h1, h2⟩
    · have hst := M.bind_stuck (f := fun setupReply => modifyCli (fun c => { c with uid := setupReply.uid })) (m := m) (s := t)
        (fun a ha => ho ⟨a, by rw [hr] at ha; exact ha⟩)
      rw [hst.1, hst.2, hc]
      constructor
      · rintro ⟨p, h1, h2⟩; exact ⟨[p], h1, .inr ⟨p, rfl, h2⟩⟩
      · rintro ⟨l, h1, ⟨rfl, h2⟩ | ⟨p, rfl, h2⟩⟩
        · exact absurd h2 h8
        · exact ⟨p, h1, h2⟩

/-- The security blob of a session setup reply is determined by it. -/
theorem blob_det {ps ds m m' : Bytes} (h : ps.length < 8 ∧ m = [] ∨ u16At ps 6 = some m.length ∧ ∃ more, ds = m ++ more)
    (h' : ps.length < 8 ∧ m' = [] ∨ u16At ps 6 = some m'.length ∧ ∃ more, ds = m' ++ more) : m = m' := by
  have hno : ps.length < 8 → ∀ n, u16At ps 6 ≠ some n := by
    intro hl n hn
    unfold u16At u8At at hn
    rw [List.getElem?_eq_none (l := ps) (i := 6 + 1) (by omega)] at hn
    cases h : ps[6]? <;> rw [h] at hn <;> cases hn
  rcases h with ⟨h1, rfl⟩ | ⟨h1, x, rfl⟩ <;> rcases h' with ⟨h2, rfl⟩ | ⟨h2, y, h3⟩
  · rfl
  · exact absurd h2 (hno h1 _)
  · exact absurd h1 (hno h2 _)
  · rw [h1] at h2
    exact (List.append_inj h3 (Option.some.inj h2)).1

theorem ntlm_time {checked : Bool} {now : Instant} {time : UInt64} (h : (encodeWindowsTime checked now : Res SmbError UInt64) = .ok time) :
    (encodeWindowsTime checked now : Res NtlmError UInt64) = .ok time := by
  revert h
  unfold encodeWindowsTime
  dsimp only
  split
  · intro h; cases h
  · split
    · intro h; cases h
    · intro h; cases h; rfl

/-- When an authentication with extended security panics. -/
theorem extended_crash {E : Env σ} {log : σ → List Bytes} (hlog : Logs E.V log) {t : St σ} (hm : t.cli.mid.toNat + 1 < 65535)
    (h0 : 0 ≤ E.now) (h1 : 10 * (E.now / 1000) < 2 ^ 64) :
    (authenticateNtlmv2 E t).1 = .panic ↔ ∃ l, log (authenticateNtlmv2 E t).2.w.srv = log t.w.srv ++ l ∧
      AuthCrash E.V t.w.srv t.w.inbox.flatten l := by
  obtain ⟨time, ht, _⟩ := C53_encode E.checked E.now h0 h1
  have nothing : ∀ x : σ, log x = log t.w.srv → ¬ ∃ l, log x = log t.w.srv ++ l ∧ AuthCrash E.V t.w.srv t.w.inbox.flatten l := by
    rintro x hx ⟨l, hl, hc⟩
    have : l = [] := by rw [hx] at hl; simpa using hl.symm
    subst this
    cases hc
  unfold authenticateNtlmv2
  rw [M.bind_ok (show getCli t = (.ok t.cli, t) from rfl)]
  cases hb : ntlmInit ntlmInitFlags t.cli.auth.domain t.cli.auth.workstation with
  | panic => exact absurd hb (ntlmInit_no_panic _ _ _)
  | err e =>
    rw [M.bind_err (show (M.ofRes Error.NTLMError (.err e : Res NtlmError Bytes) : CM σ Bytes) t = (.err (.NTLMError e), t) from rfl)]
    exact ⟨fun h => (by cases h), fun h => absurd h (nothing _ rfl)⟩
  | ok blob =>
    rw [M.bind_ok (show (M.ofRes Error.NTLMError (.ok blob : Res NtlmError Bytes) : CM σ Bytes) t = (.ok blob, t) from rfl)]
    have hc := setup_crash hlog (s := t) (SessionSetupMsg.withBlob blob) (by omega)
    rcases hr : sessionSetupNtlmv2 E blob t with ⟨o, t1⟩
    have hr' : command E (SessionSetupMsg.withBlob blob).msg SessionSetupReply.reply t = (o, t1) := hr
    rw [hr'] at hc
    by_cases ho : ∃ r, o = .ok r
    · obtain ⟨r, rfl⟩ := ho
      rw [M.bind_ok hr]
      rw [M.bind_ok (show modifyCli (fun c => { c with uid := r.uid }) t1 = (.ok (), t1.withCli (t1.cli.assigned r.uid)) from rfl)]
      obtain ⟨fr, st, ps, ds, k1, k2, k3, k4, k5, k6⟩ := set_up hr'
      obtain ⟨fr0, l1, l2⟩ := command_ok_log hlog (keeps_setup _) hr'
      rw [k1] at l1; cases l1
      -- nothing sent after the first setup
      have one : ∀ l, log t1.w.srv = log t.w.srv ++ l → AuthCrash E.V t.w.srv t.w.inbox.flatten l → BadChallenge r.securityBlob := by
        intro l h2 h3
        have e := sent_append l2 h2
        subst e
        cases h3 with
        | setup h => cases hc.mpr ⟨_, l2, h⟩
        | challenge h hs hl hm hb =>
          obtain ⟨_, _, rfl, rfl, _, _⟩ := setupRound_det k3 h
          rw [blob_det k5.blob hm]; exact hb
      cases hch : ChallengeMsg.parse r.securityBlob with
      | panic =>
        rw [M.bind_panic (show (M.ofRes Error.NTLMError (.panic : Res NtlmError ChallengeMsg) : CM σ ChallengeMsg) _ = (.panic, _) from rfl)]
        exact ⟨fun _ => ⟨_, l2, .challenge k3 k2 k4 k5.blob ((C38_challenge _).mp hch)⟩, fun _ => rfl⟩
      | err e =>
        rw [M.bind_err (show (M.ofRes Error.NTLMError (.err e : Res NtlmError ChallengeMsg) : CM σ ChallengeMsg) _ = (.err (.NTLMError e), _) from rfl)]
        refine ⟨fun h => (by cases h), ?_⟩
        rintro ⟨l, h2, h3⟩
        rw [(C38_challenge _).mpr (one l h2 h3)] at hch; cases hch
      | ok ch =>
        rw [M.bind_ok (show (M.ofRes Error.NTLMError (.ok ch : Res NtlmError ChallengeMsg) : CM σ ChallengeMsg) _ = (.ok ch, _) from rfl)]
        have ht' : (encodeWindowsTime E.checked E.now : Res NtlmError UInt64) = .ok time := ntlm_time ht
        rw [ht', M.bind_ok (show (M.ofRes Error.NTLMError (.ok time : Res NtlmError UInt64) : CM σ UInt64) _ = (.ok time, _) from rfl)]
        have none : ∀ x : St σ, x.w.srv = t1.w.srv → ¬ ∃ l, log x.w.srv = log t.w.srv ++ l ∧ AuthCrash E.V t.w.srv t.w.inbox.flatten l := by
          rintro x hx ⟨l, h2, h3⟩
          rw [hx] at h2
          rw [(C38_challenge _).mpr (one l h2 h3)] at hch; cases hch
        cases hb' : ch.response E.C t.cli.auth time E.random with
        | panic => exact absurd hb' (response_no_panic _ _ _ _ _)
        | err e =>
          rw [M.bind_err (show (M.ofRes Error.NTLMError (.err e : Res NtlmError Bytes) : CM σ Bytes) _ = (.err (.NTLMError e), _) from rfl)]
          exact ⟨fun h => (by cases h), fun h => absurd h (none _ rfl)⟩
        | ok blob' =>
          rw [M.bind_ok (show (M.ofRes Error.NTLMError (.ok blob' : Res NtlmError Bytes) : CM σ Bytes) _ = (.ok blob', _) from rfl)]
          generalize ht2 : t1.withCli (t1.cli.assigned r.uid) = t2
          have e1 : t2.w = t1.w := by rw [← ht2]; rfl
          have e2 : t2.cli.mid.toNat = t.cli.mid.toNat + 1 := by
            rw [← ht2]; show t1.cli.mid.toNat = _
            rw [k6]
            show (t.cli.mid + 1).toNat = _
            rw [UInt16.toNat_add]
            show (t.cli.mid.toNat + 1) % 65536 = _
            omega
          have hc2 := setup_crash hlog (s := t2) (SessionSetupMsg.withBlob blob') (by omega)
          rcases hr2 : sessionSetupNtlmv2 E blob' t2 with ⟨o2, t3⟩
          have hr2' : command E (SessionSetupMsg.withBlob blob').msg SessionSetupReply.reply t2 = (o2, t3) := hr2
          rw [hr2'] at hc2
          -- what the second setup adds
          have fwd : o2 = .panic → ∃ l, log t3.w.srv = log t.w.srv ++ l ∧ AuthCrash E.V t.w.srv t.w.inbox.flatten l := by
            intro h
            obtain ⟨p, h2, h3⟩ := hc2.mp h
            rw [e1] at h2 h3
            exact ⟨[message fr, p], by dsimp only at h2; rw [h2, l2]; simp, .response k3 h3⟩
          have bwd : (∃ l, log t3.w.srv = log t.w.srv ++ l ∧ AuthCrash E.V t.w.srv t.w.inbox.flatten l) → o2 = .panic := by
            rintro ⟨l, h2, h3⟩
            rcases command_log hlog (SessionSetupMsg.withBlob blob').msg SessionSetupReply.reply t2 with h | ⟨fr', _, h⟩
            · rw [hr2', e1] at h
              exact absurd ⟨l, by rw [← h]; exact h2, h3⟩ (none t1 rfl)
            · rw [hr2', e1] at h
              dsimp only at h
              have e := sent_append (p := [message fr, message fr']) (h.trans (by rw [l2]; simp)) h2
              subst e
              cases h3 with
              | response g1 g2 =>
                obtain ⟨_, _, _, _, rfl, rfl⟩ := setupRound_det k3 g1
                exact hc2.mpr ⟨_, by rw [e1]; exact h, by rw [e1]; exact g2⟩
          cases o2 with
          | ok r2 => rw [M.bind_ok hr2]; exact ⟨fun h => (by cases h), fun h => by cases bwd h⟩
          | err e => rw [M.bind_err hr2]; exact ⟨fun h => (by cases h), fun h => by cases bwd h⟩
          | panic => rw [M.bind_panic hr2]; exact ⟨fun h => fwd rfl, fun h => rfl⟩
          | pending => rw [M.bind_pending hr2]; exact ⟨fun h => (by cases h), fun h => by cases bwd h⟩
          | running => rw [M.bind_running hr2]; exact ⟨fun h => (by cases h), fun h => by cases bwd h⟩
    · have bwd : (∃ l, log t1.w.srv = log t.w.srv ++ l ∧ AuthCrash E.V t.w.srv t.w.inbox.flatten l) → o = .panic := by
        rintro ⟨l, h2, h3⟩
        rcases command_log hlog (SessionSetupMsg.withBlob blob).msg SessionSetupReply.reply t with h | ⟨fr, hfr, h⟩
        · rw [hr'] at h
          exact absurd ⟨l, h2, h3⟩ (nothing _ h)
        · rw [hr'] at h
          have e := sent_append h h2
          subst e
          cases h3 with
          | setup g => exact hc.mpr ⟨_, h, g⟩
          | challenge g gs gl gm gb =>
            obtain ⟨f, g1, g2, g3, g4, g5⟩ := g
            obtain ⟨i, hp, hout⟩ := replied hlog (keeps_setup (.withBlob blob)) SessionSetupReply.reply
              (s := t) (st := _) (f := f) (ps := _) (ds := _) ⟨_, _, _, by rw [hr']; exact h, g1, g2, g3, g5⟩
              (by rcases gs with h | h; exact .inl h; exact .inr ⟨h, rfl⟩)
            rw [hr', make_andx SessionSetupReply.reply rfl i gl.1 gl.2] at hout
            rename_i ps ds _ _ _ _ _
            have hout : o = ((SessionSetupReply.create { info := i, parameter := ps.drop 4, data := ds, dataOffset := 35 + ps.length }).mapErr Error.SMBError).out := hout
            rcases SessionSetupReply.create_cases i ps ds (35 + ps.length) with ⟨_, _, v', e, hv⟩ | ⟨_, e⟩
            · rw [e] at hout
              exact absurd ⟨v', hout⟩ ho
            · rw [e] at hout; exact hout
      have fwd : o = .panic → ∃ l, log t1.w.srv = log t.w.srv ++ l ∧ AuthCrash E.V t.w.srv t.w.inbox.flatten l := by
        intro h
        obtain ⟨p, h2, h3⟩ := hc.mp h
        exact ⟨[p], h2, .setup h3⟩
      cases o with
      | ok r => exact absurd ⟨r, rfl⟩ ho
      | err e => rw [M.bind_err hr]; exact ⟨fun h => (by cases h), fun h => by cases bwd h⟩
      | panic => rw [M.bind_panic hr]; exact ⟨fun h => fwd rfl, fun h => rfl⟩
      | pending => rw [M.bind_pending hr]; exact ⟨fun h => (by cases h), fun h => by cases bwd h⟩
      | running => rw [M.bind_running hr]; exact ⟨fun h => (by cases h), fun h => by cases bwd h⟩

/-- The packets sent so far stay sent. -/
theorem grows_trans {log : σ → List Bytes} {a b c : σ} (h : ∃ l, log b = log a ++ l) (h' : ∃ l, log c = log b ++ l) : ∃ l, log c = log a ++ l := by
  obtain ⟨l, h⟩ := h
  obtain ⟨l', h'⟩ := h'
  exact ⟨l ++ l', by rw [h', h, List.append_assoc]⟩

theorem command_grows {α : Type} {E : Env σ} {log : σ → List Bytes} (hlog : Logs E.V log) (m : Msg) (R : Reply α) (s : St σ) :
    ∃ l, log (command E m R s).2.w.srv = log s.w.srv ++ l := by
  rcases command_log hlog m R s with h | ⟨fr, _, h⟩
  · exact ⟨[], by rw [h]; simp⟩
  · exact ⟨_, h⟩

theorem classic_grows {E : Env σ} {log : σ → List Bytes} (hlog : Logs E.V log) (ch : Bytes) (t : St σ) :
    ∃ l, log (authenticateNtlm E ch t).2.w.srv = log t.w.srv ++ l := by
  let P : St σ → Prop := fun x => ∃ l, log x.w.srv = log t.w.srv ++ l
  have h0 : P t := ⟨[], by simp⟩
  show P (authenticateNtlm E ch t).2
  unfold authenticateNtlm
  refine M.bind_state P h0 ?_
  intro c s1 h; cases h
  refine M.bind_state P (by rw [M.ofRes_state]; exact h0) ?_
  intro secret s2 h
  obtain ⟨_, rfl⟩ := M.ofRes_inv h
  refine M.bind_state P (command_grows hlog _ _ _) ?_
  intro r s3 h
  have := command_grows hlog (SessionSetupMsg.withAuth s2.cli.auth.user s2.cli.auth.domain secret).msg SessionSetupReply.reply s2
  rw [show command E _ _ s2 = _ from h] at this
  exact this

theorem extended_grows {E : Env σ} {log : σ → List Bytes} (hlog : Logs E.V log) (t : St σ) :
    ∃ l, log (authenticateNtlmv2 E t).2.w.srv = log t.w.srv ++ l := by
  let P : St σ → Prop := fun x => ∃ l, log x.w.srv = log t.w.srv ++ l
  have h0 : P t := ⟨[], by simp⟩
  show P (authenticateNtlmv2 E t).2
  unfold authenticateNtlmv2
  refine M.bind_state P h0 ?_
  intro c s1 h; cases h
  refine M.bind_state P (by rw [M.ofRes_state]; exact h0) ?_
  intro blob s2 h
  obtain ⟨_, rfl⟩ := M.ofRes_inv h
  refine M.bind_state P (command_grows hlog _ _ _) ?_
  intro r s3 h
  have h3 : P s3 := by
    have := command_grows hlog (SessionSetupMsg.withBlob blob).msg SessionSetupReply.reply s2
    rw [show command E _ _ s2 = _ from h] at this
    exact this
  refine M.bind_state P h3 ?_
  intro u s4 h
  have h4 : P s4 := by cases h; exact h3
  refine M.bind_state P (by rw [M.ofRes_state]; exact h4) ?_
  intro ch s5 h
  obtain ⟨_, rfl⟩ := M.ofRes_inv h
  refine M.bind_state P (by rw [M.ofRes_state]; exact h4) ?_
  intro time s6 h
  obtain ⟨_, rfl⟩ := M.ofRes_inv h
  refine M.bind_state P (by rw [M.ofRes_state]; exact h4) ?_
  intro blob' s7 h
  obtain ⟨_, rfl⟩ := M.ofRes_inv h
  have h8 : P (sessionSetupNtlmv2 E blob' s7).2 := grows_trans h4 (command_grows hlog _ _ _)
  refine M.bind_state P h8 ?_
  intro r' s8 h
  rw [h] at h8
  exact h8

/-- **C38** (partial: the property fails; this is exactly when.) With a sane clock, a login on a connection with enough multiplex ids left
panics if and only if the server answers it in one of these ways. -/
theorem C38_login_partial {E : Env σ} {log : σ → List Bytes} (hlog : Logs E.V log) (s : St σ) (hm : s.cli.mid.toNat + 2 < 65535)
    (h0 : 0 ≤ E.now) (h1 : 10 * (E.now / 1000) < 2 ^ 64) :
    (setupConnection E s).1 = .panic ↔ ∃ l, log (setupConnection E s).2.w.srv = log s.w.srv ++ l ∧
      LoginCrash E.V s.w.srv s.w.inbox.flatten l := by
  have hc := negotiate_crash hlog (s := s) (by omega)
  rcases hr : negotiate E s with ⟨o, s1⟩
  rw [hr] at hc
  by_cases ho : ∃ v, o = .ok v
  · obtain ⟨v, rfl⟩ := ho
    rw [setup_step hr]
    obtain ⟨fr, ps, ds, k1, k2, k3, k4⟩ := negotiated hr
    obtain ⟨fr0, l1, l2⟩ := command_ok_log hlog keeps_negotiate hr
    rw [k1] at l1; cases l1
    generalize ht : s1.withCli (s1.cli.configured v) = t
    have e1 : t.w = s1.w := by rw [← ht]; rfl
    have e2 : t.cli.mid.toNat = s.cli.mid.toNat + 1 := by
      rw [← ht]; show s1.cli.mid.toNat = _
      rw [k4]
      show (s.cli.mid + 1).toNat = _
      rw [UInt16.toNat_add]
      show (s.cli.mid.toNat + 1) % 65536 = _
      omega
    have glue : ∀ x : σ, ∀ l, log x = log t.w.srv ++ l ↔ log x = log s.w.srv ++ message fr :: l := by
      intro x l
      rw [e1, l2]; simp
    -- a bad reply to the negotiation
    have nobad : ∀ f v' b', Round E.V s.w.srv s.w.inbox.flatten (message fr) f v' b' → ¬ BadReply 0x72 (· = 0) BadNegotiate f :=
      fun f v' b' h1 h2 => by cases hc.mpr ⟨_, f, v', b', l2, h1, h2⟩
    have first : ∀ x : σ, (∃ l, log x = log t.w.srv ++ l) → ∀ p l, log x = log s.w.srv ++ p :: l → p = message fr ∧ log x = log t.w.srv ++ l := by
      rintro x ⟨l, hl⟩ p l' hl'
      have e := sent_append ((glue x l).mp hl) hl'
      injection e with e e'
      subst e'
      exact ⟨e.symm, hl⟩
    by_cases hx : Capabilities.contains v.capabilities Capabilities.EXTENDED_SECURITY = true
    · have hx' := (offers_extended k3).mp hx
      rw [if_pos hx, extended_crash hlog (by omega) h0 h1]
      constructor
      · rintro ⟨l, h2, h3⟩
        rw [e1] at h3
        exact ⟨_, (glue _ _).mp h2, .extended k2 hx' h3⟩
      · rintro ⟨l, h2, h3⟩
        have hf := first _ (extended_grows hlog t)
        cases h3 with
        | negotiate h hb =>
          obtain ⟨rfl, _⟩ := hf _ _ h2
          exact absurd hb (nobad _ _ _ h)
        | key h hn' =>
          obtain ⟨rfl, _⟩ := hf _ _ h2
          obtain ⟨rfl, _⟩ := negotiateRound_det k2 h
          exact absurd hx' hn'
        | classic h hn' =>
          obtain ⟨rfl, _⟩ := hf _ _ h2
          obtain ⟨rfl, _⟩ := negotiateRound_det k2 h
          exact absurd hx' hn'
        | extended h _ h' =>
          obtain ⟨rfl, g⟩ := hf _ _ h2
          obtain ⟨_, _, rfl, rfl⟩ := negotiateRound_det k2 h
          exact ⟨_, g, by rw [e1]; exact h'⟩
    · have hx' : ¬ OffersExtended ps := fun h => hx ((offers_extended k3).mpr h)
      rw [if_neg hx, classic_crash hlog v.challenge (by omega)]
      obtain ⟨hn, more, hmore⟩ := k3.challenge
      constructor
      · rintro ⟨l, h2, ⟨rfl, h3⟩ | ⟨p, rfl, h3⟩⟩
        · exact ⟨_, (glue _ _).mp h2, .key k2 hx' hn (by rw [hmore]; simp) h3⟩
        · rw [e1] at h3
          exact ⟨_, (glue _ _).mp h2, .classic k2 hx' h3⟩
      · rintro ⟨l, h2, h3⟩
        have hf := first _ (classic_grows hlog v.challenge t)
        cases h3 with
        | negotiate h hb =>
          obtain ⟨rfl, _⟩ := hf _ _ h2
          exact absurd hb (nobad _ _ _ h)
        | key h _ hn' _ h8 =>
          obtain ⟨rfl, g⟩ := hf _ _ h2
          obtain ⟨rfl, _⟩ := negotiateRound_det k2 h
          rw [hn] at hn'
          cases hn'
          exact ⟨_, g, .inl ⟨rfl, h8⟩⟩
        | classic h _ h' =>
          obtain ⟨rfl, g⟩ := hf _ _ h2
          obtain ⟨_, _, rfl, rfl⟩ := negotiateRound_det k2 h
          exact ⟨_, g, .inr ⟨_, rfl, by rw [e1]; exact h'⟩⟩
        | extended h hx'' _ =>
          obtain ⟨rfl, _⟩ := hf _ _ h2
          obtain ⟨rfl, _⟩ := negotiateRound_det k2 h
          exact absurd hx'' hx'
  · have hst : ((setupConnection E s).1 = .panic ↔ (negotiate E s).1 = .panic) ∧ (setupConnection E s).2 = (negotiate E s).2 := by
      unfold setupConnection
      exact M.bind_stuck (fun a ha => ho ⟨a, by rw [hr] at ha; exact ha⟩)
    rw [hst.1, hst.2, hr, hc]
    constructor
    · rintro ⟨p, f, v', b', h2, h3, h4⟩
      exact ⟨_, h2, .negotiate h3 h4⟩
    · rintro ⟨l, h2, h3⟩
      have hl := command_log hlog negotiateMsg ServerSetup.reply s
      rw [show command E negotiateMsg ServerSetup.reply s = _ from hr] at hl
      have hone : ∃ p, l = [p] := by
        rcases hl with h | ⟨fr, _, h⟩
        · have e := sent_append (p := []) (h.trans (by simp)) h2
          subst e
          cases h3
        · exact ⟨_, (sent_append h h2).symm⟩
      obtain ⟨p, rfl⟩ := hone
      cases h3 with
      | negotiate h hf => exact ⟨_, _, _, _, h2, h, hf⟩
      | @key _ ps ds b' v' n h hx hn hd h8 =>
        exfalso
        obtain ⟨_, f, g1, g2, g3, g4, g5⟩ := h
        obtain ⟨i, hp, hout⟩ := replied hlog keeps_negotiate ServerSetup.reply (s := s) (st := 0) (f := f) (ps := ps) (ds := ds)
          ⟨_, _, _, by rw [show command E negotiateMsg ServerSetup.reply s = _ from hr]; exact h2, g1, g2, g3, g4⟩ (.inl rfl)
        rw [show command E negotiateMsg ServerSetup.reply s = _ from hr, make_plain ServerSetup.reply rfl i] at hout
        have hlen : 34 ≤ ps.length := by
          refine Nat.lt_of_not_le fun h => ?_
          rw [u8At, List.getElem?_eq_none h] at hn
          cases hn
        have := ServerSetup.create_eq i ds (35 + ps.length) hlen g5 n hn
        rw [if_pos hd] at this
        obtain ⟨w, hw, _⟩ := this
        rw [show ServerSetup.reply.create _ = _ from hw] at hout
        exact ho ⟨w, hout⟩
      | extended h hx h' => cases h'

/-- What a login that follows a connection does to the outcome of `open`. -/
theorem finishOpen_crash {E : Env σ} {log : σ → List Bytes} (hlog : Logs E.V log) (a : Auth) (w : World σ) (ports : List UInt16)
    (h0 : 0 ≤ E.now) (h1 : 10 * (E.now / 1000) < 2 ^ 64) :
    (finishOpen E a { outcome := .ok (), world := some w, ports }).outcome = .panic ↔
      ∃ s l, (finishOpen E a { outcome := .ok (), world := some w, ports }).state = some s ∧ log s.w.srv = log w.srv ++ l ∧
        LoginCrash E.V w.srv w.inbox.flatten l := by
  show (setupConnection E { cli := .init a, w }).1 = _ ↔ ∃ s l, some (setupConnection E { cli := .init a, w }).2 = some s ∧ _
  rw [C38_login_partial hlog _ (show (0 : UInt16).toNat + 2 < 65535 by decide) h0 h1]
  constructor
  · rintro ⟨l, h⟩; exact ⟨_, l, rfl, h⟩
  · rintro ⟨s, l, hs, h⟩; cases hs; exact ⟨l, h⟩

/-- No server makes the session request panic. -/
theorem createSession_no_panic (V : Server σ) (w : World σ) (name : Str) : (createSession V "*SMBSERVER".toList name w).1 ≠ .panic := by
  have hsend : sendFrame V (.SessionRequest (sessionRequestPayload "*SMBSERVER".toList name)) w = writeExactly V (C06_frame name) w := by
    simp only [sendFrame, sessionRequest_encode, M.bind_apply, M.bind, M.ofRes]
  unfold createSession
  rcases hw : writeLoop w.wsched (C06_frame name) w.out with ⟨r, ws, out⟩
  cases r with
  | failed e => simp only [M.bind_apply, M.bind, hsend, writeExactly, hw]; simp
  | blocked => simp only [M.bind_apply, M.bind, hsend, writeExactly, hw]; simp
  | done =>
    have h1 : sendFrame V (.SessionRequest (sessionRequestPayload "*SMBSERVER".toList name)) w = (.ok (), (writeExactly V (C06_frame name) w).2) := by
      rw [hsend]; simp only [writeExactly, hw]
    rw [M.bind_ok h1]
    generalize (writeExactly V (C06_frame name) w).2 = w'
    obtain ⟨ib, _, f2⟩ := recvFrame_flat V w'
    have hno := (flatRecv_cases (V.tail w'.srv) w'.flat).2.1
    rcases hf : flatRecv (V.tail w'.srv) w'.flat with ⟨o, b⟩
    rw [hf] at f2 hno
    cases o with
    | ok f => rw [M.bind_ok f2]; cases f <;> (intro h; cases h)
    | err e => rw [M.bind_err f2]; simp
    | panic => exact absurd rfl hno
    | pending => rw [M.bind_pending f2]; simp
    | running => rw [M.bind_running f2]; simp

/-- **C38** (partial) With a sane clock, `open` panics if and only if a connection is established and the login on it goes in one of these
ways. -/
theorem C38_open_partial {E : Env σ} {log : σ → List Bytes} (hlog : Logs E.V log) (dial : Dial σ) (port : Option UInt16) (auth : Option Auth)
    (h0 : 0 ≤ E.now) (h1 : 10 * (E.now / 1000) < 2 ^ 64) :
    (openCifs E dial port auth).outcome = .panic ↔ ∃ s w sent v b l, (openCifs E dial port auth).state = some s ∧
      log s.w.srv = log w.srv ++ sent ++ l ∧
      Connected E.V dial (netbiosName (auth.getD defaultAuth).workstation) port (openCifs E dial port auth).ports sent w v b ∧
      LoginCrash E.V v b l := by
  rw [openCifs_eq]
  generalize auth.getD defaultAuth = a
  constructor
  · intro h
    have hd := dialled_ok hlog (dial := dial) (port := port) (a := a)
    rcases hx : dialled E.V dial port a with ⟨o, w, ps⟩
    rw [hx] at hd h
    have hp : o ≠ .panic := by
      cases port with
      | some p =>
        cases hq : dial p with
        | error e => simp only [dialled, openRaw, hq] at hx; cases hx; simp
        | ok w => simp only [dialled, openRaw, hq] at hx; cases hx; simp
      | none =>
        cases hq : dial 445 with
        | ok w => simp only [dialled, openNetbios, hq] at hx; cases hx; simp
        | error e =>
          cases hq' : dial 139 with
          | error e => simp only [dialled, openNetbios, hq, hq'] at hx; cases hx; simp
          | ok w =>
            simp only [dialled, openNetbios, hq, hq'] at hx
            have := createSession_no_panic E.V w a.workstation
            injection hx with hx
            rw [← hx]; exact this
    have ho : o = .ok () := by
      cases o with
      | ok u => rfl
      | err e => cases h
      | panic => exact absurd rfl hp
      | pending => cases h
      | running => cases h
    subst ho
    rcases hd (.inl rfl) with ⟨e, he⟩ | ⟨w1, w0, sent, _, e2, e3, e4⟩
    · cases he
    · simp only at e2
      subst e2
      obtain ⟨s, l, k1, k2, k3⟩ := (finishOpen_crash hlog a w1 ps h0 h1).mp h
      exact ⟨s, w0, sent, _, _, l, k1, by rw [k2, e3], e4, k3⟩
  · rintro ⟨s, w, sent, v, b, l, k1, k2, k3, k4⟩
    have hports : ∀ d : Dialled σ, (finishOpen E a d).ports = d.ports := by
      rintro ⟨o, w, ps⟩
      cases o <;> cases w <;> rfl
    rw [hports] at k3
    generalize hps : (dialled E.V dial port a).ports = ports at k3
    cases k3 with
    | raw h =>
      simp only [dialled, openRaw, h] at k1 ⊢
      exact (finishOpen_crash hlog a w _ h0 h1).mpr ⟨s, l, k1, by rw [k2]; simp, k4⟩
    | direct h =>
      simp only [dialled, openNetbios, h] at k1 ⊢
      exact (finishOpen_crash hlog a w _ h0 h1).mpr ⟨s, l, k1, by rw [k2]; simp, k4⟩
    | @session _ e p _ h h' hp hr =>
      have hd : dialled E.V dial none a =
          Dialled.mk (createSession E.V "*SMBSERVER".toList a.workstation w).1 (some (createSession E.V "*SMBSERVER".toList a.workstation w).2) [445, 139] := by
        simp only [dialled, openNetbios, h, h']
      rw [hd] at k1 ⊢
      have hne : l ≠ [] := by intro hl; subst hl; cases k4
      rcases hc : createSession E.V "*SMBSERVER".toList a.workstation w with ⟨o, w'⟩
      rw [hc] at k1
      by_cases hw : (writeLoop w.wsched (C06_frame a.workstation) w.out).1 = .done
      · obtain ⟨x, y, e1, e2, e3⟩ := writeLoop_out w.wsched (C06_frame a.workstation) w.out
        rcases hq : writeLoop w.wsched (C06_frame a.workstation) w.out with ⟨r, ws, out⟩
        rw [hq] at e2 e3 hw
        simp only at hw e2
        subst hw
        have := e3.mp rfl
        subst this
        rw [List.append_nil] at e1
        rw [← e1] at e2
        subst e2
        obtain ⟨_, g2, g3, g4⟩ := createSession_done E.V w a.workstation hq
        rw [hc] at g2 g3 g4
        have hl : log w'.srv = log w.srv ++ [C06_frame a.workstation] := by rw [g2, hlog]
        by_cases ho : o = .ok ()
        · subst ho
          have hst : s = (setupConnection E { cli := .init a, w := w' }).2 := by cases k1; rfl
          obtain ⟨l', hl'⟩ : ∃ l', log s.w.srv = log w'.srv ++ l' := by
            obtain ⟨ps, h3, _⟩ := C46_flow hlog { cli := .init a, w := w' }
            exact ⟨ps, by rw [hst]; exact h3⟩
          have e5 : p :: l = C06_frame a.workstation :: l' := by
            refine sent_append (log := log) (a := s.w.srv) (b := w.srv) (by rw [k2]; simp) (by rw [hl', hl]; simp)
          injection e5 with e5 e6
          subst e5 e6
          have hin := g4 _ hr
          refine (finishOpen_crash hlog a w' _ h0 h1).mpr ⟨s, l, k1, hl', ?_⟩
          rw [show w'.srv = _ from g2, show w'.inbox.flatten = _ from hin]
          exact k4
        · exfalso
          have hs : s.w.srv = w'.srv := by
            cases o with
            | ok a => exact absurd rfl ho
            | _ => cases k1; rfl
          rw [hs, hl] at k2
          have := congrArg List.length k2
          simp at this
          exact hne this
      · exfalso
        obtain ⟨u1, u2⟩ := createSession_unsent E.V w a.workstation hw
        rw [hc] at u1 u2
        have hs : s.w.srv = w.srv := by
          cases o with
          | ok a => exact absurd rfl u1
          | _ => cases k1; exact u2
        rw [hs] at k2
        have := congrArg List.length k2
        simp at this

namespace Demo

/-- non-vacuity: a server whose answer to the negotiation has 20 parameter bytes; one with a key of 7 bytes; one whose session setup reply
has no parameters; one with a challenge of 4 bytes; one whose last reply is cut short. -/
def crashing : List (List Bytes) :=
  [[replyWith .Negotiate (.Known .SUCCESS) 0 0 ((negotiateParams 0 0xf3fd 8).take 20) []],
   [replyWith .Negotiate (.Known .SUCCESS) 0 0 (negotiateParams 0 0xf3fd 7) [1, 2, 3, 4, 5, 6, 7]],
   [replyWith .Negotiate (.Known .SUCCESS) 0 0 (negotiateParams 0 0xf3fd 8) [1, 2, 3, 4, 5, 6, 7, 8],
    replyWith .SessionSetup (.Known .SUCCESS) 100 1 [] []],
   [replyWith .Negotiate (.Known .SUCCESS) 0 0 (negotiateParams 0 0x8000f3fd 0) [],
    replyWith .SessionSetup (.Known .MORE_PROCESSING) 100 1 [0xff, 0, 0, 0, 0, 0, 4, 0] (challenge.take 4)],
   [replyWith .Negotiate (.Known .SUCCESS) 0 0 (negotiateParams 0 0x8000f3fd 0) [],
    replyWith .SessionSetup (.Known .MORE_PROCESSING) 100 1 [0xff, 0, 0, 0, 0, 0, 54, 0] challenge,
    replyWith .SessionSetup (.Known .SUCCESS) 100 2 [0xff, 0, 0, 0] []]]

/-- non-vacuity of `C38_login_partial` and `C38_open_partial`: each of these servers crashes the client, in the way described. -/
example : ∀ answers ∈ crashing, ∃ l, l.length = answers.length ∧ LoginCrash (env true).V (loginSt defaultAuth answers).w.srv [] l := by
  intro answers h
  have key : ∀ answers ∈ crashing, isPanic (setupConnection (env true) (loginSt defaultAuth answers)).1 = true ∧
      (setupConnection (env true) (loginSt defaultAuth answers)).2.w.srv.2.length = answers.length := by decide +kernel
  obtain ⟨k1, k2⟩ := key answers h
  obtain ⟨l, h1, h2⟩ := (C38_login_partial (E := env true) (log := Prod.snd) (logs_logged _) (loginSt defaultAuth answers) (by show (0 : Nat) + 2 < 65535; omega) (by decide) (by decide)).mp (isPanic_of k1)
  exact ⟨l, by rw [← k2, h1]; rfl, h2⟩

example : ∀ answers ∈ crashing, ∃ w sent v b l, Connected (env true).V (dial answers) (netbiosName defaultAuth.workstation) (some 445) [445] sent w v b ∧
    LoginCrash (env true).V v b l := by
  intro answers h
  have key : ∀ answers ∈ crashing, isPanic (openCifs (env true) (dial answers) (some 445) none).outcome = true ∧
      (openCifs (env true) (dial answers) (some 445) none).ports = [445] := by decide +kernel
  obtain ⟨k1, k2⟩ := key answers h
  obtain ⟨s, w, sent, v, b, l, _, _, h3, h4⟩ :=
    (C38_open_partial (E := env true) (log := Prod.snd) (logs_logged _) (dial answers) (some 445) none (by decide) (by decide)).mp (isPanic_of k1)
  rw [k2] at h3
  exact ⟨w, sent, v, b, l, h3, h4⟩

end Demo

end Cifs
