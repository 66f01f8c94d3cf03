import Verif.Lemmas.Blind
import Verif.Lemmas.Debug
import Verif.Props.Crash
import Verif.Props.Login
import Verif.Props.LoginCause
/-!
# What a client tells about its password

C75: outcomes tell nothing about it that the server does not know; `{:?}` shows it.
-/

namespace Cifs
open Spec

variable {σ α : Type} {R : σ → σ → Prop}

/-! ## Outcomes -/

/-- Programs that read the client's fields first. -/
theorem blind_get {k k' : Cli → CM σ α} (h : ∀ s s' : St σ, Blind R s s' → ((k s.cli s).1 = (k' s'.cli s').1 ∧ Blind R (k s.cli s).2 (k' s'.cli s').2)) :
    Twin (fun _ => False) (Blind R) (getCli >>= k) (getCli >>= k') := by
  intro s s' hb
  rw [M.bind_ok (show (getCli : CM σ Cli) s = (.ok s.cli, s) from rfl), M.bind_ok (show (getCli : CM σ Cli) s' = (.ok s'.cli, s') from rfl)]
  exact .inr (h s s' hb)

theorem Twin.strict {R : St σ → St σ → Prop} {m m' : CM σ α} (h : Twin (fun _ => False) R m m') {s s' : St σ} (hr : R s s') :
    (m s).1 = (m' s').1 ∧ R (m s).2 (m' s').2 := by
  rcases h s s' hr with ⟨h, _⟩ | h
  · exact h.elim
  · exact h

theorem blind_assign (uid : UInt16) :
    Twin (fun _ => False) (Blind R) (modifyCli (fun c => { c with uid }) : CM σ Unit) (modifyCli (fun c => { c with uid })) :=
  fun _ _ h => .inr ⟨rfl, h.modify (fun c => { c with uid }) (fun _ _ => rfl) (fun _ => rfl)⟩

theorem blind_classic {E : Env σ} (hV : Deaf E.V R) (ch : Bytes) :
    Twin (fun _ => False) (Blind R) (authenticateNtlm E ch) (authenticateNtlm E ch) := by
  refine blind_get fun s s' h => ?_
  have ha : s'.cli.auth.user = s.cli.auth.user ∧ s'.cli.auth.domain = s.cli.auth.domain := by rw [h.cli]; exact ⟨rfl, rfl⟩
  rw [ha.1, ha.2]
  cases hs : (ntlmv1Authenticate E.C s.cli.auth ch : Res SmbError Bytes) with
  | panic =>
    have hs' : (ntlmv1Authenticate E.C s'.cli.auth ch : Res SmbError Bytes) = .panic := (ntlmv1_panics _ _ _).mpr ((ntlmv1_panics _ _ _).mp hs)
    rw [hs']
    exact ⟨rfl, h⟩
  | err e => exact absurd hs (by
      by_cases hc : ch.length = 8
      · obtain ⟨_, _, _, _, _, _, h, _⟩ := C52_response E.C s.cli.auth ch hc
        rw [h]; simp
      · rw [(ntlmv1_panics _ _ _).mpr hc]; simp)
  | ok secret =>
    have hc : ch.length = 8 := by
      by_cases hc : ch.length = 8
      · exact hc
      · rw [(ntlmv1_panics _ _ _).mpr hc] at hs; cases hs
    obtain ⟨_, _, _, _, _, _, hs', _⟩ := C52_response E.C s'.cli.auth ch hc
    have hl := (ntlmv1_length hs).trans (ntlmv1_length hs').symm
    rw [hs']
    rw [M.bind_ok (show M.ofRes Error.SMBError (.ok secret) s = (.ok secret, s) from rfl), M.bind_ok (show M.ofRes Error.SMBError (.ok _) s' = (.ok _, s') from rfl)]
    refine Twin.strict ?_ h
    exact Twin.bind (blind_command hV _ _ _ (fun h => auth_size h _ _ hl)) (fun r => blind_assign r.uid)

theorem response_size (C : Crypto) (c : ChallengeMsg) (a : Auth) (p : Str) (time : UInt64) (random : Bytes) :
    (∃ b b', c.response C a time random = .ok b ∧ c.response C { a with password := p } time random = .ok b' ∧ b.length = b'.length) ∨
    ∃ e, c.response C a time random = .err e ∧ c.response C { a with password := p } time random = .err e := by
  have hl : (ntlmv2Authenticate C a c time random).2.length = (ntlmv2Authenticate C { a with password := p } c time random).2.length := by
    rw [length_ntlmv2, length_ntlmv2]
  rw [response_eq C c a time random rfl rfl rfl rfl, response_eq C c { a with password := p } time random rfl rfl rfl rfl, ← hl]
  split
  · exact .inl ⟨_, _, rfl, rfl, by simp [hl]⟩
  · exact .inr ⟨_, rfl, rfl⟩

theorem blind_extended {E : Env σ} (hV : Deaf E.V R) :
    Twin (fun _ => False) (Blind R) (authenticateNtlmv2 E) (authenticateNtlmv2 E) := by
  refine blind_get fun s s' h => ?_
  obtain ⟨p, hp⟩ : ∃ p, s'.cli.auth = { s.cli.auth with password := p } := ⟨_, by rw [h.cli]⟩
  rw [hp]
  refine Twin.strict ?_ h
  refine Twin.bind (Twin.ofRes _ _) (fun i => Twin.bind (blind_command hV _ _ _ (fun h => blind_same h _)) (fun r => Twin.bind (blind_assign r.uid) (fun _ =>
    Twin.bind (Twin.ofRes _ _) (fun c => Twin.bind (Twin.ofRes _ _) (fun time => ?_)))))
  rcases response_size E.C c s.cli.auth p time E.random with ⟨b, b', h1, h2, hl⟩ | ⟨e, h1, h2⟩
  · rw [h1, h2]
    intro s s' h
    rw [M.bind_ok (show M.ofRes Error.NTLMError (.ok b) s = (.ok b, s) from rfl), M.bind_ok (show M.ofRes Error.NTLMError (.ok b') s' = (.ok b', s') from rfl)]
    revert s s'
    exact Twin.bind (blind_command hV _ _ _ (fun h => blob_size h hl)) (fun _ => Twin.pure _)
  · rw [h1, h2]
    exact fun s s' h => .inr ⟨rfl, h⟩

theorem blind_login {E : Env σ} (hV : Deaf E.V R) : Twin (fun _ => False) (Blind R) (setupConnection E) (setupConnection E) := by
  refine Twin.bind (blind_command hV _ _ _ (fun h => blind_same h _)) (fun setup => Twin.bind
    (fun _ _ h => .inr ⟨rfl, h.modify (fun c => { c with maxSmbSize := setup.maxBufferSize.toNat, useUnicode := _ }) (fun _ _ => rfl) (fun _ => rfl)⟩) (fun _ => ?_))
  split
  · exact blind_extended hV
  · exact blind_classic hV _

/-- `open` after dialling. -/
def openWith (E : Env σ) (d : Dialled σ) (auth : Auth) : Opened σ :=
  match d.outcome, d.world with
  | .ok (), some w =>
    let r := setupConnection E { cli := .init auth, w }
    { outcome := r.1, state := some r.2, ports := d.ports }
  | o, w => { outcome := o.netErr, state := w.map (fun w => { cli := .init auth, w }), ports := d.ports }

/-- **C75** The outcome of `open` says nothing about the password that does not come from the server: if the server says the same things, two
passwords lead to the same outcome - success, error or crash - on the same ports, and packets of the same lengths are sent. -/
theorem C75_outcome_partial (E : Env σ) (hV : Deaf E.V R) (dial : Dial σ) (port : Option UInt16) (a : Auth) (password : Str) :
    (openCifs E dial port (some a)).outcome = (openCifs E dial port (some { a with password })).outcome ∧
    (openCifs E dial port (some a)).ports = (openCifs E dial port (some { a with password })).ports ∧
    ((openCifs E dial port (some a)).state = none ∧ (openCifs E dial port (some { a with password })).state = none ∨
      ∃ s s', (openCifs E dial port (some a)).state = some s ∧ (openCifs E dial port (some { a with password })).state = some s' ∧
        R s.w.srv s'.w.srv ∧ s.w.out.length = s'.w.out.length ∧ s.w.inbox.flatten = s'.w.inbox.flatten ∧ s.cli.uid = s'.cli.uid ∧
        s.cli.mid = s'.cli.mid) := by
  have key : ∀ w : World σ, Blind R (⟨.init a, w⟩ : St σ) ⟨.init { a with password }, w⟩ := fun w => ⟨rfl, rfl, rfl, hV.refl _, rfl⟩
  have open_eq : ∀ b : Auth, b.workstation = a.workstation → openCifs E dial port (some b) = openWith E (match port with
      | some p => openRaw dial p
      | none => openNetbios E.V dial a.workstation) b := by intro b hb; rw [← hb]; rfl
  rw [open_eq a rfl, open_eq { a with password } rfl]
  generalize (match port with
      | some p => openRaw dial p
      | none => openNetbios E.V dial a.workstation) = d
  rcases d with ⟨o, w, ports⟩
  cases w with
  | none => cases o <;> exact ⟨rfl, rfl, .inl ⟨rfl, rfl⟩⟩
  | some w =>
    cases o with
    | ok u =>
      obtain ⟨h1, h2⟩ := Twin.strict (blind_login hV) (key w)
      refine ⟨h1, rfl, .inr ⟨_, _, rfl, rfl, h2.srv, h2.out, h2.bytes, ?_, ?_⟩⟩
      · show _ = (setupConnection E _).2.cli.uid; rw [h2.cli]
      · show _ = (setupConnection E _).2.cli.mid; rw [h2.cli]
    | _ => exact ⟨rfl, rfl, .inr ⟨_, _, rfl, rfl, hV.refl _, rfl, rfl, rfl, rfl⟩⟩

/-! ## Texts -/

/-- **C75 violated** `{:?}` of the credentials shows the password: whatever follows, the text says what it is. -/
theorem C75_violated (U : Printing) (a b : Auth) (x y : Str) (h : a.debug U ++ x = b.debug U ++ y) : a.password = b.password := by
  rw [(authDebug_inj U h).1]

/-- **C75 violated** So does `{:?}` of a client. -/
theorem C75_violated_client (U : Printing) (netbios : Str) (c d : Cli) (h : c.debug U netbios = d.debug U netbios) :
    c.auth.password = d.auth.password := by
  unfold Cli.debug at h
  simp only [List.append_assoc] at h
  rw [(authDebug_inj U (List.append_cancel_left (List.append_cancel_left (List.append_cancel_left h)))).1]

/-- **C75 violated** A password of printable ASCII characters other than `"` and `\` is there as it is. -/
theorem C75_violated_verbatim (U : Printing) (netbios : Str) (c : Cli) (h : ∀ x ∈ c.auth.password, Plain x) :
    ∃ before after, c.debug U netbios = before ++ ", password: \"".toList ++ c.auth.password ++ "\" }".toList ++ after := by
  refine ⟨"Cifs { netbios: ".toList ++ netbios ++ ", auth: ".toList ++ ("Auth { user: ".toList ++ debugStr U c.auth.user ++
    ", workstation: ".toList ++ debugStr U c.auth.workstation ++ ", domain: ".toList ++ debugStr U c.auth.domain), ", max_smb_size: ".toList ++ showDecimal c.maxSmbSize ++ ", use_unicode: ".toList ++ (if c.useUnicode then "true" else "false").toList ++
      ", uid: ".toList ++ showDecimal c.uid.toNat ++ ", mid: ".toList ++ showDecimal c.mid.toNat ++ " }".toList, ?_⟩
  · unfold Cli.debug Auth.debug
    rw [show debugStr U c.auth.password = ['"'] ++ c.auth.password ++ ['"'] by unfold debugStr; rw [escapes_plain U h]]
    rw [show ", password: \"".toList = ", password: ".toList ++ ['"'] by decide, show "\" }".toList = ['"'] ++ " }".toList by decide]
    simp only [List.append_assoc]

/-! ## Not vacuous -/

namespace Demo

/-- A standard library that prints ASCII only. -/
def printing : Printing where
  hidden := fun c => decide (c.toNat < 0x20) || decide (0x7f ≤ c.toNat)
  ascii := by intro c h1 h2; simp; omega

end Demo

example : (Auth.mk "bob".toList "pc".toList "D\"".toList "hunter2\n\x7f".toList).debug Demo.printing =
    "Auth { user: \"bob\", workstation: \"pc\", domain: \"D\\\"\", password: \"hunter2\\n\\u{7f}\" }".toList := by decide +kernel

example : Cli.debug Demo.printing "N".toList { Demo.cli with auth := ⟨[], [], [], "top secret".toList⟩ } =
    "Cifs { netbios: N, auth: Auth { user: \"\", workstation: \"\", domain: \"\", password: \"top secret\" }, max_smb_size: 4356, use_unicode: true, uid: 4660, mid: 7 }".toList := by
  decide +kernel

example : ∀ x ∈ "top secret".toList, Plain x := by
  have : ∀ x ∈ "top secret".toList, (0x20 ≤ x.toNat ∧ x.toNat < 0x7f ∧ x ≠ '"' ∧ x ≠ '\\') := by decide
  exact this

/-- A recorded server; two passwords, and a login that succeeds with both. -/
example : Deaf (Demo.env true).V (fun v v' => v.1 = v'.1) ∧
    (openCifs (Demo.env true) (Demo.dial (Demo.modern (.Known .SUCCESS))) none none).outcome = .ok () :=
  ⟨⟨fun _ => rfl, fun v v' p p' h _ => by show v.1.tail = v'.1.tail; rw [h], fun v v' p p' h _ => by show (v.1.headD []).flatten = _; rw [h]; rfl,
    fun _ _ _ => rfl⟩, Demo.modern_opens _ (.inl rfl)⟩

end Cifs
