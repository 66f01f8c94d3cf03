import Verif.Spec.Fresh
import Verif.Props.LoginHeaders
import Verif.Props.Replay
/-!
# What a client begins with: default credentials and the first headers (C46, C65, C52, C48)

Whatever becomes of `open`: once a connection is there, what it sends is a login for the given credentials or the default ones, begun with
the user id 0, the Unicode flag, and the multiplex id 0.
-/

namespace Cifs
open Spec

variable {σ : Type}

theorem presents_getD {auth : Option Auth} {user password domain workstation : Str} (h : Presents auth user password domain workstation) :
    auth.getD defaultAuth = { user, password, domain, workstation } := by
  rcases h with rfl | ⟨rfl, rfl, rfl, rfl, rfl⟩ <;> rfl

/-- Opening comes to a login of a fresh client over an established connection, or to no session. -/
theorem open_reached {E : Env σ} {log : σ → List Bytes} (hlog : Logs E.V log) {dial : Dial σ} {port : Option UInt16} {auth : Option Auth}
    {user password domain workstation : Str} (ha : Presents auth user password domain workstation) {s : St σ}
    (h : (openCifs E dial port auth).state = some s) :
    (∃ w w0 sent, log w.srv = log w0.srv ++ sent ∧
      Connected E.V dial (netbiosName workstation) port (openCifs E dial port auth).ports sent w0 w.srv w.inbox.flatten ∧
      setupConnection E { cli := { auth := { user, password, domain, workstation }, maxSmbSize := 1024, useUnicode := true, uid := 0, mid := 0 }, w } =
        ((openCifs E dial port auth).outcome, s)) ∨
    Sessionless E.V log dial (netbiosName workstation) port (log s.w.srv) := by
  rw [openCifs_eq, presents_getD ha] at h ⊢
  generalize hA : ({ user, password, domain, workstation } : Auth) = a at h ⊢
  have hW : workstation = a.workstation := by rw [← hA]
  have hd := dialled_ok hlog (dial := dial) (port := port) (a := a)
  rcases hx : dialled E.V dial port a with ⟨o, w, ps⟩
  rw [hx] at hd h
  by_cases ho : o = .ok ()
  · subst ho
    rcases hd (.inl rfl) with ⟨e, he⟩ | ⟨w1, w0, sent, _, e2, e3, e4⟩
    · cases he
    · simp only at e2
      subst e2
      left
      have hs : (setupConnection E { cli := .init a, w := w1 }).2 = s := by simpa [finishOpen] using h
      refine ⟨w1, w0, sent, e3, by rw [hW]; exact e4, ?_⟩
      show setupConnection E { cli := .init a, w := w1 } = _
      rw [← hs]; rfl
  · right
    cases port with
    | some p =>
      cases hp : dial p with
      | error e =>
        simp only [dialled, openRaw, hp] at hx
        cases hx; simp [finishOpen] at h
      | ok w' =>
        simp only [dialled, openRaw, hp] at hx
        cases hx; exact absurd rfl ho
    | none =>
      cases hp : dial 445 with
      | ok w' =>
        simp only [dialled, openNetbios, hp] at hx
        cases hx; exact absurd rfl ho
      | error e =>
        cases hp' : dial 139 with
        | error e' =>
          simp only [dialled, openNetbios, hp, hp'] at hx
          cases hx; simp [finishOpen] at h
        | ok w' =>
          simp only [dialled, openNetbios, hp, hp'] at hx
          refine ⟨rfl, e, w', hp, hp', ?_⟩
          cases hx
          have hs : s.w = (createSession E.V "*SMBSERVER".toList a.workstation w').2 := by
            cases hc : (createSession E.V "*SMBSERVER".toList a.workstation w').1 with
            | ok u => exact absurd hc ho
            | err e => rw [hc] at h; simp only [finishOpen, Option.map] at h; cases h; rfl
            | panic => rw [hc] at h; simp only [finishOpen, Option.map] at h; cases h; rfl
            | pending => rw [hc] at h; simp only [finishOpen, Option.map] at h; cases h; rfl
            | running => rw [hc] at h; simp only [finishOpen, Option.map] at h; cases h; rfl
          rw [hs]
          by_cases hw : (writeLoop w'.wsched (C06_frame a.workstation) w'.out).1 = .done
          · right
            obtain ⟨p, q, e1, e2, e3⟩ := writeLoop_out w'.wsched (C06_frame a.workstation) w'.out
            rcases hr : writeLoop w'.wsched (C06_frame a.workstation) w'.out with ⟨r, ws, out⟩
            rw [hr] at e2 e3 hw
            simp only at hw e2
            subst hw
            have := e3.mp rfl
            subst this
            rw [List.append_nil] at e1
            rw [← e1] at e2
            subst e2
            obtain ⟨_, k2, k3, _⟩ := createSession_done E.V w' a.workstation hr
            refine ⟨C06_frame a.workstation, by rw [hW]; exact C06_isSessionRequest _, by rw [k2, hlog], fun hc => ho (k3.mpr hc)⟩
          · exact .inl (by rw [(createSession_unsent E.V w' a.workstation hw).2])

/-- **C46** Whatever becomes of `open`, once there is a connection nothing but a login for the credentials that the user gave is sent, and
for the default ones if there are none. -/
theorem C46_opening {E : Env σ} {log : σ → List Bytes} (hlog : Logs E.V log) {dial : Dial σ} {port : Option UInt16} {auth : Option Auth}
    {user password domain workstation : Str} (ha : Presents auth user password domain workstation) {s : St σ}
    (h : (openCifs E dial port auth).state = some s) :
    (∃ w sent v b packets, log s.w.srv = log w.srv ++ sent ++ packets ∧
      Connected E.V dial (netbiosName workstation) port (openCifs E dial port auth).ports sent w v b ∧
      LoginPackets E.V user domain v b packets) ∨
    Sessionless E.V log dial (netbiosName workstation) port (log s.w.srv) := by
  refine (open_reached hlog ha h).imp (fun ⟨w, w0, sent, h1, h2, h3⟩ => ?_) id
  obtain ⟨packets, hp, hf⟩ := C46_flow hlog (E := E) { cli := { auth := { user, password, domain, workstation }, maxSmbSize := 1024, useUnicode := true, uid := 0, mid := 0 }, w }
  rw [h3, h1] at hp
  exact ⟨w0, sent, _, _, packets, hp, h2, hf⟩

/-- **C65** The headers of a login in `open`: the user id is 0 until the server assigns one, the first packet has the Unicode flag, the
multiplex ids are 0, 1, 2. -/
theorem C65_open {E : Env σ} {log : σ → List Bytes} (hlog : Logs E.V log) {dial : Dial σ} {port : Option UInt16} {auth : Option Auth}
    {user password domain workstation : Str} (ha : Presents auth user password domain workstation) {s : St σ}
    (h : (openCifs E dial port auth).state = some s) :
    (∃ w sent v b packets, log s.w.srv = log w.srv ++ sent ++ packets ∧
      Connected E.V dial (netbiosName workstation) port (openCifs E dial port auth).ports sent w v b ∧
      LoginHeaders E.V v b 0 true 0 packets) ∨
    Sessionless E.V log dial (netbiosName workstation) port (log s.w.srv) := by
  refine (open_reached hlog ha h).imp (fun ⟨w, w0, sent, h1, h2, h3⟩ => ?_) id
  obtain ⟨packets, hp, hf⟩ := C65_headers hlog (E := E) { cli := { auth := { user, password, domain, workstation }, maxSmbSize := 1024, useUnicode := true, uid := 0, mid := 0 }, w }
  rw [h3, h1] at hp
  exact ⟨w0, sent, _, _, packets, hp, h2, hf⟩

/-- **C52** The legacy response of `open` proves the password that the user gave, or the empty one. -/
theorem C52_open {E : Env σ} {log : σ → List Bytes} (hlog : Logs E.V log) {dial : Dial σ} {port : Option UInt16} {auth : Option Auth}
    {user password domain workstation : Str} (ha : Presents auth user password domain workstation) {s : St σ}
    (h : (openCifs E dial port auth).state = some s) :
    (∃ w sent v b packets, log s.w.srv = log w.srv ++ sent ++ packets ∧
      Connected E.V dial (netbiosName workstation) port (openCifs E dial port auth).ports sent w v b ∧ ∀ p p', packets = [p, p'] →
      ∃ ps ds v' b', NegotiateRound E.V v b p ps ds v' b' ∧ (¬ OffersExtended ps →
        ∃ challenge more response, ds = challenge ++ more ∧ challenge.length = 8 ∧ u8At ps 33 = some 8 ∧
          IsClassicSetup p' response user domain ∧ ClassicProves E.C.md4 E.C.des password challenge response)) ∨
    Sessionless E.V log dial (netbiosName workstation) port (log s.w.srv) := by
  refine (open_reached hlog ha h).imp (fun ⟨w, w0, sent, h1, h2, h3⟩ => ?_) id
  obtain ⟨packets, hp, hf⟩ := C52_login hlog (E := E) { cli := { auth := { user, password, domain, workstation }, maxSmbSize := 1024, useUnicode := true, uid := 0, mid := 0 }, w }
  rw [h3, h1] at hp
  exact ⟨w0, sent, _, _, packets, hp, h2, hf⟩

/-- **C48** The answer to a challenge in `open` is accepted by a verifier that knows, for the names that the user gave, the password that
the user gave; without credentials, by one that knows an empty password for the nameless user of `WORKGROUP`. -/
theorem C48_open {E : Env σ} {log : σ → List Bytes} (hlog : Logs E.V log) {dial : Dial σ} {port : Option UInt16} {auth : Option Auth}
    {user password domain workstation : Str} (ha : Presents auth user password domain workstation) {s : St σ}
    (h : (openCifs E dial port auth).state = some s) (known : Str → Str → Option Str) (hk : known user domain = some password) :
    (∃ w sent v b packets, log s.w.srv = log w.srv ++ sent ++ packets ∧
      Connected E.V dial (netbiosName workstation) port (openCifs E dial port auth).ports sent w v b ∧ packets.length ≤ 3 ∧
      ∀ p p' p'', packets = [p, p', p''] →
      ∃ ps ds v' b' st uid ps' ds' v'' b'' m target flags challenge info m',
        NegotiateRound E.V v b p ps ds v' b' ∧ SetupRound E.V v' b' p' st uid ps' ds' v'' b'' ∧
        u16At ps' 6 = some m.length ∧ (∃ more, ds' = m ++ more) ∧ IsNtlmChallenge m target flags challenge info ∧
        IsExtendedSetup p'' m' ∧ NtlmAccepts E.C.hashes known flags challenge m') ∨
    Sessionless E.V log dial (netbiosName workstation) port (log s.w.srv) := by
  refine (open_reached hlog ha h).imp (fun ⟨w, w0, sent, h1, h2, h3⟩ => ?_) id
  obtain ⟨packets, hp, hl, hf⟩ := C48_login hlog (E := E) { cli := { auth := { user, password, domain, workstation }, maxSmbSize := 1024, useUnicode := true, uid := 0, mid := 0 }, w } known hk
  rw [h3, h1] at hp
  refine ⟨w0, sent, _, _, packets, hp, h2, hl, fun p p' p'' he => ?_⟩
  obtain ⟨ps, ds, v', b', st, uid, ps', ds', v'', b'', m, target, flags, challenge, info, m', _, _, _, _, _, _, _, _, g1, g2, g3, g4, g5, g6, g7, _⟩ := hf p p' p'' he
  exact ⟨ps, ds, v', b', st, uid, ps', ds', v'', b'', m, target, flags, challenge, info, m', g1, g2, g3, g4, g5, g6, g7⟩

/-- non-vacuity of `C46_opening`, `C65_open`, `C52_open`: without credentials, on port 445, two packets are sent. -/
example : ∃ s, (openCifs (Demo.env true) (Demo.dial (Demo.legacy (.Known .SUCCESS))) none none).state = some s ∧
    Presents none [] [] "WORKGROUP".toList "ANONYMOUS".toList ∧ Logs (Demo.env true).V Prod.snd ∧ s.w.srv.2.length = 2 ∧
    s.w.srv.2.map midOf = [some 0, some 1] ∧ s.w.srv.2.map uidOf = [some 0, some 0] ∧ s.w.srv.2.head?.map unicodeOf = some (some true) ∧
    ¬ Sessionless (Demo.env true).V Prod.snd (Demo.dial (Demo.legacy (.Known .SUCCESS))) (netbiosName "ANONYMOUS".toList) none s.w.srv.2 :=
  ⟨_, rfl, .inr ⟨rfl, rfl, rfl, rfl, rfl⟩, logs_logged _, by decide +kernel, by decide +kernel, by decide +kernel, by decide +kernel,
    fun ⟨_, _, _, h, _⟩ => by cases h⟩

/-- non-vacuity of `C48_open`: with extended security, three packets, the last under the user id assigned. -/
example : ∃ s, (openCifs (Demo.env true) (Demo.dial (Demo.modern (.Known .SUCCESS))) none none).state = some s ∧
    s.w.srv.2.length = 3 ∧ s.w.srv.2.map midOf = [some 0, some 1, some 2] ∧ ∃ known : Str → Str → Option Str, known [] "WORKGROUP".toList = some [] :=
  ⟨_, rfl, by decide +kernel, by decide +kernel, fun _ _ => some [], rfl⟩

/-- The other case: a server on port 139 that refuses the session. -/
example : ∃ s, (openCifs (Demo.env true) (fun p => if p = 139 then
      .ok { inbox := [], wsched := [], out := [], srv := ([[[0x83, 0, 0, 1, 0x82]]], []) } else .error (.os 111)) none none).state = some s ∧
    s.w.srv.2.length = 1 := ⟨_, rfl, by decide +kernel⟩

end Cifs
