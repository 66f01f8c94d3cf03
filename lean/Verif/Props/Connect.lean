import Verif.Props.Login
import Verif.Props.Transport
import Verif.Spec.Connect
import Verif.Lemmas.Determined
import Verif.Lemmas.Open
/-!
# Establishing a connection (C07, C47)
-/

namespace Cifs

open Spec

variable {σ : Type}

/-! ## C07 -/

theorem flow_messages {E : Env σ} {s : St σ} {ps : List Bytes} (h : Flow E s ps) : ∀ p ∈ ps, ∃ f, p = message f := by
  cases h <;> intro p hp <;> simp only [List.mem_cons, List.not_mem_nil, or_false] at hp
  · exact ⟨_, hp⟩
  · rcases hp with h | h <;> exact ⟨_, h⟩
  · rcases hp with h | h <;> exact ⟨_, h⟩
  · rcases hp with h | h | h <;> exact ⟨_, h⟩

/-- What `open` has sent when the transport was established: session messages that belong to a login, nothing else. -/
def C07_logsIn (E : Env σ) (log : σ → List Bytes) (a : Auth) (before : List Bytes) (v : σ) (b : Bytes) (o : Opened σ) : Prop :=
  ∃ s packets, o.state = some s ∧ log s.w.srv = before ++ packets ∧ LoginPackets E.V a.user a.domain v b packets ∧
    ∀ p ∈ packets, ∃ f, p = message f

theorem setup_logsIn {E : Env σ} {log : σ → List Bytes} (hlog : Logs E.V log) (a : Auth) (w : World σ) (ports : List UInt16) :
    C07_logsIn E log a (log w.srv) w.srv w.inbox.flatten
      { outcome := (setupConnection E { cli := .init a, w }).1, state := some (setupConnection E { cli := .init a, w }).2, ports := ports } := by
  obtain ⟨ps, h1, h2⟩ := setup_flow hlog { cli := .init a, w }
  obtain ⟨ps', h3, h4⟩ := C46_flow hlog { cli := .init a, w }
  have e : ps' = ps := List.append_cancel_left (h3.symm.trans h1)
  subst e
  exact ⟨_, _, rfl, h1, h4, flow_messages h2⟩

/-- With a port: exactly that port is dialled; if it cannot be reached, that is the error. -/
theorem C07_port_fails {E : Env σ} {dial : Dial σ} {p : UInt16} {e : IoErr} (auth : Option Auth) (h : dial p = .error e) :
    openCifs E dial (some p) auth = { outcome := .err (.NetBios (.IoError e)), state := none, ports := [p] } := by
  rw [openCifs_eq]; simp only [dialled, openRaw, h, finishOpen, Out.netErr, Option.map]

example : (openCifs (Demo.env true) (fun _ => .error (.os 111)) (some 1445) none).ports = [1445] :=
  congrArg Opened.ports (C07_port_fails (e := .os 111) none rfl)

/-- With a port: exactly that port is dialled, and nothing but session messages of a login is sent. -/
theorem C07_port {E : Env σ} {log : σ → List Bytes} (hlog : Logs E.V log) {dial : Dial σ} {p : UInt16} {w : World σ} (auth : Option Auth)
    (h : dial p = .ok w) :
    (openCifs E dial (some p) auth).ports = [p] ∧
      C07_logsIn E log (auth.getD defaultAuth) (log w.srv) w.srv w.inbox.flatten (openCifs E dial (some p) auth) := by
  rw [openCifs_eq]; simp only [dialled, openRaw, h, finishOpen]
  exact ⟨trivial, setup_logsIn hlog _ w _⟩

example : C07_logsIn (Demo.env true) Prod.snd defaultAuth [] ([], []) [] (openCifs (Demo.env true) (fun _ => .ok (Demo.st []).w) (some 1445) none) :=
  (C07_port (w := (Demo.st []).w) (logs_logged _) none rfl).2

/-- Without a port, if 445 can be reached: the same with 445. -/
theorem C07_direct {E : Env σ} {log : σ → List Bytes} (hlog : Logs E.V log) {dial : Dial σ} {w : World σ} (auth : Option Auth)
    (h : dial 445 = .ok w) :
    (openCifs E dial none auth).ports = [445] ∧
      C07_logsIn E log (auth.getD defaultAuth) (log w.srv) w.srv w.inbox.flatten (openCifs E dial none auth) := by
  rw [openCifs_eq]; simp only [dialled, openNetbios, h, finishOpen]
  exact ⟨trivial, setup_logsIn hlog _ w _⟩

example : C07_logsIn (Demo.env true) Prod.snd defaultAuth [] ([], []) [] (openCifs (Demo.env true) (fun _ => .ok (Demo.st []).w) none none) :=
  (C07_direct (w := (Demo.st []).w) (logs_logged _) none rfl).2

/-- Without a port, if neither 445 nor 139 can be reached. -/
theorem C07_unreachable {E : Env σ} {dial : Dial σ} {e e' : IoErr} (auth : Option Auth) (h : dial 445 = .error e) (h' : dial 139 = .error e') :
    openCifs E dial none auth = { outcome := .err (.NetBios (.IoError e')), state := none, ports := [445, 139] } := by
  rw [openCifs_eq]; simp only [dialled, openNetbios, h, h', finishOpen, Out.netErr, Option.map]

example : (openCifs (Demo.env true) (fun _ => .error (.os 111)) none none).ports = [445, 139] :=
  congrArg Opened.ports (C07_unreachable (e := .os 111) (e' := .os 111) none rfl rfl)

theorem C06_isSessionRequest (name : Str) : IsSessionRequest (C06_frame name) (netbiosName "*SMBSERVER".toList) (netbiosName name) := by
  obtain ⟨h1, h2, h3, a, b, h4⟩ := C06_request_layout name
  exact ⟨h1, h2, h3, a, b, h4⟩

/-- Without a port, if only 139 can be reached: 445 is dialled, then 139. Either nothing at all is sent (the request could not be written);
or a session request for this workstation is the first thing sent, and a login follows exactly if the server's first bytes are a positive
response. -/
theorem C07_fallback {E : Env σ} {log : σ → List Bytes} (hlog : Logs E.V log) {dial : Dial σ} {e : IoErr} {w : World σ} (auth : Option Auth)
    (h : dial 445 = .error e) (h' : dial 139 = .ok w) :
    (openCifs E dial none auth).ports = [445, 139] ∧
      ((∃ s, (openCifs E dial none auth).state = some s ∧ log s.w.srv = log w.srv ∧ (openCifs E dial none auth).outcome ≠ .ok ()) ∨
        ∃ p, IsSessionRequest p (netbiosName "*SMBSERVER".toList) (netbiosName (auth.getD defaultAuth).workstation) ∧
          (∀ rest, w.inbox.flatten ++ (E.V.react w.srv p).2.flatten = [0x82, 0, 0, 0] ++ rest →
            C07_logsIn E log (auth.getD defaultAuth) (log w.srv ++ [p]) (E.V.react w.srv p).1 rest (openCifs E dial none auth)) ∧
          ((¬ ∃ rest, w.inbox.flatten ++ (E.V.react w.srv p).2.flatten = [0x82, 0, 0, 0] ++ rest) →
            ∃ s, (openCifs E dial none auth).state = some s ∧ log s.w.srv = log w.srv ++ [p] ∧
              (openCifs E dial none auth).outcome ≠ .ok ())) := by
  rw [openCifs_eq]
  generalize auth.getD defaultAuth = a
  have hd : dialled E.V dial none a =
      Dialled.mk (createSession E.V "*SMBSERVER".toList a.workstation w).1 (some (createSession E.V "*SMBSERVER".toList a.workstation w).2) [445, 139] := by
    simp only [dialled, openNetbios, h, h']
  rw [hd]
  rcases hc : createSession E.V "*SMBSERVER".toList a.workstation w with ⟨o, w'⟩
  have hbad : o ≠ .ok () → (finishOpen E a { outcome := o, world := some w', ports := [445, 139] }).ports = [445, 139] ∧
      (finishOpen E a { outcome := o, world := some w', ports := [445, 139] }).state = some { cli := .init a, w := w' } ∧
      (finishOpen E a { outcome := o, world := some w', ports := [445, 139] }).outcome ≠ .ok () := by
    intro ho
    cases o with
    | ok a => exact absurd rfl ho
    | err e => exact ⟨rfl, rfl, by simp [finishOpen, Out.netErr]⟩
    | panic => exact ⟨rfl, rfl, by simp [finishOpen, Out.netErr]⟩
    | pending => exact ⟨rfl, rfl, by simp [finishOpen, Out.netErr]⟩
    | running => exact ⟨rfl, rfl, by simp [finishOpen, Out.netErr]⟩
  by_cases hw : (writeLoop w.wsched (C06_frame a.workstation) w.out).1 = .done
  · obtain ⟨p, q, e1, e2, e3⟩ := writeLoop_out w.wsched (C06_frame a.workstation) w.out
    rcases hr : writeLoop w.wsched (C06_frame a.workstation) w.out with ⟨r, ws, out⟩
    rw [hr] at e2 e3 hw
    simp only at hw e2
    subst hw
    have := e3.mp rfl
    subst this
    rw [List.append_nil] at e1
    rw [← e1] at e2
    subst e2
    obtain ⟨_, k2, k3, k4⟩ := createSession_done E.V w a.workstation hr
    rw [hc] at k2 k3 k4
    have hl : log w'.srv = log w.srv ++ [C06_frame a.workstation] := by rw [k2, hlog]
    by_cases ho : o = .ok ()
    · subst ho
      obtain ⟨rest, hrest⟩ := k3.mp rfl
      have hin := k4 rest hrest
      have hfin := setup_logsIn hlog a w' [445, 139]
      refine ⟨rfl, .inr ⟨_, C06_isSessionRequest _, fun rest' hrest' => ?_, fun hno => absurd ⟨rest, hrest⟩ hno⟩⟩
      have : rest' = rest := by
        have := hrest'.symm.trans hrest
        exact List.append_cancel_left this
      subst this
      rw [hl] at hfin
      simp only at k2 hin
      rw [k2, hin] at hfin
      exact hfin
    · obtain ⟨b1, b2, b3⟩ := hbad ho
      refine ⟨b1, .inr ⟨_, C06_isSessionRequest _, fun rest hrest => absurd (k3.mpr ⟨rest, hrest⟩) ho, fun _ => ⟨_, b2, hl, b3⟩⟩⟩
  · obtain ⟨u1, u2⟩ := createSession_unsent E.V w a.workstation hw
    rw [hc] at u1 u2
    obtain ⟨b1, b2, b3⟩ := hbad u1
    exact ⟨b1, .inl ⟨_, b2, by rw [show w'.srv = w.srv from u2], b3⟩⟩

/-! ## C46 and C47 for `open` -/

/-- A transport that was established without error. -/
theorem dialled_ok {V : Server σ} {log : σ → List Bytes} (hlog : Logs V log) {dial : Dial σ} {port : Option UInt16} {a : Auth}
    (h : (dialled V dial port a).outcome = .ok () ∨ (dialled V dial port a).world = none) :
    (∃ e, (dialled V dial port a).outcome = .err e) ∨
      ∃ w w0 sent, (dialled V dial port a).outcome = .ok () ∧ (dialled V dial port a).world = some w ∧ log w.srv = log w0.srv ++ sent ∧
        Connected V dial (netbiosName a.workstation) port (dialled V dial port a).ports sent w0 w.srv w.inbox.flatten := by
  cases port with
  | some p =>
    cases hd : dial p with
    | error e => exact .inl ⟨.IoError e, by simp only [dialled, openRaw, hd]⟩
    | ok w => simp only [dialled, openRaw, hd]; exact .inr ⟨w, w, [], trivial, rfl, by simp, .raw hd⟩
  | none =>
    cases hd : dial 445 with
    | ok w => simp only [dialled, openNetbios, hd]; exact .inr ⟨w, w, [], trivial, rfl, by simp, .direct hd⟩
    | error e =>
      cases hd' : dial 139 with
      | error e => exact .inl ⟨.IoError e, by simp only [dialled, openNetbios, hd, hd']⟩
      | ok w =>
        have h' : (createSession V "*SMBSERVER".toList a.workstation w).1 = .ok () := by
          simpa [dialled, openNetbios, hd, hd'] using h
        simp only [dialled, openNetbios, hd, hd']
        by_cases hw : (writeLoop w.wsched (C06_frame a.workstation) w.out).1 = .done
        · obtain ⟨p, q, e1, e2, e3⟩ := writeLoop_out w.wsched (C06_frame a.workstation) w.out
          rcases hr : writeLoop w.wsched (C06_frame a.workstation) w.out with ⟨r, ws, out⟩
          rw [hr] at e2 e3 hw
          simp only at hw e2
          subst hw
          have := e3.mp rfl
          subst this
          rw [List.append_nil] at e1
          rw [← e1] at e2
          subst e2
          obtain ⟨_, k2, k3, k4⟩ := createSession_done V w a.workstation hr
          obtain ⟨rest, hrest⟩ := k3.mp h'
          refine .inr ⟨_, w, [C06_frame a.workstation], h', rfl, by rw [k2, hlog], ?_⟩
          rw [k2, k4 rest hrest]
          exact .session hd hd' (C06_isSessionRequest _) hrest
        · exact absurd h' (createSession_unsent V w a.workstation hw).1

theorem open_ok {E : Env σ} {log : σ → List Bytes} (hlog : Logs E.V log) {dial : Dial σ} {port : Option UInt16} {auth : Option Auth}
    (h : (openCifs E dial port auth).outcome = .ok ()) :
    ∃ s w w0 sent, (openCifs E dial port auth).state = some s ∧ log w.srv = log w0.srv ++ sent ∧
      Connected E.V dial (netbiosName (auth.getD defaultAuth).workstation) port (openCifs E dial port auth).ports sent w0 w.srv w.inbox.flatten ∧
      setupConnection E { cli := .init (auth.getD defaultAuth), w } = (.ok (), s) := by
  rw [openCifs_eq] at h ⊢
  generalize auth.getD defaultAuth = a at h ⊢
  have hd := dialled_ok hlog (dial := dial) (port := port) (a := a)
  rcases hx : dialled E.V dial port a with ⟨o, w, ps⟩
  rw [hx] at hd h
  have ho : o = .ok () := by
    cases o with
    | ok u => rfl
    | err e => cases h
    | panic => cases h
    | pending => cases h
    | running => cases h
  subst ho
  rcases hd (.inl rfl) with ⟨e, he⟩ | ⟨w1, w0, sent, _, e2, e3, e4⟩
  · cases he
  · simp only at e2
    subst e2
    have : (setupConnection E { cli := .init a, w := w1 }).1 = .ok () := h
    refine ⟨_, w1, w0, sent, rfl, e3, e4, ?_⟩
    rw [← this]

/-- `open` succeeds only after a complete login over a connection established as in C07; every request of every later call on the
connection carries the user id and the text encoding of that login. -/
theorem C46_open {E : Env σ} {log : σ → List Bytes} (hlog : Logs E.V log) {dial : Dial σ} {port : Option UInt16} {auth : Option Auth}
    (h : (openCifs E dial port auth).outcome = .ok ()) :
    ∃ s w sent v b packets ps st uid, (openCifs E dial port auth).state = some s ∧ log s.w.srv = log w.srv ++ sent ++ packets ∧
      Connected E.V dial (netbiosName (auth.getD defaultAuth).workstation) port (openCifs E dial port auth).ports sent w v b ∧
      LoggedIn E.V (auth.getD defaultAuth).user (auth.getD defaultAuth).domain v b packets ps st uid s.w.srv s.w.inbox.flatten ∧
      ∀ (ops : List Op) (op : Op) (p : Bytes), Sent log (runOps E ops s).2.w.srv (runOp E op (runOps E ops s).2).2.w.srv p →
        uidOf p = some uid ∧ (unicodeOf p = some true ↔ OffersUnicode ps) := by
  obtain ⟨s, w, w0, sent, h1, h2, h3, h4⟩ := open_ok hlog h
  obtain ⟨packets, ps, st, uid, k1, k2, k3⟩ := C46_session hlog h4
  exact ⟨s, w0, sent, _, _, packets, ps, st, uid, h1, by rw [k1, ← h2], h3, k2, k3⟩

/-- What holds of C47: the last reply of the login has status SUCCESS or MORE_PROCESSING_REQUIRED. -/
theorem C47_partial {E : Env σ} {log : σ → List Bytes} (hlog : Logs E.V log) {dial : Dial σ} {port : Option UInt16} {auth : Option Auth}
    (h : (openCifs E dial port auth).outcome = .ok ()) :
    ∃ s w sent v b packets ps st uid, (openCifs E dial port auth).state = some s ∧ log s.w.srv = log w.srv ++ sent ++ packets ∧
      Connected E.V dial (netbiosName (auth.getD defaultAuth).workstation) port (openCifs E dial port auth).ports sent w v b ∧
      LoggedIn E.V (auth.getD defaultAuth).user (auth.getD defaultAuth).domain v b packets ps st uid s.w.srv s.w.inbox.flatten ∧
      (st = 0 ∨ st = moreProcessing) := by
  obtain ⟨s, w, w0, sent, h1, h2, h3, h4⟩ := open_ok hlog h
  obtain ⟨packets, ps, st, k1, k2, k3, _⟩ := C46_login hlog h4
  exact ⟨s, w0, sent, _, _, packets, ps, st, _, h1, by rw [k1, ← h2], h3, k3, k2⟩

theorem awaits_single {mid : Nat} {g f r : Bytes} (hl : g.length ≤ maxPayload) (h : Awaits mid (message g) f r) : f = g ∧ r = [] := by
  obtain ⟨b, hs, hd, _, _⟩ := h
  have hg : Delivers (message g) g [] := by simpa using Delivers.message g [] hl
  cases hs with
  | done => exact delivers_det hd hg
  | skip k _ _ _ _ ks =>
    obtain ⟨_, e⟩ := delivers_det k hg
    subst e
    have none : ∀ {x y : Bytes}, ¬ Delivers [] x y := by
      intro x y hx
      generalize he : ([] : Bytes) = z at hx
      cases hx with
      | message => simp [message, packet] at he
      | keepAlive => simp [keepAlive] at he
    cases ks with
    | done => exact absurd hd none
    | skip k' => exact absurd k' none

namespace Demo

/-- A reply with status, user id, multiplex id. -/
def replyWith (cmd : Cmd) (st : Status) (uid mid : UInt16) (params data : Bytes) : Bytes :=
  ({ Info.default cmd with flags1 := 0x98, status := st, uid := uid, mid := mid } : Info).write ++ [UInt8.ofNat (params.length / 2)] ++ params
    ++ putU16 (UInt16.ofNat data.length) ++ data

/-- A server that gives these answers. -/
def dial (answers : List Bytes) : Dial (List (List Bytes) × List Bytes) := fun _ =>
  .ok { inbox := [], wsched := [], out := [], srv := (answers.map (fun r => [message r]), []) }

/-- A server without extended security that never finishes the login. -/
def legacy (st : Status) : List Bytes :=
  [replyWith .Negotiate (.Known .SUCCESS) 0 0 (negotiateParams 0 0xf3fd 8) [1, 2, 3, 4, 5, 6, 7, 8],
   replyWith .SessionSetup st 100 1 [0xff, 0, 0, 0, 0, 0] []]

/-- An NTLM challenge. -/
def challenge : Bytes :=
  NTLMSSP_MAGIC ++ putU32 2 ++ (putU16 2 ++ putU16 2 ++ putU32 48) ++ putU32 1 ++ [1, 2, 3, 4, 5, 6, 7, 8] ++ zeros 8 ++
    (putU16 4 ++ putU16 4 ++ putU32 50) ++ [65, 0] ++ [0, 0, 0, 0]

/-- A server with extended security. -/
def modern (st : Status) : List Bytes :=
  [replyWith .Negotiate (.Known .SUCCESS) 0 0 (negotiateParams 0 0x8000f3fd 0) [],
   replyWith .SessionSetup (.Known .MORE_PROCESSING) 100 1 [0xff, 0, 0, 0, 0, 0, 54, 0] challenge,
   replyWith .SessionSetup st 100 2 [0xff, 0, 0, 0, 0, 0, 0, 0] []]

/-- non-vacuity: both kinds of login succeed. -/
theorem legacy_opens (st : Status) (h : st = .Known .SUCCESS ∨ st = .Known .MORE_PROCESSING) :
    (openCifs (env true) (dial (legacy st)) (some 445) none).outcome = .ok () := by
  rcases h with h | h <;> subst h <;> decide +kernel

theorem modern_opens (st : Status) (h : st = .Known .SUCCESS ∨ st = .Known .MORE_PROCESSING) :
    (openCifs (env true) (dial (modern st)) none none).outcome = .ok () := by
  rcases h with h | h <;> subst h <;> decide +kernel

theorem round_of {V : Server σ} {v v' : σ} {b p f b' g : Bytes} (h : Round V v b p f v' b') (hb : b = [])
    (hg : (V.react v p).2.flatten = message g) (hl : g.length ≤ maxPayload) : f = g ∧ b' = [] ∧ v' = (V.react v p).1 := by
  obtain ⟨h1, mid, _, h2⟩ := h
  subst hb
  rw [List.nil_append, hg] at h2
  obtain ⟨e1, e2⟩ := awaits_single hl h2
  exact ⟨e1, e2, h1⟩

end Demo

/-- C47 fails: a login whose last reply says MORE_PROCESSING_REQUIRED counts as successful, with extended security. -/
theorem C47_violated : ∃ (E : Env (List (List Bytes) × List Bytes)) (dial : Dial (List (List Bytes) × List Bytes)) (w : World _),
    Logs E.V Prod.snd ∧ dial 445 = .ok w ∧ (openCifs E dial none none).outcome = .ok () ∧
      ∀ packets ps st uid v b, LoggedIn E.V defaultAuth.user defaultAuth.domain w.srv w.inbox.flatten packets ps st uid v b →
        st = moreProcessing := by
  refine ⟨Demo.env true, Demo.dial (Demo.modern (.Known .MORE_PROCESSING)), _, logs_logged _, rfl, Demo.modern_opens _ (.inr rfl), ?_⟩
  intro packets ps st uid v b h
  cases h with
  | classic h hx hl hc hr =>
    obtain ⟨_, f, hr, _, _, hb, _⟩ := h
    obtain ⟨e1, _, _⟩ := Demo.round_of (g := Demo.replyWith .Negotiate (.Known .SUCCESS) 0 0 (Demo.negotiateParams 0 0x8000f3fd 0) []) hr rfl
      (by rfl) (by decide +kernel)
    subst e1
    obtain ⟨e, _⟩ := replyBody_det hb (ps' := Demo.negotiateParams 0 0x8000f3fd 0) (ds' := []) ⟨by decide +kernel, 0, by decide +kernel, by decide +kernel⟩
    subst e
    exact absurd ⟨0x8000f3fd, by decide +kernel, by decide⟩ hx
  | extended h hx hc hr hc' hu hr' =>
    obtain ⟨_, f, hr0, _⟩ := h
    obtain ⟨_, e2, e3⟩ := Demo.round_of (g := Demo.replyWith .Negotiate (.Known .SUCCESS) 0 0 (Demo.negotiateParams 0 0x8000f3fd 0) []) hr0 rfl
      (by rfl) (by decide +kernel)
    subst e2 e3
    obtain ⟨f', hr1, _⟩ := hr
    obtain ⟨_, e2, e3⟩ := Demo.round_of
      (g := Demo.replyWith .SessionSetup (.Known .MORE_PROCESSING) 100 1 [0xff, 0, 0, 0, 0, 0, 54, 0] Demo.challenge) hr1 rfl
      (by rfl) (by decide +kernel)
    subst e2 e3
    obtain ⟨f'', hr2, _, hst, _⟩ := hr'
    obtain ⟨e1, _, _⟩ := Demo.round_of
      (g := Demo.replyWith .SessionSetup (.Known .MORE_PROCESSING) 100 2 [0xff, 0, 0, 0, 0, 0, 0, 0] []) hr2 rfl
      (by rfl) (by decide +kernel)
    subst e1
    have : statusOf (message (Demo.replyWith .SessionSetup (.Known .MORE_PROCESSING) 100 2 [0xff, 0, 0, 0, 0, 0, 0, 0] [])) = some moreProcessing := by
      decide +kernel
    rw [this] at hst
    exact (Option.some.inj hst).symm

/-- non-vacuity of C07: only port 139 is open; the server accepts the session, then the login. -/
example : ∃ (dial : Dial (List (List Bytes) × List Bytes)) (w : World _) (e : IoErr), dial 445 = .error e ∧ dial 139 = .ok w ∧
    (openCifs (Demo.env true) dial none none).outcome = .ok () ∧ (openCifs (Demo.env true) dial none none).ports = [445, 139] := by
  refine ⟨fun p => if p = 139 then
      .ok { inbox := [], wsched := [], out := [], srv := ([[0x82, 0], [0, 0]] :: (Demo.legacy (.Known .SUCCESS)).map (fun r => [message r]), []) }
    else .error (.os 111), _, .os 111, rfl, rfl, ?_, ?_⟩ <;> decide +kernel

/-- non-vacuity of C46: with and without extended security. -/
example : (openCifs (Demo.env true) (Demo.dial (Demo.modern (.Known .SUCCESS))) none none).outcome = .ok () ∧
    (openCifs (Demo.env true) (Demo.dial (Demo.legacy (.Known .SUCCESS))) none none).outcome = .ok () :=
  ⟨Demo.modern_opens _ (.inl rfl), by decide +kernel⟩

end Cifs
