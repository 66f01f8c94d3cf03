import Verif.Spec.Logged
import Verif.Lemmas.Account
import Verif.Props.Password
/-!
# What the client writes to its log

C75, for the log: nothing of a login's password gets there. The length of a share's password does.
-/

namespace Cifs
open Spec

variable {σ α : Type} {R : σ → σ → Prop}

/-! ## The log is all that is added -/

/-- **C75** The functions of `Model/Logged` do what those of `Model/Client` do, and add lines to the log: an API call. -/
theorem C75_log_only (E : Env σ) (op : Op) (s : St σ) (l : Log) :
    (Logged.runOp E op (s, l)).1 = (runOp E op s).1 ∧ (Logged.runOp E op (s, l)).2.1 = (runOp E op s).2 ∧
    ∃ more, (Logged.runOp E op (s, l)).2.2 = l ++ more := by
  obtain ⟨h1, h2, more, h3⟩ := Logged.erase_runOp E op s l
  exact ⟨h1, h2, more, h3.symm⟩

/-- **C75** The same for opening a connection. -/
theorem C75_log_only_open (E : Env σ) (host : Str) (dial : Dial σ) (port : Option UInt16) (auth? : Option Auth) :
    (Logged.openCifs E host dial port auth?).1 = openCifs E dial port auth? := Logged.erase_openCifs E host dial port auth?

/-! ## What it says -/

theorem interrupted {α : Type} {o : Out Error α} (h : HaltsBy (fun e => ∃ x, e = Error.NetBios x) o) : Interrupted o :=
  h.imp id fun ⟨_, ⟨x, hx⟩, h⟩ => ⟨x, by rw [h, hx]⟩

theorem Accounted.mono {V : Server σ} {x y : Wire σ} {more : Log} {p q : Prop} (h : Accounted V x y more p) (hpq : p → q) : Accounted V x y more q := by
  obtain ⟨ts, mid, rest, h1, h2, h3⟩ := h
  exact ⟨ts, mid, rest, h1, h2, h3.imp id fun ⟨a, b⟩ => ⟨hpq a, b⟩⟩

/-- **C75** What a call logs is determined by the kinds and lengths of the packets that go over the connection (and by what `notify_about` is asked for); not by
what is in them, nor by any other argument. -/
theorem C75_log_lines (E : Env σ) (op : Op) (s : St σ) (l : Log) :
    ∃ more, (Logged.runOp E op (s, l)).2.2 = l ++ announced op ++ more ∧
      Accounted E.V (wireOf s.w) (wireOf (runOp E op s).2.w) more (Interrupted (runOp E op s).1) := by
  obtain ⟨e1, e2, _⟩ := C75_log_only E op s l
  rw [← e1, ← e2]
  by_cases hop : ∃ handle what, op = .notify handle what
  · obtain ⟨handle, what, rfl⟩ := hop
    obtain ⟨more, h1, h2⟩ := Accounts.map' Val.changes
      (Logged.account_command E (transactMsg handle.tid (notifySetup handle.fid what false)) (transactReply notificationParse)) s (l ++ [.waiting what])
    exact ⟨more, h1, Accounted.mono h2 interrupted⟩
  · obtain ⟨more, h1, h2⟩ := Logged.account_runOp E op (fun handle what h => hop ⟨handle, what, h⟩) s l
    refine ⟨more, ?_, Accounted.mono h2 interrupted⟩
    have : announced op = [] := by
      cases op <;> first | rfl | exact absurd ⟨_, _, rfl⟩ hop
    rw [this, List.append_nil]; exact h1

theorem netErr_interrupted {o : Out NbError Unit} (h : HaltsBy (fun _ => True) o) : Interrupted o.netErr := by
  rcases h with rfl | ⟨e, _, rfl⟩
  · exact .inl rfl
  · exact .inr ⟨e, rfl⟩

theorem Accounted.append {V : Server σ} {x y z : Wire σ} {a b : Log} {p q : Prop} (h : Accounted V x y a p) (hp : ¬ p) (h' : Accounted V y z b q) :
    Accounted V x z (a ++ b) q := by
  obtain ⟨ts, mid, rest, h1, h2, ⟨rfl, rfl⟩ | ⟨k, _⟩⟩ := h
  · obtain ⟨us, mid', rest', k1, k2, k3⟩ := h'
    exact ⟨ts ++ us, mid', rest', Transfers.append h1 k1, by rw [h2, k2]; simp, k3⟩
  · exact absurd k hp

/-- **C75** Opening a connection logs a line for each port that is tried, and then, if there is a connection, the lines for what goes over it. -/
theorem C75_log_lines_open (E : Env σ) (host : Str) (dial : Dial σ) (port : Option UInt16) (auth? : Option Auth) :
    ∃ more, (Logged.openCifs E host dial port auth?).2 = (openCifs E dial port auth?).ports.map (Event.connecting host) ++ more ∧
      match (openCifs E dial port auth?).state with
      | none => more = []
      | some s => ∃ p w, dial p = .ok w ∧ Accounted E.V (wireOf w) (wireOf s.w) more (Interrupted (openCifs E dial port auth?).outcome) := by
  rw [← C75_log_only_open E host, Logged.openCifs_eq]
  generalize auth?.getD defaultAuth = a
  have login : ∀ (p : UInt16) (w0 : World σ) (o : Out NbError Unit) (w : World σ) (ports : List UInt16) (l more : Log), dial p = .ok w0 →
      l = ports.map (Event.connecting host) ++ more → Accounted E.V (wireOf w0) (wireOf w) more (HaltsBy (fun _ => True) o) →
      ∃ more, (Logged.finish E (⟨o, some w, ports⟩, l) a).2 = (Logged.finish E (⟨o, some w, ports⟩, l) a).1.ports.map (Event.connecting host) ++ more ∧
        match (Logged.finish E (⟨o, some w, ports⟩, l) a).1.state with
        | none => more = []
        | some s => ∃ q x, dial q = .ok x ∧ Accounted E.V (wireOf x) (wireOf s.w) more (Interrupted (Logged.finish E (⟨o, some w, ports⟩, l) a).1.outcome) := by
    intro p w0 o w ports l more hp hl ha
    cases o with
    | ok u =>
      obtain ⟨more', h1, h2⟩ := Logged.account_setupConnection E ⟨.init a, w⟩ l
      have e : Logged.finish E (⟨.ok u, some w, ports⟩, l) a = (⟨(Logged.setupConnection E (⟨.init a, w⟩, l)).1,
          some (Logged.setupConnection E (⟨.init a, w⟩, l)).2.1, ports⟩, (Logged.setupConnection E (⟨.init a, w⟩, l)).2.2) := rfl
      rw [e]
      generalize Logged.setupConnection E (⟨.init a, w⟩, l) = r at h1 h2
      obtain ⟨o, s1, l1⟩ := r
      dsimp only at h1 h2 ⊢
      refine ⟨more ++ more', ?_, p, w0, hp, Accounted.append ha (fun h => ?_) (Accounted.mono h2 interrupted)⟩
      · rw [← List.append_assoc, ← hl]
        exact h1
      · rcases h with h | ⟨_, _, h⟩ <;> cases h
    | err e => exact ⟨more, hl, p, w0, hp, Accounted.mono ha netErr_interrupted⟩
    | panic => exact ⟨more, hl, p, w0, hp, Accounted.mono ha netErr_interrupted⟩
    | pending => exact ⟨more, hl, p, w0, hp, Accounted.mono ha netErr_interrupted⟩
    | running => exact ⟨more, hl, p, w0, hp, Accounted.mono ha netErr_interrupted⟩
  have start : ∀ w : World σ, ∀ q : Prop, Accounted E.V (wireOf w) (wireOf w) [] q := fun w q => ⟨[], _, [], .none _, rfl, .inl ⟨rfl, rfl⟩⟩
  cases port with
  | some p =>
    cases hd : dial p with
    | ok w =>
      have e : Logged.dialled E.V host dial (some p) a.workstation = (⟨.ok (), some w, [p]⟩, [.connecting host p]) := by
        unfold Logged.dialled Logged.openRaw Cifs.openRaw; dsimp only; rw [hd]
      rw [e]
      exact login p w _ w [p] _ [] hd rfl (start w _)
    | error x =>
      have e : Logged.dialled E.V host dial (some p) a.workstation = (⟨.err (.IoError x), none, [p]⟩, [.connecting host p]) := by
        unfold Logged.dialled Logged.openRaw Cifs.openRaw; dsimp only; rw [hd]
      rw [e]
      exact ⟨[], rfl, rfl⟩
  | none =>
    cases hd : dial 445 with
    | ok w =>
      have e : Logged.dialled E.V host dial none a.workstation = (⟨.ok (), some w, [445]⟩, [.connecting host 445]) := by
        unfold Logged.dialled Logged.openNetbios; dsimp only; rw [hd]
      rw [e]
      exact login 445 w _ w [445] _ [] hd rfl (start w _)
    | error x =>
      cases hd' : dial 139 with
      | error y =>
        have e : Logged.dialled E.V host dial none a.workstation =
            (⟨.err (.IoError y), none, [445, 139]⟩, [.connecting host 445, .connecting host 139]) := by
          unfold Logged.dialled Logged.openNetbios; dsimp only; rw [hd, hd']
        rw [e]
        exact ⟨[], rfl, rfl⟩
      | ok w =>
        obtain ⟨more, h1, h2⟩ := Logged.account_createSession E.V "*SMBSERVER".toList a.workstation w [.connecting host 445, .connecting host 139]
        have e : Logged.dialled E.V host dial none a.workstation =
            (⟨(Logged.createSession E.V "*SMBSERVER".toList a.workstation (w, [.connecting host 445, .connecting host 139])).1,
              some (Logged.createSession E.V "*SMBSERVER".toList a.workstation (w, [.connecting host 445, .connecting host 139])).2.1, [445, 139]⟩,
              (Logged.createSession E.V "*SMBSERVER".toList a.workstation (w, [.connecting host 445, .connecting host 139])).2.2) := by
          unfold Logged.dialled Logged.openNetbios; dsimp only; rw [hd, hd']
        rw [e]
        exact login 139 w _ _ [445, 139] _ more hd' h1 h2

/-! ## The login's password -/

namespace Logged

theorem same_classic {E : Env σ} (hV : Deaf E.V R) (ch : Bytes) :
    Chime (Blind R) (Logged.authenticateNtlm E ch) (Logged.authenticateNtlm E ch) := by
  intro s s' l h
  unfold Logged.authenticateNtlm
  rw [M.bind_ok (show quiet (getCli : CM σ Cli) (s, l) = (.ok s.cli, (s, l)) from rfl),
    M.bind_ok (show quiet (getCli : CM σ Cli) (s', l) = (.ok s'.cli, (s', l)) from rfl)]
  have ha : s'.cli.auth.user = s.cli.auth.user ∧ s'.cli.auth.domain = s.cli.auth.domain := by rw [h.cli]; exact ⟨rfl, rfl⟩
  rw [ha.1, ha.2]
  by_cases hc : ch.length = 8
  · obtain ⟨_, _, _, _, _, _, hs, _⟩ := C52_response E.C s.cli.auth ch hc
    obtain ⟨_, _, _, _, _, _, hs', _⟩ := C52_response E.C s'.cli.auth ch hc
    have hl := (ntlmv1_length hs).trans (ntlmv1_length hs').symm
    rw [hs, hs']
    rw [M.bind_ok (show M.ofRes Error.SMBError (.ok _) (s, l) = (.ok _, (s, l)) from rfl),
      M.bind_ok (show M.ofRes Error.SMBError (.ok _) (s', l) = (.ok _, (s', l)) from rfl)]
    exact Chime.bind (same_command hV _ _ _ fun h => auth_size h _ _ hl) (fun r => Chime.quiet fun s s' h => (blind_assign r.uid).strict h) s s' l h
  · rw [(ntlmv1_panics _ _ _).mpr hc, (ntlmv1_panics _ _ _).mpr hc]
    exact ⟨rfl, h, rfl⟩

theorem same_extended {E : Env σ} (hV : Deaf E.V R) : Chime (Blind R) (Logged.authenticateNtlmv2 E) (Logged.authenticateNtlmv2 E) := by
  intro s s' l h
  unfold Logged.authenticateNtlmv2
  rw [M.bind_ok (show quiet (getCli : CM σ Cli) (s, l) = (.ok s.cli, (s, l)) from rfl),
    M.bind_ok (show quiet (getCli : CM σ Cli) (s', l) = (.ok s'.cli, (s', l)) from rfl)]
  obtain ⟨p, hp⟩ : ∃ p, s'.cli.auth = { s.cli.auth with password := p } := ⟨_, by rw [h.cli]⟩
  rw [hp]
  refine Chime.bind (Chime.ofRes _ _) (fun i => Chime.bind (same_call hV _ _) fun r => Chime.bind
    (Chime.quiet fun s s' h => (blind_assign r.uid).strict h) fun _ => Chime.bind (Chime.ofRes _ _) fun c => Chime.bind (Chime.ofRes _ _) fun time => ?_) s s' l h
  rcases response_size E.C c s.cli.auth p time E.random with ⟨b, b', h1, h2, hl⟩ | ⟨e, h1, h2⟩
  · rw [h1, h2]
    intro s s' l h
    rw [M.bind_ok (show M.ofRes Error.NTLMError (.ok b) (s, l) = (.ok b, (s, l)) from rfl),
      M.bind_ok (show M.ofRes Error.NTLMError (.ok b') (s', l) = (.ok b', (s', l)) from rfl)]
    exact Chime.bind (same_command hV _ _ _ fun h => blob_size h hl) (fun _ => Chime.pure _) s s' l h
  · rw [h1, h2]
    exact fun s s' l h => ⟨rfl, h, rfl⟩

theorem same_login {E : Env σ} (hV : Deaf E.V R) : Chime (Blind R) (Logged.setupConnection E) (Logged.setupConnection E) := by
  refine Chime.bind (same_call hV _ _) fun setup => Chime.bind
    (Chime.quiet fun _ _ h => ⟨rfl, h.modify (fun c => { c with maxSmbSize := setup.maxBufferSize.toNat, useUnicode := _ }) (fun _ _ => rfl) (fun _ => rfl)⟩) fun _ => ?_
  split
  · exact same_extended hV
  · exact same_classic hV _

theorem same_prog {E : Env σ} (hV : Deaf E.V R) (prog : Prog α) (s s' : St σ) (l : Log) (h : Blind R s s') :
    (prog.logged E (s, l)).1 = (prog.logged E (s', l)).1 ∧ (prog.logged E (s, l)).2.2 = (prog.logged E (s', l)).2.2 := by
  induction prog generalizing s s' l with
  | done x => exact ⟨rfl, rfl⟩
  | call op next ih =>
    obtain ⟨h1, h2, h3⟩ := same_runOp hV op s s' l h
    unfold Prog.logged
    rw [← h1]
    rcases hr : Logged.runOp E op (s, l) with ⟨o, s1, l1⟩
    rcases hr' : Logged.runOp E op (s', l) with ⟨o', s1', l1'⟩
    rw [hr, hr'] at h2 h3
    dsimp only at h2 h3 ⊢
    subst h3
    exact ih o s1 s1' l1 h2

end Logged

/-- **C75** The log says nothing about the password that does not come from the server: if the server says the same things, the lines written while a
connection is opened are the same for any two passwords; and so are, if there is a connection, those written - and the results - while any program
runs on it. (`_partial`: `{:?}` tells.) -/
theorem C75_log_partial (E : Env σ) (hV : Deaf E.V R) (host : Str) (dial : Dial σ) (port : Option UInt16) (a : Auth) (password : Str) :
    (Logged.openCifs E host dial port (some a)).2 = (Logged.openCifs E host dial port (some { a with password })).2 ∧
    ∀ s s', (openCifs E dial port (some a)).state = some s → (openCifs E dial port (some { a with password })).state = some s' →
      ∀ (α : Type) (prog : Prog α) (l : Log), (prog.logged E (s, l)).1 = (prog.logged E (s', l)).1 ∧
        (prog.logged E (s, l)).2.2 = (prog.logged E (s', l)).2.2 := by
  rw [← C75_log_only_open E host, ← C75_log_only_open E host, Logged.openCifs_eq, Logged.openCifs_eq]
  show (Logged.finish E (Logged.dialled E.V host dial port a.workstation) a).2 = (Logged.finish E (Logged.dialled E.V host dial port a.workstation) { a with password }).2 ∧
    ∀ s s', (Logged.finish E (Logged.dialled E.V host dial port a.workstation) a).1.state = some s →
      (Logged.finish E (Logged.dialled E.V host dial port a.workstation) { a with password }).1.state = some s' → _
  generalize Logged.dialled E.V host dial port a.workstation = d
  obtain ⟨⟨o, w, ports⟩, l0⟩ := d
  have key : ∀ w : World σ, Blind R (⟨.init a, w⟩ : St σ) ⟨.init { a with password }, w⟩ := fun w => ⟨rfl, rfl, rfl, hV.refl _, rfl⟩
  cases w with
  | none => cases o <;> exact ⟨rfl, fun s s' h => nomatch h⟩
  | some w =>
    cases o with
    | ok u =>
      obtain ⟨_, h2, h3⟩ := Logged.same_login hV _ _ l0 (key w)
      refine ⟨h3, fun s s' hs hs' α prog l => ?_⟩
      cases hs; cases hs'
      exact Logged.same_prog hV prog _ _ l h2
    | _ =>
      refine ⟨rfl, fun s s' hs hs' α prog l => ?_⟩
      cases hs; cases hs'
      exact Logged.same_prog hV prog _ _ l (key w)

/-! ## The password of a share -/

theorem mount_size {s s' : St σ} (h : Blind R s s') (path : Str) {p p' : Str} (hl : (passwordField p).length = (passwordField p').length) :
    SameSize (requestFrame s.cli (treeConnectMsg path p)) (requestFrame s'.cli (treeConnectMsg path p')) := by
  refine body_size (by rw [h.cli]; rfl) rfl fun i => ?_
  rw [body_treeConnect_eq, body_treeConnect_eq, hl]
  split
  · exact .inl ⟨_, _, _, _, rfl, rfl, by simp, by rw [length_treeConnectData, length_treeConnectData, hl]⟩
  · exact .inr ⟨_, rfl, rfl⟩

/-- **C75** Mounting a share with one of two passwords of the same length in bytes: if the server says the same things, the outcome is the same, and so is
the log. (`_partial`: the length does get there, see `C75_violated_mount`.) -/
theorem C75_log_mount_partial (E : Env σ) (hV : Deaf E.V R) (path p p' : Str) (hl : (passwordField p).length = (passwordField p').length) (s : St σ) (l : Log) :
    (Logged.runOp E (.mount path p) (s, l)).1 = (Logged.runOp E (.mount path p') (s, l)).1 ∧
    (Logged.runOp E (.mount path p) (s, l)).2.2 = (Logged.runOp E (.mount path p') (s, l)).2.2 := by
  obtain ⟨h1, _, h3⟩ := Chime.map' Val.share (Logged.same_command hV _ _ Share.reply fun h => mount_size h (sanitizePath path) hl) s s l
    ⟨rfl, rfl, rfl, hV.refl _, rfl⟩
  exact ⟨h1, h3⟩

theorem logged_send (E : Env σ) (m : Msg) (T : Reply α) (s : St σ) (l : Log) (f : Bytes) (hc : ¬ (E.checked = true ∧ s.cli.mid.toNat = 65535))
    (hf : requestFrame s.cli m = .ok f) (hl : f.length ≤ MAX_FRAME_LENGTH) :
    ∃ more, (Logged.command E m T (s, l)).2.2 = l ++ .writing (4 + f.length) :: more := by
  have h32 : f.length < 2 ^ 32 := by unfold MAX_FRAME_LENGTH at hl; omega
  have hq : (Frame.Message f).encode = .ok ([0x00] ++ be24 f.length ++ f) := by
    unfold Frame.encode tryInto
    dsimp only
    rw [if_neg (by omega), if_pos h32]; rfl
  obtain ⟨more, h⟩ : ∃ more, (Logged.send E m (s, l)).2.2 = l ++ .writing (4 + f.length) :: more := by
    unfold Logged.send
    dsimp only
    rw [if_neg hc, hf]
    dsimp only
    have hs : ∃ r w, Logged.sendMessage E.V f (s.w, l) = (r, (w, l ++ [.writing (4 + f.length)])) := by
      refine ⟨(writeExactly E.V ([0x00] ++ be24 f.length ++ f) s.w).1, (writeExactly E.V ([0x00] ++ be24 f.length ++ f) s.w).2, ?_⟩
      show (M.ofRes id (Frame.Message f).encode >>= Logged.writeExactly E.V) (s.w, l) = _
      rw [hq, M.bind_ok (show M.ofRes id (.ok _) (s.w, l) = (.ok _, (s.w, l)) from rfl)]
      unfold Logged.writeExactly
      rw [M.bind_ok (show emit (.writing _) (s.w, l) = (.ok (), (s.w, l ++ [.writing _])) from rfl)]
      have : ([0x00] ++ be24 f.length ++ f).length = 4 + f.length := by simp [be24]; omega
      rw [this]; rfl
    obtain ⟨r, w, hs⟩ := hs
    refine ⟨[], ?_⟩
    unfold M.bind Logged.liftNet
    dsimp only
    rw [hs]
    cases r <;> rfl
  unfold Logged.command
  rcases hs : Logged.send E m (s, l) with ⟨o, s1, l1⟩
  rw [hs] at h
  dsimp only at h
  cases o with
  | ok mid =>
    rw [M.bind_ok hs]
    obtain ⟨_, _, more', h'⟩ := Logged.erase_recv E T mid s1 l1
    exact ⟨more ++ more', by rw [← h', h]; simp⟩
  | err e => rw [M.bind_err hs]; exact ⟨more, h⟩
  | panic => rw [M.bind_panic hs]; exact ⟨more, h⟩
  | pending => rw [M.bind_pending hs]; exact ⟨more, h⟩
  | running => rw [M.bind_running hs]; exact ⟨more, h⟩

/-- **C75 violated** The first line that `mount` logs says how long the packet is, and thereby how long the password of the share is: it is at most `n` and
at least `n - 1` bytes long (a padding byte may be there), where `n` is what remains when the parts of known length are taken off. -/
theorem C75_violated_mount (E : Env σ) (path password : Str) (s : St σ) (l : Log) (hc : ¬ (E.checked = true ∧ s.cli.mid.toNat = 65535))
    (hm : mountLength s.cli.useUnicode (backslashed path) password < 65536) :
    ∃ n more, (Logged.runOp E (.mount path password) (s, l)).2.2 = l ++ .writing (53 + (if s.cli.useUnicode then 2 * utf16Len (backslashed path) + 2 else (utf8Bytes (backslashed path)).length + 1) + n) :: more ∧
      (passwordField password).length ≤ n ∧ n ≤ (passwordField password).length + 1 := by
  obtain ⟨f, hf, hl⟩ := frame_treeConnect s.cli (backslashed path) password hm
  obtain ⟨more, h⟩ := logged_send E (treeConnectMsg (backslashed path) password) Share.reply s l f hc hf (by unfold MAX_FRAME_LENGTH; omega)
  have hmap : (Logged.runOp E (.mount path password) (s, l)).2.2 = (Logged.command E (treeConnectMsg (backslashed path) password) Share.reply (s, l)).2.2 := by
    show (M.bind (Logged.command E (treeConnectMsg (backslashed path) password) Share.reply) _ (s, l)).2.2 = _
    unfold M.bind
    rcases Logged.command E (treeConnectMsg (backslashed path) password) Share.reply (s, l) with ⟨o, s1⟩
    cases o <;> rfl
  rw [hmap, h]
  unfold mountLength at hl
  dsimp only at hl
  refine ⟨(passwordField password).length + (if s.cli.useUnicode = true ∧ (passwordField password).length % 2 = 0 then 1 else 0), more, ?_, by omega, by split <;> omega⟩
  congr 3
  rw [hl]
  cases s.cli.useUnicode <;> simp <;> (try split) <;> omega

/-! ## Not vacuous -/

/-! ## Not vacuous -/

namespace Demo

/-- A server that plays back a recording. -/
theorem deaf_script (checked : Bool) : Deaf (env checked).V (fun v v' => v.1 = v'.1) :=
  ⟨fun _ => rfl, fun v v' p p' h _ => by show v.1.tail = v'.1.tail; rw [h], fun v v' p p' h _ => by show (v.1.headD []).flatten = _; rw [h]; rfl,
    fun _ _ _ => rfl⟩

/-- What a login logs. -/
def loginLog : Log :=
  [.connecting "nas".toList 445, .writing 51, .msgType 0, .msgLength 69, .reading 69, .writing 126, .msgType 0, .msgLength 97, .reading 97,
   .writing 232, .msgType 0, .msgLength 43, .reading 43]

theorem logs_login : (Logged.openCifs (env true) "nas".toList (dial (modern (.Known .SUCCESS))) none (some defaultAuth)).2 = loginLog := by decide +kernel

end Demo

/-- So it does with another password. -/
example : (Logged.openCifs (Demo.env true) "nas".toList (Demo.dial (Demo.modern (.Known .SUCCESS))) none (some { defaultAuth with password := "hunter2".toList })).2 =
    Demo.loginLog :=
  (C75_log_partial (Demo.env true) (Demo.deaf_script true) _ _ _ defaultAuth _).1.symm.trans Demo.logs_login

example : (Logged.openCifs (Demo.env true) "nas".toList (Demo.dial (Demo.modern (.Known .SUCCESS))) none (some defaultAuth)).1.outcome = .ok () := by
  rw [C75_log_only_open]; decide +kernel

/-- A packet sent, and one received, of the kinds and lengths that the log tells. -/
example : ∃ s, (openCifs (Demo.env true) (Demo.dial (Demo.modern (.Known .SUCCESS))) none (some defaultAuth)).state = some s ∧ s.w.out.length = 51 + 126 + 232 ∧
    s.w.inbox.flatten = [] ∧ (Transfer.got 0 (List.replicate 69 0)).lines = [.msgType 0, .msgLength 69, .reading 69] :=
  ⟨_, rfl, by decide +kernel⟩

/-- Passwords of shares, of different lengths. -/
example : (Logged.runOp (Demo.env true) (.mount "s".toList "hunter2".toList) (Demo.st [], [])).2.2 = [.writing 64] ∧
    (Logged.runOp (Demo.env true) (.mount "s".toList "hunter2000".toList) (Demo.st [], [])).2.2 = [.writing 68] := by decide +kernel

example : mountLength Demo.cli.useUnicode (backslashed "s".toList) "hunter2".toList < 65536 ∧ ¬ ((Demo.env true).checked = true ∧ Demo.cli.mid.toNat = 65535) ∧
    (passwordField "hunter2".toList).length = (passwordField "swordfi".toList).length := by decide +kernel

/-- The lines. -/
example : (Event.waiting 0x113).text = "waiting for FILENAME | DIRNAME | NAME | LAST_WRITE | SECURITY notification".toList ∧
    (Event.connecting "nas".toList 445).text = "create NetBios connection to nas:445".toList ∧ (Event.writing 51).text = "writting 51 bytes...".toList := by decide +kernel

end Cifs
