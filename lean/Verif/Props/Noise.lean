import Verif.Props.Streams
import Verif.Lemmas.Login
import Verif.Props.Connect
import Verif.Props.Ntlm
/-!
# Packets that do not matter, during a login (C03, C12)
-/

namespace Cifs
open Spec

variable {σ σ' : Type}

/-- **C12** The same for a login: keep-alives, and replies with multiplex ids that no request of the login has, change nothing. -/
theorem C12_login (E : Env σ) (V' : Server σ') (R : σ → σ' → Prop) (P : Nat → Prop) (hV : NoisyServer P E.V V' R)
    (log : σ → List Bytes) (hlog : Logs E.V log) (s : St σ) (s' : St σ') (hc : s.cli = s'.cli) (hw : NoisyWire P R s.w s'.w)
    (hP : ∀ p, Sent log s.w.srv (setupConnection E s).2.w.srv p → ∀ m, midOf p = some m → ¬ P m) :
    (setupConnection E s).1 = (setupConnection (E.withV V') s').1 ∧
      (setupConnection E s).2.cli = (setupConnection (E.withV V') s').2.cli ∧
      NoisyWire P R (setupConnection E s).2.w (setupConnection (E.withV V') s').2.w := by
  have hq : (Related.noise hV log hlog (log s.w.srv).length).Q s s' := ⟨hc ▸ ⟨rfl, rfl⟩, hw.out, hw.wsched, ⟨hw.srv, Nat.le_refl _⟩, hw.bytes⟩
  rcases (Related.Sim.setupConnection (P := Related.noise hV log hlog (log s.w.srv).length) (by rintro a _ rfl; exact Related.alike_refl _ _)).sim s s' hq with
    ⟨p, hp, m, hm, hm'⟩ | ⟨h1, h2, h3, h4, h5, h6⟩
  · refine absurd hm' (hP p ?_ m hm)
    obtain ⟨fs, h1, _⟩ := setup_resp (Built.ignores log LoginMsg) E (fun f _ s => ⟨[], by simp [modifyCli], by simp⟩)
      (fun m hm => Built.send E log hlog LoginMsg m hm) s
    rw [h1, List.drop_left] at hp
    exact ⟨_, h1, hp⟩
  · exact ⟨h1, SameBut.eq h2, h3, h4, h5.1, h6⟩

/-- **C03** Keep-alives between the packets change nothing about a login. -/
theorem C03_login (E : Env σ) (V' : Server σ') (R : σ → σ' → Prop) (hV : NoisyServer (fun _ => False) E.V V' R)
    (s : St σ) (s' : St σ') (hc : s.cli = s'.cli) (hw : NoisyWire (fun _ => False) R s.w s'.w) :
    (setupConnection E s).1 = (setupConnection (E.withV V') s').1 ∧
      (setupConnection E s).2.cli = (setupConnection (E.withV V') s').2.cli ∧
      NoisyWire (fun _ => False) R (setupConnection E s).2.w (setupConnection (E.withV V') s').2.w := by
  let P : Related E V' := {
    rel := R, stream := Noisy (fun _ => False), safe := fun _ => True, bad := fun _ => False, pw := Eq
    pw_refl := fun _ => rfl
    bad_mono := by simp
    bad_unsafe := by simp
    react := hV.state
    append := fun a a' p b b' hr hb => hb.append (hV.bytes a a' p hr)
    tail := hV.tail
    next := fun t mid b b' _ hb => flatNext_noisy hb t mid (by simp) }
  rcases (Related.Sim.setupConnection (P := P) (by rintro a _ rfl; exact Related.alike_refl _ _)).sim s s'
      ⟨hc ▸ ⟨rfl, rfl⟩, hw.out, hw.wsched, hw.srv, hw.bytes⟩ with h | ⟨h1, h2, h3, h4, h5, h6⟩
  · exact h.elim
  · exact ⟨h1, SameBut.eq h2, h3, h4, h5, h6⟩

/-- There is noise only behind the first packet, if there is one. -/
def NoiseBehind (P : Nat → Prop) (b b' : Bytes) : Prop :=
  b = [] ∧ b' = [] ∨ ∃ ty d c c', d.length ≤ maxPayload ∧ b = packet ty d ++ c ∧ b' = packet ty d ++ c' ∧ Noisy P c c'

theorem createSession_noisy {V : Server σ} {V' : Server σ'} {R : σ → σ' → Prop} {P : Nat → Prop} (hV : NoisyServer P V V' R) (dst src : Str) (w : World σ)
    (w' : World σ') (hw : NoisyWire P R w w')
    (hb : ∀ req, NoiseBehind P (w.inbox.flatten ++ (V.react w.srv req).2.flatten) (w'.inbox.flatten ++ (V'.react w'.srv req).2.flatten)) :
    (createSession V dst src w).1 = (createSession V' dst src w').1 ∧
      NoisyWire P R (createSession V dst src w).2 (createSession V' dst src w').2 := by
  have hs : ∀ buf, (writeExactly V buf w).1 = (writeExactly V' buf w').1 ∧ NoisyWire P R (writeExactly V buf w).2 (writeExactly V' buf w').2 ∧
      ((writeExactly V buf w).1 = .ok () → NoiseBehind P (writeExactly V buf w).2.inbox.flatten (writeExactly V' buf w').2.inbox.flatten) := by
    intro buf
    unfold writeExactly
    rw [← hw.out, ← hw.wsched]
    rcases writeLoop w.wsched buf w.out with ⟨r, ws, out⟩
    cases r with
    | done =>
      refine ⟨rfl, ⟨rfl, rfl, hV.state _ _ _ hw.srv, ?_⟩, fun _ => ?_⟩
      · simp only [List.flatten_append]; exact hw.bytes.append (hV.bytes _ _ buf hw.srv)
      · simp only [List.flatten_append]; exact hb buf
    | failed e => exact ⟨rfl, ⟨rfl, rfl, hw.srv, hw.bytes⟩, by simp⟩
    | blocked => exact ⟨rfl, ⟨rfl, rfl, hw.srv, hw.bytes⟩, by simp⟩
  have hs : (sendFrame V (.SessionRequest (sessionRequestPayload dst src)) w).1
        = (sendFrame V' (.SessionRequest (sessionRequestPayload dst src)) w').1 ∧
      NoisyWire P R (sendFrame V (.SessionRequest (sessionRequestPayload dst src)) w).2
        (sendFrame V' (.SessionRequest (sessionRequestPayload dst src)) w').2 ∧
      ((sendFrame V (.SessionRequest (sessionRequestPayload dst src)) w).1 = .ok () →
        NoiseBehind P (sendFrame V (.SessionRequest (sessionRequestPayload dst src)) w).2.inbox.flatten
          (sendFrame V' (.SessionRequest (sessionRequestPayload dst src)) w').2.inbox.flatten) := by
    unfold sendFrame
    simp only [M.bind_apply, M.bind, M.ofRes]
    cases Frame.encode (.SessionRequest (sessionRequestPayload dst src)) with
    | ok b => exact hs b
    | err e => exact ⟨rfl, hw, by simp⟩
    | panic => exact ⟨rfl, hw, by simp⟩
  unfold createSession
  simp only [M.bind_apply, M.bind]
  rcases h1 : sendFrame V (.SessionRequest (sessionRequestPayload dst src)) w with ⟨o, w1⟩
  rcases h2 : sendFrame V' (.SessionRequest (sessionRequestPayload dst src)) w' with ⟨o', w1'⟩
  rw [h1, h2] at hs
  obtain ⟨e, hw1, hn⟩ := hs
  dsimp only at e hw1 hn
  subst e
  cases o with
  | ok _ =>
    dsimp only
    obtain ⟨ib, i1, i2⟩ := recvFrame_flat V w1
    obtain ⟨ib', i1', i2'⟩ := recvFrame_flat V' w1'
    rw [← hV.tail _ _ hw1.srv] at i1' i2'
    have key : (flatRecv (V.tail w1.srv) w1'.flat).1 = (flatRecv (V.tail w1.srv) w1.flat).1 ∧
        Noisy P (flatRecv (V.tail w1.srv) w1.flat).2 (flatRecv (V.tail w1.srv) w1'.flat).2 := by
      rcases hn rfl with ⟨e1, e2⟩ | ⟨ty, d, c, c', hd, e1, e2, hcc⟩
      · rw [show w1.flat = [] from e1, show w1'.flat = [] from e2, flatRecv_short1]; exact ⟨rfl, .done⟩
      · rw [show w1.flat = _ from e1, show w1'.flat = _ from e2, flatRecv_packet _ _ _ _ hd, flatRecv_packet _ _ _ _ hd]
        cases Frame.new ty d <;> exact ⟨rfl, hcc⟩
    have hw2 : NoisyWire P R { w1 with inbox := ib } { w1' with inbox := ib' } := ⟨hw1.out, hw1.wsched, hw1.srv, by rw [i1, i1']; exact key.2⟩
    rw [i2, i2', key.1]
    cases (flatRecv (V.tail w1.srv) w1.flat).1 with
    | ok f => cases f <;> exact ⟨rfl, hw2⟩
    | _ => exact ⟨rfl, hw2⟩
  | _ => exact ⟨rfl, hw1⟩

/-- **C03** Nor about opening a connection. (The response to a session request is no message; no keep-alive comes before it.) -/
theorem C03_open (E : Env σ) (V' : Server σ') (R : σ → σ' → Prop) (hV : NoisyServer (fun _ => False) E.V V' R) (dial : Dial σ) (dial' : Dial σ')
    (hd : ∀ p, (∃ e, dial p = .error e ∧ dial' p = .error e) ∨ (∃ w w', dial p = .ok w ∧ dial' p = .ok w' ∧ NoisyWire (fun _ => False) R w w'))
    (port : Option UInt16)
    (hs : ∀ w w' req, port = none → dial 139 = .ok w → dial' 139 = .ok w' →
      NoiseBehind (fun _ => False) (w.inbox.flatten ++ (E.V.react w.srv req).2.flatten) (w'.inbox.flatten ++ (V'.react w'.srv req).2.flatten))
    (auth : Option Auth) :
    (openCifs E dial port auth).outcome = (openCifs (E.withV V') dial' port auth).outcome ∧
    (openCifs E dial port auth).ports = (openCifs (E.withV V') dial' port auth).ports ∧
    ((openCifs E dial port auth).state = none ∧ (openCifs (E.withV V') dial' port auth).state = none ∨
      ∃ s s', (openCifs E dial port auth).state = some s ∧ (openCifs (E.withV V') dial' port auth).state = some s' ∧
        NoisyWire (fun _ => False) R s.w s'.w ∧ s.cli = s'.cli) := by
  have setup : ∀ (a : Auth) (w : World σ) (w' : World σ'), NoisyWire (fun _ => False) R w w' →
      (setupConnection E { cli := .init a, w }).1 = (setupConnection (E.withV V') { cli := .init a, w := w' }).1 ∧
      (setupConnection E { cli := .init a, w }).2.cli = (setupConnection (E.withV V') { cli := .init a, w := w' }).2.cli ∧
      NoisyWire (fun _ => False) R (setupConnection E { cli := .init a, w }).2.w (setupConnection (E.withV V') { cli := .init a, w := w' }).2.w :=
    fun a w w' hw => C03_login E V' R hV { cli := .init a, w } { cli := .init a, w := w' } rfl hw
  have dials : ∀ a : Auth, ∃ (o : Out NbError Unit) (ps : List UInt16), (dialled E.V dial port a = ⟨o, none, ps⟩ ∧
        dialled V' dial' port a = ⟨o, none, ps⟩ ∧ o ≠ .ok ()) ∨
      ∃ w w', dialled E.V dial port a = ⟨o, some w, ps⟩ ∧
        dialled V' dial' port a = ⟨o, some w', ps⟩ ∧ NoisyWire (fun _ => False) R w w' := by
    intro a
    unfold dialled
    cases port with
    | some p =>
      dsimp only [openRaw]
      rcases hd p with ⟨e, h1, h2⟩ | ⟨w, w', h1, h2, hw⟩
      · rw [h1, h2]; exact ⟨_, _, .inl ⟨rfl, rfl, by simp⟩⟩
      · rw [h1, h2]; exact ⟨_, _, .inr ⟨w, w', rfl, rfl, hw⟩⟩
    | none =>
      dsimp only [openNetbios]
      rcases hd 445 with ⟨e, h1, h2⟩ | ⟨w, w', h1, h2, hw⟩
      · rw [h1, h2]
        dsimp only
        rcases hd 139 with ⟨e, h1, h2⟩ | ⟨w, w', h1, h2, hw⟩
        · rw [h1, h2]; exact ⟨_, _, .inl ⟨rfl, rfl, by simp⟩⟩
        · have hb := fun req => hs w w' req rfl h1 h2
          rw [h1, h2]
          obtain ⟨e1, hw1⟩ := createSession_noisy hV "*SMBSERVER".toList a.workstation w w' hw hb
          dsimp only
          rw [← e1]
          exact ⟨_, _, .inr ⟨_, _, rfl, rfl, hw1⟩⟩
      · rw [h1, h2]; exact ⟨_, _, .inr ⟨w, w', rfl, rfl, hw⟩⟩
  simp only [openCifs_eq]
  generalize auth.getD defaultAuth = a
  obtain ⟨o, ps, ⟨h1, h2, hne⟩ | ⟨w, w', h1, h2, hw⟩⟩ := dials a
  · rw [show (E.withV V').V = V' from rfl, h1, h2]
    cases o with
    | ok u => exact absurd rfl hne
    | _ => exact ⟨rfl, rfl, .inl ⟨rfl, rfl⟩⟩
  · rw [show (E.withV V').V = V' from rfl, h1, h2]
    cases o with
    | ok u =>
      obtain ⟨e1, e2, e3⟩ := setup a w w' hw
      exact ⟨e1, rfl, .inr ⟨_, _, rfl, rfl, e3, e2⟩⟩
    | _ => exact ⟨rfl, rfl, .inr ⟨_, _, rfl, rfl, hw, rfl⟩⟩

namespace Demo

/-- Prepared answers, and the same with a keep-alive in front of each of them. -/
theorem alike_beats (answers : List Bytes) (h : ∀ r ∈ answers, r.length ≤ maxPayload) :
    Alike (Noisy fun _ => False) (answers.map fun r => [message r]) (answers.map fun r => [keepAlive, message r]) := by
  intro i
  cases hi : answers[i]? with
  | none => simpa [hi] using Noisy.done
  | some r =>
    have hr := h r (List.mem_of_getElem? hi)
    have : Noisy (fun _ => False) (message r) (keepAlive ++ message r) := .keepAlive (by simpa [message] using Noisy.same 0 r hr .done)
    simpa [hi] using this

/-- Both kinds of login succeed with such answers. -/
example (answers : List Bytes) (h : answers = legacy (.Known .SUCCESS) ∨ answers = modern (.Known .SUCCESS)) :
    (setupConnection ((env true).withV script) { cli := .init defaultAuth, w := { inbox := [], wsched := [], out := []
                                                                                  srv := answers.map fun r => [keepAlive, message r] } }).1 = .ok () := by
  have hl : ∀ r ∈ answers, r.length ≤ maxPayload := by
    rcases h with rfl | rfl <;> decide +kernel
  have := (C03_login (env true) script _ (noise _) (loginSt defaultAuth answers)
    { cli := .init defaultAuth, w := { inbox := [], wsched := [], out := [], srv := answers.map fun r => [keepAlive, message r] } }
    rfl ⟨rfl, rfl, alike_beats answers hl, .done⟩).1
  rw [← this]
  rcases h with rfl | rfl <;> decide +kernel

/-- Port 139 only: first a session response, then the answers, with or without keep-alives. -/
def sessionDial {τ : Type} (srv : τ) : Dial τ := fun p => if p = 139 then .ok { inbox := [], wsched := [], out := [], srv } else .error (.os 111)

/-- Opening a connection succeeds in this way, too. -/
example : (openCifs ((env true).withV script) (sessionDial ([packet 0x82 []] :: (legacy (.Known .SUCCESS)).map fun r => [keepAlive, message r])) none none).outcome = .ok () := by
  have hl : ∀ r ∈ legacy (.Known .SUCCESS), r.length ≤ maxPayload := by decide +kernel
  have ha : Alike (Noisy fun _ => False) ([packet 0x82 []] :: (legacy (.Known .SUCCESS)).map fun r => [message r])
      ([packet 0x82 []] :: (legacy (.Known .SUCCESS)).map fun r => [keepAlive, message r]) := by
    intro i
    cases i with
    | zero => exact .same 0x82 [] (by decide) .done
    | succ i => exact alike_beats _ hl i
  have := (C03_open (env true) script _ (noise _)
    (sessionDial ([packet 0x82 []] :: (legacy (.Known .SUCCESS)).map (fun r => [message r]), []))
    (sessionDial ([packet 0x82 []] :: (legacy (.Known .SUCCESS)).map fun r => [keepAlive, message r]))
    (fun p => by
      by_cases hp : p = 139
      · exact .inr ⟨_, _, if_pos hp, if_pos hp, rfl, rfl, ha, .done⟩
      · exact .inl ⟨_, if_neg hp, if_neg hp⟩)
    none (by
      intro w w' req _ h1 h2
      cases h1; cases h2
      exact .inr ⟨0x82, [], [], [], by decide, rfl, rfl, .done⟩) none).1
  rw [← this]
  decide +kernel

end Demo

end Cifs
