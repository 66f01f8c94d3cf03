import Verif.Props.Streams
import Verif.Lemmas.LoggedCuts
import Verif.Spec.Logged
/-! # C01: how the stream is cut does not show in the log -/

namespace Cifs
open Spec

variable {σ σ' α : Type} {R : σ → σ' → Prop}

/-- **C01** Every program, whatever it does with the outcomes, has the same result and logs the same lines, however the server's bytes are split
into segments. -/
theorem C01_log (E : Env σ) (V' : Server σ') (hV : SameBytes E.V V' R) (p : Prog α) : ∀ (s : St σ) (s' : St σ') (_ : s.cli = s'.cli)
    (_ : SameWire R s.w s'.w) (l : Log),
    (p.logged E (s, l)).1 = (p.logged (E.withV V') (s', l)).1 ∧ (p.logged E (s, l)).2.2 = (p.logged (E.withV V') (s', l)).2.2 := by
  induction p with
  | done x => intro s s' _ _ l; exact ⟨rfl, rfl⟩
  | call op next ih =>
    intro s s' hc hw l
    obtain ⟨h1, h2, h3⟩ := Logged.cut_runOp hV op s s' l ⟨hc, hw⟩
    unfold Prog.logged
    rcases hr : Logged.runOp E op (s, l) with ⟨o, s1, l1⟩
    rcases hr' : Logged.runOp (E.withV V') op (s', l) with ⟨o', s1', l1'⟩
    rw [hr, hr'] at h1 h2 h3
    dsimp only at h1 h2 h3 ⊢
    subst h3
    obtain rfl : o = o' := h1.eq
    exact ih o s1 s1' h2.cli h2.wire l1

/-- **C01** So does opening a connection, by either way of dialling. -/
theorem C01_log_open (E : Env σ) (V' : Server σ') (hV : SameBytes E.V V' R) (host : Str) (dial : Dial σ) (dial' : Dial σ')
    (hd : ∀ p, (∃ e, dial p = .error e ∧ dial' p = .error e) ∨ (∃ w w', dial p = .ok w ∧ dial' p = .ok w' ∧ SameWire R w w'))
    (port : Option UInt16) (auth : Option Auth) :
    (Logged.openCifs E host dial port auth).2 = (Logged.openCifs (E.withV V') host dial' port auth).2 := by
  simp only [Logged.openCifs_eq]
  generalize auth.getD defaultAuth = a
  have key : ∃ (o : Out NbError Unit) (ps : List UInt16) (l : Log),
      (Logged.dialled E.V host dial port a.workstation = (⟨o, none, ps⟩, l) ∧ Logged.dialled V' host dial' port a.workstation = (⟨o, none, ps⟩, l)) ∨
      ∃ w w', Logged.dialled E.V host dial port a.workstation = (⟨o, some w, ps⟩, l) ∧
        Logged.dialled V' host dial' port a.workstation = (⟨o, some w', ps⟩, l) ∧ SameWire R w w' := by
    unfold Logged.dialled
    cases port with
    | some p =>
      dsimp only [Logged.openRaw, openRaw]
      rcases hd p with ⟨e, h1, h2⟩ | ⟨w, w', h1, h2, hw⟩
      · rw [h1, h2]; exact ⟨_, _, _, .inl ⟨rfl, rfl⟩⟩
      · rw [h1, h2]; exact ⟨_, _, _, .inr ⟨w, w', rfl, rfl, hw⟩⟩
    | none =>
      dsimp only [Logged.openNetbios]
      rcases hd 445 with ⟨e, h1, h2⟩ | ⟨w, w', h1, h2, hw⟩
      · rw [h1, h2]
        dsimp only
        rcases hd 139 with ⟨e, h1, h2⟩ | ⟨w, w', h1, h2, hw⟩
        · rw [h1, h2]; exact ⟨_, _, _, .inl ⟨rfl, rfl⟩⟩
        · rw [h1, h2]
          obtain ⟨k1, k2, k3⟩ := Logged.cut_createSession hV "*SMBSERVER".toList a.workstation w w' [.connecting host 445, .connecting host 139] hw
          dsimp only
          rw [← k3]
          rw [← k1.eq]
          exact ⟨_, _, _, .inr ⟨_, _, rfl, rfl, k2⟩⟩
      · rw [h1, h2]; exact ⟨_, _, _, .inr ⟨w, w', rfl, rfl, hw⟩⟩
  obtain ⟨o, ps, l, ⟨h1, h2⟩ | ⟨w, w', h1, h2, hw⟩⟩ := key
  · rw [show (E.withV V').V = V' from rfl, h1, h2]
    cases o <;> rfl
  · rw [show (E.withV V').V = V' from rfl, h1, h2]
    cases o with
    | ok u => exact (Logged.cut_setupConnection hV _ _ l ⟨rfl, hw⟩).2.2
    | _ => rfl

namespace Demo

/-- non-vacuity: a reply in three segments, one of them empty; four lines. -/
example : let r := message (reply .TreeDisconnect 7 [] [])
    ((Prog.call (.umount share) .done).logged ((env true).withV script) ({ cli := cli, w := { (st []).w with srv := [[r.take 6, [], r.drop 6]] } }, [])).2.2.length = 4 := by
  have h := (C01_log (env true) script segments (.call (.umount share) .done) (st [[message (reply .TreeDisconnect 7 [] [])]])
    { cli := cli, w := { (st []).w with srv := [[(message (reply .TreeDisconnect 7 [] [])).take 6, [], (message (reply .TreeDisconnect 7 [] [])).drop 6]] } } rfl
    ⟨rfl, rfl, by
      intro i
      match i with
      | 0 => simp [st]
      | i + 1 => rfl, rfl⟩ []).2
  dsimp only
  rw [← h]
  decide +kernel

end Demo

end Cifs
