import Verif.Lemmas.Answer
import Verif.Lemmas.Login
import Verif.Lemmas.Decode
import Verif.Spec.Login
/-! # Single requests, whatever their outcome -/

namespace Cifs
open Spec

variable {σ : Type}

theorem send_fails {E : Env σ} {m : Msg} {s : St σ} (h : ∀ mid, (send E m s).1 ≠ .ok mid) :
    (send E m s).2.w.srv = s.w.srv ∧ (send E m s).2.w.inbox = s.w.inbox := by
  unfold send at h ⊢
  split
  · exact ⟨rfl, rfl⟩
  · rename_i hc
    rw [if_neg hc] at h
    cases hf : requestFrame s.cli m with
    | err e => exact ⟨rfl, rfl⟩
    | panic => exact ⟨rfl, rfl⟩
    | ok f =>
      rw [hf] at h
      simp only [M.bind, liftNet_eq, sendMessage_eq, be24_packet] at h ⊢
      by_cases hl : f.length > MAX_FRAME_LENGTH
      · simp only [hl, if_true]; exact ⟨rfl, rfl⟩
      · simp only [hl, if_false] at h ⊢
        simp only [writeExactly] at h ⊢
        rcases hw : writeLoop s.w.wsched (packet 0 f) s.w.out with ⟨r, ws, out⟩
        rw [hw] at h
        cases r with
        | failed e => exact ⟨rfl, rfl⟩
        | blocked => exact ⟨rfl, rfl⟩
        | done => exact absurd rfl (h s.cli.mid)

/-- A command whose request was sent. -/
theorem command_eq {α : Type} {E : Env σ} {m : Msg} (R : Reply α) {s s1 : St σ} {mid : UInt16} (h : send E m s = (.ok mid, s1)) :
    ∃ ib, ib.flatten = (flatReply R mid (E.V.tail s1.w.srv) s1.w.flat).2 ∧
      command E m R s = ((flatReply R mid (E.V.tail s1.w.srv) s1.w.flat).1, s1.setInbox ib) := by
  obtain ⟨ib, h1, h2⟩ := recv_flatC E R mid s1
  refine ⟨ib, h1, ?_⟩
  show M.bind (send E m) (fun mid => recv E R mid) s = _
  simp only [M.bind, h]
  exact h2

/-- A command whose request was not sent. -/
theorem command_unsent {α : Type} {E : Env σ} {m : Msg} (R : Reply α) {s : St σ} (h : ∀ mid, (send E m s).1 ≠ .ok mid) :
    (∀ a, (command E m R s).1 ≠ .ok a) ∧ (command E m R s).2 = (send E m s).2 := by
  show (∀ a, (M.bind (send E m) (fun mid => recv E R mid) s).1 ≠ .ok a) ∧ (M.bind (send E m) (fun mid => recv E R mid) s).2 = _
  rcases hs : send E m s with ⟨o, s1⟩
  rw [hs] at h
  simp only [M.bind, hs]
  cases o <;> simp at h ⊢

/-- What a command sends: nothing, or its request. -/
theorem command_log {α : Type} {E : Env σ} {log : σ → List Bytes} (hlog : Logs E.V log) (m : Msg) (R : Reply α) (s : St σ) :
    log (command E m R s).2.w.srv = log s.w.srv ∨
      ∃ fr, requestFrame s.cli m = .ok fr ∧ log (command E m R s).2.w.srv = log s.w.srv ++ [message fr] := by
  by_cases h : ∀ mid, (send E m s).1 ≠ .ok mid
  · left
    rw [(command_unsent R h).2, (send_fails h).1]
  · right
    have h' : ∃ mid, (send E m s).1 = .ok mid := by
      rcases hs : (send E m s).1 with mid | e | _ | _ | _
      · exact ⟨mid, rfl⟩
      all_goals exact absurd (fun mid => by rw [hs]; simp) h
    obtain ⟨mid, hm⟩ := h'
    have hs : send E m s = (.ok mid, (send E m s).2) := by rw [← hm]
    obtain ⟨ib, _, h2⟩ := command_eq R hs
    obtain ⟨fr, h3, _, _, _, h6, _⟩ := send_ok_inv hs
    refine ⟨fr, h3, ?_⟩
    rw [h2, St.setInbox_srv, h6, hlog]

/-- A command that succeeds. -/
theorem command_ok {α : Type} {E : Env σ} {m : Msg} (hk : KeepsMid m) (R : Reply α) {s s' : St σ} {a : α} (h : command E m R s = (.ok a, s')) :
    ∃ fr f i, requestFrame s.cli m = .ok fr ∧ fr.length ≤ maxPayload ∧
      Round E.V s.w.srv s.w.inbox.flatten (message fr) f s'.w.srv s'.w.inbox.flatten ∧
      Info.parse f = .ok (i, f.drop 32) ∧ accept R i (f.drop 32) = .ok a ∧ s'.cli = s.bump.cli := by
  have hs : ∃ mid, (send E m s).1 = .ok mid := by
    rcases hs : (send E m s).1 with mid | e | _ | _ | _
    · exact ⟨mid, rfl⟩
    all_goals
      have := (command_unsent (E := E) (m := m) R (s := s) (fun mid => by rw [hs]; simp)).1 a
      rw [h] at this
      exact absurd rfl this
  obtain ⟨mid, hm⟩ := hs
  have hs : send E m s = (.ok mid, (send E m s).2) := by rw [← hm]
  generalize (send E m s).2 = s1 at hs
  obtain ⟨ib, h1, h2⟩ := command_eq R hs
  obtain ⟨fr, h3, h4, h5, h6, h7, h8⟩ := send_ok_inv hs
  rw [h] at h2
  rw [flatReply_eq] at h1 h2
  rcases hn : flatNext (E.V.tail s1.w.srv) mid s1.w.flat with ⟨o, rest⟩
  cases o with
  | ok p =>
    rw [M.bind_ok hn] at h1 h2
    obtain ⟨f, ha, hp⟩ := awaits_of_flatNext _ _ _ _ (Nat.lt_succ_self _) _ _ hn
    have hd := (C17_read f _ _ hp).1
    cases hacc : accept R p.1 p.2 with
    | ok a' =>
      simp only [M.ofRes, hacc] at h1 h2
      cases h2
      refine ⟨fr, f, p.1, h3, h4, ⟨by rw [St.setInbox_srv, h7], s.cli.mid.toNat, requestFrame_mid hk h3, ?_⟩, by rw [hp, ← hd], by rw [← hd, hacc], h6⟩
      rw [← h8, ← h5]
      have e : (s1.setInbox ib).w.inbox.flatten = rest := h1
      rw [e]
      exact ha
    | err e => simp only [M.ofRes, hacc] at h2; cases h2
    | panic => simp only [M.ofRes, hacc] at h2; cases h2
  | err e => rw [M.bind_err hn] at h2; cases h2
  | panic => rw [M.bind_panic hn] at h2; cases h2
  | pending => rw [M.bind_pending hn] at h2; cases h2
  | running => rw [M.bind_running hn] at h2; cases h2

/-- Conversely, a round decides a command. -/
theorem command_round {α : Type} {E : Env σ} {m : Msg} (R : Reply α) {s s1 : St σ} {mid : UInt16} (hs : send E m s = (.ok mid, s1))
    {f rest : Bytes} (h : Awaits s.cli.mid.toNat s1.w.flat f rest) :
    ∃ i ib, Info.parse f = .ok (i, f.drop 32) ∧ ib.flatten = rest ∧ command E m R s = ((accept R i (f.drop 32)).out, s1.setInbox ib) := by
  obtain ⟨ib, h1, h2⟩ := command_eq R hs
  obtain ⟨_, _, _, h5, _⟩ := send_ok_inv hs
  subst h5
  obtain ⟨i, hp, hn⟩ := flatNext_awaits (E.V.tail s1.w.srv) s.cli.mid h
  rw [flatReply_eq, M.bind_ok hn] at h1 h2
  refine ⟨i, ib, hp, ?_, ?_⟩
  · rw [h1]; cases accept R i (f.drop 32) <;> simp [M.ofRes]
  · rw [h2]; cases accept R i (f.drop 32) <;> simp [M.ofRes, Res.out]

/-- A successful command's reply was accepted: its type and its status. -/
theorem accept_ok {α : Type} {R : Reply α} {i : Info} {b : Bytes} {a : α} (h : accept R i b = .ok a) :
    i.cmd = R.cmd ∧ (i.status = .Known .SUCCESS ∨ (i.status = .Known .MORE_PROCESSING ∧ R.cmd = .SessionSetup)) ∧
      (R.parse i b).mapErr Error.SMBError = .ok a := by
  rw [accept] at h
  split at h
  · cases h
  · rename_i h1
    simp only [ne_eq, Decidable.not_not] at h1
    split at h
    · rename_i h2
      refine ⟨h1, ?_, h⟩
      rcases h2 with h2 | ⟨h2, h3⟩
      · exact .inl h2
      · exact .inr ⟨h2, h1 ▸ h3⟩
    · cases h

theorem parse_code {f : Bytes} {i : Info} {r : Bytes} (h : Info.parse f = .ok (i, r)) {c : Cmd} (hc : cmdOf (message f) = some c.code.toNat) :
    i.cmd = c := by
  rw [(C17_read f i r h).2.1] at hc
  exact code_inj (Option.some.inj hc)

theorem parse_status_more {f : Bytes} {i : Info} {r : Bytes} (h : Info.parse f = .ok (i, r)) (hs : statusOf (message f) = some moreProcessing) :
    i.status = .Known .MORE_PROCESSING := by
  obtain ⟨n, hn⟩ := parse_status h
  rw [(C17_read f i r h).2.2.1, hn, C16_roundtrip] at hs
  have : n = 0xc0000016 := UInt32.toNat_inj.mp (Option.some.inj hs)
  rw [hn, this]; rfl

/-- The outcome of a command that is answered with an accepted status, in terms of the reply type. -/
theorem replied {α : Type} {E : Env σ} {log : σ → List Bytes} (hlog : Logs E.V log) {m : Msg} (hk : KeepsMid m) (R : Reply α) {s : St σ}
    {st : Nat} {f ps ds : Bytes} (h : Replied E log (command E m R) s R.cmd.code.toNat st f ps ds)
    (hst : st = 0 ∨ (st = moreProcessing ∧ R.cmd = .SessionSetup)) :
    ∃ i, Info.parse f = .ok (i, f.drop 32) ∧ (command E m R s).1 = ((R.make i ps ds).mapErr Error.SMBError).out := by
  obtain ⟨req, v', rest, h1, ⟨_, mid, h2, h3⟩, hc, hs, hb⟩ := h
  have hsend : ∃ mid, (send E m s).1 = .ok mid := by
    rcases hs : (send E m s).1 with mid | e | _ | _ | _
    · exact ⟨mid, rfl⟩
    all_goals
      have hno : ∀ mid, (send E m s).1 ≠ .ok mid := fun mid => by rw [hs]; simp
      rw [(command_unsent R hno).2, (send_fails hno).1] at h1
      have := congrArg List.length h1
      simp at this
  obtain ⟨mid', hm⟩ := hsend
  have hsd : send E m s = (.ok mid', (send E m s).2) := by rw [← hm]
  generalize (send E m s).2 = s1 at hsd
  obtain ⟨fr, g1, g2, g3, g4, g5, g6⟩ := send_ok_inv hsd
  have hreq : req = message fr := by
    obtain ⟨ib, _, h2⟩ := command_eq R hsd
    rw [h2, St.setInbox_srv, g5, hlog] at h1
    have := List.append_cancel_left h1
    simp at this; exact this.symm
  subst hreq
  rw [requestFrame_mid hk g1] at h2
  have h2 := Option.some.inj h2
  subst h2
  rw [← g6] at h3
  obtain ⟨i, ib, hp, _, ho⟩ := command_round R hsd h3
  have hg := (C13_accepted_iff f).mp ⟨_, _, hp⟩
  refine ⟨i, hp, ?_⟩
  have hcc := parse_code hp hc
  have hi : i.status = .Known .SUCCESS ∨ (i.status = .Known .MORE_PROCESSING ∧ i.cmd = .SessionSetup) := by
    rcases hst with rfl | ⟨rfl, hR⟩
    · refine .inl (status_zero (parse_status hp) ?_)
      have := (C17_read f i _ hp).2.2.1
      rw [hs] at this
      exact (Option.some.inj this).symm
    · exact .inr ⟨parse_status_more hp hs, by rw [hcc, hR]⟩
  rw [ho, accept, if_neg (by simp [hcc]), if_pos hi, parse_body R i hg.1 hb]

end Cifs
