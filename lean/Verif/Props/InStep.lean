import Verif.Spec.InStep
import Verif.Lemmas.Through
import Verif.Lemmas.Fields
import Verif.Lemmas.Demo
import Verif.Lemmas.Ends
/-!
# Staying in step (C67, C68)
-/

namespace Cifs
open Spec

variable {σ : Type} {E : Env σ} {log : σ → List Bytes} {fed : σ → Bytes}

/-! ## What the client writes (C67) -/

theorem allMessages_nil : AllMessages [] := fun _ hp => by cases hp

theorem send_accepting (E : Env σ) (m : Msg) (s : St σ) (h : Accepting s.w.wsched) : ¬ Unwritten (send E m s).1 := by
  unfold send
  split
  · rintro (h | ⟨e, h⟩) <;> cases h
  · cases hr : requestFrame s.cli m with
    | err e => rintro (h | ⟨e, h⟩) <;> cases h
    | panic => rintro (h | ⟨e, h⟩) <;> cases h
    | ok f =>
      simp only [M.bind, liftNet_eq, sendMessage_eq]
      by_cases hl : f.length > MAX_FRAME_LENGTH
      · simp only [if_pos hl, Out.net]
        rintro (h | ⟨e, h⟩) <;> cases h
      · simp only [if_neg hl, writeExactly]
        have := (writeLoop_accepting s.w.wsched (0x00 :: (be24 f.length ++ f)) s.w.out h).1
        rcases hw : writeLoop s.w.wsched (0x00 :: (be24 f.length ++ f)) s.w.out with ⟨r, ws, out⟩
        rw [hw] at this
        simp only at this
        subst this
        simp only [Out.net]
        rintro (h | ⟨e, h⟩) <;> cases h

/-- New packets, and perhaps the beginning of one more if it could not be written. -/
def Wrote (log : σ → List Bytes) (o : Out Error Unit) (s s' : St σ) : Prop :=
  ∃ new cut, log s'.w.srv = log s.w.srv ++ new ∧ AllMessages new ∧ s'.w.out = s.w.out ++ new.flatten ++ cut ∧
    (cut = [] ∨ Unwritten o ∧ ∃ f rest, f.length ≤ maxPayload ∧ message f = cut ++ rest) ∧
    (Accepting s.w.wsched → cut = [] ∧ Accepting s'.w.wsched)

theorem wrote_steps (log : σ → List Bytes) : Steps (Wrote log) where
  cli o s c := ⟨[], [], by simp, allMessages_nil, by simp, .inl rfl, fun h => ⟨rfl, h⟩⟩
  trans := by
    rintro o a b c ⟨n1, c1, h1, h2, h3, h4, h5⟩ ⟨n2, c2, k1, k2, k3, k4, k5⟩
    have hc : c1 = [] := by
      rcases h4 with h | ⟨h | ⟨e, h⟩, _⟩
      · exact h
      · cases h
      · cases h
    subst hc
    refine ⟨n1 ++ n2, c2, by rw [k1, h1, List.append_assoc], ?_, by rw [k3, h3]; simp, k4, fun h => k5 (h5 h).2⟩
    intro p hp
    rcases List.mem_append.mp hp with hp | hp
    · exact h2 p hp
    · exact k2 p hp

theorem wrote_recv (E : Env σ) (log : σ → List Bytes) : Through (Wrote log) (liftNet (recvMessage E.V)) := by
  intro s
  obtain ⟨ib, e⟩ := liftRecv_reads E s
  rw [e]
  exact ⟨[], [], by simp, allMessages_nil, by simp, .inl rfl, fun h => ⟨rfl, h⟩⟩

theorem wrote_send (hlog : Logs E.V log) (m : Msg) : Through (Wrote log) (send E m) := by
  have none : ∀ o (s : St σ) c, Wrote log o s { s with cli := c } := (wrote_steps log).cli
  intro s
  rcases send_cases E m s with ⟨_, _, e⟩ | ⟨_, ⟨x, _, e⟩ | ⟨_, e⟩ | ⟨f, _, _, e⟩ | ⟨f, _, hl, ws, p, q, hp, ⟨hq, hw, e⟩ | ⟨x, e⟩ | e⟩⟩
  · rw [e]; exact none _ s _
  · rw [e]; exact none _ s _
  · rw [e]; exact none _ s _
  · rw [e]; exact none _ s _
  · rw [e]
    subst hq
    rw [List.append_nil] at hp
    refine ⟨[p], [], hlog _ _, ?_, by simp, .inl rfl, fun h => ⟨rfl, ?_⟩⟩
    · intro x hx
      cases List.mem_singleton.mp hx
      exact ⟨f, hl, by rw [← hp, message, ← be24_packet]⟩
    · have := (writeLoop_accepting _ (0x00 :: (be24 f.length ++ f)) s.w.out h).2
      rw [hw] at this
      exact this
  · have hn : ¬ Accepting s.w.wsched := fun h => send_accepting E m s h (by rw [e]; exact .inr ⟨x, rfl⟩)
    rw [e]
    exact ⟨[], p, by simp, allMessages_nil, by simp, .inr ⟨.inr ⟨x, rfl⟩, f, q, hl, by rw [← hp, message, ← be24_packet]⟩, fun h => absurd h hn⟩
  · have hn : ¬ Accepting s.w.wsched := fun h => send_accepting E m s h (by rw [e]; exact .inl rfl)
    rw [e]
    exact ⟨[], p, by simp, allMessages_nil, by simp, .inr ⟨.inl rfl, f, q, hl, by rw [← hp, message, ← be24_packet]⟩, fun h => absurd h hn⟩

theorem unvoid {α : Type} {o : Out Error α} (h : Unwritten o.void) : Unwritten o := by
  rcases h with h | ⟨e, h⟩ <;> cases o <;> cases h
  · exact .inl rfl
  · exact .inr ⟨_, rfl⟩

/-- **C67** Whatever happens, a call writes whole messages, and at most the beginning of one more, if it is given up or fails while it
writes. The whole ones are what the server is told. -/
theorem C67_sent_partial (hlog : Logs E.V log) (op : Op) (s : St σ) : ∃ new cut, log (runOp E op s).2.w.srv = log s.w.srv ++ new ∧ AllMessages new ∧
    (runOp E op s).2.w.out = s.w.out ++ new.flatten ++ cut ∧
    (cut = [] ∨ Unwritten (runOp E op s).1 ∧ ∃ f rest, f.length ≤ maxPayload ∧ message f = cut ++ rest) := by
  obtain ⟨new, cut, h1, h2, h3, h4, _⟩ := runOp_through (wrote_steps log) E (wrote_recv E log) (wrote_send hlog) op s
  exact ⟨new, cut, h1, h2, h3, h4.imp id fun h => ⟨unvoid h.1, h.2⟩⟩

/-- **C67** As long as the operating system accepts what is written, however little at a time, a login and all later calls write whole
messages and nothing else. -/
theorem C67_login_partial (hlog : Logs E.V log) (s : St σ) (h : Accepting s.w.wsched) (ops : List Op) :
    ∃ new, log (runOps E ops (setupConnection E s).2).2.w.srv = log s.w.srv ++ new ∧ AllMessages new ∧
      (runOps E ops (setupConnection E s).2).2.w.out = s.w.out ++ new.flatten := by
  have step : ∀ ops (s : St σ), Accepting s.w.wsched → ∃ new, log (runOps E ops s).2.w.srv = log s.w.srv ++ new ∧ AllMessages new ∧
      (runOps E ops s).2.w.out = s.w.out ++ new.flatten := by
    intro ops
    induction ops with
    | nil => exact fun s _ => ⟨[], by simp [runOps], allMessages_nil, by simp [runOps]⟩
    | cons op ops ih =>
      intro s h
      obtain ⟨new, cut, h1, h2, h3, _, h5⟩ := runOp_through (wrote_steps log) E (wrote_recv E log) (wrote_send hlog) op s
      obtain ⟨rfl, h6⟩ := h5 h
      obtain ⟨new', k1, k2, k3⟩ := ih _ h6
      refine ⟨new ++ new', by rw [runOps, k1, h1, List.append_assoc], ?_, by rw [runOps, k3, h3]; simp⟩
      intro p hp
      rcases List.mem_append.mp hp with hp | hp
      · exact h2 p hp
      · exact k2 p hp
  obtain ⟨new, cut, h1, h2, h3, _, h5⟩ := setupConnection_through (wrote_steps log) E (wrote_recv E log) (wrote_send hlog) s
  obtain ⟨rfl, h6⟩ := h5 h
  obtain ⟨new', k1, k2, k3⟩ := step ops _ h6
  refine ⟨new ++ new', by rw [k1, h1, List.append_assoc], ?_, by rw [k3, h3]; simp⟩
  intro p hp
  rcases List.mem_append.mp hp with hp | hp
  · exact h2 p hp
  · exact k2 p hp

theorem whole_nil : Whole [] := ⟨[], (fun _ hp => by cases hp), rfl⟩

theorem whole_packet (ty : UInt8) (d : Bytes) (h : d.length ≤ maxPayload) : Whole (packet ty d) :=
  ⟨[(ty, d)], fun p hp => by rw [List.mem_singleton] at hp; rw [hp]; exact h, by simp⟩

theorem whole_append {a b : Bytes} (ha : Whole a) (hb : Whole b) : Whole (a ++ b) := by
  obtain ⟨l, hl, rfl⟩ := ha
  obtain ⟨k, hk, rfl⟩ := hb
  refine ⟨l ++ k, ?_, by simp⟩
  intro p hp
  rcases List.mem_append.mp hp with hp | hp
  · exact hl p hp
  · exact hk p hp

theorem whole_split {b : Bytes} (h : Whole b) : b = [] ∨ ∃ ty d rest, d.length ≤ maxPayload ∧ b = packet ty d ++ rest ∧ Whole rest := by
  obtain ⟨l, hl, rfl⟩ := h
  cases l with
  | nil => exact .inl rfl
  | cons p l => exact .inr ⟨p.1, p.2, _, hl p (by simp), rfl, l, fun q hq => hl q (by simp [hq]), rfl⟩

/-- From whole packets a packet can be read, and whole packets remain. -/
theorem whole_read {b : Bytes} (t : Tail) (h : Whole b) : b = [] ∨ (flatRecv t b).1 ≠ .pending ∧ Whole (flatRecv t b).2 := by
  refine (whole_split h).imp id ?_
  rintro ⟨ty, d, rest, hd, rfl, hr⟩
  rw [flatRecv_packet t ty d rest hd]
  cases Frame.new ty d <;> exact ⟨by simp, hr⟩

/-! Not vacuous: a session whose writes are accepted three and ten bytes at a time, and one whose write is cut short. -/

example : Accepting (Demo.st []).w.wsched ∧ (runOps (Demo.env true) [.umount Demo.share, .umount Demo.share] (Demo.st [])).2.w.srv.2.length = 2 ∧
    (runOps (Demo.env true) [.umount Demo.share, .umount Demo.share] (Demo.st [])).2.w.out.length = 2 * 39 := by
  refine ⟨?_, by decide +kernel, by decide +kernel⟩
  intro w hw
  simp [Demo.st] at hw
  rcases hw with rfl | rfl <;> exact ⟨_, rfl⟩

namespace Demo

/-- A session in which the second write of a call blocks. -/
def stuck : St (List (List Bytes) × List Bytes) := { st [] with w := { (st []).w with wsched := [.accept 3, .block] } }

end Demo

example : Unwritten (runOp (Demo.env true) (.umount Demo.share) Demo.stuck).1 := .inl (by decide +kernel)

/-- **C67 violated** A call that is given up while it writes leaves the beginning of its request on the wire. The next call writes its own
request right behind, so the server does not receive whole packets any more. -/
theorem C67_violated : ∃ (E : Env (List (List Bytes) × List Bytes)) (s : St (List (List Bytes) × List Bytes)) (op : Op),
    s.w.out = [] ∧ (runOp E op s).1 = .pending ∧ (runOps E [op, op] s).2.w.srv.2.length = 1 ∧ ¬ Whole (runOps E [op, op] s).2.w.out := by
  refine ⟨Demo.env true, Demo.stuck, .umount Demo.share, rfl, by decide +kernel, by decide +kernel, fun h => ?_⟩
  rcases whole_read .blocked h with h | ⟨_, h⟩
  · exact absurd h (by decide +kernel)
  · rcases whole_read .blocked h with h | ⟨h, _⟩
    · exact absurd h (by decide +kernel)
    · exact h (by decide +kernel)

end Cifs
