import Verif.Lemmas.Answer
import Verif.Lemmas.Demo
import Verif.Lemmas.Step
/-! # Concrete exchanges of the demo session -/

namespace Cifs.Demo
open Spec

/-- The answer to one request: a late reply to another one, then `r`. -/
def answer (r : Bytes) : List (List Bytes) := [[message (reply .Read 3 [] []) ++ message r]]

/-- Is there a request frame that can be sent? -/
def sendable (m : Msg) : Bool :=
  match requestFrame cli m with
  | .ok f => decide (f.length ≤ maxPayload)
  | _ => false

theorem sent (op : Op) (hs : single op = true) (hf : sendable op.first = true) (r : Bytes) :
    ∃ req, (runOp (env true) op (st (answer r))).2.w.srv.2 = (st (answer r)).w.srv.2 ++ [req] ∧ midOf req = some 7 ∧
      Skips 7 ((st (answer r)).w.inbox.flatten ++ ((env true).V.react (st (answer r)).w.srv req).2.flatten) (message r) := by
  unfold sendable at hf
  cases hr : requestFrame cli op.first with
  | err e => rw [hr] at hf; cases hf
  | panic => rw [hr] at hf; cases hf
  | ok f =>
    rw [hr] at hf
    have hacc : Accepting (st (answer r)).w.wsched := by intro ev hev; simp [st] at hev; rcases hev with h | h <;> exact ⟨_, h⟩
    obtain ⟨ws, ib, _, h⟩ := runOp_single_sends (env true) op hs (st (answer r)) f (by intro h; exact absurd h.2 (by simp [st, cli])) hr
      (of_decide_eq_true hf) hacc
    refine ⟨message f, by rw [h]; rfl, requestFrame_mid (sends_keepsMid (first_sent op hs)) hr, ?_⟩
    have e : (st (answer r)).w.inbox.flatten ++ ((env true).V.react (st (answer r)).w.srv (message f)).2.flatten =
        message (reply .Read 3 [] []) ++ message r := by
      show [] ++ List.flatten [message (reply .Read 3 [] []) ++ message r] = _
      simp
    rw [e]
    exact .skip (.message (reply .Read 3 [] []) _ (by decide)) ((C13_accepted_iff _).mp ⟨_, _, rfl⟩) 3 (by decide +kernel) (by decide) (.done _)

/-- Is it a reply to the demo request? -/
def fits (r : Bytes) : Bool :=
  match Info.parse r with
  | .ok (i, _) => i.mid == 7
  | _ => false

theorem exchange (op : Op) (hs : single op = true) (hf : sendable op.first = true) (r : Bytes) (hl : r.length ≤ maxPayload) (hr : fits r = true) :
    Exchange (env true) Prod.snd op (st (answer r)) r [] := by
  obtain ⟨req, h1, h2, h3⟩ := sent op hs hf r
  unfold fits at hr
  split at hr
  · rename_i i b hp
    refine ⟨req, 7, h1, h2, _, h3, ?_, (C13_accepted_iff _).mp ⟨_, _, hp⟩, ?_⟩
    · have := Delivers.message r [] hl
      simpa using this
    · rw [parse_mid hp]
      have : i.mid = 7 := by simpa using hr
      rw [this]; rfl
  · cases hr

/-- Has the reply these parameter and data bytes? -/
def hasBody (r ps ds : Bytes) : Bool := paramsOf (message r) == some ps && byteCountOf (message r) == some ds.length &&
  sliceAt (message r) (39 + ps.length) ds.length == some ds

theorem answered (op : Op) (hs : single op = true) (hf : sendable op.first = true) (r ps ds : Bytes) (hl : r.length ≤ maxPayload) (hr : fits r = true)
    (hc : statusOf (message r) = some 0 ∧ ∃ c ∈ codes op, cmdOf (message r) = some c) (hb : hasBody r ps ds = true) :
    Answered (env true) Prod.snd op (st (answer r)) r ps ds := by
  obtain ⟨h0, c, hm, hc⟩ := hc
  simp only [hasBody, Bool.and_eq_true, beq_iff_eq] at hb
  exact ⟨[], c, exchange op hs hf r hl hr, hc, hm, h0, hb.1.1, _, hb.1.2, hb.2⟩

/-- The same for single commands. -/
theorem replied {α : Type} {m : Msg} (hk : KeepsMid m) (R : Reply α) (hf : sendable m = true) (r ps ds : Bytes) (c st' : Nat)
    (hl : r.length ≤ maxPayload) (hr : fits r = true) (hc : statusOf (message r) = some st' ∧ cmdOf (message r) = some c)
    (hb : hasBody r ps ds = true) : Replied (env true) Prod.snd (command (env true) m R) (st (answer r)) c st' r ps ds := by
  obtain ⟨h0, hc⟩ := hc
  simp only [hasBody, Bool.and_eq_true, beq_iff_eq] at hb
  unfold sendable at hf
  cases hq : requestFrame cli m with
  | err e => rw [hq] at hf; cases hf
  | panic => rw [hq] at hf; cases hf
  | ok f =>
    rw [hq] at hf
    have hacc : Accepting (st (answer r)).w.wsched := by intro ev hev; simp [st] at hev; rcases hev with h | h <;> exact ⟨_, h⟩
    obtain ⟨ws, _, h⟩ := send_ok (env true) m (st (answer r)) f (by intro h; exact absurd h.2 (by simp [st, cli])) hq (of_decide_eq_true hf) hacc
    obtain ⟨ib, _, h2⟩ := command_eq R h
    refine ⟨message f, _, [], ?_, ⟨rfl, 7, requestFrame_mid hk hq, message r, ?_, ?_, ?_⟩, hc, h0, hb.1.1, _, hb.1.2, hb.2⟩
    · rw [h2]; rfl
    · have e : (st (answer r)).w.inbox.flatten ++ ((env true).V.react (st (answer r)).w.srv (message f)).2.flatten =
          message (reply .Read 3 [] []) ++ message r := by
        show [] ++ List.flatten [message (reply .Read 3 [] []) ++ message r] = _
        simp
      rw [e]
      exact .skip (.message (reply .Read 3 [] []) _ (by decide)) ((C13_accepted_iff _).mp ⟨_, _, rfl⟩) 3 (by decide +kernel) (by decide) (.done _)
    · have := Delivers.message r [] hl
      simpa using this
    · unfold fits at hr
      split at hr
      · rename_i i b hp
        refine ⟨(C13_accepted_iff _).mp ⟨_, _, hp⟩, ?_⟩
        rw [parse_mid hp]
        have : i.mid = 7 := by simpa using hr
        rw [this]; rfl
      · cases hr

end Cifs.Demo
