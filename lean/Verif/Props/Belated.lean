import Verif.Lemmas.Late
import Verif.Props.Wrapped
/-! # C61: late replies in whole histories, with calls that are given up on the way -/

namespace Cifs
open Spec

variable {σ σ' : Type}

theorem runOps_grows (E : Env σ) (log : σ → List Bytes) (hlog : Logs E.V log) (ops : List Op) (s : St σ) :
    (log s.w.srv).length ≤ (log (runOps E ops s).2.w.srv).length := by
  obtain ⟨A, h, _⟩ := runOps_hist E log hlog ops s
  rw [h, List.length_append]
  omega

theorem belated_history (E : Env σ) (V' : Server σ') (R : σ → σ' → Prop) (log : σ → List Bytes) (hlog : Logs E.V log) (hV : LateServer E.V V' R)
    (steps : List ((St σ' → σ' × List Bytes) × Op)) (hd : ∀ step ∈ steps, LateReplies R step.1) : ∀ (s : St σ) (s' : St σ') (N : Nat), Late.Q E R N s s' →
    (E.checked = false ∧ 65536 < N + ((log (runOps E (steps.map Prod.snd) s).2.w.srv).length - (log s.w.srv).length) +
      (runOps E (steps.map Prod.snd) s).1.countP (fun o => !o.isOk)) ∨
    ((runOps E (steps.map Prod.snd) s).1 = (runAnytime (E.withV V') steps s').1 ∧
      ∃ N', Late.Q E R N' (runOps E (steps.map Prod.snd) s).2 (runAnytime (E.withV V') steps s').2) := by
  induction steps with
  | nil => exact fun s s' N hq => .inr ⟨rfl, N, hq⟩
  | cons step steps ih =>
    intro s s' N hq
    have hq1 : Late.Q E R N s (disturb step.1 s') := by
      have hl := hd step List.mem_cons_self
      refine ⟨hq.cli, ⟨hq.wire.out, hq.wire.wsched, hl.state _ _ hq.wire.srv, ?_⟩, hq.mid, hq.le, hq.ck⟩
      show Noisy _ s.w.inbox.flatten (s'.w.inbox ++ (step.1 s').2).flatten
      have hn : Noisy (fun m => m < N) [] (step.1 s').2.flatten := by
        refine noisy_mono (fun m hm => ?_) (hl.bytes s')
        rw [← hq.cli, hq.mid] at hm
        simp at hm
        omega
      have := hq.wire.bytes.append hn
      rw [List.append_nil] at this
      rw [List.flatten_append]
      exact this
    have g1 := (Late.Sim.runOp hlog hV step.2).mono s
    have g2 := runOps_grows E log hlog (steps.map Prod.snd) (runOp E step.2 s).2
    have h1 := (Late.Sim.runOp hlog hV step.2).sim s _ N hq1
    simp only [List.map_cons, runOps, runAnytime, List.countP_cons]
    unfold Late.tried at h1
    have hi : (if (runOp E step.2 s).1.isOk = true then 0 else 1) = (if (!(runOp E step.2 s).1.isOk) = true then 1 else 0) := by
      cases (runOp E step.2 s).1.isOk <;> rfl
    rw [hi] at h1
    rcases h1 with ⟨h1, h2⟩ | ⟨h1, N1, h2, h3⟩
    · exact .inl ⟨h1, by omega⟩
    · rcases ih (fun x hx => hd x (List.mem_cons_of_mem _ hx)) _ _ N1 h3 with ⟨h4, h5⟩ | ⟨h4, h5⟩
      · exact .inl ⟨h4, by omega⟩
      · exact .inr ⟨by rw [h1, h4], h5⟩

/-- **C61** (partial: as long as the multiplex ids do not wrap around, see `C61_violated`; a build with overflow checks panics instead of
wrapping.) Late replies to whatever earlier requests, also to those of calls that were given up on the way, arriving with the answers to later
requests or at any moment between the calls, do not change the outcome of any call, nor what is written. -/
theorem C61_history_partial (E : Env σ) (V' : Server σ') (R : σ → σ' → Prop) (log : σ → List Bytes) (hlog : Logs E.V log) (hV : LateServer E.V V' R)
    (steps : List ((St σ' → σ' × List Bytes) × Op)) (hd : ∀ step ∈ steps, LateReplies R step.1) (s : St σ) (s' : St σ') (hc : s.cli = s'.cli)
    (hw : NoisyWire (fun m => m < s.cli.mid.toNat) R s.w s'.w)
    (hwrap : E.checked = true ∨ s.cli.mid.toNat + ((log (runOps E (steps.map Prod.snd) s).2.w.srv).length - (log s.w.srv).length) +
      (runOps E (steps.map Prod.snd) s).1.countP (fun o => !o.isOk) ≤ 65536) :
    (runOps E (steps.map Prod.snd) s).1 = (runAnytime (E.withV V') steps s').1 ∧
      (runOps E (steps.map Prod.snd) s).2.cli = (runAnytime (E.withV V') steps s').2.cli ∧
      (runOps E (steps.map Prod.snd) s).2.w.out = (runAnytime (E.withV V') steps s').2.w.out := by
  have hm := s.cli.mid.toNat_lt
  rcases belated_history E V' R log hlog hV steps hd s s' s.cli.mid.toNat ⟨hc, hw, by simp, by omega, fun _ => by omega⟩ with ⟨h1, h2⟩ | ⟨h1, N', h2⟩
  · rcases hwrap with h | h
    · rw [h1] at h; cases h
    · omega
  · exact ⟨h1, h2.cli, h2.wire.out⟩

namespace Demo

/-- Answers to the first and the third of three requests to read; the second one is not answered in time. -/
def impatient : List (List Bytes) := [[message (oneByte 7 1)], [], [message (oneByte 9 3)]]

/-- A server that sends prepared answers and does not close the connection. -/
def lasting : Server (List (List Bytes)) := { script with tail := fun _ => .blocked }

/-- A demo environment with that server. -/
def lastingEnv : Env (List (List Bytes) × List Bytes) := { env false with V := logged lasting }

/-- A server that sends these answers; the reply to the second request comes late, with that to the third. -/
def tardy : Server (List (List Bytes)) where
  react := fun b p => (b.tail, if midOf p = some 9 then message (oneByte 8 2) :: b.headD [] else b.headD [])
  tail := fun _ => .blocked

/-- It has the same answers in store, all of whole packets. -/
def Behind (a : List (List Bytes) × List Bytes) (b : List (List Bytes)) : Prop := a.1 = b ∧ ∀ x ∈ b, Noisy (fun _ => False) x.flatten x.flatten

theorem behind_head {b : List (List Bytes)} (h : ∀ x ∈ b, Noisy (fun _ => False) x.flatten x.flatten) : Noisy (fun _ => False) (b.headD []).flatten (b.headD []).flatten := by
  cases b with
  | nil => exact .done
  | cons x b => exact h x List.mem_cons_self

theorem tardy_late : LateServer (logged lasting) tardy Behind where
  state := by
    rintro a b p ⟨h1, h2⟩
    subst h1
    exact ⟨rfl, fun x hx => h2 x (List.mem_of_mem_tail hx)⟩
  bytes := by
    rintro a b p m ⟨h1, h2⟩ hm
    subst h1
    have hn := noisy_mono (Q := fun k => k < m) (fun _ h => h.elim) (behind_head h2)
    show Noisy _ (a.1.headD []).flatten (if midOf p = some 9 then message (oneByte 8 2) :: a.1.headD [] else a.1.headD []).flatten
    split
    · rename_i h9
      rw [hm] at h9
      cases h9
      exact .reply (oneByte 8 2) (by decide) ((C13_accepted_iff _).mp ⟨_, _, rfl⟩) 8 (by decide +kernel) (by decide) hn
    · exact hn
  tail := fun _ _ _ => rfl

/-- The reply to the first request arrives once more, between the calls. -/
def again7 (s : St (List (List Bytes))) : List (List Bytes) × List Bytes := (s.w.srv, if 7 < s.cli.mid.toNat then [message (oneByte 7 5)] else [])

theorem again7_late : LateReplies Behind again7 where
  state := fun _ _ h => h
  bytes := by
    intro s
    unfold again7
    dsimp only
    split
    · rename_i h
      exact .reply (oneByte 7 5) (by decide) ((C13_accepted_iff _).mp ⟨_, _, rfl⟩) 7 (by decide +kernel) h .done
    · exact .done

/-- non-vacuity of `C61_history_partial`: the second call is given up; its reply, and a copy of the first one, come late. -/
example : let ops := [.read handle 0, .read handle 0, .read handle 0]
    (runOps lastingEnv ops (st impatient)).1 = [.ok (.bytes [1]), .pending, .ok (.bytes [3])] ∧
    (runAnytime (lastingEnv.withV tardy) (ops.map fun op => (again7, op)) { cli := (st impatient).cli, w := { (st impatient).w with srv := impatient } }).1 =
      [.ok (.bytes [1]), .pending, .ok (.bytes [3])] := by
  intro ops
  have h1 : (runOps lastingEnv ops (st impatient)).1 = [.ok (.bytes [1]), .pending, .ok (.bytes [3])] := by decide +kernel
  have h2 : 7 + (runOps lastingEnv ops (st impatient)).2.w.srv.2.length ≤ 100 := by decide +kernel
  refine ⟨h1, ?_⟩
  have hb : Behind (impatient, []) impatient := by
    refine ⟨rfl, fun x hx => ?_⟩
    simp only [impatient, List.mem_cons, List.not_mem_nil, or_false] at hx
    rcases hx with rfl | rfl | rfl
    · exact .same 0 (oneByte 7 1) (by decide) .done
    · exact .done
    · exact .same 0 (oneByte 9 3) (by decide) .done
  have hmap : (ops.map fun op => (again7, op)).map Prod.snd = ops := rfl
  have := (C61_history_partial lastingEnv tardy Behind Prod.snd (logs_logged _) tardy_late (ops.map fun op => (again7, op))
    (by intro x hx; simp only [List.mem_map] at hx; obtain ⟨_, _, rfl⟩ := hx; exact again7_late) (st impatient)
    { cli := (st impatient).cli, w := { (st impatient).w with srv := impatient } } rfl ⟨rfl, rfl, hb, .done⟩
    (.inr (by rw [hmap, h1]; show 7 + (_ - 0) + 1 ≤ 65536; omega))).1
  rw [hmap, h1] at this
  exact this.symm

end Demo
end Cifs
