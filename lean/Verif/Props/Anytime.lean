import Verif.Lemmas.Anytime
import Verif.Props.Wrapped
import Verif.Props.InStep
/-! # C01: when the bytes arrive does not matter either -/

namespace Cifs
open Spec

variable {σ : Type}

theorem anytime_script (E : Env σ) : ∀ (steps : List ((St σ → σ × List Bytes) × Op)) (s : St σ) (ib extra : List Bytes) (t : Tail) (l : List Bytes),
    s.w.inbox = ib ++ extra → ∃ ans,
      (runOps (E.withV scripted) (steps.map Prod.snd) (late s ib t ans l)).1 = (runAnytime E steps s).1 ∧
      (runOps (E.withV scripted) (steps.map Prod.snd) (late s ib t ans l)).2.cli = (runAnytime E steps s).2.cli ∧
      (runOps (E.withV scripted) (steps.map Prod.snd) (late s ib t ans l)).2.w.out = (runAnytime E steps s).2.w.out := by
  intro steps
  induction steps with
  | nil => exact fun s ib extra t l _ => ⟨[], rfl, rfl, rfl⟩
  | cons step steps ih =>
    intro s ib extra t l hib
    have hd : (disturb step.1 s).w.inbox = ib ++ (extra ++ (step.1 s).2) := by
      show s.w.inbox ++ _ = _
      rw [hib, List.append_assoc]
    rcases writesFirst_op E step.2 (disturb step.1 s) ib _ t l hd with ⟨ans, l', h⟩ | ⟨-, h1, h2⟩
    · obtain ⟨ans', h3, h4, h5⟩ := ih (runOp E step.2 (disturb step.1 s)).2 _ [] (E.V.tail (runOp E step.2 (disturb step.1 s)).2.w.srv) l'
        (List.append_nil _).symm
      refine ⟨ans ++ ans', ?_⟩
      have h := h ans'
      rw [show late (disturb step.1 s) ib t (ans ++ ans') l = late s ib t (ans ++ ans') l from rfl] at h
      simp only [List.map_cons, runOps, runAnytime]
      rw [h]
      exact ⟨congrArg _ h3, h4, h5⟩
    · obtain ⟨ans', h3, h4, h5⟩ := ih (runOp E step.2 (disturb step.1 s)).2 ib _ t l (h1.trans hd)
      refine ⟨ans', ?_⟩
      have h := h2 ans'
      rw [show late (disturb step.1 s) ib t ans' l = late s ib t ans' l from rfl] at h
      simp only [List.map_cons, runOps, runAnytime]
      rw [h]
      exact ⟨congrArg _ h3, h4, h5⟩

/-- **C01** It does not matter either when the bytes arrive. A server that sends bytes or changes its mind at any moment between the calls - for
instance, because it answers late, or because it has received the fragment of a request - is for the client like some server that only
speaks when it has received a request: all calls have the same outcomes, the same bytes are written, and the clients end up equal. -/
theorem C01_anytime (E : Env σ) (steps : List ((St σ → σ × List Bytes) × Op)) (s : St σ) : ∃ (V' : Server (Script × List Bytes))
    (s' : St (Script × List Bytes)), Logs V' Prod.snd ∧ s'.cli = s.cli ∧ s'.w.inbox = s.w.inbox ∧ s'.w.wsched = s.w.wsched ∧ s'.w.out = s.w.out ∧
      (runOps (E.withV V') (steps.map Prod.snd) s').1 = (runAnytime E steps s).1 ∧
      (runOps (E.withV V') (steps.map Prod.snd) s').2.cli = (runAnytime E steps s).2.cli ∧
      (runOps (E.withV V') (steps.map Prod.snd) s').2.w.out = (runAnytime E steps s).2.w.out := by
  obtain ⟨ans, h1, h2, h3⟩ := anytime_script E steps s s.w.inbox [] .eof [] (List.append_nil _).symm
  exact ⟨scripted, _, logs_logged _, rfl, rfl, rfl, rfl, h1, h2, h3⟩

/-- **C01** So what holds of all servers that only speak when they have received a request holds of all servers. -/
theorem C01_all_servers (E : Env σ) (steps : List ((St σ → σ × List Bytes) × Op)) (s : St σ) (P : List (Out Error Val) → Cli → Bytes → Prop)
    (h : ∀ (σ' : Type) (V' : Server σ') (s' : St σ') (log : σ' → List Bytes), Logs V' log → s'.cli = s.cli → s'.w.inbox = s.w.inbox →
      s'.w.wsched = s.w.wsched → s'.w.out = s.w.out →
      P (runOps (E.withV V') (steps.map Prod.snd) s').1 (runOps (E.withV V') (steps.map Prod.snd) s').2.cli
        (runOps (E.withV V') (steps.map Prod.snd) s').2.w.out) :
    P (runAnytime E steps s).1 (runAnytime E steps s).2.cli (runAnytime E steps s).2.w.out := by
  obtain ⟨V', s', hl, a, b, c, d, e, f, g⟩ := C01_anytime E steps s
  rw [← e, ← f, ← g]
  exact h _ V' s' _ hl a b c d

/-- non-vacuity of `C01_anytime`: a call is given up while it writes. The server has received a fragment, sends a reply that nobody asked for, and
answers the next request nevertheless. -/
example : (runAnytime (Demo.env true) [(fun s => (s.w.srv, []), .umount Demo.share),
    (fun s => if s.w.out.length = 3 then (([[message (Demo.oneByte 8 1)]], s.w.srv.2), [message (Demo.oneByte 7 9)]) else (s.w.srv, []), .read Demo.handle 0)]
    Demo.stuck).1 = [.pending, .ok (.bytes [1])] := by decide +kernel

/-- non-vacuity of `C01_all_servers`: the number of outcomes. -/
example (E : Env σ) (steps : List ((St σ → σ × List Bytes) × Op)) (s : St σ) : (runAnytime E steps s).1.length = steps.length := by
  have key : ∀ {σ' : Type} (E : Env σ') (ops : List Op) (s : St σ'), (runOps E ops s).1.length = ops.length := by
    intro σ' E ops
    induction ops with
    | nil => exact fun _ => rfl
    | cons op ops ih => exact fun s => congrArg (· + 1) (ih _)
  exact C01_all_servers E steps s (fun os _ _ => os.length = steps.length) fun σ' V' s' log _ _ _ _ _ => (key _ _ _).trans (List.length_map _)

/-- Without anything happening between the calls, nothing is new. -/
theorem runAnytime_quiet (E : Env σ) (ops : List Op) : ∀ s : St σ,
    runAnytime E (ops.map fun op => (fun s => (s.w.srv, []), op)) s = runOps E ops s := by
  induction ops with
  | nil => exact fun _ => rfl
  | cons op ops ih =>
    intro s
    have hd : disturb (fun s : St σ => (s.w.srv, [])) s = s := by
      show { s with w := { s.w with inbox := s.w.inbox ++ [] } } = s
      rw [List.append_nil]
    simp only [List.map_cons, runAnytime, runOps, hd, ih]

end Cifs
