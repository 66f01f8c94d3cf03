import Verif.Lemmas.Ends
import Verif.Lemmas.Open
import Verif.Lemmas.Demo
/-!
# Calls come to an end (C08)
-/

namespace Cifs

open Spec

variable {σ : Type}

theorem map'_ends {α β : Type} {P : St σ → Prop} {m : CM σ α} (f : α → β) (h : M.Ends P m) : M.Ends P (M.map' f m) :=
  M.Ends.bind h fun _ => .pure _ _

theorem map'_stops {α β : Type} {m : CM σ α} (f : α → β) (h : M.Stops m) : M.Stops (M.map' f m) := M.Stops.bind h fun _ => .pure _

/-- The receive loops of `recv` and `transact2` use up no budget, whatever the stream. -/
theorem C08_recv {α : Type} (E : Env σ) (R : Reply α) (mid : UInt16) (s : St σ) : (recv E R mid s).1 ≠ .running := recv_stops E R mid s

theorem C08_collect {α : Type} (E : Env σ) (sub : SubReply2 α) (mid : UInt16) (s : St σ) : (collect E sub mid s).1 ≠ .running :=
  collect_stops E sub mid s

/-- If the bytes that have arrived are followed by the end of the stream (or an error of the connection), neither of them waits. -/
theorem C08_recv_ends {α : Type} (E : Env σ) (R : Reply α) (mid : UInt16) (s : St σ) (h : E.V.tail s.w.srv ≠ .blocked) :
    (recv E R mid s).1 ≠ .pending := by
  obtain ⟨ib, _, e⟩ := recv_flatC E R mid s
  rw [e]; exact (flatReply_ends h R mid _ trivial).1

theorem C08_collect_ends {α : Type} (E : Env σ) (sub : SubReply2 α) (mid : UInt16) (s : St σ) (h : E.V.tail s.w.srv ≠ .blocked) :
    (collect E sub mid s).1 ≠ .pending := by
  obtain ⟨ib, _, e⟩ := collect_flatC E sub mid s
  rw [e]; exact (flatCollect_ends h sub mid _ trivial).1

/-- No call other than `download` and `list` (which repeat requests, see C41) loops for ever, whatever the server does. -/
theorem C08_call (E : Env σ) (op : Op) (h : single op = true) (s : St σ) : (runOp E op s).1 ≠ .running := by
  revert s
  cases op <;> first
    | exact map'_stops _ (command_stops E _ _)
    | exact map'_stops _ (transact2_stops E _ _ _)
    | cases h

/-- Against a server that ends every stream, and as long as the operating system takes the bytes written, no call waits for ever; and that
stays so after the call. -/
theorem C08_call_ends {E : Env σ} (hs : NeverSilent E.V) (op : Op) (s : St σ) (hw : WritesAccepted s) :
    (runOp E op s).1 ≠ .pending ∧ WritesAccepted (runOp E op s).2 := by
  revert s
  show M.Ends WritesAccepted (runOp E op)
  cases op with
  | download k share path =>
    exact map'_ends _ (.bind (command_ends hs _ _) fun _ => .bind (downloadLoop_ends hs _ _ _) fun _ => .bind (command_ends hs _ _) fun _ => .pure _ _)
  | list k share pattern =>
    refine map'_ends _ (.bind (transact2_ends hs _ _ _) fun r => ?_)
    split
    · exact .pure _ _
    · exact listLoop_ends hs _ _ _ _
  | findFirst => exact map'_ends _ (transact2_ends hs _ _ _)
  | findNext => exact map'_ends _ (transact2_ends hs _ _ _)
  | _ => exact map'_ends _ (command_ends hs _ _)

/-- The same for a login. -/
theorem C08_login (E : Env σ) (s : St σ) : (setupConnection E s).1 ≠ .running := setupConnection_stops E s

theorem C08_login_ends {E : Env σ} (hs : NeverSilent E.V) (s : St σ) (hw : WritesAccepted s) : (setupConnection E s).1 ≠ .pending :=
  (setupConnection_ends hs s hw).1

/-- non-vacuity: the scripted demo server ends every stream; a call on it that finds only replies to other requests ends with an error. -/
example : NeverSilent (Demo.env true).V ∧ WritesAccepted (Demo.st [[message (Demo.reply .Read 3 [] [])]]) ∧
    (runOp (Demo.env true) (.umount Demo.share) (Demo.st [[message (Demo.reply .Read 3 [] [])]])).1 =
      .err (.NetBios (.IoError .unexpectedEof)) := by
  refine ⟨fun v => by simp [Demo.env, logged, Demo.script], ?_, by decide +kernel⟩
  intro ev hev; simp [Demo.st] at hev; rcases hev with h | h <;> exact ⟨_, h⟩

end Cifs
