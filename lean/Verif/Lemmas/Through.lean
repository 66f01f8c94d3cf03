import Verif.Lemmas.Client
/-!
# Relations between the states before and after an operation that depend on how it ended
-/

namespace Cifs

variable {σ : Type}

/-- How a computation ended, without the value. -/
def Out.void {α : Type} : Out Error α → Out Error Unit
  | .ok _ => .ok ()
  | .err e => .err e
  | .panic => .panic
  | .pending => .pending
  | .running => .running

/-- Every run of `m` relates the states before and after, depending on how it ended. -/
def Through {α : Type} (R : Out Error Unit → St σ → St σ → Prop) (m : CM σ α) : Prop := ∀ s, R (m s).1.void s (m s).2

/-- Relations that do not look at the client's own fields and compose along successful steps. -/
structure Steps (R : Out Error Unit → St σ → St σ → Prop) : Prop where
  cli : ∀ o s c, R o s { s with cli := c }
  trans : ∀ {o a b c}, R (.ok ()) a b → R o b c → R o a c

section
variable {α β : Type} {R : Out Error Unit → St σ → St σ → Prop} (h : Steps R) (E : Env σ)
include h

theorem Steps.refl (o : Out Error Unit) (s : St σ) : R o s s := h.cli o s s.cli

theorem Through.pure (a : α) : Through R (pure a : CM σ α) := fun s => h.refl _ s
theorem Through.fail (e : Error) : Through R (M.fail e : CM σ α) := fun s => h.refl _ s

theorem Through.ofRes {ε : Type} (g : ε → Error) (r : Res ε α) : Through R (M.ofRes g r : CM σ α) := by
  intro s; cases r <;> exact h.refl _ s

theorem Through.bind {m : CM σ α} {f : α → CM σ β} (hm : Through R m) (hf : ∀ a, Through R (f a)) : Through R (m >>= f) := by
  intro s
  have := hm s
  simp only [M.bind_apply, M.bind]
  rcases hs : m s with ⟨o, s'⟩
  rw [hs] at this
  cases o with
  | ok a => exact h.trans this (hf a s')
  | _ => exact this

theorem Through.map' {m : CM σ α} (g : α → β) (hm : Through R m) : Through R (M.map' g m) :=
  Through.bind h hm (fun _ s => h.refl _ s)

variable (hr : Through R (liftNet (recvMessage E.V)))
include hr

theorem Through.recvLoop (mid : UInt16) (k : Nat) : Through R (recvLoop E mid k) := by
  induction k with
  | zero => exact fun s => h.refl _ s
  | succ k ih =>
    refine Through.bind h hr fun f => ?_
    refine Through.bind h (Through.ofRes h _ _) fun p => ?_
    dsimp only
    split
    · exact Through.pure h _
    · exact ih

omit hr in
theorem Through.acceptReply (Q : Reply α) (info : Info) (body : Bytes) : Through R (acceptReply Q info body) := by
  unfold Cifs.acceptReply
  repeat' split
  all_goals first | exact Through.fail h _ | exact Through.ofRes h _ _

theorem Through.recv (Q : Reply α) (mid : UInt16) : Through R (recv E Q mid) := by
  intro s
  exact Through.bind h (Through.recvLoop h E hr mid (s.w.avail + 1)) (fun p => Through.acceptReply h Q p.1 p.2) s

theorem Through.collectLoop (mid : UInt16) (k : Nat) (ctx : CollectTrans2) : Through R (collectLoop E mid k ctx) := by
  induction k generalizing ctx with
  | zero => exact fun s => h.refl _ s
  | succ k ih =>
    refine Through.bind h (Through.recv h E hr _ mid) fun r => ?_
    refine Through.bind h (Through.ofRes h _ _) fun p => ?_
    dsimp only
    split
    · exact Through.pure h _
    · exact ih _

theorem Through.collect (sub : SubReply2 α) (mid : UInt16) : Through R (collect E sub mid) := by
  intro s
  exact Through.bind h (Through.collectLoop h E hr mid (s.w.avail + 1) .new) (fun ctx => Through.ofRes h _ _) s

variable (hs : ∀ m, Through R (send E m))
include hs

theorem Through.command (m : Msg) (r : Reply α) : Through R (command E m r) :=
  Through.bind h (hs m) fun mid => Through.recv h E hr r mid

theorem Through.transact2 (tid : UInt16) (c : SubCmd2) (sub : SubReply2 α) : Through R (transact2 E tid c sub) :=
  Through.bind h (hs _) fun mid => Through.collect h E hr sub mid

theorem Through.downloadLoop (file : Handle) (k : Nat) (data : Bytes) : Through R (downloadLoop E file k data) := by
  induction k generalizing data with
  | zero => exact fun s => h.refl _ s
  | succ k ih =>
    simp only [Cifs.downloadLoop]
    split
    · exact Through.bind h (Through.command h E hr hs _ _) fun chunk => ih _
    · exact Through.pure h _

theorem Through.download (k : Nat) (share : Share) (path : Str) : Through R (download E k share path) :=
  Through.bind h (Through.command h E hr hs _ _) fun file =>
    Through.bind h (Through.downloadLoop h E hr hs file k []) fun _ =>
      Through.bind h (Through.command h E hr hs _ _) fun _ => Through.pure h _

theorem Through.listLoop (share : Share) (sid : UInt16) (k : Nat) (result : List DirInfo) : Through R (listLoop E share sid k result) := by
  induction k generalizing result with
  | zero => exact fun s => h.refl _ s
  | succ k ih =>
    simp only [Cifs.listLoop]
    split
    · exact fun s => h.refl _ s
    · refine Through.bind h (Through.transact2 h E hr hs _ _ _) fun reply => ?_
      split
      · exact Through.pure h _
      · exact ih _

theorem Through.list (k : Nat) (share : Share) (pattern : Str) : Through R (list E k share pattern) := by
  refine Through.bind h (Through.transact2 h E hr hs _ _ _) fun reply => ?_
  split
  · exact Through.pure h _
  · exact Through.listLoop h E hr hs _ _ _ _

/-- What sending and receiving a message respect, every operation respects. -/
theorem runOp_through (op : Op) : Through R (runOp E op) := by
  cases op <;> refine Through.map' h _ ?_
  case download b s p => exact Through.download h E hr hs _ _ _
  case list b s p => exact Through.list h E hr hs _ _ _
  case findFirst s p => exact Through.transact2 h E hr hs _ _ _
  case findNext s i p => exact Through.transact2 h E hr hs _ _ _
  all_goals exact Through.command h E hr hs _ _

/-- So does the login. -/
theorem setupConnection_through : Through R (setupConnection E) := by
  have hc : Through R (getCli : CM σ Cli) := fun s => h.refl _ s
  have hm : ∀ f : Cli → Cli, Through R (modifyCli f : CM σ Unit) := fun f s => h.cli _ s _
  refine Through.bind h (Through.command h E hr hs _ _) fun setup => Through.bind h (hm _) fun _ => ?_
  split
  · refine Through.bind h hc fun c => Through.bind h (Through.ofRes h _ _) fun i => Through.bind h (Through.command h E hr hs _ _) fun r =>
      Through.bind h (hm _) fun _ => Through.bind h (Through.ofRes h _ _) fun ch => Through.bind h (Through.ofRes h _ _) fun t =>
      Through.bind h (Through.ofRes h _ _) fun re => Through.bind h (Through.command h E hr hs _ _) fun _ => Through.pure h _
  · exact Through.bind h hc fun c => Through.bind h (Through.ofRes h _ _) fun i => Through.bind h (Through.command h E hr hs _ _) fun r => hm _

end

end Cifs
