import Verif.Spec.Anytime
/-! # Every run is a run against a server whose answers are written down in advance -/

namespace Cifs
open Spec

variable {σ ε α β S S' : Type}

/-- `m'`, run against the answers that `m` gets, does what `m` does. `tr` puts a script in the place of the server. -/
def Replays (tr : S → List (List Bytes × Tail) → List Bytes → S') (m : M ε S α) (m' : M ε S' α) : Prop :=
  ∀ s l, ∃ ans l', ∀ rest, m' (tr s (ans ++ rest) l) = ((m s).1, tr (m s).2 rest l')

namespace Replays
variable {tr : S → List (List Bytes × Tail) → List Bytes → S'}

theorem bind {m : M ε S α} {m' : M ε S' α} {f : α → M ε S β} {f' : α → M ε S' β} (h : Replays tr m m')
    (hf : ∀ a, Replays tr (f a) (f' a)) : Replays tr (m >>= f) (m' >>= f') := by
  intro s l
  obtain ⟨ans, l1, h1⟩ := h s l
  show ∃ ans l', ∀ rest, M.bind m' f' _ = ((M.bind m f s).1, tr (M.bind m f s).2 rest l')
  unfold M.bind
  rcases hm : m s with ⟨o, s1⟩
  rw [hm] at h1
  cases o with
  | ok a =>
    obtain ⟨ans', l2, h2⟩ := hf a s1 l1
    exact ⟨ans ++ ans', l2, fun rest => by rw [List.append_assoc, h1 (ans' ++ rest)]; exact h2 rest⟩
  | err e => exact ⟨ans, l1, fun rest => by rw [h1 rest]⟩
  | panic => exact ⟨ans, l1, fun rest => by rw [h1 rest]⟩
  | pending => exact ⟨ans, l1, fun rest => by rw [h1 rest]⟩
  | running => exact ⟨ans, l1, fun rest => by rw [h1 rest]⟩

theorem const (o : Out ε α) : Replays tr (fun s => (o, s)) (fun s => (o, s)) := fun _ l => ⟨[], l, fun _ => rfl⟩

theorem pure (a : α) : Replays tr (pure a : M ε S α) (pure a) := const (.ok a)

theorem fail (e : ε) : Replays tr (M.fail e : M ε S α) (M.fail e) := const (.err e)

theorem ofRes {ε' : Type} (f : ε' → ε) (r : Res ε' α) : Replays tr (M.ofRes f r : M ε S α) (M.ofRes f r) := by
  cases r with
  | ok a => exact const (.ok a)
  | err e => exact const (.err (f e))
  | panic => exact const .panic
end Replays

/-- The connection to the server, as one to the server with a script. -/
def netScript (V : Server σ) (w : World σ) (rest : List (List Bytes × Tail)) (l : List Bytes) : World (Script × List Bytes) :=
  { inbox := w.inbox, wsched := w.wsched, out := w.out, srv := ((V.tail w.srv, rest), l) }

/-- The client likewise. -/
def cliScript (V : Server σ) (s : St σ) (rest : List (List Bytes × Tail)) (l : List Bytes) : St (Script × List Bytes) :=
  { cli := s.cli, w := netScript V s.w rest l }

section
variable (V : Server σ)

theorem replays_read (eof : NbError) (n : Nat) : Replays (netScript V) (readExact V eof n) (readExact scripted eof n) := by
  intro w l
  refine ⟨[], l, fun rest => ?_⟩
  show readExact scripted eof n (netScript V w rest l) = _
  unfold readExact netScript
  dsimp only
  rcases readChunks n [] w.inbox with ⟨o, ib⟩
  cases o with
  | some b => rfl
  | none =>
    dsimp only
    rw [show scripted.tail ((V.tail w.srv, rest), l) = V.tail w.srv from rfl]
    cases ht : V.tail w.srv <;> dsimp only <;> rw [ht]

theorem replays_recvFrame : Replays (netScript V) (recvFrame V) (recvFrame scripted) := by
  refine (replays_read V _ _).bind fun t => (replays_read V _ _).bind fun len => ?_
  dsimp only
  split
  · exact Replays.fail _
  · exact (replays_read V _ _).bind fun d => Replays.ofRes _ _

theorem replays_recvMessage : Replays (netScript V) (recvMessage V) (recvMessage scripted) := by
  have key : ∀ k, Replays (netScript V) (recvMessageLoop V k) (recvMessageLoop scripted k) := by
    intro k
    induction k with
    | zero => exact Replays.const .running
    | succ k ih =>
      refine (replays_recvFrame V).bind fun f => ?_
      cases f with
      | Message m => exact Replays.pure _
      | Keepalive => exact ih
      | _ => exact Replays.fail _
  exact fun w l => key (w.avail + 1) w l

theorem replays_write (b : Bytes) : Replays (netScript V) (writeExactly V b) (writeExactly scripted b) := by
  intro w l
  unfold writeExactly
  rcases hwl : writeLoop w.wsched b w.out with ⟨r, ws, out⟩
  cases r with
  | done =>
    refine ⟨[((V.react w.srv b).2, V.tail (V.react w.srv b).1)], l ++ [b], fun rest => ?_⟩
    simp only [netScript, hwl]
    rfl
  | failed e => exact ⟨[], l, fun rest => by simp only [netScript, hwl, List.nil_append]⟩
  | blocked => exact ⟨[], l, fun rest => by simp only [netScript, hwl, List.nil_append]⟩

theorem replays_sendMessage (m : Bytes) : Replays (netScript V) (sendMessage V m) (sendMessage scripted m) :=
  (Replays.ofRes _ _).bind fun b => replays_write V b

theorem replays_net {m : M NbError (World σ) α} {m' : M NbError (World (Script × List Bytes)) α} (h : Replays (netScript V) m m') :
    Replays (cliScript V) (liftNet m) (liftNet m') := by
  intro s l
  obtain ⟨ans, l', h⟩ := h s.w l
  refine ⟨ans, l', fun rest => ?_⟩
  unfold liftNet cliScript
  dsimp only
  rw [h rest]
  rcases m s.w with ⟨o, w⟩
  cases o <;> rfl
end

section
variable (E : Env σ)

theorem replays_send (m : Msg) : Replays (cliScript E.V) (send E m) (send (E.withV scripted) m) := by
  intro s l
  by_cases hck : E.checked = true ∧ s.cli.mid.toNat = 65535
  · exact ⟨[], l, fun rest => by unfold send; rw [if_pos hck, if_pos (by exact hck)]; rfl⟩
  · unfold send
    rw [if_neg hck]
    dsimp only
    cases hf : requestFrame s.cli m with
    | err e => exact ⟨[], l, fun rest => by rw [if_neg (by exact hck), show (cliScript E.V s ([] ++ rest) l).cli = s.cli from rfl, hf]; rfl⟩
    | panic => exact ⟨[], l, fun rest => by rw [if_neg (by exact hck), show (cliScript E.V s ([] ++ rest) l).cli = s.cli from rfl, hf]; rfl⟩
    | ok f =>
      obtain ⟨ans, l', h⟩ := ((replays_net E.V (replays_sendMessage E.V f)).bind fun _ => Replays.pure (tr := cliScript E.V) s.cli.mid)
        { s with cli := { s.cli with mid := s.cli.mid + 1 } } l
      refine ⟨ans, l', fun rest => ?_⟩
      rw [if_neg (by exact hck), show (cliScript E.V s (ans ++ rest) l).cli = s.cli from rfl, hf]
      exact h rest

theorem replays_accept (T : Reply α) (i : Info) (b : Bytes) : Replays (cliScript E.V) (acceptReply T i b) (acceptReply T i b) := by
  unfold acceptReply
  split
  · exact Replays.fail _
  · split
    · exact Replays.ofRes _ _
    · split
      · exact Replays.ofRes _ _
      · exact Replays.fail _
    · exact Replays.fail _

theorem replays_recv (T : Reply α) (mid : UInt16) : Replays (cliScript E.V) (recv E T mid) (recv (E.withV scripted) T mid) := by
  have key : ∀ k, Replays (cliScript E.V) (recvLoop E mid k) (recvLoop (E.withV scripted) mid k) := by
    intro k
    induction k with
    | zero => exact Replays.const .running
    | succ k ih =>
      refine (replays_net E.V (replays_recvMessage E.V)).bind fun m => (Replays.ofRes _ _).bind fun p => ?_
      dsimp only
      split
      · exact Replays.pure _
      · exact ih
  exact fun s l => ((key (s.w.avail + 1)).bind fun p => replays_accept E T p.1 p.2) s l

theorem replays_command (m : Msg) (T : Reply α) : Replays (cliScript E.V) (command E m T) (command (E.withV scripted) m T) :=
  (replays_send E m).bind fun mid => replays_recv E T mid

theorem replays_collect (sub : SubReply2 α) (mid : UInt16) :
    Replays (cliScript E.V) (collect E sub mid) (collect (E.withV scripted) sub mid) := by
  have key : ∀ k ctx, Replays (cliScript E.V) (collectLoop E mid k ctx) (collectLoop (E.withV scripted) mid k ctx) := by
    intro k
    induction k with
    | zero => exact fun _ => Replays.const .running
    | succ k ih =>
      intro ctx
      refine (replays_recv E trans2Reply mid).bind fun r => (Replays.ofRes _ _).bind fun p => ?_
      obtain ⟨ctx', ready⟩ := p
      cases ready
      · exact ih ctx'
      · exact Replays.pure _
  exact fun s l => ((key (s.w.avail + 1) .new).bind fun ctx => Replays.ofRes _ _) s l

theorem replays_transact2 (tid : UInt16) (c : SubCmd2) (sub : SubReply2 α) :
    Replays (cliScript E.V) (transact2 E tid c sub) (transact2 (E.withV scripted) tid c sub) :=
  (replays_send E _).bind fun mid => replays_collect E sub mid

theorem replays_downloadLoop (file : Handle) : ∀ k data,
    Replays (cliScript E.V) (downloadLoop E file k data) (downloadLoop (E.withV scripted) file k data) := by
  intro k
  induction k with
  | zero => exact fun _ => Replays.const .running
  | succ k ih =>
    intro data
    unfold downloadLoop
    split
    · exact (replays_command E _ _).bind fun chunk => ih _
    · exact Replays.pure _

theorem replays_listLoop (share : Share) (sid : UInt16) : ∀ k result,
    Replays (cliScript E.V) (listLoop E share sid k result) (listLoop (E.withV scripted) share sid k result) := by
  intro k
  induction k with
  | zero => exact fun _ => Replays.const .running
  | succ k ih =>
    intro result
    unfold listLoop
    split
    · exact Replays.const .panic
    · refine (replays_transact2 E _ _ _).bind fun reply => ?_
      split
      · exact Replays.pure _
      · exact ih _
end

/-! ## Segments that have arrived without being asked for -/

/-- The client connected to the server with a script, of which only the segments `ib` have arrived. -/
def late (s : St σ) (ib : List Bytes) (t : Tail) (rest : List (List Bytes × Tail)) (l : List Bytes) : St (Script × List Bytes) :=
  { cli := s.cli, w := { inbox := ib, wsched := s.w.wsched, out := s.w.out, srv := ((t, rest), l) } }

/-- `m` writes a request before it reads, so that segments may as well arrive with the answer. -/
def WritesFirst (V : Server σ) (m : CM σ α) (m' : CM (Script × List Bytes) α) : Prop :=
  ∀ s ib extra t l, s.w.inbox = ib ++ extra →
    (∃ ans l', ∀ rest, m' (late s ib t (ans ++ rest) l) = ((m s).1, cliScript V (m s).2 rest l')) ∨
    ((∀ a, (m s).1 ≠ .ok a) ∧ (m s).2.w.inbox = s.w.inbox ∧ ∀ rest, m' (late s ib t rest l) = ((m s).1, late (m s).2 ib t rest l))

namespace WritesFirst
variable {V : Server σ}

theorem bind {m : CM σ α} {m' : CM (Script × List Bytes) α} {f : α → CM σ β} {f' : α → CM (Script × List Bytes) β} (h : WritesFirst V m m')
    (hf : ∀ a, Replays (cliScript V) (f a) (f' a)) : WritesFirst V (m >>= f) (m' >>= f') := by
  intro s ib extra t l hib
  have h0 := h s ib extra t l hib
  show (∃ ans l', ∀ rest, M.bind m' f' _ = ((M.bind m f s).1, cliScript V (M.bind m f s).2 rest l')) ∨
    ((∀ a, (M.bind m f s).1 ≠ .ok a) ∧ (M.bind m f s).2.w.inbox = _ ∧ ∀ rest, M.bind m' f' _ = ((M.bind m f s).1, late (M.bind m f s).2 ib t rest l))
  unfold M.bind
  rcases hm : m s with ⟨o, s1⟩
  rw [hm] at h0
  rcases h0 with ⟨ans, l1, h1⟩ | ⟨h1, h2, h3⟩
  · refine .inl ?_
    cases o with
    | ok a =>
      obtain ⟨ans', l2, h2⟩ := hf a s1 l1
      exact ⟨ans ++ ans', l2, fun rest => by rw [List.append_assoc, h1 (ans' ++ rest)]; exact h2 rest⟩
    | err e => exact ⟨ans, l1, fun rest => by rw [h1 rest]⟩
    | panic => exact ⟨ans, l1, fun rest => by rw [h1 rest]⟩
    | pending => exact ⟨ans, l1, fun rest => by rw [h1 rest]⟩
    | running => exact ⟨ans, l1, fun rest => by rw [h1 rest]⟩
  · refine .inr ?_
    cases o with
    | ok a => exact absurd rfl (h1 a)
    | err e => exact ⟨fun a => nofun, h2, fun rest => by rw [h3 rest]⟩
    | panic => exact ⟨fun a => nofun, h2, fun rest => by rw [h3 rest]⟩
    | pending => exact ⟨fun a => nofun, h2, fun rest => by rw [h3 rest]⟩
    | running => exact ⟨fun a => nofun, h2, fun rest => by rw [h3 rest]⟩

theorem map {m : CM σ α} {m' : CM (Script × List Bytes) α} (h : WritesFirst V m m') (g : α → β) :
    WritesFirst V (M.map' g m) (M.map' g m') := h.bind fun a => Replays.pure (g a)
end WritesFirst

theorem writesFirst_send (E : Env σ) (m : Msg) : WritesFirst E.V (send E m) (send (E.withV scripted) m) := by
  intro s ib extra t l hib
  by_cases hck : E.checked = true ∧ s.cli.mid.toNat = 65535
  · refine .inr ?_
    unfold send
    rw [if_pos hck]
    exact ⟨fun a => nofun, rfl, fun rest => by rw [if_pos (by exact hck)]⟩
  · have hl : ∀ rest, send (E.withV scripted) m (late s ib t rest l) = (match requestFrame s.cli m with
        | .err e => (.err (.SMBError e), late { s with cli := { s.cli with mid := s.cli.mid + 1 } } ib t rest l)
        | .panic => (.panic, late { s with cli := { s.cli with mid := s.cli.mid + 1 } } ib t rest l)
        | .ok f => M.bind (liftNet (sendMessage scripted f)) (fun _ => (pure s.cli.mid : CM _ UInt16))
            (late { s with cli := { s.cli with mid := s.cli.mid + 1 } } ib t rest l)) := by
      intro rest
      unfold send
      rw [if_neg (by exact hck)]
      rfl
    simp only [hl]
    unfold send
    rw [if_neg hck]
    dsimp only
    cases requestFrame s.cli m with
    | err e => exact .inr ⟨fun a => nofun, rfl, fun rest => rfl⟩
    | panic => exact .inr ⟨fun a => nofun, rfl, fun rest => rfl⟩
    | ok f =>
      dsimp only [M.bind, liftNet, sendMessage, sendFrame, Bind.bind, M.ofRes]
      cases (Frame.Message f).encode with
      | err e => exact .inr ⟨fun a => nofun, rfl, fun rest => rfl⟩
      | panic => exact .inr ⟨fun a => nofun, rfl, fun rest => rfl⟩
      | ok b =>
        dsimp only [writeExactly, late]
        rcases hwl : writeLoop s.w.wsched b s.w.out with ⟨r, ws, out⟩
        cases r with
        | done =>
          refine .inl ⟨[(extra ++ (E.V.react s.w.srv b).2, E.V.tail (E.V.react s.w.srv b).1)], l ++ [b], fun rest => ?_⟩
          show (Out.ok s.cli.mid, _) = (Out.ok s.cli.mid, _)
          simp only [cliScript, netScript, hib, List.append_assoc]
          rfl
        | failed e => exact .inr ⟨fun a => nofun, rfl, fun rest => rfl⟩
        | blocked => exact .inr ⟨fun a => nofun, rfl, fun rest => rfl⟩

theorem writesFirst_command (E : Env σ) (m : Msg) (T : Reply α) : WritesFirst E.V (command E m T) (command (E.withV scripted) m T) :=
  (writesFirst_send E m).bind fun mid => replays_recv E T mid

theorem writesFirst_transact2 (E : Env σ) (tid : UInt16) (c : SubCmd2) (sub : SubReply2 α) :
    WritesFirst E.V (transact2 E tid c sub) (transact2 (E.withV scripted) tid c sub) :=
  (writesFirst_send E _).bind fun mid => replays_collect E sub mid

theorem writesFirst_op (E : Env σ) (op : Op) : WritesFirst E.V (runOp E op) (runOp (E.withV scripted) op) := by
  cases op with
  | download budget share path =>
    exact WritesFirst.map ((writesFirst_command E _ _).bind fun file => (replays_downloadLoop E file budget []).bind fun data =>
      (replays_command E _ _).bind fun _ => Replays.pure data) _
  | list budget share pattern =>
    refine WritesFirst.map ((writesFirst_transact2 E _ _ _).bind fun reply => ?_) _
    split
    · exact Replays.pure _
    · exact replays_listLoop E _ _ _ _
  | findFirst share pattern => exact (writesFirst_transact2 E _ _ _).map _
  | findNext share sid lastfile => exact (writesFirst_transact2 E _ _ _).map _
  | _ => exact (writesFirst_command E _ _).map _

end Cifs
