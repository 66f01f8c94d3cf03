import Verif.Lemmas.LoggedContents
import Verif.Spec.Servers
/-! # Two runs against servers that send the same bytes in other segments, with the log -/

namespace Cifs
open Spec

variable {σ σ' α : Type} {R : σ → σ' → Prop}

/-- The same client, on connections that differ in the segments only. -/
structure CutSt (R : σ → σ' → Prop) (s : St σ) (s' : St σ') : Prop where
  cli : s.cli = s'.cli
  wire : SameWire R s.w s'.w

namespace Logged

section
variable {V : Server σ} {V' : Server σ'} (hV : SameBytes V V' R)
include hV

theorem cut_read (eof : NbError) (n : Nat) : Duet (SameWire R) Eq (quiet (readExact V eof n)) (quiet (readExact V' eof n)) := by
  refine Duet.quiet fun w w' h => ?_
  obtain ⟨ib, h1, h2⟩ := readExact_flat V eof n w
  obtain ⟨ib', h1', h2'⟩ := readExact_flat V' eof n w'
  have hf : w'.flat = w.flat := h.bytes.symm
  rw [← hV.tail _ _ h.srv, hf] at h1' h2'
  rw [h2, h2']
  exact ⟨OutRel.rfl' (fun _ => rfl) _, h.out, h.wsched, h.srv, by show ib.flatten = ib'.flatten; rw [h1, h1']⟩

theorem cut_recvFrame : Duet (SameWire R) Eq (Logged.recvFrame V) (Logged.recvFrame V') := by
  refine Duet.bindEq (cut_read hV _ _) fun t => Duet.bindEq (Duet.emit _) fun _ => Duet.bindEq (cut_read hV _ _) fun len => ?_
  dsimp only
  split
  · exact Duet.fail _
  · exact Duet.bindEq (Duet.emit _) fun _ => Duet.bindEq (Duet.bindEq (Duet.emit _) fun _ => cut_read hV _ _) fun d => Duet.same _ _

theorem cut_recvMessage : Duet (SameWire R) Eq (Logged.recvMessage V) (Logged.recvMessage V') := by
  have key : ∀ k, Duet (SameWire R) Eq (Logged.recvMessageLoop V k) (Logged.recvMessageLoop V' k) := by
    intro k
    induction k with
    | zero => exact Duet.const .running
    | succ k ih =>
      refine Duet.bindEq (cut_recvFrame hV) fun f => ?_
      cases f with
      | Message m => exact Duet.pure rfl
      | Keepalive => exact ih
      | _ => exact Duet.fail _
  intro w w' l h
  have ha : w'.avail = w.avail := by unfold World.avail; rw [h.bytes]
  unfold Logged.recvMessage
  dsimp only
  rw [ha]
  exact key _ w w' l h

theorem cut_sendFrame (f : Frame) : Duet (SameWire R) Eq (Logged.sendFrame V f) (Logged.sendFrame V' f) := by
  refine Duet.bindEq (Duet.same _ _) fun p => Duet.bindEq (Duet.emit _) fun _ => Duet.quiet fun w w' h => ?_
  unfold Cifs.writeExactly
  rw [← h.wsched, ← h.out]
  rcases writeLoop w.wsched p w.out with ⟨r, ws, out⟩
  cases r with
  | done => exact ⟨.ok rfl, rfl, rfl, hV.state _ _ _ h.srv, by simp only [List.flatten_append, h.bytes, hV.bytes _ _ p h.srv]⟩
  | failed e => exact ⟨.err _, rfl, rfl, h.srv, h.bytes⟩
  | blocked => exact ⟨.pending, rfl, rfl, h.srv, h.bytes⟩

theorem cut_createSession (dst src : Str) : Duet (SameWire R) Eq (Logged.createSession V dst src) (Logged.createSession V' dst src) := by
  refine Duet.bindEq (cut_sendFrame hV _) fun _ => Duet.bindEq (cut_recvFrame hV) fun f => ?_
  cases f with
  | PositiveResponse => exact Duet.pure rfl
  | _ => exact Duet.fail _
end

theorem cut_net {m : M NbError (World σ × Log) α} {m' : M NbError (World σ' × Log) α} (h : Duet (SameWire R) Eq m m') :
    Duet (CutSt R) Eq (Logged.liftNet m) (Logged.liftNet m') := by
  intro s s' l hq
  obtain ⟨h1, h2, h3⟩ := h s.w s'.w l hq.wire
  unfold Logged.liftNet
  dsimp only
  rcases hm : m (s.w, l) with ⟨o, w, l1⟩
  rcases hm' : m' (s'.w, l) with ⟨o', w', l1'⟩
  rw [hm, hm'] at h1 h2 h3
  dsimp only at h1 h2 h3
  subst h3
  cases h1 with
  | ok h => exact ⟨.ok h, ⟨hq.cli, h2⟩, rfl⟩
  | err e => exact ⟨.err _, ⟨hq.cli, h2⟩, rfl⟩
  | panic => exact ⟨.panic, ⟨hq.cli, h2⟩, rfl⟩
  | pending => exact ⟨.pending, ⟨hq.cli, h2⟩, rfl⟩
  | running => exact ⟨.running, ⟨hq.cli, h2⟩, rfl⟩

variable {E : Env σ} {V' : Server σ'} (hV : SameBytes E.V V' R)
include hV

theorem cut_send (m : Msg) : Duet (CutSt R) Eq (Logged.send E m) (Logged.send (E.withV V') m) := by
  intro s s' l hq
  unfold Logged.send
  dsimp only
  rw [show (E.withV V').checked = E.checked from rfl, ← hq.cli]
  split
  · exact ⟨.panic, hq, rfl⟩
  · have hb : CutSt R { s with cli := { s.cli with mid := s.cli.mid + 1 } } { s' with cli := { s.cli with mid := s.cli.mid + 1 } } := ⟨rfl, hq.wire⟩
    cases requestFrame s.cli m with
    | err e => exact ⟨.err _, hb, rfl⟩
    | panic => exact ⟨.panic, hb, rfl⟩
    | ok f => exact Duet.bindEq (cut_net (cut_sendFrame hV (.Message f))) (fun _ => Duet.pure rfl) _ _ l hb

theorem cut_recv (T : Reply α) (mid : UInt16) : Duet (CutSt R) Eq (Logged.recv E T mid) (Logged.recv (E.withV V') T mid) := by
  have key : ∀ k, Duet (CutSt R) Eq (Logged.recvLoop E mid k) (Logged.recvLoop (E.withV V') mid k) := by
    intro k
    induction k with
    | zero => exact Duet.const .running
    | succ k ih =>
      refine Duet.bindEq (cut_net (cut_recvMessage hV)) fun m => Duet.bindEq (Duet.same _ _) fun p => ?_
      dsimp only
      split
      · exact Duet.pure rfl
      · exact ih
  intro s s' l h
  have ha : s'.w.avail = s.w.avail := by unfold World.avail; rw [h.wire.bytes]
  unfold Logged.recv
  dsimp only
  rw [ha]
  refine Duet.bindEq (key _) (fun p => Duet.quiet fun s s' h => ?_) s s' l h
  rw [acceptReply_eq, acceptReply_eq]
  cases accept T p.1 p.2
  · exact ⟨.ok rfl, h⟩
  · exact ⟨.err _, h⟩
  · exact ⟨.panic, h⟩

theorem cut_command (m : Msg) (T : Reply α) : Duet (CutSt R) Eq (Logged.command E m T) (Logged.command (E.withV V') m T) :=
  Duet.bindEq (cut_send hV m) fun mid => cut_recv hV T mid

theorem cut_transact2 (tid : UInt16) (c : SubCmd2) (sub : SubReply2 α) :
    Duet (CutSt R) Eq (Logged.transact2 E tid c sub) (Logged.transact2 (E.withV V') tid c sub) := by
  refine Duet.bindEq (cut_send hV _) fun mid => ?_
  have key : ∀ k ctx, Duet (CutSt R) Eq (Logged.collectLoop E mid k ctx) (Logged.collectLoop (E.withV V') mid k ctx) := by
    intro k
    induction k with
    | zero => exact fun _ => Duet.const .running
    | succ k ih =>
      intro ctx
      refine Duet.bindEq (cut_recv hV trans2Reply mid) fun r => Duet.bindEq (Duet.same _ _) fun p => ?_
      obtain ⟨ctx', ready⟩ := p
      cases ready
      · exact ih ctx'
      · exact Duet.pure rfl
  intro s s' l h
  have ha : s'.w.avail = s.w.avail := by unfold World.avail; rw [h.wire.bytes]
  unfold Logged.collect
  dsimp only
  rw [ha]
  exact Duet.bindEq (key _ _) (fun _ => Duet.same _ _) s s' l h

theorem cut_downloadLoop (file : Handle) (k : Nat) (data : Bytes) :
    Duet (CutSt R) Eq (Logged.downloadLoop E file k data) (Logged.downloadLoop (E.withV V') file k data) := by
  induction k generalizing data with
  | zero => exact Duet.const .running
  | succ k ih =>
    unfold Logged.downloadLoop
    split
    · exact Duet.bindEq (cut_command hV _ _) fun c => ih _
    · exact Duet.pure rfl

theorem cut_listLoop (share : Share) (sid : UInt16) (k : Nat) (result : List DirInfo) :
    Duet (CutSt R) Eq (Logged.listLoop E share sid k result) (Logged.listLoop (E.withV V') share sid k result) := by
  induction k generalizing result with
  | zero => exact Duet.const .running
  | succ k ih =>
    unfold Logged.listLoop
    cases result.getLast? with
    | none => exact Duet.const .panic
    | some last =>
      refine Duet.bindEq (cut_transact2 hV _ _ _) fun r => ?_
      split
      · exact Duet.pure rfl
      · exact ih _

theorem cut_runOp (op : Op) : Duet (CutSt R) Eq (Logged.runOp E op) (Logged.runOp (E.withV V') op) := by
  have hm : ∀ {β : Type} (g : β → Val) {m : LM σ β} {m' : LM σ' β}, Duet (CutSt R) Eq m m' → Duet (CutSt R) Eq (M.map' g m) (M.map' g m') :=
    fun g _ _ h => Duet.map' (A := Eq) _ _ h fun _ _ h => by rw [h]
  cases op
  case download b s p =>
    exact hm _ (Duet.bindEq (cut_command hV _ _) fun file => Duet.bindEq (cut_downloadLoop hV file b []) fun data =>
      Duet.bindEq (cut_command hV _ _) fun _ => Duet.pure rfl)
  case notify h what => exact hm _ (Duet.bindEq (Duet.emit _) fun _ => cut_command hV _ _)
  case list b s p =>
    refine hm _ (Duet.bindEq (cut_transact2 hV _ _ _) fun reply => ?_)
    split
    · exact Duet.pure rfl
    · exact cut_listLoop hV s _ b _
  case findFirst s p => exact hm _ (cut_transact2 hV _ _ _)
  case findNext s i p => exact hm _ (cut_transact2 hV _ _ _)
  all_goals exact hm _ (cut_command hV _ _)

omit hV in
theorem cut_modify (f : Cli → Cli) : Duet (CutSt R) Eq (quiet (modifyCli f : CM σ Unit)) (quiet (modifyCli f : CM σ' Unit)) :=
  Duet.quiet fun s s' h => ⟨.ok rfl, by show f s.cli = f s'.cli; rw [h.cli], h.wire⟩

omit hV in
theorem cut_getCli {f : Cli → LM σ α} {f' : Cli → LM σ' α} (h : ∀ c, Duet (CutSt R) Eq (f c) (f' c)) :
    Duet (CutSt R) Eq (quiet getCli >>= f) (quiet getCli >>= f') := by
  intro s s' l hq
  rw [M.bind_ok (show quiet (getCli : CM σ Cli) (s, l) = (.ok s.cli, (s, l)) from rfl),
    M.bind_ok (show quiet (getCli : CM σ' Cli) (s', l) = (.ok s'.cli, (s', l)) from rfl), ← hq.cli]
  exact h _ s s' l hq

theorem cut_setupConnection : Duet (CutSt R) Eq (Logged.setupConnection E) (Logged.setupConnection (E.withV V')) := by
  refine Duet.bindEq (cut_command hV _ _) fun setup => Duet.bindEq (cut_modify _) fun _ => ?_
  split
  · exact cut_getCli fun c => Duet.bindEq (Duet.same _ _) fun _ => Duet.bindEq (cut_command hV _ _) fun r => Duet.bindEq (cut_modify _) fun _ =>
      Duet.bindEq (Duet.same _ _) fun _ => Duet.bindEq (Duet.same _ _) fun _ => Duet.bindEq (Duet.same _ _) fun _ =>
      Duet.bindEq (cut_command hV _ _) fun _ => Duet.pure rfl
  · exact cut_getCli fun c => Duet.bindEq (Duet.same _ _) fun _ => Duet.bindEq (cut_command hV _ _) fun r => cut_modify _

end Logged

end Cifs
