import Verif.Lemmas.Account
import Verif.Lemmas.Contents
/-! # Two runs against servers that differ in the contents of files, with the log -/

namespace Cifs
open Spec

variable {σ σ' S S' : Type} {α β γ δ : Type} {ε : Type} {R : UInt8 → UInt8 → Prop}

/-- From related states, the same outcome (with related values), related states and the same lines. -/
def Duet (Q : S → S' → Prop) (A : α → β → Prop) (m : M ε (S × Log) α) (m' : M ε (S' × Log) β) : Prop :=
  ∀ s s' l, Q s s' → OutRel A (m (s, l)).1 (m' (s', l)).1 ∧ Q (m (s, l)).2.1 (m' (s', l)).2.1 ∧ (m (s, l)).2.2 = (m' (s', l)).2.2

section
variable {Q : S → S' → Prop}

theorem Duet.bind {A : α → β → Prop} {B : γ → δ → Prop} {m : M ε (S × Log) α} {m' : M ε (S' × Log) β} {f : α → M ε (S × Log) γ} {f' : β → M ε (S' × Log) δ}
    (hm : Duet Q A m m') (hf : ∀ a b, A a b → Duet Q B (f a) (f' b)) : Duet Q B (m >>= f) (m' >>= f') := by
  intro s s' l hq
  obtain ⟨h1, h2, h3⟩ := hm s s' l hq
  rcases h : m (s, l) with ⟨o, s1, l1⟩
  rcases h' : m' (s', l) with ⟨o', s1', l1'⟩
  rw [h, h'] at h1 h2 h3
  dsimp only at h1 h2 h3
  subst h3
  cases h1 with
  | ok ha => rw [M.bind_ok h, M.bind_ok h']; exact hf _ _ ha _ _ _ h2
  | err e => rw [M.bind_err h, M.bind_err h']; exact ⟨.err e, h2, rfl⟩
  | panic => rw [M.bind_panic h, M.bind_panic h']; exact ⟨.panic, h2, rfl⟩
  | pending => rw [M.bind_pending h, M.bind_pending h']; exact ⟨.pending, h2, rfl⟩
  | running => rw [M.bind_running h, M.bind_running h']; exact ⟨.running, h2, rfl⟩

theorem Duet.bindEq {B : γ → δ → Prop} {m : M ε (S × Log) α} {m' : M ε (S' × Log) α} {f : α → M ε (S × Log) γ} {f' : α → M ε (S' × Log) δ}
    (hm : Duet Q Eq m m') (hf : ∀ a, Duet Q B (f a) (f' a)) : Duet Q B (m >>= f) (m' >>= f') :=
  Duet.bind hm fun a _ e => by subst e; exact hf a

theorem Duet.const {A : α → β → Prop} {o : Out ε α} {o' : Out ε β} (h : OutRel A o o') :
    Duet Q A (fun s => (o, s)) (fun s => (o', s)) := fun _ _ _ hq => ⟨h, hq, rfl⟩
theorem Duet.pure {A : α → β → Prop} {a : α} {b : β} (h : A a b) : Duet Q A (Pure.pure a : M ε (S × Log) α) (Pure.pure b : M ε (S' × Log) β) :=
  Duet.const (.ok h)
theorem Duet.fail {A : α → β → Prop} (e : ε) : Duet Q A (M.fail e : M ε (S × Log) α) (M.fail e : M ε (S' × Log) β) := Duet.const (.err e)

theorem Duet.ofRes {ε' : Type} {A : α → β → Prop} (g : ε' → ε) {r : Res ε' α} {r' : Res ε' β} (h : ResRel A r r') :
    Duet Q A (M.ofRes g r : M ε (S × Log) α) (M.ofRes g r' : M ε (S' × Log) β) := by
  cases h with
  | ok h => exact Duet.const (.ok h)
  | err e => exact Duet.const (.err _)
  | panic => exact Duet.const .panic

theorem Duet.same {ε' : Type} (g : ε' → ε) (r : Res ε' α) : Duet Q Eq (M.ofRes g r : M ε (S × Log) α) (M.ofRes g r : M ε (S' × Log) α) :=
  Duet.ofRes g (ResRel.rfl' (fun _ => rfl) r)

theorem Duet.emit (e : Event) : Duet Q Eq (Cifs.emit e : M ε (S × Log) Unit) (Cifs.emit e : M ε (S' × Log) Unit) := fun _ _ _ h => ⟨.ok rfl, h, rfl⟩

theorem Duet.quiet {A : α → β → Prop} {m : M ε S α} {m' : M ε S' β} (hm : ∀ s s', Q s s' → OutRel A (m s).1 (m' s').1 ∧ Q (m s).2 (m' s').2) :
    Duet Q A (Cifs.quiet m) (Cifs.quiet m') := fun s s' _ h => ⟨(hm s s' h).1, (hm s s' h).2, rfl⟩

theorem Duet.map' {A : α → β → Prop} {B : γ → δ → Prop} {m : M ε (S × Log) α} {m' : M ε (S' × Log) β} (g : α → γ) (g' : β → δ) (hm : Duet Q A m m')
    (hg : ∀ a b, A a b → B (g a) (g' b)) : Duet Q B (M.map' g m) (M.map' g' m') := Duet.bind hm fun a b h => Duet.const (.ok (hg a b h))
end

theorem Spec.SamePackets.length {b b' : Bytes} (h : SamePackets R b b') : b.length = b'.length := by
  induction h with
  | done => rfl
  | same ty d hd hu _ ih => simp [ih]
  | read f f' hf hs _ ih => simp [ih, sameRead_length hs, message]

namespace Logged

/-! ## One packet -/

/-- The lines for a packet that is there as a whole. -/
theorem recvFrame_lines (V : Server σ) (w : World σ) (l : Log) (t : UInt8) (d r : Bytes) (hd : d.length ≤ maxPayload) (hw : w.inbox.flatten = packet t d ++ r) :
    (Logged.recvFrame V (w, l)).2.2 = l ++ [.msgType t, .msgLength d.length, .reading d.length] := by
  rw [← be24_packet] at hw
  unfold Logged.recvFrame
  obtain ⟨ib, h, hib⟩ := read_ok V (.IoError .unexpectedEof) 1 w l (a := [t]) (b := be24 d.length ++ (d ++ r)) (by rw [hw]; simp) rfl
  rw [M.bind_ok h, M.bind_ok (show emit (.msgType _) (_, l) = (.ok (), (_, l ++ [.msgType _])) from rfl), beVal_one]
  obtain ⟨ib2, h, hib2⟩ := read_ok V (.IoError .unexpectedEof) 3 { w with inbox := ib } (l ++ [.msgType t]) (a := be24 d.length) (b := d ++ r) hib rfl
  rw [M.bind_ok h]
  dsimp only
  have hn : beVal (be24 d.length) = d.length := be24_val _ (by unfold maxPayload at hd; omega)
  rw [hn, if_neg (show ¬ d.length > MAX_FRAME_LENGTH from Nat.not_lt.mpr hd),
    M.bind_ok (show emit (.msgLength _) (_, _) = (.ok (), (_, _ ++ [.msgLength _])) from rfl)]
  obtain ⟨ib3, h, hib3⟩ := read_ok V .UnexpectedEOF d.length { w with inbox := ib2 } (l ++ [.msgType t] ++ [.msgLength d.length] ++ [.reading d.length])
    (a := d) (b := r) hib2 rfl
  have hq : Logged.readExactly V d.length ({ w with inbox := ib2 }, l ++ [.msgType t] ++ [.msgLength d.length]) =
      (.ok d, { w with inbox := ib3 }, l ++ [.msgType t] ++ [.msgLength d.length] ++ [.reading d.length]) := by
    unfold Logged.readExactly
    rw [M.bind_ok (show emit (.reading _) (_, _) = (.ok (), (_, _ ++ [.reading _])) from rfl)]; exact h
  rw [M.bind_ok hq]
  cases Frame.new t d <;> simp [M.ofRes]

theorem recvFrame_nothing (V : Server σ) (w : World σ) (l : Log) (hw : w.inbox.flatten = []) : (Logged.recvFrame V (w, l)).2.2 = l := by
  obtain ⟨o, w', h, ho⟩ := read_short V (.IoError .unexpectedEof) 1 w l (by rw [hw]; decide)
  obtain ⟨o', h', _⟩ := bind_stops (f := fun t => do
    emit (.msgType (UInt8.ofNat (beVal t)))
    let len ← quiet (readExact V (.IoError .unexpectedEof) 3)
    let n := beVal len
    if n > MAX_FRAME_LENGTH then M.fail .FrameTooBig
    else
      emit (.msgLength n)
      let d ← readExactly V n
      M.ofRes id (Frame.new (UInt8.ofNat (beVal t)) d)) h ho
  have e : Logged.recvFrame V (w, l) = (o', (w', l)) := h'
  rw [e]

/-- Two frames from such streams. -/
def SameFrame (R : UInt8 → UInt8 → Prop) (f f' : Frame) : Prop :=
  (f = f' ∧ ∀ m, f = .Message m → Untouched R 0 m) ∨ ∃ m m', f = .Message m ∧ f' = .Message m' ∧ SameRead R m m'

section
variable {V : Server σ} {V' : Server σ'} {rel : σ → σ' → Prop} (hV : OtherContents R V V' rel)
include hV

theorem duet_recvFrame : Duet (OtherWire R rel) (SameFrame R) (Logged.recvFrame V) (Logged.recvFrame V') := by
  intro w w' l h
  obtain ⟨e1, e2, _⟩ := erase_recvFrame V w l
  obtain ⟨e1', e2', _⟩ := erase_recvFrame V' w' l
  rw [e1, e2, e1', e2']
  obtain ⟨ib, h1, h2⟩ := recvFrame_flat V w
  obtain ⟨ib', h1', h2'⟩ := recvFrame_flat V' w'
  have ht : V'.tail w'.srv = V.tail w.srv := (hV.tail _ _ h.srv).symm
  rw [ht] at h1' h2'
  rw [h2, h2']
  have hs := h.bytes
  unfold World.flat at h1 h2 h1' h2' ⊢
  generalize hb : w.inbox.flatten = b at *
  generalize hb' : w'.inbox.flatten = b' at *
  have key : ∀ o r o' r', flatRecv (V.tail w.srv) b = (o, r) → flatRecv (V.tail w.srv) b' = (o', r') → OutRel (SameFrame R) o o' → SamePackets R r r' →
      (Logged.recvFrame V (w, l)).2.2 = (Logged.recvFrame V' (w', l)).2.2 →
      OutRel (SameFrame R) (flatRecv (V.tail w.srv) b).1 (flatRecv (V.tail w.srv) b').1 ∧
        OtherWire R rel { w with inbox := ib } { w' with inbox := ib' } ∧ (Logged.recvFrame V (w, l)).2.2 = (Logged.recvFrame V' (w', l)).2.2 := by
    intro o r o' r' k k' ko kr kl
    rw [k] at h1 ⊢; rw [k'] at h1' ⊢
    exact ⟨ko, ⟨h.out, h.wsched, h.srv, by show SamePackets R ib.flatten ib'.flatten; rw [h1, h1']; exact kr⟩, kl⟩
  cases hs with
  | done =>
    obtain ⟨o, ho⟩ : ∃ o : Out NbError Frame, flatRecv (V.tail w.srv) [] = (o, []) ∧ ∀ f, o ≠ .ok f := by
      have := flatRecv_short4 (V.tail w.srv) [] (by decide)
      cases ht : V.tail w.srv <;> rw [ht] at this <;> exact ⟨_, this, nofun⟩
    refine key o [] o [] ho.1 ho.1 ?_ .done (by rw [recvFrame_nothing V w l hb, recvFrame_nothing V' w' l hb'])
    cases o with
    | ok f => exact absurd rfl (ho.2 f)
    | err e => exact .err e
    | panic => exact .panic
    | pending => exact .pending
    | running => exact .running
  | @same r r' ty d hd hu hs =>
    have k := flatRecv_packet (V.tail w.srv) ty d r hd
    have k' := flatRecv_packet (V.tail w.srv) ty d r' hd
    have hl := (recvFrame_lines V w l ty d r hd hb).trans (recvFrame_lines V' w' l ty d r' hd hb').symm
    cases hf : Frame.new ty d with
    | ok f =>
      rw [hf] at k k'
      refine key _ _ _ _ k k' (.ok (.inl ⟨rfl, fun m e => ?_⟩)) hs hl
      subst e
      obtain ⟨rfl, rfl⟩ := frame_message hf
      exact hu
    | err e => rw [hf] at k k'; exact key _ _ _ _ k k' (.err e) hs hl
    | panic => rw [hf] at k k'; exact key _ _ _ _ k k' .panic hs hl
  | @read r r' f f' hf hr hs =>
    have hlen := sameRead_length hr
    have k := flatRecv_packet (V.tail w.srv) 0 f r hf
    have k' := flatRecv_packet (V.tail w.srv) 0 f' r' (hlen ▸ hf)
    have hl : (Logged.recvFrame V (w, l)).2.2 = (Logged.recvFrame V' (w', l)).2.2 := by
      rw [recvFrame_lines V w l 0 f r hf hb, recvFrame_lines V' w' l 0 f' r' (hlen ▸ hf) hb', hlen]
    exact key _ _ _ _ k k' (.ok (.inr ⟨f, f', rfl, rfl, hr⟩)) hs hl

/-- Two messages from such streams. -/
def SameMsg (R : UInt8 → UInt8 → Prop) (m m' : Bytes) : Prop := (m = m' ∧ Untouched R 0 m) ∨ SameRead R m m'

theorem duet_recvMessage : Duet (OtherWire R rel) (SameMsg R) (Logged.recvMessage V) (Logged.recvMessage V') := by
  have key : ∀ k, Duet (OtherWire R rel) (SameMsg R) (Logged.recvMessageLoop V k) (Logged.recvMessageLoop V' k) := by
    intro k
    induction k with
    | zero => exact Duet.const .running
    | succ k ih =>
      refine Duet.bind (duet_recvFrame hV) fun f f' h => ?_
      rcases h with ⟨rfl, h⟩ | ⟨m, m', rfl, rfl, h⟩
      · cases f with
        | Message m => exact Duet.pure (.inl ⟨rfl, h m rfl⟩)
        | Keepalive => exact ih
        | _ => exact Duet.fail _
      · exact Duet.pure (.inr h)
  intro w w' l h
  have ha : w'.avail = w.avail := by unfold World.avail; exact h.bytes.length.symm
  unfold Logged.recvMessage
  dsimp only
  rw [ha]
  exact key _ w w' l h

theorem duet_write (p : Bytes) : Duet (OtherWire R rel) Eq (Logged.writeExactly V p) (Logged.writeExactly V' p) := by
  refine Duet.bindEq (Duet.emit _) fun _ => Duet.quiet fun w w' h => ?_
  unfold Cifs.writeExactly
  rw [← h.wsched, ← h.out]
  rcases writeLoop w.wsched p w.out with ⟨r, ws, out⟩
  cases r with
  | done => exact ⟨.ok rfl, rfl, rfl, hV.state _ _ _ h.srv, by simpa only [List.flatten_append] using h.bytes.append (hV.bytes _ _ p h.srv)⟩
  | failed e => exact ⟨.err _, rfl, rfl, h.srv, h.bytes⟩
  | blocked => exact ⟨.pending, rfl, rfl, h.srv, h.bytes⟩

theorem duet_sendFrame (f : Frame) : Duet (OtherWire R rel) Eq (Logged.sendFrame V f) (Logged.sendFrame V' f) :=
  Duet.bindEq (Duet.same _ _) fun _ => duet_write hV _
end

/-! ## Calls -/

section
variable {rel : σ → σ' → Prop}

theorem duet_net {A : α → β → Prop} {m : M NbError (World σ × Log) α} {m' : M NbError (World σ' × Log) β} (h : Duet (OtherWire R rel) A m m') :
    Duet (OtherSt R rel) A (Logged.liftNet m) (Logged.liftNet m') := by
  intro s s' l hq
  obtain ⟨h1, h2, h3⟩ := h s.w s'.w l hq.wire
  unfold Logged.liftNet
  dsimp only
  rcases hm : m (s.w, l) with ⟨o, w, l1⟩
  rcases hm' : m' (s'.w, l) with ⟨o', w', l1'⟩
  rw [hm, hm'] at h1 h2 h3
  dsimp only at h1 h2 h3
  subst h3
  cases h1 with
  | ok h => exact ⟨.ok h, ⟨hq.cli, h2⟩, rfl⟩
  | err e => exact ⟨.err _, ⟨hq.cli, h2⟩, rfl⟩
  | panic => exact ⟨.panic, ⟨hq.cli, h2⟩, rfl⟩
  | pending => exact ⟨.pending, ⟨hq.cli, h2⟩, rfl⟩
  | running => exact ⟨.running, ⟨hq.cli, h2⟩, rfl⟩

variable {E : Env σ} {V' : Server σ'} (hV : OtherContents R E.V V' rel)
include hV

theorem duet_send (m : Msg) : Duet (OtherSt R rel) Eq (Logged.send E m) (Logged.send (E.withV V') m) := by
  intro s s' l hq
  unfold Logged.send
  dsimp only
  rw [show (E.withV V').checked = E.checked from rfl, ← hq.cli]
  split
  · exact ⟨.panic, hq, rfl⟩
  · have hb : OtherSt R rel { s with cli := { s.cli with mid := s.cli.mid + 1 } } { s' with cli := { s.cli with mid := s.cli.mid + 1 } } := ⟨rfl, hq.wire⟩
    cases requestFrame s.cli m with
    | err e => exact ⟨.err _, hb, rfl⟩
    | panic => exact ⟨.panic, hb, rfl⟩
    | ok f => exact Duet.bindEq (duet_net (duet_sendFrame hV (.Message f))) (fun _ => Duet.pure rfl) _ _ l hb

theorem duet_recv {A : α → α → Prop} (T : Reply α) (hA : ∀ p p', SameBody R p p' → ResRel A (accept T p.1 p.2) (accept T p'.1 p'.2)) (mid : UInt16) :
    Duet (OtherSt R rel) A (Logged.recv E T mid) (Logged.recv (E.withV V') T mid) := by
  have key : ∀ k, Duet (OtherSt R rel) (SameBody R) (Logged.recvLoop E mid k) (Logged.recvLoop (E.withV V') mid k) := by
    intro k
    induction k with
    | zero => exact Duet.const .running
    | succ k ih =>
      refine Duet.bind (duet_net (duet_recvMessage hV)) fun m m' h => ?_
      refine Duet.bind (A := SameBody R) (Duet.ofRes _ ?_) fun p p' hp => ?_
      · rcases h with ⟨rfl, h⟩ | h
        · cases hi : Info.parse m with
          | ok p => exact .ok (untouched_body h hi)
          | err e => exact .err e
          | panic => exact .panic
        · rcases parse_read h with ⟨p, p', h1, h2, h3⟩ | ⟨e, h1, h2⟩
          · rw [h1, h2]; exact .ok h3
          · rw [h1, h2]; exact .err e
      · obtain ⟨i, b⟩ := p
        obtain ⟨i', b'⟩ := p'
        obtain rfl : i = i' := hp.1
        dsimp only
        split
        · exact Duet.pure hp
        · exact ih
  intro s s' l h
  have ha : s'.w.avail = s.w.avail := by unfold World.avail; exact h.wire.bytes.length.symm
  unfold Logged.recv
  dsimp only
  rw [ha]
  refine Duet.bind (key _) (fun p p' hp => Duet.quiet fun s s' h => ?_) s s' l h
  rw [acceptReply_eq, acceptReply_eq]
  have := hA _ _ hp
  revert this
  cases accept T p.1 p.2 <;> cases accept T p'.1 p'.2 <;> intro this <;> cases this
  · rename_i k; exact ⟨.ok k, h⟩
  · exact ⟨.err _, h⟩
  · exact ⟨.panic, h⟩

theorem duet_command (m : Msg) (T : Reply α) (hT : T.cmd ≠ .Read) : Duet (OtherSt R rel) Eq (Logged.command E m T) (Logged.command (E.withV V') m T) :=
  Duet.bindEq (duet_send hV m) fun mid => duet_recv hV T (fun _ _ hp => accept_other hT hp) mid

theorem duet_read (m : Msg) : Duet (OtherSt R rel) (Each R) (Logged.command E m readReply) (Logged.command (E.withV V') m readReply) :=
  Duet.bindEq (duet_send hV m) fun mid => duet_recv hV readReply (fun _ _ hp => accept_reads hp) mid

theorem duet_transact2 (tid : UInt16) (c : SubCmd2) (sub : SubReply2 α) :
    Duet (OtherSt R rel) Eq (Logged.transact2 E tid c sub) (Logged.transact2 (E.withV V') tid c sub) := by
  refine Duet.bindEq (duet_send hV _) fun mid => ?_
  have key : ∀ k ctx, Duet (OtherSt R rel) Eq (Logged.collectLoop E mid k ctx) (Logged.collectLoop (E.withV V') mid k ctx) := by
    intro k
    induction k with
    | zero => exact fun _ => Duet.const .running
    | succ k ih =>
      intro ctx
      refine Duet.bindEq (duet_recv hV trans2Reply (fun _ _ hp => accept_other (by decide) hp) mid) fun r => Duet.bindEq (Duet.same _ _) fun p => ?_
      obtain ⟨ctx', ready⟩ := p
      cases ready
      · exact ih ctx'
      · exact Duet.pure rfl
  intro s s' l h
  have ha : s'.w.avail = s.w.avail := by unfold World.avail; exact h.wire.bytes.length.symm
  unfold Logged.collect
  dsimp only
  rw [ha]
  exact Duet.bindEq (key _ _) (fun _ => Duet.same _ _) s s' l h

theorem duet_downloadLoop (file : Handle) (k : Nat) (data data' : Bytes) (hd : Each R data data') :
    Duet (OtherSt R rel) (Each R) (Logged.downloadLoop E file k data) (Logged.downloadLoop (E.withV V') file k data') := by
  induction k generalizing data data' with
  | zero => exact Duet.const .running
  | succ k ih =>
    unfold Logged.downloadLoop
    rw [hd.length]
    split
    · exact Duet.bind (duet_read hV _) fun c c' hc => ih _ _ (hd.append hc)
    · exact Duet.pure hd

theorem duet_listLoop (share : Share) (sid : UInt16) (k : Nat) (result : List DirInfo) :
    Duet (OtherSt R rel) Eq (Logged.listLoop E share sid k result) (Logged.listLoop (E.withV V') share sid k result) := by
  induction k generalizing result with
  | zero => exact Duet.const .running
  | succ k ih =>
    unfold Logged.listLoop
    cases result.getLast? with
    | none => exact Duet.const .panic
    | some last =>
      refine Duet.bindEq (duet_transact2 hV _ _ _) fun r => ?_
      split
      · exact Duet.pure rfl
      · exact ih _

theorem duet_runOp (op : Op) : Duet (OtherSt R rel) (SameVal R op) (Logged.runOp E op) (Logged.runOp (E.withV V') op) := by
  cases op
  case download b s p =>
    refine Duet.map' (A := Each R) _ _ ?_ fun _ _ h => .bytes rfl h
    exact Duet.bindEq (duet_command hV _ _ (by decide)) fun file => Duet.bind (duet_downloadLoop hV file b [] [] .nil) fun data data' hd =>
      Duet.bindEq (duet_command hV _ _ (by decide)) fun _ => Duet.pure hd
  case read file o => exact Duet.map' (A := Each R) _ _ (duet_read hV _) fun _ _ h => .bytes rfl h
  case notify h what =>
    refine Duet.map' (A := Eq) _ _ ?_ fun _ _ h => by subst h; exact .same rfl _ nofun
    exact Duet.bindEq (Duet.emit _) fun _ => duet_command hV _ _ (by decide)
  case list b s p =>
    refine Duet.map' (A := Eq) _ _ ?_ fun _ _ h => by subst h; exact .same rfl _ nofun
    refine Duet.bindEq (duet_transact2 hV _ _ _) fun reply => ?_
    split
    · exact Duet.pure rfl
    · exact duet_listLoop hV s _ b _
  case findFirst s p => exact Duet.map' (A := Eq) _ _ (duet_transact2 hV _ _ _) fun _ _ h => by subst h; exact .same rfl _ nofun
  case findNext s i p => exact Duet.map' (A := Eq) _ _ (duet_transact2 hV _ _ _) fun _ _ h => by subst h; exact .same rfl _ nofun
  all_goals exact Duet.map' (A := Eq) _ _ (duet_command hV _ _ (by decide)) fun _ _ h => by subst h; exact .same rfl _ nofun

omit hV in
theorem duet_modify (f : Cli → Cli) : Duet (OtherSt R rel) Eq (quiet (modifyCli f : CM σ Unit)) (quiet (modifyCli f : CM σ' Unit)) :=
  Duet.quiet (Par.modifyCli f)

omit hV in
theorem duet_getCli {A : α → α → Prop} {f : Cli → LM σ α} {f' : Cli → LM σ' α} (h : ∀ c, Duet (OtherSt R rel) A (f c) (f' c)) :
    Duet (OtherSt R rel) A (quiet getCli >>= f) (quiet getCli >>= f') := by
  intro s s' l hq
  rw [M.bind_ok (show quiet (getCli : CM σ Cli) (s, l) = (.ok s.cli, (s, l)) from rfl),
    M.bind_ok (show quiet (getCli : CM σ' Cli) (s', l) = (.ok s'.cli, (s', l)) from rfl), ← hq.cli]
  exact h _ s s' l hq

theorem duet_setupConnection : Duet (OtherSt R rel) Eq (Logged.setupConnection E) (Logged.setupConnection (E.withV V')) := by
  refine Duet.bindEq (duet_command hV _ _ (by decide)) fun setup => Duet.bindEq (duet_modify _) fun _ => ?_
  split
  · exact duet_getCli fun c => Duet.bindEq (Duet.same _ _) fun _ => Duet.bindEq (duet_command hV _ _ (by decide)) fun r => Duet.bindEq (duet_modify _) fun _ =>
      Duet.bindEq (Duet.same _ _) fun _ => Duet.bindEq (Duet.same _ _) fun _ => Duet.bindEq (Duet.same _ _) fun _ =>
      Duet.bindEq (duet_command hV _ _ (by decide)) fun _ => Duet.pure rfl
  · exact duet_getCli fun c => Duet.bindEq (Duet.same _ _) fun _ => Duet.bindEq (duet_command hV _ _ (by decide)) fun r => duet_modify _

end

end Logged

end Cifs
