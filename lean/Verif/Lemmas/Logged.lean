import Verif.Model.Logged
import Verif.Lemmas.Blind
/-! # Programs that log -/

namespace Cifs
open Spec

variable {σ ε S α β : Type}

/-! ## Without the log -/

/-- `m'` does what `m` does, and adds to the log. -/
def Erases (m' : M ε (S × Log) α) (m : M ε S α) : Prop :=
  ∀ s l, (m' (s, l)).1 = (m s).1 ∧ (m' (s, l)).2.1 = (m s).2 ∧ l <+: (m' (s, l)).2.2

theorem Erases.bind {m' : M ε (S × Log) α} {m : M ε S α} {f' : α → M ε (S × Log) β} {f : α → M ε S β} (hm : Erases m' m) (hf : ∀ a, Erases (f' a) (f a)) :
    Erases (m' >>= f') (m >>= f) := by
  intro s l
  obtain ⟨h1, h2, h3⟩ := hm s l
  rcases h : m s with ⟨o, s1⟩
  rcases h' : m' (s, l) with ⟨o', s1', l1⟩
  rw [h, h'] at h1 h2; rw [h'] at h3
  dsimp only at h1 h2 h3
  subst h1 h2
  cases o' with
  | ok a =>
    obtain ⟨k1, k2, k3⟩ := hf a s1' l1
    rw [M.bind_ok h, M.bind_ok h']
    exact ⟨k1, k2, h3.trans k3⟩
  | err e => rw [M.bind_err h, M.bind_err h']; exact ⟨rfl, rfl, h3⟩
  | panic => rw [M.bind_panic h, M.bind_panic h']; exact ⟨rfl, rfl, h3⟩
  | pending => rw [M.bind_pending h, M.bind_pending h']; exact ⟨rfl, rfl, h3⟩
  | running => rw [M.bind_running h, M.bind_running h']; exact ⟨rfl, rfl, h3⟩

theorem Erases.const (o : Out ε α) : Erases (S := S) (fun s => (o, s)) (fun s => (o, s)) := fun _ _ => ⟨rfl, rfl, List.prefix_refl _⟩
theorem Erases.pure (a : α) : Erases (pure a : M ε (S × Log) α) (pure a) := Erases.const _
theorem Erases.fail (e : ε) : Erases (M.fail e : M ε (S × Log) α) (M.fail e) := Erases.const _
theorem Erases.ofRes {ε' : Type} (g : ε' → ε) (r : Res ε' α) : Erases (M.ofRes g r : M ε (S × Log) α) (M.ofRes g r) := by
  cases r <;> exact fun _ _ => ⟨rfl, rfl, List.prefix_refl _⟩
theorem Erases.quiet (m : M ε S α) : Erases (quiet m) m := fun _ _ => ⟨rfl, rfl, List.prefix_refl _⟩
theorem Erases.map' {m' : M ε (S × Log) α} {m : M ε S α} (g : α → β) (h : Erases m' m) : Erases (M.map' g m') (M.map' g m) :=
  Erases.bind h fun a => Erases.const (.ok (g a))

theorem Erases.emit {f' : M ε (S × Log) α} {f : M ε S α} (e : Event) (h : Erases f' f) : Erases (emit e >>= fun _ => f') f := by
  intro s l
  rw [M.bind_ok (show Cifs.emit e (s, l) = (.ok (), (s, l ++ [e])) from rfl)]
  obtain ⟨h1, h2, h3⟩ := h s (l ++ [e])
  exact ⟨h1, h2, (List.prefix_append _ _).trans h3⟩

namespace Logged

theorem erase_recvFrame (V : Server σ) : Erases (Logged.recvFrame V) (Cifs.recvFrame V) := by
  refine Erases.bind (Erases.quiet _) fun t => Erases.emit _ (Erases.bind (Erases.quiet _) fun len => ?_)
  dsimp only
  split
  · exact Erases.fail _
  · exact Erases.emit _ (Erases.bind (Erases.emit _ (Erases.quiet _)) fun d => Erases.ofRes _ _)

theorem erase_recvMessageLoop (V : Server σ) (k : Nat) : Erases (Logged.recvMessageLoop V k) (Cifs.recvMessageLoop V k) := by
  induction k with
  | zero => exact Erases.const _
  | succ k ih =>
    refine Erases.bind (erase_recvFrame V) fun f => ?_
    cases f with
    | Message m => exact Erases.pure _
    | Keepalive => exact ih
    | _ => exact Erases.fail _

theorem erase_recvMessage (V : Server σ) : Erases (Logged.recvMessage V) (Cifs.recvMessage V) := fun w l => erase_recvMessageLoop V (w.avail + 1) w l

theorem erase_sendFrame (V : Server σ) (f : Frame) : Erases (Logged.sendFrame V f) (Cifs.sendFrame V f) :=
  Erases.bind (Erases.ofRes _ _) fun _ => Erases.emit _ (Erases.quiet _)

theorem erase_createSession (V : Server σ) (dst src : Str) : Erases (Logged.createSession V dst src) (Cifs.createSession V dst src) := by
  refine Erases.bind (erase_sendFrame V _) fun _ => Erases.bind (erase_recvFrame V) fun f => ?_
  cases f with
  | PositiveResponse => exact Erases.pure _
  | _ => exact Erases.fail _

theorem erase_liftNet {m' : M NbError (World σ × Log) α} {m : M NbError (World σ) α} (h : Erases m' m) : Erases (Logged.liftNet m') (Cifs.liftNet m) := by
  intro s l
  obtain ⟨h1, h2, h3⟩ := h s.w l
  unfold Logged.liftNet Cifs.liftNet
  rcases hm : m s.w with ⟨o, w⟩
  rcases hm' : m' (s.w, l) with ⟨o', w', l'⟩
  rw [hm, hm'] at h1 h2; rw [hm'] at h3
  dsimp only at h1 h2 h3 ⊢
  subst h1 h2
  cases o' <;> exact ⟨rfl, rfl, h3⟩

theorem erase_send (E : Env σ) (m : Msg) : Erases (Logged.send E m) (Cifs.send E m) := by
  intro s l
  unfold Logged.send Cifs.send
  dsimp only
  split
  · exact ⟨rfl, rfl, List.prefix_refl _⟩
  · cases requestFrame s.cli m with
    | err e => exact ⟨rfl, rfl, List.prefix_refl _⟩
    | panic => exact ⟨rfl, rfl, List.prefix_refl _⟩
    | ok f => exact Erases.bind (erase_liftNet (erase_sendFrame E.V _)) (fun _ => Erases.pure _) _ l

theorem erase_recvLoop (E : Env σ) (mid : UInt16) (k : Nat) : Erases (Logged.recvLoop E mid k) (Cifs.recvLoop E mid k) := by
  induction k with
  | zero => exact Erases.const _
  | succ k ih =>
    refine Erases.bind (erase_liftNet (erase_recvMessage E.V)) fun f => Erases.bind (Erases.ofRes _ _) fun p => ?_
    obtain ⟨info, body⟩ := p
    dsimp only
    split
    · exact Erases.pure _
    · exact ih

theorem erase_recv (E : Env σ) (R : Reply α) (mid : UInt16) : Erases (Logged.recv E R mid) (Cifs.recv E R mid) :=
  fun s l => Erases.bind (erase_recvLoop E mid (s.w.avail + 1)) (fun _ => Erases.quiet _) s l

theorem erase_command (E : Env σ) (m : Msg) (R : Reply α) : Erases (Logged.command E m R) (Cifs.command E m R) :=
  Erases.bind (erase_send E m) fun mid => erase_recv E R mid

theorem erase_collectLoop (E : Env σ) (mid : UInt16) (k : Nat) (ctx : CollectTrans2) : Erases (Logged.collectLoop E mid k ctx) (Cifs.collectLoop E mid k ctx) := by
  induction k generalizing ctx with
  | zero => exact Erases.const _
  | succ k ih =>
    refine Erases.bind (erase_recv E _ mid) fun r => Erases.bind (Erases.ofRes _ _) fun p => ?_
    obtain ⟨ctx', ready⟩ := p
    cases ready
    · exact ih ctx'
    · exact Erases.pure _

theorem erase_transact2 (E : Env σ) (tid : UInt16) (c : SubCmd2) (sub : SubReply2 α) : Erases (Logged.transact2 E tid c sub) (Cifs.transact2 E tid c sub) :=
  Erases.bind (erase_send E _) fun mid => fun s l => Erases.bind (erase_collectLoop E mid (s.w.avail + 1) .new) (fun _ => Erases.ofRes _ _) s l

theorem erase_downloadLoop (E : Env σ) (file : Handle) (k : Nat) (data : Bytes) : Erases (Logged.downloadLoop E file k data) (Cifs.downloadLoop E file k data) := by
  induction k generalizing data with
  | zero => exact Erases.const _
  | succ k ih =>
    unfold Logged.downloadLoop Cifs.downloadLoop
    split
    · exact Erases.bind (erase_command E _ _) fun chunk => ih _
    · exact Erases.pure _

theorem erase_listLoop (E : Env σ) (share : Share) (sid : UInt16) (k : Nat) (result : List DirInfo) :
    Erases (Logged.listLoop E share sid k result) (Cifs.listLoop E share sid k result) := by
  induction k generalizing result with
  | zero => exact Erases.const _
  | succ k ih =>
    unfold Logged.listLoop Cifs.listLoop
    cases result.getLast? with
    | none => exact Erases.const _
    | some last =>
      refine Erases.bind (erase_transact2 E _ _ _) fun r => ?_
      split
      · exact Erases.pure _
      · exact ih _

theorem erase_runOp (E : Env σ) (op : Op) : Erases (Logged.runOp E op) (Cifs.runOp E op) := by
  cases op with
  | download budget share path =>
    exact Erases.map' _ (Erases.bind (erase_command E _ _) fun file => Erases.bind (erase_downloadLoop E file budget []) fun data =>
      Erases.bind (erase_command E _ _) fun _ => Erases.pure _)
  | notify handle what => exact Erases.map' _ (Erases.emit _ (erase_command E _ _))
  | findFirst share pattern => exact Erases.map' _ (erase_transact2 E _ _ _)
  | findNext share sid lastfile => exact Erases.map' _ (erase_transact2 E _ _ _)
  | list budget share pattern =>
    refine Erases.map' _ (Erases.bind (erase_transact2 E _ _ _) fun r => ?_)
    split
    · exact Erases.pure _
    · exact erase_listLoop E _ _ _ _
  | _ => exact Erases.map' _ (erase_command E _ _)

theorem erase_setupConnection (E : Env σ) : Erases (Logged.setupConnection E) (Cifs.setupConnection E) := by
  refine Erases.bind (erase_command E _ _) fun setup => Erases.bind (Erases.quiet _) fun _ => ?_
  split
  · exact Erases.bind (Erases.quiet _) fun c => Erases.bind (Erases.ofRes _ _) fun i => Erases.bind (erase_command E _ _) fun r =>
      Erases.bind (Erases.quiet _) fun _ => Erases.bind (Erases.ofRes _ _) fun c => Erases.bind (Erases.ofRes _ _) fun t =>
        Erases.bind (Erases.ofRes _ _) fun r => Erases.bind (erase_command E _ _) fun _ => Erases.pure _
  · exact Erases.bind (Erases.quiet _) fun c => Erases.bind (Erases.ofRes _ _) fun i => Erases.bind (erase_command E _ _) fun r => Erases.quiet _

theorem erase_openNetbios (V : Server σ) (host : Str) (dial : Dial σ) (myname : Str) : (Logged.openNetbios V host dial myname).1 = Cifs.openNetbios V dial myname := by
  unfold Logged.openNetbios Cifs.openNetbios
  cases dial 445 with
  | ok w => rfl
  | error e =>
    cases dial 139 with
    | error e => rfl
    | ok w =>
      obtain ⟨h1, h2, _⟩ := erase_createSession V "*SMBSERVER".toList myname w [.connecting host 445, .connecting host 139]
      dsimp only
      rw [h1, h2]

/-- `open` after dialling. -/
def finish (E : Env σ) (d : Dialled σ × Log) (auth : Auth) : Opened σ × Log :=
  match d.1.outcome, d.1.world with
  | .ok (), some w =>
    let r := Logged.setupConnection E ({ cli := .init auth, w }, d.2)
    ({ outcome := r.1, state := some r.2.1, ports := d.1.ports }, r.2.2)
  | o, w => ({ outcome := o.netErr, state := w.map (fun w => { cli := .init auth, w }), ports := d.1.ports }, d.2)

/-- Dialling. -/
def dialled (V : Server σ) (host : Str) (dial : Dial σ) (port : Option UInt16) (myname : Str) : Dialled σ × Log :=
  match port with
  | some p => Logged.openRaw host dial p
  | none => Logged.openNetbios V host dial myname

/-- `open` after dialling, without the log. -/
def plainly (E : Env σ) (d : Dialled σ) (auth : Auth) : Opened σ :=
  match d.outcome, d.world with
  | .ok (), some w =>
    let r := Cifs.setupConnection E { cli := .init auth, w }
    { outcome := r.1, state := some r.2, ports := d.ports }
  | o, w => { outcome := o.netErr, state := w.map (fun w => { cli := .init auth, w }), ports := d.ports }

theorem openCifs_eq (E : Env σ) (host : Str) (dial : Dial σ) (port : Option UInt16) (auth? : Option Auth) :
    Logged.openCifs E host dial port auth? = finish E (dialled E.V host dial port (auth?.getD defaultAuth).workstation) (auth?.getD defaultAuth) := rfl

theorem erase_openCifs (E : Env σ) (host : Str) (dial : Dial σ) (port : Option UInt16) (auth? : Option Auth) :
    (Logged.openCifs E host dial port auth?).1 = Cifs.openCifs E dial port auth? := by
  have key : ∀ d : Dialled σ × Log, ∀ a, (finish E d a).1 = plainly E d.1 a := by
    rintro ⟨⟨o, w, ports⟩, l⟩ a
    cases o with
    | ok u =>
      cases w with
      | none => rfl
      | some w =>
        obtain ⟨h1, h2, _⟩ := erase_setupConnection E ⟨.init a, w⟩ l
        unfold finish plainly
        dsimp only
        rw [h1, h2]
    | _ => rfl
  rw [openCifs_eq, key]
  cases port with
  | some p => rfl
  | none =>
    show plainly E (Logged.openNetbios E.V host dial _).1 _ = _
    rw [erase_openNetbios]
    rfl

end Logged

/-! ## The same log -/

/-- From related states the two end alike, in related states, and have logged the same. -/
def Chime (R : S → S → Prop) (m m' : M ε (S × Log) α) : Prop :=
  ∀ s s' l, R s s' → (m (s, l)).1 = (m' (s', l)).1 ∧ R (m (s, l)).2.1 (m' (s', l)).2.1 ∧ (m (s, l)).2.2 = (m' (s', l)).2.2

theorem Chime.bind {R : S → S → Prop} {m m' : M ε (S × Log) α} {f f' : α → M ε (S × Log) β} (hm : Chime R m m') (hf : ∀ a, Chime R (f a) (f' a)) :
    Chime R (m >>= f) (m' >>= f') := by
  intro s s' l hr
  obtain ⟨h1, h2, h3⟩ := hm s s' l hr
  rcases h : m (s, l) with ⟨o, s1, l1⟩
  rcases h' : m' (s', l) with ⟨o', s1', l1'⟩
  rw [h, h'] at h1 h2 h3
  dsimp only at h1 h2 h3
  subst h1 h3
  cases o with
  | ok a => rw [M.bind_ok h, M.bind_ok h']; exact hf a s1 s1' l1 h2
  | err e => rw [M.bind_err h, M.bind_err h']; exact ⟨rfl, h2, rfl⟩
  | panic => rw [M.bind_panic h, M.bind_panic h']; exact ⟨rfl, h2, rfl⟩
  | pending => rw [M.bind_pending h, M.bind_pending h']; exact ⟨rfl, h2, rfl⟩
  | running => rw [M.bind_running h, M.bind_running h']; exact ⟨rfl, h2, rfl⟩

section
variable {R : S → S → Prop}
theorem Chime.const (o : Out ε α) : Chime R (fun s => (o, s)) (fun s => (o, s)) := fun _ _ _ h => ⟨rfl, h, rfl⟩
theorem Chime.pure (a : α) : Chime R (pure a : M ε (S × Log) α) (pure a) := Chime.const _
theorem Chime.fail (e : ε) : Chime R (M.fail e : M ε (S × Log) α) (M.fail e) := Chime.const _
theorem Chime.ofRes {ε' : Type} (g : ε' → ε) (r : Res ε' α) : Chime R (M.ofRes g r : M ε (S × Log) α) (M.ofRes g r) := by
  cases r <;> exact fun _ _ _ h => ⟨rfl, h, rfl⟩
theorem Chime.emit (e : Event) : Chime R (emit e : M ε (S × Log) Unit) (emit e) := fun _ _ _ h => ⟨rfl, h, rfl⟩
theorem Chime.quiet {m m' : M ε S α} (hm : ∀ s s', R s s' → (m s).1 = (m' s').1 ∧ R (m s).2 (m' s').2) : Chime R (quiet m) (quiet m') :=
  fun s s' _ h => ⟨(hm s s' h).1, (hm s s' h).2, rfl⟩
theorem Chime.map' {m m' : M ε (S × Log) α} (g : α → β) (h : Chime R m m') : Chime R (M.map' g m) (M.map' g m') :=
  Chime.bind h fun a => Chime.const (.ok (g a))
end

/-- A connection on which packets of the same lengths were sent. -/
structure Muffled (R : σ → σ → Prop) (w w' : World σ) : Prop where
  bytes : w.inbox.flatten = w'.inbox.flatten
  wsched : w.wsched = w'.wsched
  srv : R w.srv w'.srv
  out : w.out.length = w'.out.length

namespace Logged
variable {R : σ → σ → Prop}

theorem muffled_read {V : Server σ} (hV : Deaf V R) (eof : NbError) (n : Nat) :
    Chime (Muffled R) (quiet (readExact V eof n)) (quiet (readExact V eof n)) := by
  refine Chime.quiet fun w w' h => ?_
  obtain ⟨ib, h1, h2⟩ := readExact_flat V eof n w
  obtain ⟨ib', h1', h2'⟩ := readExact_flat V eof n w'
  have hf : w'.flat = w.flat := h.bytes.symm
  rw [← hV.tail _ _ h.srv, hf] at h1' h2'
  rw [h2, h2']
  exact ⟨rfl, by show ib.flatten = ib'.flatten; rw [h1, h1'], h.wsched, h.srv, h.out⟩

theorem muffled_recvFrame {V : Server σ} (hV : Deaf V R) : Chime (Muffled R) (Logged.recvFrame V) (Logged.recvFrame V) := by
  refine Chime.bind (muffled_read hV _ _) fun t => Chime.bind (Chime.emit _) fun _ => Chime.bind (muffled_read hV _ _) fun len => ?_
  dsimp only
  split
  · exact Chime.fail _
  · exact Chime.bind (Chime.emit _) fun _ => Chime.bind (Chime.bind (Chime.emit _) fun _ => muffled_read hV _ _) fun d => Chime.ofRes _ _

theorem muffled_recvMessage {V : Server σ} (hV : Deaf V R) : Chime (Muffled R) (Logged.recvMessage V) (Logged.recvMessage V) := by
  have key : ∀ k, Chime (Muffled R) (Logged.recvMessageLoop V k) (Logged.recvMessageLoop V k) := by
    intro k
    induction k with
    | zero => exact Chime.const _
    | succ k ih =>
      refine Chime.bind (muffled_recvFrame hV) fun f => ?_
      cases f with
      | Message m => exact Chime.pure _
      | Keepalive => exact ih
      | _ => exact Chime.fail _
  intro w w' l h
  have ha : w'.avail = w.avail := by unfold World.avail; rw [h.bytes]
  unfold Logged.recvMessage
  dsimp only
  rw [ha]
  exact key _ w w' l h

theorem muffled_write {V : Server σ} (hV : Deaf V R) {p p' : Bytes} (hp : p.length = p'.length) :
    Chime (Muffled R) (Logged.writeExactly V p) (Logged.writeExactly V p') := by
  unfold Logged.writeExactly
  rw [hp]
  refine Chime.bind (Chime.emit _) fun _ => Chime.quiet fun w w' h => ?_
  obtain ⟨e1, e2, e3⟩ := writeLoop_size w.wsched hp h.out
  unfold Cifs.writeExactly
  rw [← h.wsched]
  rcases hw : writeLoop w.wsched p w.out with ⟨r, ws, out⟩
  rcases hw' : writeLoop w.wsched p' w'.out with ⟨r', ws', out'⟩
  rw [hw, hw'] at e1 e2 e3
  dsimp only at e1 e2 e3
  subst e1 e2
  cases r with
  | done => exact ⟨rfl, by show List.flatten (_ ++ _) = List.flatten (_ ++ _); rw [List.flatten_append, List.flatten_append, h.bytes, hV.bytes _ _ _ _ h.srv hp], rfl, hV.state _ _ _ _ h.srv hp, e3⟩
  | failed e => exact ⟨rfl, h.bytes, rfl, h.srv, e3⟩
  | blocked => exact ⟨rfl, h.bytes, rfl, h.srv, e3⟩

theorem muffled_sendMessage {V : Server σ} (hV : Deaf V R) {f f' : Bytes} (hf : f.length = f'.length) :
    Chime (Muffled R) (Logged.sendMessage V f) (Logged.sendMessage V f') := by
  show Chime _ (M.ofRes id (Frame.Message f).encode >>= Logged.writeExactly V) (M.ofRes id (Frame.Message f').encode >>= Logged.writeExactly V)
  unfold Frame.encode tryInto
  dsimp only
  rw [hf]
  split
  · exact Chime.bind (Chime.ofRes _ _) fun _ => muffled_write hV rfl
  · split
    · intro w w' l h
      exact muffled_write hV (by simp [hf]) w w' l h
    · exact Chime.bind (Chime.ofRes _ _) fun _ => muffled_write hV rfl

theorem blind_net {m m' : M NbError (World σ × Log) α} (h : Chime (Muffled R) m m') : Chime (Blind R) (Logged.liftNet m) (Logged.liftNet m') := by
  intro s s' l hb
  obtain ⟨h1, h2, h3⟩ := h s.w s'.w l ⟨hb.bytes, hb.wsched, hb.srv, hb.out⟩
  unfold Logged.liftNet
  dsimp only
  rcases hm : m (s.w, l) with ⟨o, w, l1⟩
  rcases hm' : m' (s'.w, l) with ⟨o', w', l1'⟩
  rw [hm, hm'] at h1 h2 h3
  dsimp only at h1 h2 h3
  subst h1 h3
  have hn := hb.net h2.bytes h2.wsched h2.srv h2.out
  cases o <;> exact ⟨rfl, hn, rfl⟩

theorem same_send {E : Env σ} (hV : Deaf E.V R) (m m' : Msg)
    (hm : ∀ {s s' : St σ}, Blind R s s' → SameSize (requestFrame s.cli m) (requestFrame s'.cli m')) :
    Chime (Blind R) (Logged.send E m) (Logged.send E m') := by
  intro s s' l h
  have hmid : s'.cli.mid = s.cli.mid := by rw [h.cli]
  have hs := hm h
  unfold Logged.send
  dsimp only
  rw [hmid]
  by_cases hc : E.checked = true ∧ s.cli.mid.toNat = 65535
  · rw [if_pos hc, if_pos hc]; exact ⟨rfl, h, rfl⟩
  · rw [if_neg hc, if_neg hc]
    have hb := h.modify (fun c => { c with mid := s.cli.mid + 1 }) (fun _ _ => rfl) (fun _ => rfl)
    cases hf : requestFrame s.cli m <;> cases hf' : requestFrame s'.cli m' <;> rw [hf, hf'] at hs <;>
      first | exact hs.elim | skip
    · dsimp only [SameSize] at hs
      exact Chime.bind (blind_net (muffled_sendMessage hV hs)) (fun _ => Chime.pure _) _ _ l hb
    · dsimp only [SameSize] at hs
      rw [hs]; exact ⟨rfl, hb, rfl⟩
    · exact ⟨rfl, hb, rfl⟩

theorem blind_avail {s s' : St σ} (h : Blind R s s') : s'.w.avail = s.w.avail := by unfold World.avail; rw [h.bytes]

theorem same_recv {E : Env σ} (hV : Deaf E.V R) (T : Reply α) (mid : UInt16) : Chime (Blind R) (Logged.recv E T mid) (Logged.recv E T mid) := by
  have key : ∀ k, Chime (Blind R) (Logged.recvLoop E mid k) (Logged.recvLoop E mid k) := by
    intro k
    induction k with
    | zero => exact Chime.const _
    | succ k ih =>
      refine Chime.bind (blind_net (muffled_recvMessage hV)) fun f => Chime.bind (Chime.ofRes _ _) fun p => ?_
      obtain ⟨info, body⟩ := p
      dsimp only
      split
      · exact Chime.pure _
      · exact ih
  intro s s' l h
  unfold Logged.recv
  dsimp only
  rw [blind_avail h]
  refine Chime.bind (key _) (fun p => Chime.quiet fun s s' h => ?_) s s' l h
  rw [acceptReply_eq]
  cases accept T p.1 p.2 <;> exact ⟨rfl, h⟩

theorem same_command {E : Env σ} (hV : Deaf E.V R) (m m' : Msg) (T : Reply α)
    (hm : ∀ {s s' : St σ}, Blind R s s' → SameSize (requestFrame s.cli m) (requestFrame s'.cli m')) :
    Chime (Blind R) (Logged.command E m T) (Logged.command E m' T) :=
  Chime.bind (same_send hV m m' hm) fun mid => same_recv hV T mid

theorem same_call {E : Env σ} (hV : Deaf E.V R) (m : Msg) (T : Reply α) : Chime (Blind R) (Logged.command E m T) (Logged.command E m T) :=
  same_command hV m m T fun h => blind_same h m

theorem same_transact2 {E : Env σ} (hV : Deaf E.V R) (tid : UInt16) (c : SubCmd2) (sub : SubReply2 α) :
    Chime (Blind R) (Logged.transact2 E tid c sub) (Logged.transact2 E tid c sub) := by
  refine Chime.bind (same_send hV _ _ fun h => blind_same h _) fun mid => ?_
  have key : ∀ k ctx, Chime (Blind R) (Logged.collectLoop E mid k ctx) (Logged.collectLoop E mid k ctx) := by
    intro k
    induction k with
    | zero => exact fun _ => Chime.const _
    | succ k ih =>
      intro ctx
      refine Chime.bind (same_recv hV _ mid) fun r => Chime.bind (Chime.ofRes _ _) fun p => ?_
      obtain ⟨ctx', ready⟩ := p
      cases ready
      · exact ih ctx'
      · exact Chime.pure _
  intro s s' l h
  unfold Logged.collect
  dsimp only
  rw [blind_avail h]
  exact Chime.bind (key _ _) (fun _ => Chime.ofRes _ _) s s' l h

theorem same_runOp {E : Env σ} (hV : Deaf E.V R) (op : Op) : Chime (Blind R) (Logged.runOp E op) (Logged.runOp E op) := by
  cases op with
  | download budget share path =>
    refine Chime.map' _ (Chime.bind (same_call hV _ _) fun file => Chime.bind ?_ fun data => Chime.bind (same_call hV _ _) fun _ => Chime.pure _)
    generalize ([] : Bytes) = data
    induction budget generalizing data with
    | zero => exact Chime.const _
    | succ k ih =>
      unfold Logged.downloadLoop
      split
      · exact Chime.bind (same_call hV _ _) fun chunk => ih _
      · exact Chime.pure _
  | notify handle what => exact Chime.map' _ (Chime.bind (Chime.emit _) fun _ => same_call hV _ _)
  | findFirst share pattern => exact Chime.map' _ (same_transact2 hV _ _ _)
  | findNext share sid lastfile => exact Chime.map' _ (same_transact2 hV _ _ _)
  | list budget share pattern =>
    refine Chime.map' _ (Chime.bind (same_transact2 hV _ _ _) fun r => ?_)
    split
    · exact Chime.pure _
    · generalize r.info = result
      induction budget generalizing result with
      | zero => exact Chime.const _
      | succ k ih =>
        unfold Logged.listLoop
        cases result.getLast? with
        | none => exact Chime.const _
        | some last =>
          refine Chime.bind (same_transact2 hV _ _ _) fun r => ?_
          split
          · exact Chime.pure _
          · exact ih _
  | _ => exact Chime.map' _ (same_call hV _ _)

end Logged

end Cifs
