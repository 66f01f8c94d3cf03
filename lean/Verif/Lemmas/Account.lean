import Verif.Spec.Logged
import Verif.Lemmas.Logged
import Verif.Lemmas.Fields
/-! # Programs whose log accounts for what went over the connection -/

namespace Cifs
open Spec

variable {σ ε S α β : Type}

theorem Transfers.append {V : Server σ} {x y z : Wire σ} {ts us : List Transfer} (h : Transfers V x ts y) (h' : Transfers V y us z) : Transfers V x (ts ++ us) z := by
  induction h with
  | none x => exact h'
  | sent p _ ih => exact .sent p (ih h')
  | got t d rest hu hd _ ih => exact .got t d rest hu hd (ih h')

/-- Ended with one of these errors, or waits. -/
def HaltsBy (hs : ε → Prop) (o : Out ε α) : Prop := o = .pending ∨ ∃ e, hs e ∧ o = .err e

/-- What `m` logs accounts for what it does to the connection. -/
def Accounts (view : S → Wire σ) (V : Server σ) (hs : ε → Prop) (m : M ε (S × Log) α) : Prop :=
  ∀ s l, ∃ more, (m (s, l)).2.2 = l ++ more ∧ Accounted V (view s) (view (m (s, l)).2.1) more (HaltsBy hs (m (s, l)).1)

section
variable {view : S → Wire σ} {V : Server σ} {hs : ε → Prop}

theorem Accounts.bind {m : M ε (S × Log) α} {f : α → M ε (S × Log) β} (hm : Accounts view V hs m) (hf : ∀ a, Accounts view V hs (f a)) :
    Accounts view V hs (m >>= f) := by
  intro s l
  obtain ⟨more, h1, ts, mid, rest, h2, h3, h4⟩ := hm s l
  rcases h : m (s, l) with ⟨o, s1, l1⟩
  rw [h] at h1 h4
  dsimp only at h1 h4
  cases o with
  | ok a =>
    rw [M.bind_ok h]
    rcases h4 with ⟨rfl, e⟩ | ⟨hb | ⟨_, _, hb⟩, _⟩
    · obtain ⟨more', k1, us, mid', rest', k2, k3, k4⟩ := hf a s1 l1
      refine ⟨more ++ more', by rw [k1, h1, List.append_assoc], ts ++ us, mid', rest', Transfers.append h2 (e ▸ k2), ?_, k4⟩
      rw [h3, k3]; simp
    · cases hb
    · cases hb
  | err e =>
    rw [M.bind_err h]
    exact ⟨more, h1, ts, mid, rest, h2, h3, h4.imp id fun ⟨hb, k⟩ => ⟨hb.elim (fun e => nomatch e) (fun ⟨x, hx, e⟩ => .inr ⟨x, hx, by cases e; rfl⟩), k⟩⟩
  | panic =>
    rw [M.bind_panic h]
    exact ⟨more, h1, ts, mid, rest, h2, h3, h4.imp id fun ⟨hb, k⟩ => (hb.elim (fun e => nomatch e) (fun ⟨x, hx, e⟩ => nomatch e))⟩
  | pending =>
    rw [M.bind_pending h]
    exact ⟨more, h1, ts, mid, rest, h2, h3, h4.imp id fun ⟨hb, k⟩ => ⟨.inl rfl, k⟩⟩
  | running =>
    rw [M.bind_running h]
    exact ⟨more, h1, ts, mid, rest, h2, h3, h4.imp id fun ⟨hb, k⟩ => (hb.elim (fun e => nomatch e) (fun ⟨x, hx, e⟩ => nomatch e))⟩

/-- Code that logs nothing and leaves the connection alone. -/
theorem Accounts.still {m : M ε (S × Log) α} (h : ∀ s l, (m (s, l)).2.2 = l ∧ view (m (s, l)).2.1 = view s) : Accounts view V hs m := by
  intro s l
  obtain ⟨h1, h2⟩ := h s l
  exact ⟨[], by rw [h1, List.append_nil], [], view s, [], .none _, rfl, .inl ⟨rfl, h2⟩⟩

theorem Accounts.const (o : Out ε α) : Accounts view V hs (fun s => (o, s)) := Accounts.still fun _ _ => ⟨rfl, rfl⟩
theorem Accounts.pure (a : α) : Accounts view V hs (pure a : M ε (S × Log) α) := Accounts.const _
theorem Accounts.fail (e : ε) : Accounts view V hs (M.fail e : M ε (S × Log) α) := Accounts.const _
theorem Accounts.ofRes {ε' : Type} (g : ε' → ε) (r : Res ε' α) : Accounts view V hs (M.ofRes g r : M ε (S × Log) α) := by
  cases r <;> exact Accounts.still fun _ _ => ⟨rfl, rfl⟩
theorem Accounts.map' {m : M ε (S × Log) α} (g : α → β) (h : Accounts view V hs m) : Accounts view V hs (M.map' g m) :=
  Accounts.bind h fun a => Accounts.const (.ok (g a))
end

namespace Logged

abbrev NetAccounts (V : Server σ) (m : M NbError (World σ × Log) α) : Prop := Accounts wireOf V (fun _ => True) m

theorem read_ok (V : Server σ) (eof : NbError) (n : Nat) (w : World σ) (l : Log) {a b : Bytes} (h : w.inbox.flatten = a ++ b) (hn : a.length = n) :
    ∃ ib, quiet (readExact V eof n) (w, l) = (.ok a, ({ w with inbox := ib }, l)) ∧ ib.flatten = b := by
  obtain ⟨ib, h1, h2⟩ := readExact_flat V eof n w
  have e : flatRead eof n (V.tail w.srv) w.flat = (.ok a, b) := by
    unfold flatRead World.flat
    rw [h, if_neg (by simp; omega), List.take_left' hn, List.drop_left' hn]
  rw [e] at h1 h2
  refine ⟨ib, ?_, h1⟩
  unfold quiet
  dsimp only
  rw [h2]

theorem read_short (V : Server σ) (eof : NbError) (n : Nat) (w : World σ) (l : Log) (h : w.inbox.flatten.length < n) :
    ∃ (o : Out NbError Bytes) (w' : World σ), quiet (readExact V eof n) (w, l) = (o, (w', l)) ∧ (o = .pending ∨ ∃ e, o = .err e) := by
  obtain ⟨ib, h1, h2⟩ := readExact_flat V eof n w
  have e : flatRead eof n (V.tail w.srv) w.flat = ((V.tail w.srv).out eof, []) := if_pos h
  rw [e] at h2
  refine ⟨(V.tail w.srv).out eof, { w with inbox := ib }, by unfold quiet; dsimp only; rw [h2], ?_⟩
  cases V.tail w.srv <;> simp [Tail.out]

/-- A program that ends there. -/
theorem bind_stops {m : M ε S α} {f : α → M ε S β} {s s' : S} {o : Out ε α} (h : m s = (o, s')) (ho : o = .pending ∨ ∃ e, o = .err e) :
    ∃ o' : Out ε β, (m >>= f) s = (o', s') ∧ (o' = .pending ∨ ∃ e, o' = .err e) := by
  rcases ho with rfl | ⟨e, rfl⟩
  · exact ⟨_, M.bind_pending h, .inl rfl⟩
  · exact ⟨_, M.bind_err h, .inr ⟨e, rfl⟩⟩

theorem halts_any {o : Out NbError α} (h : o = .pending ∨ ∃ e, o = .err e) : HaltsBy (fun _ => True) o :=
  h.imp id fun ⟨e, h⟩ => ⟨e, trivial, h⟩

theorem beVal_three (a b c : UInt8) : beVal [a, b, c] = a.toNat * 65536 + b.toNat * 256 + c.toNat := by simp [beVal]; omega

theorem beVal_one (t : UInt8) : UInt8.ofNat (beVal [t]) = t := by simp [beVal]

theorem packet_three (t a b c : UInt8) (d : Bytes) (h : d.length = a.toNat * 65536 + b.toNat * 256 + c.toNat) : packet t d = t :: a :: b :: c :: d := by
  have h1 := a.toNat_lt; have h2 := b.toNat_lt; have h3 := c.toNat_lt
  unfold packet
  have e1 : UInt8.ofNat (d.length / 65536) = a := by apply UInt8.toNat_inj.mp; simp; omega
  have e2 : UInt8.ofNat (d.length / 256 % 256) = b := by apply UInt8.toNat_inj.mp; simp; omega
  have e3 : UInt8.ofNat (d.length % 256) = c := by apply UInt8.toNat_inj.mp; simp; omega
  rw [e1, e2, e3]; rfl

theorem account_recvFrame (V : Server σ) : NetAccounts V (Logged.recvFrame V) := by
  intro w l
  unfold Logged.recvFrame
  rcases hu : w.inbox.flatten with _ | ⟨t, u⟩
  · obtain ⟨o, w', h, ho⟩ := read_short V (.IoError .unexpectedEof) 1 w l (by rw [hu]; decide)
    obtain ⟨o', h', ho'⟩ := bind_stops (f := fun t => _) h ho
    rw [h']
    exact ⟨[], by simp, [], wireOf w, [], .none _, rfl, .inr ⟨halts_any ho', by show Broken w.inbox.flatten []; rw [hu]; exact .none⟩⟩
  · obtain ⟨ib, h, hib⟩ := read_ok V (.IoError .unexpectedEof) 1 w l (a := [t]) (b := u) hu rfl
    rw [M.bind_ok h, M.bind_ok (show emit (.msgType _) (_, l) = (.ok (), (_, l ++ [.msgType _])) from rfl), beVal_one]
    by_cases h3 : u.length < 3
    · obtain ⟨o, w', h, ho⟩ := read_short V (.IoError .unexpectedEof) 3 { w with inbox := ib } (l ++ [.msgType t]) (by rw [hib]; exact h3)
      obtain ⟨o', h', ho'⟩ := bind_stops (f := fun len => _) h ho
      rw [h']
      exact ⟨[.msgType t], rfl, [], wireOf w, _, .none _, rfl, .inr ⟨halts_any ho', by show Broken w.inbox.flatten _; rw [hu]; exact .header t u h3⟩⟩
    · obtain ⟨a, b, c, d, rfl⟩ : ∃ a b c d, u = a :: b :: c :: d := by
        rcases u with _ | ⟨a, _ | ⟨b, _ | ⟨c, d⟩⟩⟩ <;> simp at h3 ⊢
      obtain ⟨ib2, h, hib2⟩ := read_ok V (.IoError .unexpectedEof) 3 { w with inbox := ib } (l ++ [.msgType t]) (a := [a, b, c]) (b := d) hib rfl
      rw [M.bind_ok h]
      dsimp only
      rw [beVal_three]
      by_cases hbig : a.toNat * 65536 + b.toNat * 256 + c.toNat > MAX_FRAME_LENGTH
      · rw [if_pos hbig]
        exact ⟨[.msgType t], rfl, [], wireOf w, _, .none _, rfl, .inr ⟨halts_any (.inr ⟨_, rfl⟩), by show Broken w.inbox.flatten _; rw [hu]; exact .big t a b c d hbig⟩⟩
      · rw [if_neg hbig, M.bind_ok (show emit (.msgLength _) (_, _) = (.ok (), (_, _ ++ [.msgLength _])) from rfl)]
        generalize hn : a.toNat * 65536 + b.toNat * 256 + c.toNat = n at *
        unfold Logged.readExactly
        by_cases hd : d.length < n
        · obtain ⟨o, w', h, ho⟩ := read_short V .UnexpectedEOF n { w with inbox := ib2 } (l ++ [.msgType t] ++ [.msgLength n] ++ [.reading n]) (by rw [hib2]; exact hd)
          have hq : (emit (.reading n) >>= fun _ => quiet (readExact V .UnexpectedEOF n) : M NbError (World σ × Log) Bytes)
              ({ w with inbox := ib2 }, l ++ [.msgType t] ++ [.msgLength n]) = (o, w', l ++ [.msgType t] ++ [.msgLength n] ++ [.reading n]) := by
            rw [M.bind_ok (show emit (.reading _) (_, _) = (.ok (), (_, _ ++ [.reading _])) from rfl)]; exact h
          obtain ⟨o', h', ho'⟩ := bind_stops (f := fun d => _) hq ho
          rw [h']
          exact ⟨[.msgType t, .msgLength n, .reading n], by simp, [], wireOf w, _, .none _, rfl,
            .inr ⟨halts_any ho', by show Broken w.inbox.flatten _; rw [hu]; exact .payload t a b c d n hn.symm hd⟩⟩
        · obtain ⟨ib3, h, hib3⟩ := read_ok V .UnexpectedEOF n { w with inbox := ib2 } (l ++ [.msgType t] ++ [.msgLength n] ++ [.reading n])
            (a := d.take n) (b := d.drop n) (by rw [List.take_append_drop]; exact hib2) (by simp; omega)
          have hq : (emit (.reading n) >>= fun _ => quiet (readExact V .UnexpectedEOF n) : M NbError (World σ × Log) Bytes)
              ({ w with inbox := ib2 }, l ++ [.msgType t] ++ [.msgLength n]) = (.ok (d.take n), { w with inbox := ib3 }, l ++ [.msgType t] ++ [.msgLength n] ++ [.reading n]) := by
            rw [M.bind_ok (show emit (.reading _) (_, _) = (.ok (), (_, _ ++ [.reading _])) from rfl)]; exact h
          rw [M.bind_ok hq]
          have hlen : (d.take n).length = n := by simp; omega
          refine ⟨[.msgType t, .msgLength n, .reading n], ?_, [.got t (d.take n)], ⟨w.srv, d.drop n, w.out⟩, [], ?_, ?_, .inl ⟨rfl, ?_⟩⟩
          · cases Frame.new t (List.take n d) <;> simp [M.ofRes]
          · refine .got t (d.take n) (d.drop n) ?_ (by rw [hlen]; exact Nat.le_of_not_lt hbig) (.none _)
            show w.inbox.flatten = _
            rw [hu, packet_three t a b c _ (by rw [hlen, hn])]
            simp
          · simp [Transfer.lines, hlen]
          · cases Frame.new t (List.take n d) <;> (show wireOf _ = _; unfold wireOf; simp [M.ofRes, hib3])

theorem account_recvMessage (V : Server σ) : NetAccounts V (Logged.recvMessage V) := by
  have key : ∀ k, NetAccounts V (Logged.recvMessageLoop V k) := by
    intro k
    induction k with
    | zero => exact Accounts.const _
    | succ k ih =>
      refine Accounts.bind (account_recvFrame V) fun f => ?_
      cases f with
      | Message m => exact Accounts.pure _
      | Keepalive => exact ih
      | _ => exact Accounts.fail _
  exact fun w l => key _ w l

theorem account_write (V : Server σ) (p : Bytes) : NetAccounts V (Logged.writeExactly V p) := by
  intro w l
  unfold Logged.writeExactly
  rw [M.bind_ok (show emit (.writing _) (_, _) = (.ok (), (_, _ ++ [.writing _])) from rfl)]
  unfold quiet Cifs.writeExactly
  dsimp only
  obtain ⟨q, r, hq, ho, hd⟩ := writeLoop_out w.wsched p w.out
  rcases hw : writeLoop w.wsched p w.out with ⟨r', ws, out⟩
  rw [hw] at ho hd
  dsimp only at ho hd
  cases r' with
  | done =>
    have : q = p := by rw [hq, hd.mp rfl, List.append_nil]
    subst this
    exact ⟨[.writing q.length], rfl, [.sent q], _, [], .sent q (.none _), rfl, .inl ⟨rfl, by unfold wireOf; simp [ho]⟩⟩
  | failed e => exact ⟨[.writing p.length], rfl, [], _, _, .none _, rfl, .inr ⟨halts_any (.inr ⟨_, rfl⟩), .write _ _⟩⟩
  | blocked => exact ⟨[.writing p.length], rfl, [], _, _, .none _, rfl, .inr ⟨halts_any (.inl rfl), .write _ _⟩⟩

theorem account_sendFrame (V : Server σ) (f : Frame) : NetAccounts V (Logged.sendFrame V f) :=
  Accounts.bind (Accounts.ofRes _ _) fun _ => account_write V _

theorem account_createSession (V : Server σ) (dst src : Str) : NetAccounts V (Logged.createSession V dst src) := by
  refine Accounts.bind (account_sendFrame V _) fun _ => Accounts.bind (account_recvFrame V) fun f => ?_
  cases f with
  | PositiveResponse => exact Accounts.pure _
  | _ => exact Accounts.fail _

abbrev CliAccounts (V : Server σ) (m : LM σ α) : Prop := Accounts (fun s : St σ => wireOf s.w) V (fun e => ∃ x, e = Error.NetBios x) m

theorem account_liftNet {V : Server σ} {m : M NbError (World σ × Log) α} (h : NetAccounts V m) : CliAccounts V (Logged.liftNet m) := by
  intro s l
  obtain ⟨more, h1, ts, mid, rest, h2, h3, h4⟩ := h s.w l
  unfold Logged.liftNet
  dsimp only
  rcases hm : m (s.w, l) with ⟨o, w, l1⟩
  rw [hm] at h1 h4
  dsimp only at h1 h4
  refine ⟨more, by cases o <;> exact h1, ts, mid, rest, h2, h3, ?_⟩
  rcases h4 with ⟨k1, k2⟩ | ⟨hb | ⟨e, _, hb⟩, k⟩
  · exact .inl ⟨k1, by cases o <;> exact k2⟩
  · subst hb; exact .inr ⟨.inl rfl, k⟩
  · subst hb; exact .inr ⟨.inr ⟨_, ⟨_, rfl⟩, rfl⟩, k⟩

theorem account_send (E : Env σ) (m : Msg) : CliAccounts E.V (Logged.send E m) := by
  intro s l
  have still : ∀ (o : Out Error UInt16) (s' : St σ), wireOf s'.w = wireOf s.w → ∃ more, l = l ++ more ∧
      Accounted E.V (wireOf s.w) (wireOf s'.w) more (HaltsBy (fun e => ∃ x, e = Error.NetBios x) o) :=
    fun o s' h => ⟨[], by simp, [], _, [], .none _, rfl, .inl ⟨rfl, h⟩⟩
  unfold Logged.send
  dsimp only
  split
  · exact still _ _ rfl
  · cases requestFrame s.cli m with
    | err e => exact still _ _ rfl
    | panic => exact still _ _ rfl
    | ok f => exact Accounts.bind (account_liftNet (account_sendFrame E.V _)) (fun _ => Accounts.pure _) { s with cli := { s.cli with mid := s.cli.mid + 1 } } l

theorem account_recv (E : Env σ) (T : Reply α) (mid : UInt16) : CliAccounts E.V (Logged.recv E T mid) := by
  have key : ∀ k, CliAccounts E.V (Logged.recvLoop E mid k) := by
    intro k
    induction k with
    | zero => exact Accounts.const _
    | succ k ih =>
      refine Accounts.bind (account_liftNet (account_recvMessage E.V)) fun f => Accounts.bind (Accounts.ofRes _ _) fun p => ?_
      obtain ⟨info, body⟩ := p
      dsimp only
      split
      · exact Accounts.pure _
      · exact ih
  intro s l
  refine Accounts.bind (key _) (fun p => Accounts.still fun s l => ⟨rfl, ?_⟩) s l
  unfold quiet
  dsimp only
  rw [acceptReply_eq]
  cases accept T p.1 p.2 <;> rfl

theorem account_command (E : Env σ) (m : Msg) (T : Reply α) : CliAccounts E.V (Logged.command E m T) :=
  Accounts.bind (account_send E m) fun mid => account_recv E T mid

theorem account_transact2 (E : Env σ) (tid : UInt16) (c : SubCmd2) (sub : SubReply2 α) : CliAccounts E.V (Logged.transact2 E tid c sub) := by
  refine Accounts.bind (account_send E _) fun mid => ?_
  have key : ∀ k ctx, CliAccounts E.V (Logged.collectLoop E mid k ctx) := by
    intro k
    induction k with
    | zero => exact fun _ => Accounts.const _
    | succ k ih =>
      intro ctx
      refine Accounts.bind (account_recv E _ mid) fun r => Accounts.bind (Accounts.ofRes _ _) fun p => ?_
      obtain ⟨ctx', ready⟩ := p
      cases ready
      · exact ih ctx'
      · exact Accounts.pure _
  exact fun s l => Accounts.bind (key _ _) (fun _ => Accounts.ofRes _ _) s l

/-- Apart from the line that `notify_about` starts with. -/
theorem account_runOp (E : Env σ) (op : Op) (h : ∀ handle what, op ≠ .notify handle what) : CliAccounts E.V (Logged.runOp E op) := by
  cases op with
  | download budget share path =>
    refine Accounts.map' _ (Accounts.bind (account_command E _ _) fun file => Accounts.bind ?_ fun data => Accounts.bind (account_command E _ _) fun _ => Accounts.pure _)
    clear h
    generalize ([] : Bytes) = data
    induction budget generalizing data with
    | zero => exact Accounts.const _
    | succ k ih =>
      unfold Logged.downloadLoop
      split
      · exact Accounts.bind (account_command E _ _) fun chunk => ih _
      · exact Accounts.pure _
  | notify handle what => exact absurd rfl (h handle what)
  | findFirst share pattern => exact Accounts.map' _ (account_transact2 E _ _ _)
  | findNext share sid lastfile => exact Accounts.map' _ (account_transact2 E _ _ _)
  | list budget share pattern =>
    refine Accounts.map' _ (Accounts.bind (account_transact2 E _ _ _) fun r => ?_)
    clear h
    split
    · exact Accounts.pure _
    · generalize r.info = result
      induction budget generalizing result with
      | zero => exact Accounts.const _
      | succ k ih =>
        unfold Logged.listLoop
        cases result.getLast? with
        | none => exact Accounts.const _
        | some last =>
          refine Accounts.bind (account_transact2 E _ _ _) fun r => ?_
          split
          · exact Accounts.pure _
          · exact ih _
  | _ => exact Accounts.map' _ (account_command E _ _)

theorem account_setupConnection (E : Env σ) : CliAccounts E.V (Logged.setupConnection E) := by
  have hq : ∀ g : Cli → Cli, CliAccounts E.V (quiet (modifyCli g) : LM σ Unit) := fun g => Accounts.still fun _ _ => ⟨rfl, rfl⟩
  have hg : CliAccounts E.V (quiet getCli : LM σ Cli) := Accounts.still fun _ _ => ⟨rfl, rfl⟩
  refine Accounts.bind (account_command E _ _) fun setup => Accounts.bind (hq _) fun _ => ?_
  split
  · exact Accounts.bind hg fun c => Accounts.bind (Accounts.ofRes _ _) fun i => Accounts.bind (account_command E _ _) fun r =>
      Accounts.bind (hq _) fun _ => Accounts.bind (Accounts.ofRes _ _) fun c => Accounts.bind (Accounts.ofRes _ _) fun t =>
        Accounts.bind (Accounts.ofRes _ _) fun r => Accounts.bind (account_command E _ _) fun _ => Accounts.pure _
  · exact Accounts.bind hg fun c => Accounts.bind (Accounts.ofRes _ _) fun i => Accounts.bind (account_command E _ _) fun r => hq _

end Logged

end Cifs
