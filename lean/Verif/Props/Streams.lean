import Verif.Lemmas.Sim
import Verif.Lemmas.Open
import Verif.Lemmas.Demo
import Verif.Props.Codec
/-!
# Properties about what arrives between frames: segmentation (C01), keep-alives and late replies (C03, C12, C61), password (C51)
-/

namespace Cifs
open Spec

variable {σ σ' : Type}

/-! ## C01 -/

/-- Same bytes, another segmentation. -/
def Related.segments {E : Env σ} {V' : Server σ'} {R : σ → σ' → Prop} (h : SameBytes E.V V' R) : Related E V' where
  rel := R
  stream := Eq
  safe := fun _ => True
  bad := fun _ => False
  pw := Eq
  pw_refl := fun _ => rfl
  bad_mono := by simp
  bad_unsafe := by simp
  react := h.state
  append := by intro a a' p b b' ha hb; rw [hb, h.bytes a a' p ha]
  tail := h.tail
  next := by intro t mid b b' _ hb; subst hb; exact ⟨rfl, rfl⟩

theorem SameBut.eq {c c' : Cli} (h : SameBut Eq c c') : c = c' := by
  rw [h.1, ← h.2]

/-- Any history of calls gives the same outcomes, writes the same bytes, leaves the same client and the same unread bytes, however the
server's bytes are split into segments. -/
theorem C01_history (E : Env σ) (V' : Server σ') (R : σ → σ' → Prop) (hV : SameBytes E.V V' R) (ops : List Op) (s : St σ) (s' : St σ')
    (hc : s.cli = s'.cli) (hw : SameWire R s.w s'.w) :
    (runOps E ops s).1 = (runOps (E.withV V') ops s').1 ∧ (runOps E ops s).2.cli = (runOps (E.withV V') ops s').2.cli ∧
      SameWire R (runOps E ops s).2.w (runOps (E.withV V') ops s').2.w := by
  have hq : (Related.segments hV).Q s s' := ⟨hc ▸ ⟨rfl, rfl⟩, hw.out, hw.wsched, hw.srv, hw.bytes⟩
  rcases Related.runOps_sim (Related.segments hV) ops s s' hq with h | ⟨h1, h2, h3, h4, h5, h6⟩
  · exact h.elim
  · exact ⟨h1, SameBut.eq h2, h3, h4, h5, h6⟩

/-- One packet sent, in two runs. -/
theorem writeExactly_same {V : Server σ} {V' : Server σ'} {R : σ → σ' → Prop} (hV : SameBytes V V' R) (buf : Bytes) (w : World σ)
    (w' : World σ') (hw : SameWire R w w') :
    (writeExactly V buf w).1 = (writeExactly V' buf w').1 ∧ SameWire R (writeExactly V buf w).2 (writeExactly V' buf w').2 := by
  unfold writeExactly
  rw [← hw.out, ← hw.wsched]
  rcases writeLoop w.wsched buf w.out with ⟨r, ws, out⟩
  cases r with
  | done => exact ⟨rfl, rfl, rfl, hV.state _ _ _ hw.srv, by simp only [List.flatten_append, hw.bytes, hV.bytes _ _ buf hw.srv]⟩
  | failed e => exact ⟨rfl, rfl, rfl, hw.srv, hw.bytes⟩
  | blocked => exact ⟨rfl, rfl, rfl, hw.srv, hw.bytes⟩

theorem createSession_same {V : Server σ} {V' : Server σ'} {R : σ → σ' → Prop} (hV : SameBytes V V' R) (dst src : Str) (w : World σ)
    (w' : World σ') (hw : SameWire R w w') :
    (createSession V dst src w).1 = (createSession V' dst src w').1 ∧
      SameWire R (createSession V dst src w).2 (createSession V' dst src w').2 := by
  have hs : (sendFrame V (.SessionRequest (sessionRequestPayload dst src)) w).1
        = (sendFrame V' (.SessionRequest (sessionRequestPayload dst src)) w').1 ∧
      SameWire R (sendFrame V (.SessionRequest (sessionRequestPayload dst src)) w).2
        (sendFrame V' (.SessionRequest (sessionRequestPayload dst src)) w').2 := by
    unfold sendFrame
    simp only [M.bind_apply, M.bind, M.ofRes]
    cases Frame.encode (.SessionRequest (sessionRequestPayload dst src)) with
    | ok b => exact writeExactly_same hV b w w' hw
    | err e => exact ⟨rfl, hw⟩
    | panic => exact ⟨rfl, hw⟩
  unfold createSession
  simp only [M.bind_apply, M.bind]
  rcases h1 : sendFrame V (.SessionRequest (sessionRequestPayload dst src)) w with ⟨o, w1⟩
  rcases h2 : sendFrame V' (.SessionRequest (sessionRequestPayload dst src)) w' with ⟨o', w1'⟩
  rw [h1, h2] at hs
  obtain ⟨e, hw1⟩ := hs
  dsimp only at e hw1
  subst e
  cases o with
  | ok _ =>
    dsimp only
    obtain ⟨ib, i1, i2⟩ := recvFrame_flat V w1
    obtain ⟨ib', i1', i2'⟩ := recvFrame_flat V' w1'
    have hf : w1'.flat = w1.flat := hw1.bytes.symm
    rw [← hV.tail _ _ hw1.srv, hf] at i1' i2'
    have hw2 : SameWire R { w1 with inbox := ib } { w1' with inbox := ib' } := ⟨hw1.out, hw1.wsched, hw1.srv, by rw [i1, i1']⟩
    rw [i2, i2']
    rcases flatRecv (V.tail w1.srv) w1.flat with ⟨o, b⟩
    cases o with
    | ok f => cases f <;> exact ⟨rfl, hw2⟩
    | err e => exact ⟨rfl, hw2⟩
    | panic => exact ⟨rfl, hw2⟩
    | pending => exact ⟨rfl, hw2⟩
    | running => exact ⟨rfl, hw2⟩
  | err e => exact ⟨rfl, hw1⟩
  | panic => exact ⟨rfl, hw1⟩
  | pending => exact ⟨rfl, hw1⟩
  | running => exact ⟨rfl, hw1⟩

/-- The same for opening a connection, by either way of dialling: same outcome, same ports, and a connection in the same condition. -/
theorem C01_open (E : Env σ) (V' : Server σ') (R : σ → σ' → Prop) (hV : SameBytes E.V V' R) (dial : Dial σ) (dial' : Dial σ')
    (hd : ∀ p, (∃ e, dial p = .error e ∧ dial' p = .error e) ∨ (∃ w w', dial p = .ok w ∧ dial' p = .ok w' ∧ SameWire R w w'))
    (port : Option UInt16) (auth : Option Auth) :
    (openCifs E dial port auth).outcome = (openCifs (E.withV V') dial' port auth).outcome ∧
    (openCifs E dial port auth).ports = (openCifs (E.withV V') dial' port auth).ports ∧
    ((openCifs E dial port auth).state = none ∧ (openCifs (E.withV V') dial' port auth).state = none ∨
      ∃ s s', (openCifs E dial port auth).state = some s ∧ (openCifs (E.withV V') dial' port auth).state = some s' ∧
        SameWire R s.w s'.w ∧ s.cli = s'.cli) := by
  have setup : ∀ (a : Auth) (w : World σ) (w' : World σ'), SameWire R w w' →
      (setupConnection E { cli := .init a, w }).1 = (setupConnection (E.withV V') { cli := .init a, w := w' }).1 ∧
      SameWire R (setupConnection E { cli := .init a, w }).2.w (setupConnection (E.withV V') { cli := .init a, w := w' }).2.w ∧
      (setupConnection E { cli := .init a, w }).2.cli = (setupConnection (E.withV V') { cli := .init a, w := w' }).2.cli := by
    intro a w w' hw
    rcases (Related.Sim.setupConnection (P := Related.segments hV) (by rintro a _ rfl; exact Related.alike_refl _ _)).sim { cli := .init a, w } { cli := .init a, w := w' }
      ⟨⟨rfl, rfl⟩, hw.out, hw.wsched, hw.srv, hw.bytes⟩ with h | ⟨h1, h2, h3, h4, h5, h6⟩
    · exact h.elim
    · exact ⟨h1, ⟨h3, h4, h5, h6⟩, SameBut.eq h2⟩
  have dials : ∀ a : Auth, ∃ (o : Out NbError Unit) (ps : List UInt16), (dialled E.V dial port a = ⟨o, none, ps⟩ ∧
        dialled V' dial' port a = ⟨o, none, ps⟩ ∧ o ≠ .ok ()) ∨
      ∃ w w', dialled E.V dial port a = ⟨o, some w, ps⟩ ∧
        dialled V' dial' port a = ⟨o, some w', ps⟩ ∧ SameWire R w w' := by
    intro a
    unfold dialled
    cases port with
    | some p =>
      dsimp only [openRaw]
      rcases hd p with ⟨e, h1, h2⟩ | ⟨w, w', h1, h2, hw⟩
      · rw [h1, h2]; exact ⟨_, _, .inl ⟨rfl, rfl, by simp⟩⟩
      · rw [h1, h2]; exact ⟨_, _, .inr ⟨w, w', rfl, rfl, hw⟩⟩
    | none =>
      dsimp only [openNetbios]
      rcases hd 445 with ⟨e, h1, h2⟩ | ⟨w, w', h1, h2, hw⟩
      · rw [h1, h2]
        dsimp only
        rcases hd 139 with ⟨e, h1, h2⟩ | ⟨w, w', h1, h2, hw⟩
        · rw [h1, h2]; exact ⟨_, _, .inl ⟨rfl, rfl, by simp⟩⟩
        · rw [h1, h2]
          obtain ⟨e1, hw1⟩ := createSession_same hV "*SMBSERVER".toList a.workstation w w' hw
          dsimp only
          rw [← e1]
          exact ⟨_, _, .inr ⟨_, _, rfl, rfl, hw1⟩⟩
      · rw [h1, h2]; exact ⟨_, _, .inr ⟨w, w', rfl, rfl, hw⟩⟩
  simp only [openCifs_eq]
  generalize auth.getD defaultAuth = a
  obtain ⟨o, ps, ⟨h1, h2, hne⟩ | ⟨w, w', h1, h2, hw⟩⟩ := dials a
  · rw [show (E.withV V').V = V' from rfl, h1, h2]
    cases o with
    | ok u => exact absurd rfl hne
    | _ => exact ⟨rfl, rfl, .inl ⟨rfl, rfl⟩⟩
  · rw [show (E.withV V').V = V' from rfl, h1, h2]
    cases o with
    | ok u =>
      obtain ⟨e1, e2, e3⟩ := setup a w w' hw
      exact ⟨e1, rfl, .inr ⟨_, _, rfl, rfl, e2, e3⟩⟩
    | _ => exact ⟨rfl, rfl, .inr ⟨_, _, rfl, rfl, hw, rfl⟩⟩

namespace Demo

theorem segments : SameBytes (logged script) script (fun a b => Alike Eq a.1 b) where
  state := fun _ _ _ h => h.tail
  bytes := fun _ _ _ h => h.head
  tail := fun _ _ _ => rfl

/-- The reply to the first request of a demo session, a disconnect, arrives in one piece or in two pieces; the call succeeds. -/
example : let r := message (reply .TreeDisconnect 7 [] [])
    SameWire (fun a b => Alike Eq a.1 b) (st [[r]]).w { (st [[r]]).w with srv := [[r.take 6, [], r.drop 6]] } ∧
    (runOps (env true) [.umount share] (st [[r]])).1 = [.ok .unit] := by
  refine ⟨⟨rfl, rfl, ?_, rfl⟩, by decide +kernel⟩
  intro i
  match i with
  | 0 => simp [st]
  | i + 1 => rfl

end Demo

/-! ## C03, C12, C61: packets that do not matter -/

theorem flatMsg_keepalive (t : Tail) (rest : Bytes) : flatMsg t (keepAlive ++ rest) = flatMsg t rest := by
  have h : flatRecvMessage t (keepAlive ++ rest) = flatRecvMessage t rest := flatRecvMessage_keepalive t rest
  unfold flatMsg; rw [h]

theorem flatMsg_message (t : Tail) (m rest : Bytes) (h : m.length ≤ maxPayload) : flatMsg t (message m ++ rest) = (.ok m, rest) := by
  unfold flatMsg; rw [flatRecvMessage_packet t m rest h]; rfl

/-- A keep-alive is skipped. -/
theorem flatNext_keepalive (t : Tail) (mid : UInt16) (rest : Bytes) : flatNext t mid (keepAlive ++ rest) = flatNext t mid rest := by
  rw [flatNext_eq, flatMsg_keepalive, ← flatNext_eq]

/-- A reply with another multiplex id is skipped. -/
theorem flatNext_foreign (t : Tail) (mid : UInt16) (g rest : Bytes) (hl : g.length ≤ maxPayload) (hg : Genuine g) (m : Nat)
    (hm : midOf (message g) = some m) (hne : m ≠ mid.toNat) : flatNext t mid (message g ++ rest) = flatNext t mid rest := by
  obtain ⟨i, r, hp⟩ := (C13_accepted_iff g).mpr hg
  have := (C17_read g i r hp).2.2.2.2.2.2.2.2.2
  rw [flatNext_eq, flatMsg_message t g rest hl]
  dsimp only
  rw [hp]
  dsimp only
  rw [if_neg]
  intro h; rw [hm, h] at this; exact hne (Option.some.inj this)

theorem flatNext_noisy {P : Nat → Prop} {b b' : Bytes} (h : Noisy P b b') (t : Tail) (mid : UInt16) (hs : ¬ P mid.toNat) :
    (flatNext t mid b).1 = (flatNext t mid b').1 ∧ Noisy P (flatNext t mid b).2 (flatNext t mid b').2 := by
  induction h with
  | done =>
    have := (flatNext_cases t mid []).2.1
    have e : (flatNext t mid []).2 = [] := List.length_eq_zero_iff.mp (by simpa using this)
    exact ⟨rfl, by rw [e]; exact .done⟩
  | keepAlive h ih => rw [flatNext_keepalive]; exact ih
  | reply g hl hg m hm hP h ih => rw [flatNext_foreign t mid g _ hl hg m hm (fun e => hs (e ▸ hP))]; exact ih
  | @same b b' ty d hd h ih =>
    rw [flatNext_eq t mid (packet ty d ++ b), flatNext_eq t mid (packet ty d ++ b')]
    have key : ∀ r : Bytes, flatMsg t (packet ty d ++ r) =
        match Frame.new ty d with
        | .ok (.Message m) => (.ok m, r)
        | .ok .Keepalive => flatMsg t r
        | .ok _ => (.err (.NetBios .UnexpectedFrame), r)
        | .err e => (.err (.NetBios e), r)
        | .panic => (.panic, r) := by
      intro r
      have hp := flatRecv_packet t ty d r hd
      unfold flatMsg
      rw [flatRecvMessage_eq]
      cases hf : Frame.new ty d with
      | ok f => rw [hf] at hp; rw [M.bind_ok hp]; cases f <;> rfl
      | err e => rw [hf] at hp; rw [M.bind_err hp]; rfl
      | panic => rw [hf] at hp; rw [M.bind_panic hp]; rfl
    rw [key b, key b']
    cases hf : Frame.new ty d with
    | ok f =>
      cases f with
      | Message m =>
        dsimp only
        cases Info.parse m with
        | ok p =>
          dsimp only
          by_cases hm : p.1.mid = mid
          · rw [if_pos hm, if_pos hm]; exact ⟨rfl, h⟩
          · rw [if_neg hm, if_neg hm]; exact ih
        | err e => exact ⟨rfl, h⟩
        | panic => exact ⟨rfl, h⟩
      | Keepalive => dsimp only; rw [← flatNext_eq, ← flatNext_eq]; exact ih
      | _ => exact ⟨rfl, h⟩
    | err e => exact ⟨rfl, h⟩
    | panic => exact ⟨rfl, h⟩

theorem Spec.Noisy.append {P : Nat → Prop} {b b' c c' : Bytes} (h : Noisy P b b') (h2 : Noisy P c c') : Noisy P (b ++ c) (b' ++ c') := by
  induction h with
  | done => exact h2
  | same ty d hd _ ih => rw [List.append_assoc, List.append_assoc]; exact .same ty d hd ih
  | keepAlive _ ih => rw [List.append_assoc]; exact .keepAlive ih
  | reply g hl hg m hm hP _ ih => rw [List.append_assoc]; exact .reply g hl hg m hm hP ih

/-- The same server with unrelated packets in between. The first run is bad once it has sent a request with one of the multiplex ids in `P`. -/
def Related.noise {E : Env σ} {V' : Server σ'} {R : σ → σ' → Prop} {P : Nat → Prop} (h : NoisyServer P E.V V' R) (log : σ → List Bytes)
    (hlog : Logs E.V log) (n : Nat) : Related E V' where
  rel := fun a a' => R a a' ∧ n ≤ (log a).length
  stream := Noisy P
  safe := fun m => ¬ P m.toNat
  bad := fun a => ∃ p ∈ (log a).drop n, ∃ m, midOf p = some m ∧ P m
  pw := Eq
  pw_refl := fun _ => rfl
  bad_mono := by
    rintro a p ⟨q, hq, hm⟩
    rw [hlog, List.drop_append]
    exact ⟨q, List.mem_append_left _ hq, hm⟩
  bad_unsafe := by
    intro a a' c m f hr hk hf hs
    rw [hlog, List.drop_append_of_le_length hr.2]
    exact ⟨message f, by simp, _, requestFrame_mid hk hf, Classical.not_not.mp hs⟩
  react := by
    intro a a' p hr
    refine ⟨h.state _ _ _ hr.1, ?_⟩
    rw [hlog]; simp; have := hr.2; omega
  append := fun a a' p b b' hr hb => hb.append (h.bytes a a' p hr.1)
  tail := fun a a' hr => h.tail a a' hr.1
  next := fun t mid b b' hs hb => flatNext_noisy hb t mid hs

/-- Connections that agree in everything except that packets which do not matter are among the unread bytes. -/
structure NoisyWire (P : Nat → Prop) (R : σ → σ' → Prop) (w : World σ) (w' : World σ') : Prop where
  out : w.out = w'.out
  wsched : w.wsched = w'.wsched
  srv : R w.srv w'.srv
  bytes : Noisy P w.inbox.flatten w'.inbox.flatten

/-- **C12** (also C03, C61) Whatever keep-alives and whatever replies with multiplex ids in `P` the server puts between its packets: as
long as no request carries a multiplex id in `P`, every call of every history gives the same outcome, the same bytes are written and the
clients end up equal. -/
theorem C12_foreign_replies (E : Env σ) (V' : Server σ') (R : σ → σ' → Prop) (P : Nat → Prop) (hV : NoisyServer P E.V V' R)
    (log : σ → List Bytes) (hlog : Logs E.V log) (ops : List Op) (s : St σ) (s' : St σ') (hc : s.cli = s'.cli) (hw : NoisyWire P R s.w s'.w)
    (hP : ∀ p, Sent log s.w.srv (runOps E ops s).2.w.srv p → ∀ m, midOf p = some m → ¬ P m) :
    (runOps E ops s).1 = (runOps (E.withV V') ops s').1 ∧ (runOps E ops s).2.cli = (runOps (E.withV V') ops s').2.cli ∧
      NoisyWire P R (runOps E ops s).2.w (runOps (E.withV V') ops s').2.w := by
  have hq : (Related.noise hV log hlog (log s.w.srv).length).Q s s' := ⟨hc ▸ ⟨rfl, rfl⟩, hw.out, hw.wsched, ⟨hw.srv, Nat.le_refl _⟩, hw.bytes⟩
  rcases Related.runOps_sim _ ops s s' hq with ⟨p, hp, m, hm, hm'⟩ | ⟨h1, h2, h3, h4, h5, h6⟩
  · refine absurd hm' (hP p ?_ m hm)
    obtain ⟨A, hps, _⟩ := runOps_hist E log hlog ops s
    rw [hps, List.drop_left] at hp
    exact ⟨_, hps, hp⟩
  · exact ⟨h1, SameBut.eq h2, h3, h4, h5.1, h6⟩

/-- **C03** Keep-alives between packets, in any number, change nothing about any history of calls. -/
theorem C03_operations (E : Env σ) (V' : Server σ') (R : σ → σ' → Prop) (hV : NoisyServer (fun _ => False) E.V V' R) (ops : List Op)
    (s : St σ) (s' : St σ') (hc : s.cli = s'.cli) (hw : NoisyWire (fun _ => False) R s.w s'.w) :
    (runOps E ops s).1 = (runOps (E.withV V') ops s').1 ∧ (runOps E ops s).2.cli = (runOps (E.withV V') ops s').2.cli ∧
      NoisyWire (fun _ => False) R (runOps E ops s).2.w (runOps (E.withV V') ops s').2.w := by
  let P : Related E V' := {
    rel := R, stream := Noisy (fun _ => False), safe := fun _ => True, bad := fun _ => False, pw := Eq
    pw_refl := fun _ => rfl
    bad_mono := by simp
    bad_unsafe := by simp
    react := hV.state
    append := fun a a' p b b' hr hb => hb.append (hV.bytes a a' p hr)
    tail := hV.tail
    next := fun t mid b b' _ hb => flatNext_noisy hb t mid (by simp) }
  have hq : P.Q s s' := ⟨hc ▸ ⟨rfl, rfl⟩, hw.out, hw.wsched, hw.srv, hw.bytes⟩
  rcases Related.runOps_sim P ops s s' hq with h | ⟨h1, h2, h3, h4, h5, h6⟩
  · exact h.elim
  · exact ⟨h1, SameBut.eq h2, h3, h4, h5, h6⟩

/-- **C61** (partial: as long as the multiplex ids do not wrap around, see `C61_violated`; a build with overflow checks panics instead of
wrapping.) Late replies to requests issued before (by calls that were given up) are skipped: they do not change what any later call does, in
whatever number and order they arrive. -/
theorem C61_late_replies_partial (E : Env σ) (V' : Server σ') (R : σ → σ' → Prop) (log : σ → List Bytes) (hlog : Logs E.V log) (s : St σ)
    (s' : St σ') (hV : NoisyServer (fun m => m < s.cli.mid.toNat) E.V V' R) (ops : List Op) (hc : s.cli = s'.cli)
    (hw : NoisyWire (fun m => m < s.cli.mid.toNat) R s.w s'.w)
    (hwrap : E.checked = true ∨ s.cli.mid.toNat + ((log (runOps E ops s).2.w.srv).length - (log s.w.srv).length) +
      (runOps E ops s).1.countP (fun o => !o.isOk) ≤ 65536) :
    (runOps E ops s).1 = (runOps (E.withV V') ops s').1 ∧ (runOps E ops s).2.cli = (runOps (E.withV V') ops s').2.cli ∧
      NoisyWire (fun m => m < s.cli.mid.toNat) R (runOps E ops s).2.w (runOps (E.withV V') ops s').2.w := by
  refine C12_foreign_replies E V' R _ hV log hlog ops s s' hc hw ?_
  rintro p ⟨new, hn, hp⟩ m hm hlt
  obtain ⟨A, h1, h2, h3, h4, h5⟩ := runOps_hist E log hlog ops s
  rw [h1] at hn
  have hn := List.append_cancel_left hn
  subst hn
  rw [List.mem_filterMap] at hp
  obtain ⟨q, hq, hqe⟩ := hp
  obtain ⟨i, hi, he⟩ := List.getElem_of_mem hq
  have hA : A.length = (A.filterMap id).length + A.countP Option.isNone := by
    clear h1 h2 h3 h4 h5 hq hi he hwrap
    induction A with
    | nil => rfl
    | cons a A ih => cases a <;> simp at ih ⊢ <;> omega
  have hb : s.cli.mid.toNat + A.length ≤ 65536 := by
    rcases hwrap with hck | hle
    · have := h3 hck; omega
    · rw [h1, List.length_append] at hle; omega
  have := h4 i p (by rw [List.getElem?_eq_getElem hi, he]; simpa using hqe)
  rw [hm] at this
  have := Option.some.inj this
  rw [toNat_add16 _ _ (by omega)] at this
  omega

namespace Demo

theorem noise (P : Nat → Prop) : NoisyServer P (logged script) script (fun a b => Alike (Noisy P) a.1 b) where
  state := fun _ _ _ h => h.tail
  bytes := fun _ _ _ h => h.head
  tail := fun _ _ _ => rfl

theorem alike_noisy {P : Nat → Prop} (a a' : List Bytes) (h : Noisy P a.flatten a'.flatten) : Alike (Noisy P) [a] [a'] := by
  intro i
  match i with
  | 0 => simpa using h
  | i + 1 => exact .done

/-- A demo session gets a keep-alive and a late reply to request 3 before the reply to its request 7. -/
example : let r := message (reply .TreeDisconnect 7 [] []); let late := message (reply .Read 3 [] [])
    NoisyWire (fun m => m < (st [[r]]).cli.mid.toNat) (fun a b => Alike (Noisy fun m => m < (st [[r]]).cli.mid.toNat) a.1 b) (st [[r]]).w
      { (st [[r]]).w with srv := [[keepAlive, late, r]] } ∧
    (runOps (env true) [.umount share] (st [[r]])).1 = [.ok .unit] := by
  refine ⟨⟨rfl, rfl, alike_noisy _ _ ?_, .done⟩, by decide +kernel⟩
  refine .keepAlive (.reply (reply .Read 3 [] []) (by decide) ?_ 3 (by decide +kernel) (by decide) ?_)
  · exact (C13_accepted_iff _).mp ⟨_, _, rfl⟩
  · exact .same 0 (reply .TreeDisconnect 7 [] []) (by decide) .done

end Demo

/-! ## C51 -/

/-- The same server, twice; the credentials are related in this way. -/
def Related.credentials (E : Env σ) (pw : Auth → Auth → Prop) (h : ∀ a, pw a a) : Related E E.V where
  rel := Eq
  stream := Eq
  safe := fun _ => True
  bad := fun _ => False
  pw := pw
  pw_refl := h
  bad_mono := by simp
  bad_unsafe := by simp
  react := by rintro a _ p rfl; rfl
  append := by rintro a _ p b _ rfl rfl; rfl
  tail := by rintro a _ rfl; rfl
  next := by rintro t mid b _ _ rfl; exact ⟨rfl, rfl⟩

/-- **C51** Once the login is over, nothing depends on the credentials: every history has the same outcomes and writes the same bytes if
the client has others. -/
theorem C51_afterwards (E : Env σ) (ops : List Op) (s : St σ) (a : Auth) :
    (runOps E ops s).1 = (runOps E ops { s with cli := { s.cli with auth := a } }).1 ∧
      (runOps E ops s).2.w.out = (runOps E ops { s with cli := { s.cli with auth := a } }).2.w.out ∧
      (runOps E ops s).2.w.srv = (runOps E ops { s with cli := { s.cli with auth := a } }).2.w.srv := by
  rcases Related.runOps_sim (Related.credentials E (fun _ _ => True) (fun _ => trivial)) ops s { s with cli := { s.cli with auth := a } }
    ⟨⟨rfl, trivial⟩, rfl, rfl, rfl, rfl⟩ with h | ⟨h1, h2⟩
  · exact h.elim
  · exact ⟨h1, h2.2.1, h2.2.2.2.1⟩

theorem alike_opens (E : Env σ) (dial : Dial σ) (port : Option UInt16) {a a' : Auth} (h : Related.Alike E.C a a') (ops : List Op) :
    let o := openCifs E dial port (some a)
    let o' := openCifs E dial port (some a')
    o.outcome = o'.outcome ∧ o.ports = o'.ports ∧
    (o.state = none ∧ o'.state = none ∨ ∃ s s', o.state = some s ∧ o'.state = some s' ∧ s.w.out = s'.w.out ∧ s.w.srv = s'.w.srv ∧
      s.w.inbox.flatten = s'.w.inbox.flatten ∧
      (runOps E ops s).1 = (runOps E ops s').1 ∧ (runOps E ops s).2.w.out = (runOps E ops s').2.w.out) := by
  intro o o'
  let P := Related.credentials E (Related.Alike E.C) (Related.alike_refl E.C)
  have key : ∀ (s s' : St σ), P.Q s s' → s.w.out = s'.w.out ∧ s.w.srv = s'.w.srv ∧
      s.w.inbox.flatten = s'.w.inbox.flatten ∧
      (runOps E ops s).1 = (runOps E ops s').1 ∧ (runOps E ops s).2.w.out = (runOps E ops s').2.w.out := by
    intro s s' hq
    rcases Related.runOps_sim P ops s s' hq with h | ⟨h1, h2⟩
    · exact h.elim
    · exact ⟨hq.2.1, hq.2.2.2.1, hq.2.2.2.2, h1, h2.2.1⟩
  have hq : ∀ w, P.Q { cli := .init a, w } { cli := .init a', w } := fun w => ⟨⟨rfl, h⟩, rfl, rfl, rfl, rfl⟩
  show (openCifs E dial port (some a)).outcome = (openCifs E dial port (some a')).outcome ∧ _ = (openCifs E dial port (some a')).ports ∧ _
  simp only [openCifs_eq, o, o']
  have hd : dialled E.V dial port a' = dialled E.V dial port a := by unfold dialled; rw [h.workstation]
  simp only [Option.getD_some, hd]
  generalize dialled E.V dial port a = d
  rcases d with ⟨out, w, ps⟩
  cases w with
  | none => cases out <;> exact ⟨rfl, rfl, .inl ⟨rfl, rfl⟩⟩
  | some w =>
    cases out with
    | ok u =>
      rcases (Related.Sim.setupConnection (P := P) (fun _ _ h => h)).sim _ _ (hq w) with h | ⟨h1, h2⟩
      · exact h.elim
      · exact ⟨h1, rfl, .inr ⟨_, _, rfl, rfl, key _ _ h2⟩⟩
    | _ => exact ⟨rfl, rfl, .inr ⟨_, _, rfl, rfl, key _ _ (hq w)⟩⟩

/-- **C51** Two users that differ only in passwords with the same NT hash: `open` (any dialling) and whatever is called afterwards have the
same outcomes, and exactly the same bytes are written. -/
theorem C51_only_the_hash (E : Env σ) (dial : Dial σ) (port : Option UInt16) (a : Auth) (password : Str)
    (h : ∀ b b', Utf16le a.password b → Utf16le password b' → E.C.md4 b = E.C.md4 b') (ops : List Op) :
    let o := openCifs E dial port (some a)
    let o' := openCifs E dial port (some { a with password })
    o.outcome = o'.outcome ∧ o.ports = o'.ports ∧
    (o.state = none ∧ o'.state = none ∨ ∃ s s', o.state = some s ∧ o'.state = some s' ∧ s.w.out = s'.w.out ∧ s.w.srv = s'.w.srv ∧
      s.w.inbox.flatten = s'.w.inbox.flatten ∧
      (runOps E ops s).1 = (runOps E ops s').1 ∧ (runOps E ops s).2.w.out = (runOps E ops s').2.w.out) := by
  have hh : ntlmHash E.C a = ntlmHash E.C { a with password } := h _ _ (utf16le_encode _) (utf16le_encode _)
  have key : Related.Alike E.C a { a with password } := by
    refine ⟨rfl, rfl, rfl, fun ch => ?_, fun m time random => ?_⟩
    · unfold ntlmv1Authenticate; rw [hh]
    · unfold ntlmv2Authenticate ntlmv2Hash; rw [hh]
  exact alike_opens E dial port key ops

/-- With the trivial hash functions of the demo session two different passwords have the same hash. -/
example (b b' : Bytes) (_ : Utf16le "secret".toList b) (_ : Utf16le "other".toList b') : Demo.crypto.md4 b = Demo.crypto.md4 b' := rfl

end Cifs
