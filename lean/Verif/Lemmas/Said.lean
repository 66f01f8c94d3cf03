import Verif.Spec.Told
import Verif.Props.Service
import Verif.Lemmas.Panic
/-!
# What is returned has been said

The converse of `decode_gives`: what the decoding functions return is in the reply.
-/

namespace Cifs
open Spec

variable {σ α : Type}

/-! ## Texts that end with NUL -/

theorem parseUtf16le0Loop_ok {ε : Type} (e : ε) (n : Nat) : ∀ (b : Bytes), b.length < n → ∀ (acc : List Nat) (s : Str) (r : Bytes),
    parseUtf16le0Loop e acc b = .ok (s, r) → ∃ us, b = us.flatMap (putLE 2) ++ 0 :: 0 :: r ∧ (∀ u ∈ us, u ≠ 0 ∧ u < 65536) ∧
      decodeUtf16 (acc ++ us) = some s := by
  induction n with
  | zero => intro b hb; omega
  | succ n ih =>
    intro b hb acc s r h
    match b, hb, h with
    | [], _, h => cases h
    | [_], _, h => cases h
    | x :: y :: t, hb, h =>
      unfold parseUtf16le0Loop at h
      by_cases h0 : leVal [x, y] = 0
      · rw [if_pos h0] at h
        have hxy := putLE2_leVal x y
        rw [h0] at hxy
        cases hd : decodeUtf16 acc with
        | none => rw [hd] at h; cases h
        | some s' =>
          rw [hd] at h
          cases h
          refine ⟨[], ?_, by simp, by rw [List.append_nil, hd]⟩
          have : [x, y] = [0, 0] := hxy.symm
          cases this
          rfl
      · rw [if_neg h0] at h
        obtain ⟨us, h1, h2, h3⟩ := ih t (by simp at hb; omega) _ s r h
        have hlt : leVal [x, y] < 65536 := by
          have := leVal_lt [x, y]
          simpa using this
        refine ⟨leVal [x, y] :: us, ?_, ?_, by rw [← h3]; simp⟩
        · rw [List.flatMap_cons, putLE2_leVal, h1]; rfl
        · intro u hu
          rcases List.mem_cons.mp hu with rfl | hu
          · exact ⟨h0, hlt⟩
          · exact h2 u hu

theorem parseUtf16le0_ok {ε : Type} {e : ε} {b : Bytes} {s : Str} {r : Bytes} (h : parseUtf16le0 e b = .ok (s, r)) :
    '\x00' ∉ s ∧ b = encodeUtf16le s ++ 0 :: 0 :: r := by
  obtain ⟨us, h1, h2, h3⟩ := parseUtf16le0Loop_ok e _ b (Nat.lt_succ_self _) [] s r h
  rw [List.nil_append] at h3
  have hu := units_decodeUtf16 us s (fun u hu => (h2 u hu).2) h3
  refine ⟨fun h0 => ?_, by rw [encodeUtf16le, hu, h1]⟩
  have : 0 ∈ us := by
    rw [← hu, encodeUtf16]
    exact List.mem_flatMap.mpr ⟨_, h0, by decide⟩
  exact (h2 0 this).1 rfl

theorem parseStr0_ok {ε : Type} {e : ε} {b : Bytes} {s : Str} {r : Bytes} (h : parseStr0 e b = .ok (s, r)) : '\x00' ∉ s ∧ b = utf8Bytes s ++ 0 :: r := by
  rcases parseStr0_cases e b with ⟨h', _⟩ | ⟨s', r', h', h1, h2⟩
  · rw [h'] at h; cases h
  · rw [h'] at h; cases h; exact ⟨h1, h2⟩

/-! ## Single replies -/

theorem Res.bind_ok_inv {ε β γ : Type} {x : Res ε β} {f : β → Res ε γ} {c : γ} (h : (x >>= f) = .ok c) : ∃ b, x = .ok b ∧ f b = .ok c := by
  cases x with
  | ok b => exact ⟨b, rfl, h⟩
  | err e => cases h
  | panic => cases h

theorem Share.create_ok {ps ds : Bytes} {i : Info} {share : Share} (he : ps.length % 2 = 0)
    (h : Share.create { info := i, parameter := ps.drop 4, data := ds, dataOffset := 35 + ps.length } = .ok share) :
    6 ≤ ps.length ∧ IsRights ps 6 share.accessRights ∧ IsRights ps 10 share.guestRights ∧ share.tid = i.tid ∧
      IsTreeConnectData (Flags2.contains i.flags2 Flags2.UNICODE) ps ds share.service share.filesystem := by
  by_cases hl : ps.length < 6
  · rw [Share.create_short i _ (by rw [List.length_drop]; omega)] at h; cases h
  obtain ⟨ar, gr, b, b', h1, h2, h3, h4⟩ := rights_eq (ps := ps) (by omega)
  unfold Share.create at h
  dsimp only at h
  have e : ps.drop 4 = (ps.drop 4).take 2 ++ ps.drop 6 := by
    rw [show ps.drop 6 = (ps.drop 4).drop 2 by rw [List.drop_drop], List.take_append_drop]
  rw [e, Rd.advance_append 2 _ _ (by simp; omega)] at h
  simp only [Res.ok_bind] at h
  rw [h3] at h
  simp only [Res.ok_bind] at h
  rw [h4] at h
  simp only [Res.ok_bind] at h
  obtain ⟨⟨sv, d⟩, k1, h⟩ := Res.bind_ok_inv h
  obtain ⟨⟨fs, d'⟩, k2, h⟩ := Res.bind_ok_inv h
  cases h
  obtain ⟨g1, rfl⟩ := parseStr0_ok k1
  refine ⟨by omega, h1, h2, rfl, ?_⟩
  dsimp only at k2
  cases hu : Flags2.contains i.flags2 Flags2.UNICODE with
  | false =>
    rw [hu, if_neg (by simp)] at k2
    obtain ⟨g2, rfl⟩ := parseStr0_ok k2
    exact ⟨[], utf8Bytes fs, d', g1, g2, by simp⟩
  | true =>
    rw [hu, if_pos rfl, utf8_bytes] at k2
    obtain ⟨⟨_, d1⟩, k3, k2⟩ := Res.bind_ok_inv k2
    obtain ⟨g2, rfl⟩ := parseUtf16le0_ok k2
    by_cases h5 : (utf8Bytes sv).length % 2 = 1
    · rw [if_pos h5] at k3
      by_cases hd : d.length < 1
      · rw [Rd.advance_short hd] at k3; cases k3
      obtain ⟨x, t, rfl⟩ := split_u8 d (by omega)
      rw [show x :: t = [x] ++ t from rfl, Rd.advance_append 1 _ _ rfl] at k3
      cases k3
      exact ⟨[x], encodeUtf16le fs, d', g1, g2, by rw [if_pos rfl]; exact ⟨by simp, by simp; omega, utf16le_encode fs, by simp⟩⟩
    · rw [if_neg h5] at k3
      cases k3
      exact ⟨[], encodeUtf16le fs, d', g1, g2, by rw [if_pos rfl]; exact ⟨by simp, by simp; omega, utf16le_encode fs, by simp⟩⟩

theorem accept_mount_said {f : Bytes} {i : Info} (hp : Info.parse f = .ok (i, f.drop 32)) {share : Share}
    (h : accept Share.reply i (f.drop 32) = .ok share) : Mounts f share := by
  obtain ⟨ps, ds, h1, h2⟩ := (accept_iff Share.reply (by decide) hp share).mp h
  have hx := make_andx_ok Share.reply rfl i h2
  rw [make_andx Share.reply rfl i hx.1 hx.2] at h2
  have he : ps.length % 2 = 0 := by
    obtain ⟨w, _, _, _, e, _⟩ := body_split ((C13_accepted_iff f).mp ⟨_, _, hp⟩).1 h1.2.2
    omega
  obtain ⟨k1, k2, k3, k4, k5⟩ := Share.create_ok he h2
  obtain ⟨u, hu⟩ : ∃ u, unicodeOf (message f) = some u := by
    obtain ⟨n, h1, _⟩ := (C17_read f i _ hp).2.2.2.2.1
    exact ⟨_, by rw [unicodeOf, h1]; rfl⟩
  refine ⟨ps, ds, u, h1, hx, k1, hu, ?_, k2, k3, by rw [unicode_contains hp hu] at k5; exact k5⟩
  rw [(C17_read f i _ hp).2.2.2.2.2.2.2.1, k4]

theorem accept_notify_said {f : Bytes} {i : Info} (hp : Info.parse f = .ok (i, f.drop 32)) {l : List (Str × NotifyAction)}
    (h : accept (transactReply notificationParse) i (f.drop 32) = .ok l) : Notifies f l := by
  obtain ⟨ps, ds, h1, h2⟩ := (accept_iff _ (by decide) hp l).mp h
  rw [make_plain _ rfl i] at h2
  obtain ⟨pb, db, h3, h4⟩ := ((notify_create i ps ds).1 l).mp h2
  exact ⟨ps, ds, pb, db, h1, h3, h4⟩

theorem mapOk_ok {ε β γ : Type} {g : β → γ} {x : Res ε β} {v : γ} (h : x.mapOk g = .ok v) : ∃ b, x = .ok b ∧ v = g b := by
  cases x <;> cases h
  exact ⟨_, rfl, rfl⟩

theorem mapOk_err {ε β γ : Type} {g : β → γ} {x : Res ε β} {e : ε} (h : x.mapOk g = .err e) : x = .err e := by
  cases x <;> cases h
  rfl

/-- What a decoded reply says. -/
theorem decode_said {op : Op} {c : Call} (hc : callOf op = some c) {f : Bytes} {i : Info} (hp : Info.parse f = .ok (i, f.drop 32)) {x : Val}
    (h : op.decode i (f.drop 32) = .ok x) : Gives f c x := by
  have unit : ∀ (R : Reply Unit), R.cmd ≠ .SessionSetup → accept R i (f.drop 32) = .ok () → (∃ ps ds, Succeeds f R.cmd.code.toNat ps ds) :=
    fun R h1 h2 => by obtain ⟨ps, ds, h3, _⟩ := (accept_iff R h1 hp ()).mp h2; exact ⟨ps, ds, h3⟩
  cases op <;> cases hc <;> first | (cases h; done) | (obtain ⟨b, hb, rfl⟩ := mapOk_ok h)
  · exact accept_mount_said hp hb
  · exact unit treeDisconnectReply (by decide) hb
  · exact (accept_open hp _).mp hb
  · exact (accept_open hp _).mp hb
  · exact (accept_close hp).mp hb
  · exact (accept_read hp _).mp hb
  · exact unit deleteReply (by decide) hb
  · exact unit rmdirReply (by decide) hb
  · exact accept_notify_said hp hb

/-! ## Refusals -/

theorem accept_refuses {R : Reply α} {f : Bytes} {i : Info} (hp : Info.parse f = .ok (i, f.drop 32)) {st : Status}
    (h : accept R i (f.drop 32) = .err (.ServerError st)) : ∃ status, st = Status.ofU32 status ∧ Refuses f R.cmd.code.toNat status := by
  have hr := C17_read f i _ hp
  unfold accept at h
  split at h
  · cases h
  rename_i hc
  split at h
  · cases hx : R.parse i (f.drop 32) <;> rw [hx] at h <;> cases h
  rename_i hn
  cases h
  obtain ⟨status, hs⟩ := parse_status hp
  have hc : i.cmd = R.cmd := Classical.byContradiction hc
  refine ⟨status, hs, ?_, by rw [hr.2.1, hc], by rw [hr.2.2.1, hs, C16_roundtrip]⟩
  rintro rfl
  exact hn (.inl hs)

theorem decode_refuses {op : Op} {c : Call} (hc : callOf op = some c) {f : Bytes} {i : Info} (hp : Info.parse f = .ok (i, f.drop 32)) {st : Status}
    (h : op.decode i (f.drop 32) = .err (.ServerError st)) : ∃ status, st = Status.ofU32 status ∧ Refuses f c.code status := by
  cases op <;> cases hc <;> first | (cases h; done) | exact accept_refuses hp (mapOk_err h)

theorem send_silent (E : Env σ) (m : Msg) (s : St σ) (st : Status) : (send E m s).1 ≠ .err (.ServerError st) := by
  intro h
  rcases send_cases E m s with ⟨_, _, e⟩ | ⟨_, ⟨_, _, e⟩ | ⟨_, e⟩ | ⟨_, _, _, e⟩ | ⟨_, _, _, _, _, _, _, ⟨_, _, e⟩ | ⟨_, e⟩ | e⟩⟩ <;> rw [e] at h <;> cases h

theorem flatMsg_silent (t : Tail) (b : Bytes) (st : Status) : (flatMsg t b).1 ≠ .err (.ServerError st) := by
  unfold flatMsg
  rcases flatRecvMessage t b with ⟨o, b'⟩
  cases o <;> simp [Out.net]

theorem flatNext_silent (t : Tail) (mid : UInt16) (n : Nat) : ∀ (b : Bytes), b.length < n → ∀ st, (flatNext t mid b).1 ≠ .err (.ServerError st) := by
  induction n with
  | zero => intro b hb; omega
  | succ n ih =>
    intro b hb st h
    have hc := flatMsg_cases t b
    have hs := flatMsg_silent t b st
    rw [flatNext_eq] at h
    rcases hm : flatMsg t b with ⟨o, b'⟩
    rw [hm] at h hc hs
    cases o with
    | ok f =>
      dsimp only at h
      cases hp : Info.parse f with
      | ok p =>
        rw [hp] at h
        dsimp only at h
        split at h
        · cases h
        · have := hc.2.2.2 f rfl
          exact ih b' (by dsimp only at this; omega) st h
      | err e => rw [hp] at h; cases h
      | panic => rw [hp] at h; cases h
    | err e => exact hs (by simpa using h)
    | panic => cases h
    | pending => cases h
    | running => cases h

/-- A search that is refused. -/
theorem gather_refused (t : Tail) (mid : UInt16) (n : Nat) : ∀ (b : Bytes), b.length < n → ∀ (c0 : CollectTrans2) (st : Status) (b' : Bytes),
    flatGather t mid c0 b = (.err (.ServerError st), b') →
    ∃ l b1 f status, Pieces Brings mid.toNat b l b1 ∧ (∀ pre post, l = pre ++ post → takePieces c0 pre = none) ∧ Awaits mid.toNat b1 f b' ∧
      st = Status.ofU32 status ∧ Refuses f 0x32 status := by
  induction n with
  | zero => intro b hb; omega
  | succ n ih =>
    intro b hb c0 st b' h
    have hc := flatReply_cases trans2Reply mid t b
    rw [flatGather_eq] at h
    rcases hr : flatReply trans2Reply mid t b with ⟨o, b1⟩
    rw [hr] at h hc
    cases o with
    | ok r =>
      obtain ⟨f, p, ha, hp, rfl⟩ := brings_of_reply t mid hr
      dsimp only at h
      cases hadd : c0.add p.reply with
      | ok q =>
        rw [hadd] at h
        dsimp only at h
        obtain ⟨c', rd⟩ := q
        cases rd with
        | true => rw [if_pos rfl] at h; cases h
        | false =>
          rw [if_neg (by simp)] at h
          obtain ⟨l, b2, f', status, h1, h2, h3, h4⟩ := ih b1 (by simp at hc; omega) c' st b' h
          refine ⟨p :: l, b2, f', status, .cons ha hp h1, fun pre post e => ?_, h3, h4⟩
          cases pre with
          | nil => rfl
          | cons x pre =>
            simp only [List.cons_append, List.cons.injEq] at e
            obtain ⟨rfl, e⟩ := e
            simp [takePieces, hadd, h2 pre post e]
      | err e => rw [hadd] at h; cases h
      | panic => rw [hadd] at h; cases h
    | err e =>
      cases h
      rw [flatReply_eq] at hr
      rcases hn : flatNext t mid b with ⟨o, b2⟩
      cases o with
      | ok q =>
        obtain ⟨f, ha, hp⟩ := awaits_of_flatNext t mid _ b (Nat.lt_succ_self _) q b2 hn
        obtain ⟨i, hi, e⟩ := reply_awaits trans2Reply t mid ha
        rw [flatReply_eq, hr] at e
        have e1 := congrArg Prod.fst e
        have e2 : b' = b2 := congrArg Prod.snd e
        subst e2
        obtain ⟨status, k1, k2⟩ := accept_refuses (R := trans2Reply) hi (st := st) (by
          cases hacc : accept trans2Reply i (f.drop 32) <;> rw [hacc] at e1 <;> cases e1
          rfl)
        exact ⟨[], b, f, status, .nil _, fun pre post e => (by cases pre <;> first | rfl | cases e), ha, k1, k2⟩
      | err e' =>
        rw [M.bind_err hn] at hr
        cases hr
        exact absurd (congrArg Prod.fst hn) (flatNext_silent t mid _ b (Nat.lt_succ_self _) st)
      | panic => rw [M.bind_panic hn] at hr; cases hr
      | pending => rw [M.bind_pending hn] at hr; cases hr
      | running => rw [M.bind_running hn] at hr; cases hr
    | panic => cases h
    | pending => cases h
    | running => cases h

theorem collect_refused (sub : SubReply2 α) (mid : UInt16) (t : Tail) (b b' : Bytes) (st : Status)
    (h : flatCollect sub mid t b = (.err (.ServerError st), b')) :
    ∃ l b1 f status, Pieces Brings mid.toNat b l b1 ∧ (∀ pre post P D, l = pre ++ post → ¬ Cuts pre P D) ∧ Awaits mid.toNat b1 f b' ∧
      st = Status.ofU32 status ∧ Refuses f 0x32 status := by
  rcases hg : flatGather t mid .new b with ⟨o, b1⟩
  cases o with
  | ok c =>
    unfold flatCollect at h
    rw [M.bind_ok hg] at h
    unfold M.ofRes at h
    split at h <;> cases h
  | err e =>
    unfold flatCollect at h
    rw [M.bind_err hg] at h
    cases h
    obtain ⟨l, b2, f, status, h1, h2, h3⟩ := gather_refused t mid _ b (Nat.lt_succ_self _) .new st b' hg
    refine ⟨l, b2, f, status, h1, fun pre post P D e hc => ?_, h3⟩
    obtain ⟨c', hc', _⟩ := take_cuts hc
    rw [h2 pre post e] at hc'
    cases hc'
  | panic => unfold flatCollect at h; rw [M.bind_panic hg] at h; cases h
  | pending => unfold flatCollect at h; rw [M.bind_pending hg] at h; cases h
  | running => unfold flatCollect at h; rw [M.bind_running hg] at h; cases h

/-! ## Operations -/

/-- An operation that makes one request. -/
theorem call_told {E : Env σ} {op : Op} {c : Call} (hc : callOf op = some c) {s s' : St σ} {o : Out Error Val} (h : runOp E op s = (o, s'))
    (ho : Conclusive o) : ∃ r, o = r.outcome ∧ Told E.V s.cli.useUnicode s.cli.uid.toNat (service s) c r (service s') ∧ s'.cli = s.bump.cli := by
  have hs : single op = true := by cases op <;> first | rfl | (simp [callOf] at hc)
  rcases hsd : send E op.first s with ⟨os, s1⟩
  rcases out_cases os with ⟨mid, rfl⟩ | hf
  · obtain ⟨fr, k1, _, rfl, k3, k4, k5⟩ := send_ok_inv hsd
    have hq := isCall_first hc k1
    have hu := uid_first hc k1
    have hmid := requestFrame_mid (sends_keepsMid (first_sent op hs)) k1
    rcases single_cases op hs with h1 | h1
    · obtain ⟨ib, g1, g2⟩ := runOp_oneReply E op h1 s s1 _ hsd
      rw [h] at g2
      obtain ⟨rfl, rfl⟩ := Prod.mk.inj g2
      rcases hn : flatNext (E.V.tail s1.w.srv) s.cli.mid s1.w.flat with ⟨on, b'⟩
      rw [hn] at ho g1
      cases on with
      | ok q =>
        obtain ⟨f, ha, hp⟩ := awaits_of_flatNext _ _ _ _ (Nat.lt_succ_self _) q b' hn
        obtain ⟨i, r⟩ := q
        obtain rfl := (C17_read f i r hp).1
        have hr : Round E.V s.w.srv s.w.inbox.flatten (message fr) f (s1.setInbox ib).w.srv (s1.setInbox ib).w.inbox.flatten :=
          ⟨k4, _, hmid, by rw [← k5]; exact g1.symm ▸ ha⟩
        show ∃ r : Answer, (op.decode i (f.drop 32)).out = r.outcome ∧ _
        have ho : Conclusive (op.decode i (f.drop 32)).out := ho
        cases hd : op.decode i (f.drop 32) with
        | ok v =>
          refine ⟨.value v, rfl, ⟨message fr, hq, hu, ?_⟩, k3⟩
          have hg := decode_said hc hp hd
          cases op <;> cases hc <;> first | exact ⟨f, hr, hg⟩ | (simp [oneReply] at h1; done)
        | err e =>
          rw [hd] at ho
          cases e <;> first | (cases ho; done) | skip
          obtain ⟨status, rfl, hg⟩ := decode_refuses hc hp hd
          refine ⟨.refused status, rfl, ⟨message fr, hq, hu, ?_⟩, k3⟩
          cases op <;> cases hc <;> first | exact ⟨f, hr, hg⟩ | (simp [oneReply] at h1; done)
        | panic => rw [hd] at ho; cases ho
      | err e =>
        cases e <;> first | (cases ho; done) | skip
        exact absurd (congrArg Prod.fst hn) (flatNext_silent _ _ _ _ (Nat.lt_succ_self _) _)
      | panic => cases ho
      | pending => cases ho
      | running => cases ho
    · obtain ⟨ib, g1, g2⟩ := runOp_find E op h1 s s1 _ hsd
      rw [h] at g2
      obtain ⟨rfl, rfl⟩ := Prod.mk.inj g2
      have key : ∀ {β : Type} (sub : SubReply2 β) (g : β → Val), op.search = (fun mid t => M.map' g (flatCollect sub mid t)) →
          (∃ a P D, (op.search s.cli.mid (E.V.tail s1.w.srv) s1.w.flat).1 = .ok (g a) ∧ sub P D = .ok a ∧
            SearchRound E.V s.w.srv s.w.inbox.flatten (message fr) P D (s1.setInbox ib).w.srv (s1.setInbox ib).w.inbox.flatten) ∨
          ∃ status, (op.search s.cli.mid (E.V.tail s1.w.srv) s1.w.flat).1 = (Answer.refused status).outcome ∧
            SearchRefused E.V s.w.srv s.w.inbox.flatten (message fr) status (s1.setInbox ib).w.srv (s1.setInbox ib).w.inbox.flatten := by
        intro β sub g e
        rw [e] at ho g1 ⊢
        rcases hcol : flatCollect sub s.cli.mid (E.V.tail s1.w.srv) s1.w.flat with ⟨oc, b'⟩
        cases oc with
        | ok a =>
          have e2 := map'_ok (g := g) hcol
          dsimp only at g1
          rw [e2] at g1
          obtain ⟨l, P, D, j1, j2, j3, j4⟩ := (collect_iff sub _ _ _ _ a).mp hcol
          rw [k5] at j1
          exact .inl ⟨a, P, D, congrArg Prod.fst e2, j4, k4, _, l, hmid, g1.symm ▸ j1, j2, j3⟩
        | err x =>
          have e2 := map'_err (g := g) hcol
          dsimp only at g1 ho
          rw [e2] at g1 ho
          cases x <;> first | (cases ho; done) | skip
          obtain ⟨l, b1, f, status, j1, j2, j3, rfl, j5⟩ := collect_refused sub _ _ _ _ _ hcol
          rw [k5] at j1
          exact .inr ⟨status, congrArg Prod.fst e2, k4, _, l, b1, f, hmid, j1, j2, g1.symm ▸ j3, j5⟩
        | panic => have e2 := map'_panic (g := g) hcol; dsimp only at ho; rw [e2] at ho; cases ho
        | pending =>
          dsimp only at ho
          unfold M.map' M.bind at ho
          rw [hcol] at ho
          cases ho
        | running =>
          dsimp only at ho
          unfold M.map' M.bind at ho
          rw [hcol] at ho
          cases ho
      cases op <;> cases hc <;> first | (simp [Op.isFind] at h1; done) | skip
      · rcases key findFirst2Parse Val.first rfl with ⟨a, P, D, e1, e2, e3⟩ | ⟨status, e1, e2⟩
        · exact ⟨.value (.first a), e1, ⟨message fr, hq, hu, P, D, e3, ((findFirst_parse P D).1 _).mp e2⟩, k3⟩
        · exact ⟨.refused status, e1, ⟨message fr, hq, hu, e2⟩, k3⟩
      · rcases key findNext2Parse Val.next rfl with ⟨a, P, D, e1, e2, e3⟩ | ⟨status, e1, e2⟩
        · exact ⟨.value (.next a), e1, ⟨message fr, hq, hu, P, D, e3, ((findNext_parse P D).1 _).mp e2⟩, k3⟩
        · exact ⟨.refused status, e1, ⟨message fr, hq, hu, e2⟩, k3⟩
  · exfalso
    have hx : ∀ {β : Type} (m : UInt16 → CM σ β) (g : β → Val), M.map' g (send E op.first >>= m) s = (os.recast, s1) := by
      intro β m g
      have := M.bind_fails (f := m) hsd hf
      unfold M.map' M.bind
      rw [this]
      cases os <;> first | rfl | exact absurd rfl (hf _)
    have ho' : o = os.recast := by
      have e : runOp E op s = (os.recast, s1) := by
        cases op <;> first | exact hx _ _ | cases hc
      rw [h] at e
      exact (Prod.mk.inj e).1
    subst ho'
    cases os with
    | err e =>
      cases e <;> first | (cases ho; done) | exact send_silent E _ s _ (congrArg Prod.fst hsd)
    | ok a => exact hf a rfl
    | panic => cases ho
    | pending => cases ho
    | running => cases ho

end Cifs
