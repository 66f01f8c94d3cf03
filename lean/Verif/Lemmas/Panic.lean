import Verif.Spec.Panic
import Verif.Lemmas.Gather
import Verif.Lemmas.Transact
import Verif.Lemmas.Entries
import Verif.Props.Setup
import Verif.Props.Decode
/-! # When an operation panics -/

namespace Cifs
open Spec

variable {σ : Type}

theorem parse_no_panic (f : Bytes) : Info.parse f ≠ .panic := by
  intro h
  by_cases hg : Genuine f
  · obtain ⟨i, r, e⟩ := (C13_accepted_iff f).mpr hg
    rw [e] at h; cases h
  · by_cases h1 : 32 ≤ f.length ∧ magicOf (message f) = some smbMagic
    · rcases (C13_rejected f).2 hg h1.1 h1.2 with ⟨_, _, _, e⟩ | ⟨_, _, _, e⟩ <;> rw [e] at h <;> cases h
    · have e := (C13_rejected f).1.mpr h1
      rw [e] at h; cases h

theorem flatNext_no_panic (t : Tail) (mid : UInt16) (b : Bytes) : (flatNext t mid b).1 ≠ .panic := by
  induction hn : b.length using Nat.strongRecOn generalizing b with
  | _ n ih =>
    rw [flatNext_eq]
    have hc := flatMsg_cases t b
    rcases hm : flatMsg t b with ⟨o, b'⟩
    rw [hm] at hc
    cases o with
    | ok f =>
      dsimp only
      cases hp : Info.parse f with
      | ok p =>
        dsimp only
        split
        · intro h; cases h
        · exact ih _ (by have := hc.2.2.2 f rfl; dsimp only at this; omega) b' rfl
      | err e => intro h; cases h
      | panic => exact absurd hp (parse_no_panic f)
    | err e => intro h; cases h
    | panic => exact absurd rfl hc.2.1
    | pending => intro h; cases h
    | running => intro h; cases h

theorem accept_panic {α : Type} {R : Reply α} (hR : R.cmd ≠ .SessionSetup) {f : Bytes} {i : Info} (hp : Info.parse f = .ok (i, f.drop 32)) :
    accept R i (f.drop 32) = .panic ↔ cmdOf (message f) = some R.cmd.code.toNat ∧ statusOf (message f) = some 0 ∧
      ((¬ ∃ ps ds, ReplyBody (message f) ps ds) ∨ ∃ ps ds, ReplyBody (message f) ps ds ∧ R.make i ps ds = .panic) := by
  have hr := C17_read f i _ hp
  have hg := (C13_accepted_iff f).mp ⟨_, _, hp⟩
  rw [hr.2.1, hr.2.2.1]
  unfold accept
  by_cases hc : i.cmd = R.cmd
  · rw [if_neg (by simpa using hc)]
    by_cases hs : i.status = .Known .SUCCESS
    · rw [if_pos (.inl hs), hs, hc]
      by_cases hb : ∃ ps ds, ReplyBody (message f) ps ds
      · obtain ⟨ps, ds, hb⟩ := hb
        rw [parse_body R i hg.1 hb]
        constructor
        · intro h
          refine ⟨rfl, rfl, .inr ⟨ps, ds, hb, ?_⟩⟩
          cases hm : R.make i ps ds <;> rw [hm] at h <;> first | rfl | cases h
        · rintro ⟨_, _, h | ⟨ps', ds', hb', h⟩⟩
          · exact absurd ⟨ps, ds, hb⟩ h
          · rw [← parse_body R i hg.1 hb, parse_body R i hg.1 hb', h]; rfl
      · rw [parse_short R i hg.1 hb]
        exact ⟨fun _ => ⟨rfl, rfl, .inl hb⟩, fun _ => rfl⟩
    · rw [if_neg (by
        rintro (h | h)
        · exact hs h
        · exact hR (hc ▸ h.2))]
      constructor
      · intro h; cases h
      · rintro ⟨_, h, _⟩
        exact absurd (status_zero (parse_status hp) (Option.some.inj h)) hs
  · rw [if_pos hc]
    constructor
    · intro h; cases h
    · rintro ⟨h, _⟩
      exact absurd (code_inj (Option.some.inj h)) hc

/-- A reply of a single-reply operation whose request was sent, with the outcome. -/
theorem panic_iff {α : Type} (R : Reply α) (g : α → Val) (hR' : R.cmd ≠ .SessionSetup) {E : Env σ} {log : σ → List Bytes} (hlog : Logs E.V log) {op : Op}
    (ho : oneReply op = true) (hd : ∀ i b, op.decode i b = (accept R i b).mapOk g) (hR : R.cmd = op.first.cmd)
    (hb : ∀ f i u ps ds, Info.parse f = .ok (i, f.drop 32) → unicodeOf (message f) = some u → ReplyBody (message f) ps ds →
      (R.make i ps ds = .panic ↔ BadBody u op ps ds)) {s : St σ} {req : Bytes}
    (h : log (runOp E op s).2.w.srv = log s.w.srv ++ [req]) : (runOp E op s).1 = .panic ↔ Crashes E log op s := by
  have hs : single op = true := by cases op <;> first | rfl | (simp [oneReply] at ho)
  have key : ∀ f i, Info.parse f = .ok (i, f.drop 32) → ((op.decode i (f.drop 32)).out = .panic ↔
      ∃ c, cmdOf (message f) = some c ∧ c ∈ codes op ∧ statusOf (message f) = some 0 ∧ ((¬ ∃ ps ds, ReplyBody (message f) ps ds) ∨
        ∃ u ps ds, ReplyBody (message f) ps ds ∧ unicodeOf (message f) = some u ∧ BadBody u op ps ds)) := by
    intro f i hp
    obtain ⟨u, hu⟩ : ∃ u, unicodeOf (message f) = some u := by
      have hr := (C17_read f i _ hp).2.2.2.2.1
      obtain ⟨n, h1, _⟩ := hr
      exact ⟨_, by rw [unicodeOf, h1]; rfl⟩
    have e : (op.decode i (f.drop 32)).out = .panic ↔ accept R i (f.drop 32) = .panic := by
      rw [hd]
      cases accept R i (f.drop 32) <;> simp [Res.mapOk, Res.out]
    rw [e, accept_panic hR' hp, codes_first op hs, ← hR]
    constructor
    · rintro ⟨h1, h2, h3⟩
      refine ⟨_, h1, by simp, h2, ?_⟩
      rcases h3 with h3 | ⟨ps, ds, h3, h4⟩
      · exact .inl h3
      · exact .inr ⟨u, ps, ds, h3, hu, (hb f i u ps ds hp hu h3).mp h4⟩
    · rintro ⟨c, h1, hc, h2, h3⟩
      cases List.mem_singleton.mp hc
      refine ⟨h1, h2, ?_⟩
      rcases h3 with h3 | ⟨u, ps, ds, h3, hu, h4⟩
      · exact .inl h3
      · exact .inr ⟨ps, ds, h3, (hb f i u ps ds hp hu h3).mpr h4⟩
  constructor
  · intro hv
    obtain ⟨fr, s1, e1, e2, e3, e4, e5, e6, e7⟩ := single_send E log hlog op hs s req h
    obtain ⟨ib, _, hr⟩ := runOp_oneReply E op ho s s1 _ e4
    rw [hr] at hv
    rcases hn : flatNext (E.V.tail s1.w.srv) s.cli.mid s1.w.flat with ⟨o, b'⟩
    have hnp := flatNext_no_panic (E.V.tail s1.w.srv) s.cli.mid s1.w.flat
    rw [hn] at hv hnp
    cases o with
    | ok p =>
      obtain ⟨f, ha, hp⟩ := awaits_of_flatNext _ _ _ _ (Nat.lt_succ_self _) _ _ hn
      obtain ⟨i, r⟩ := p
      have hr := (C17_read f i r hp).1
      subst hr
      obtain ⟨c, h1, h2, h3, h4⟩ := (key f i hp).mp hv
      refine ⟨f, b', c, ⟨req, s.cli.mid.toNat, h, ?_, ?_⟩, h1, h2, h3, h4⟩
      · rw [e3]; exact requestFrame_mid (sends_keepsMid (first_sent op hs)) e1
      · rw [← e7]; exact ha
    | err e => cases hv
    | panic => exact absurd rfl hnp
    | pending => cases hv
    | running => cases hv
  · rintro ⟨f, rest, c, hx, h1, h2, h3, h4⟩
    obtain ⟨i, hp, ho, _, _⟩ := exchange_eq hlog ho hx
    rw [ho]
    exact (key f i hp).mpr ⟨c, h1, h2, h3, h4⟩

/-! ## The reply types -/

theorem andx_panic {α : Type} (R : Reply α) (hR : R.andx = true) (i : Info) {ps ds : Bytes} : R.make i ps ds = .panic ↔
    ps.length < 4 ∨ LastAndX ps ∧ R.create { info := i, parameter := ps.drop 4, data := ds, dataOffset := 35 + ps.length } = .panic := by
  by_cases hl : ps.length < 4
  · rw [make_andx_short R hR i hl]; simp [hl]
  · by_cases hx : LastAndX ps
    · rw [make_andx R hR i hx.1 hx.2]
      exact ⟨fun h => .inr ⟨hx, h⟩, fun h => by rcases h with h | h; exact absurd h hl; exact h.2⟩
    · obtain ⟨e, he⟩ := make_andx_more R hR i (ds := ds) (by omega) hx
      rw [he]
      refine ⟨fun h => ?_, fun h => ?_⟩
      · cases h
      · rcases h with h | h
        · exact absurd h hl
        · exact absurd h.1 hx

theorem Handle.create_panic (i : Info) (ps ds : Bytes) (o : Nat) :
    Handle.create { info := i, parameter := ps.drop 4, data := ds, dataOffset := o } = .panic ↔ ps.length < 68 := by
  by_cases h : ps.length < 68
  · rw [Handle.create_short i o (by rw [List.length_drop]; omega)]; simp [h]
  · obtain ⟨d, hd⟩ : ∃ d, u8At ps 67 = some d := by
      unfold u8At
      rw [List.getElem?_eq_getElem (by omega)]
      exact ⟨_, rfl⟩
    have := Handle.create_eq (ds := ds) i o (by omega) d hd
    refine ⟨fun hp => ?_, fun h' => absurd h' h⟩
    split at this
    · obtain ⟨v, e, _⟩ := this
      rw [e] at hp; cases hp
    · rw [this] at hp; cases hp

theorem readCreate_panic (i : Info) (ps ds : Bytes) (o : Nat) :
    readCreate { info := i, parameter := ps.drop 4, data := ds, dataOffset := o } = .panic ↔ ps.length < 12 := by
  by_cases h : ps.length < 12
  · rw [readCreate_short i o (by rw [List.length_drop]; omega)]; simp [h]
  · obtain ⟨n, hn⟩ : ∃ n, u16At ps 10 = some n := by
      cases e : u16At ps 10 with
      | some n => exact ⟨n, rfl⟩
      | none =>
        have h0 : ∀ k, k < 12 → ∃ n, u8At ps k = some n := fun k hk => by
          unfold u8At
          rw [List.getElem?_eq_getElem (by omega)]
          exact ⟨_, rfl⟩
        obtain ⟨a, ha⟩ := h0 10 (by omega)
        obtain ⟨b, hb⟩ := h0 11 (by omega)
        unfold u16At at e
        rw [ha, show 10 + 1 = 11 from rfl, hb] at e
        cases e
    rw [readCreate_eq i o hn]
    refine ⟨fun hp => ?_, fun h' => absurd h' h⟩
    split at hp
    · cases hp
    · split at hp <;> cases hp

theorem parseStr0_cases {ε : Type} (e : ε) (b : Bytes) :
    (parseStr0 e b = .err e ∧ ∀ s r, '\x00' ∉ s → b ≠ utf8Bytes s ++ 0 :: r) ∨
      ∃ s r, parseStr0 e b = .ok (s, r) ∧ '\x00' ∉ s ∧ b = utf8Bytes s ++ 0 :: r := by
  unfold parseStr0
  by_cases h0 : (0 : UInt8) ∈ b
  · obtain ⟨x, y, rfl, hx⟩ := List.eq_append_cons_of_mem h0
    rw [parseStr0Loop_clean e [] x y hx, List.nil_append]
    cases hs : fromUtf8 x with
    | some s =>
      refine .inr ⟨s, y, rfl, ?_, ?_⟩
      · rw [← mem_utf8_zero, utf8_fromUtf8 x s hs]; exact hx
      · rw [← utf8_bytes, utf8_fromUtf8 x s hs]
    | none =>
      refine .inl ⟨rfl, fun s r h1 h2 => ?_⟩
      rw [← utf8_bytes] at h2
      obtain ⟨h3, _⟩ := nul_split hx (by rwa [mem_utf8_zero]) h2
      rw [h3, fromUtf8_utf8] at hs
      cases hs
  · refine .inl ⟨parseStr0Loop_open e [] b h0, fun s r h1 h2 => h0 ?_⟩
    rw [h2]; simp

theorem Share.create_panic {f : Bytes} {i : Info} {u : Bool} (hp : Info.parse f = .ok (i, f.drop 32)) (hu : unicodeOf (message f) = some u) (ps ds : Bytes)
    (o : Nat) : Share.create { info := i, parameter := ps.drop 4, data := ds, dataOffset := o } = .panic ↔ ps.length < 6 ∨
      u = true ∧ ∃ service, '\x00' ∉ service ∧ ds = utf8Bytes service ++ [0] ∧ (utf8Bytes service).length % 2 = 1 := by
  by_cases h : ps.length < 6
  · rw [Share.create_short i o (by rw [List.length_drop]; omega)]; simp [h]
  obtain ⟨ar, gr, b, b', h1, h2, h3, h4⟩ := rights_eq (ps := ps) (by omega)
  have e : ps.drop 4 = (ps.drop 4).take 2 ++ ps.drop 6 := by
    rw [show ps.drop 6 = (ps.drop 4).drop 2 by rw [List.drop_drop], List.take_append_drop]
  unfold Share.create
  dsimp only
  rw [e, Rd.advance_append 2 _ _ (by simp; omega)]
  simp only [Res.ok_bind]
  rw [h3]
  simp only [Res.ok_bind]
  rw [h4]
  simp only [Res.ok_bind]
  rw [unicode_contains hp hu]
  have hno : ∀ (e : SmbError) (b : Bytes), parseStr0 e b ≠ .panic := by
    intro e b
    rcases parseStr0_cases e b with ⟨h, _⟩ | ⟨_, _, h, _⟩ <;> rw [h] <;> intro h <;> cases h
  have hno' : ∀ (e : SmbError) (b : Bytes), parseUtf16le0 e b ≠ .panic := by
    have : ∀ (e : SmbError) (n : Nat) (b : Bytes) (acc : List Nat), b.length < n → parseUtf16le0Loop e acc b ≠ .panic := by
      intro e n
      induction n with
      | zero => intro b acc h; omega
      | succ n ih =>
        intro b acc hl
        unfold parseUtf16le0Loop
        split
        · intro h; cases h
        · intro h; cases h
        · split
          · split <;> intro h <;> cases h
          · rename_i r _
            exact ih r _ (by simp at hl; omega)
    intro e b
    exact this e _ b [] (Nat.lt_succ_self _)
  rcases parseStr0_cases SmbError.InvalidData ds with ⟨e1, e2⟩ | ⟨sv, r, e1, e2, e3⟩
  · rw [e1]
    refine ⟨fun h => ?_, fun h' => ?_⟩
    · cases h
    · rcases h' with h' | ⟨_, sv, h5, h6, _⟩
      · exact absurd h' h
      · exact absurd h6 (e2 sv [] h5)
  · rw [e1]
    simp only [Res.ok_bind]
    rw [utf8_bytes]
    cases u with
    | false =>
      rw [if_neg (by simp)]
      have := hno .InvalidData r
      refine ⟨fun h' => ?_, fun h' => ?_⟩
      · cases hx : (parseStr0 SmbError.InvalidData r) <;> rw [hx] at h' <;> first | exact absurd hx this | cases h'
      · rcases h' with h' | ⟨h', _⟩
        · exact absurd h' h
        · cases h'
    | true =>
      rw [if_pos rfl]
      by_cases h5 : (utf8Bytes sv).length % 2 = 1
      · rw [if_pos h5]
        cases r with
        | nil =>
          rw [Rd.advance_short (by simp)]
          exact ⟨fun _ => .inr ⟨rfl, sv, e2, e3, h5⟩, fun _ => rfl⟩
        | cons x r =>
          rw [show x :: r = [x] ++ r from rfl, Rd.advance_append 1 _ _ rfl]
          simp only [Res.ok_bind]
          have := hno' .InvalidData r
          refine ⟨fun h' => ?_, fun h' => ?_⟩
          · cases hx : (parseUtf16le0 SmbError.InvalidData r) <;> rw [hx] at h' <;> first | exact absurd hx this | cases h'
          · rcases h' with h' | ⟨_, sv', h6, h7, _⟩
            · exact absurd h' h
            · rw [e3] at h7
              rw [← utf8_bytes, ← utf8_bytes] at h7
              have := (nul_split (by rwa [mem_utf8_zero]) (by rwa [mem_utf8_zero]) h7).2
              cases this
      · rw [if_neg h5]
        simp only [Res.ok_bind]
        have := hno' .InvalidData r
        refine ⟨fun h' => ?_, fun h' => ?_⟩
        · cases hx : (parseUtf16le0 SmbError.InvalidData r) <;> rw [hx] at h' <;> first | exact absurd hx this | cases h'
        · rcases h' with h' | ⟨_, sv', h6, h7, h8⟩
          · exact absurd h' h
          · rw [e3] at h7
            rw [← utf8_bytes, ← utf8_bytes] at h7
            have := (nul_split (by rwa [mem_utf8_zero]) (by rwa [mem_utf8_zero]) h7).1
            rw [utf8_bytes, utf8_bytes] at this
            rw [this] at h5
            exact absurd h8 h5

/-- When a single-reply operation whose request was sent panics. -/
theorem oneReply_panic {E : Env σ} {log : σ → List Bytes} (hlog : Logs E.V log) {op : Op} (ho : oneReply op = true) {s : St σ} {req : Bytes}
    (h : log (runOp E op s).2.w.srv = log s.w.srv ++ [req]) : (runOp E op s).1 = .panic ↔ Crashes E log op s := by
  have plain : ∀ (R : Reply Unit), R.andx = false → (∀ c, R.create c = .ok ()) → ∀ i ps ds, R.make i ps ds = .panic ↔ False := by
    intro R h1 h2 i ps ds
    rw [make_plain R h1 i, h2]
    simp
  cases op
  case download => simp [oneReply] at ho
  case list => simp [oneReply] at ho
  case findFirst => simp [oneReply] at ho
  case findNext => simp [oneReply] at ho
  case mount =>
    refine panic_iff Share.reply Val.share (by decide) hlog rfl (fun _ _ => rfl) rfl (fun f i u ps ds hp hu _ => ?_) h
    rw [andx_panic Share.reply rfl i]
    have := Share.create_panic hp hu ps ds (35 + ps.length)
    exact or_congr Iff.rfl (and_congr Iff.rfl this)
  case umount =>
    refine panic_iff treeDisconnectReply (fun _ => Val.unit) (by decide) hlog rfl (fun _ _ => rfl) rfl (fun f i u ps ds hp hu _ => ?_) h
    exact plain treeDisconnectReply rfl (fun _ => rfl) i ps ds
  case openfile =>
    refine panic_iff Handle.reply Val.handle (by decide) hlog rfl (fun _ _ => rfl) rfl (fun f i u ps ds hp hu _ => ?_) h
    rw [andx_panic Handle.reply rfl i]
    exact or_congr Iff.rfl (and_congr Iff.rfl (Handle.create_panic i ps ds (35 + ps.length)))
  case opendir =>
    refine panic_iff Handle.reply Val.handle (by decide) hlog rfl (fun _ _ => rfl) rfl (fun f i u ps ds hp hu _ => ?_) h
    rw [andx_panic Handle.reply rfl i]
    exact or_congr Iff.rfl (and_congr Iff.rfl (Handle.create_panic i ps ds (35 + ps.length)))
  case close =>
    refine panic_iff closeReply (fun _ => Val.unit) (by decide) hlog rfl (fun _ _ => rfl) rfl (fun f i u ps ds hp hu _ => ?_) h
    exact plain closeReply rfl (fun _ => rfl) i ps ds
  case read =>
    refine panic_iff readReply Val.bytes (by decide) hlog rfl (fun _ _ => rfl) rfl (fun f i u ps ds hp hu _ => ?_) h
    rw [andx_panic readReply rfl i]
    exact or_congr Iff.rfl (and_congr Iff.rfl (readCreate_panic i ps ds (35 + ps.length)))
  case delete =>
    refine panic_iff deleteReply (fun _ => Val.unit) (by decide) hlog rfl (fun _ _ => rfl) rfl (fun f i u ps ds hp hu _ => ?_) h
    exact plain deleteReply rfl (fun _ => rfl) i ps ds
  case rmdir =>
    refine panic_iff rmdirReply (fun _ => Val.unit) (by decide) hlog rfl (fun _ _ => rfl) rfl (fun f i u ps ds hp hu _ => ?_) h
    exact plain rmdirReply rfl (fun _ => rfl) i ps ds
  case notify =>
    refine panic_iff (transactReply notificationParse) Val.changes (by decide) hlog rfl (fun _ _ => rfl) rfl (fun f i u ps ds hp hu _ => ?_) h
    rw [make_plain _ rfl i]
    exact (notify_create i ps ds).2

/-! ## Searches -/

theorem enough_append {l l' : List Piece} (h : Enough l) : Enough (l ++ l') := by
  cases l with
  | nil => cases h
  | cons p l =>
    obtain ⟨h1, h2⟩ := h
    refine ⟨?_, ?_⟩
    · have : (((p :: l) ++ l').map fun q => q.params.length).sum = ((p :: l).map fun q => q.params.length).sum + (l'.map fun q => q.params.length).sum := by
        rw [List.map_append, List.sum_append]
      show _ ≤ (((p :: l) ++ l').map fun q => q.params.length).sum
      omega
    · have : (((p :: l) ++ l').map fun q => q.data.length).sum = ((p :: l).map fun q => q.data.length).sum + (l'.map fun q => q.data.length).sum := by
        rw [List.map_append, List.sum_append]
      show _ ≤ (((p :: l) ++ l').map fun q => q.data.length).sum
      omega

theorem piece_panic (t : Tail) (mid : UInt16) (b : Bytes) : (flatReply trans2Reply mid t b).1 = .panic ↔ ∃ f rest, Awaits mid.toNat b f rest ∧ BadPiece f := by
  have key : ∀ f i, Info.parse f = .ok (i, f.drop 32) → (accept trans2Reply i (f.drop 32) = .panic ↔ BadPiece f) := by
    intro f i hp
    have hg := (C13_accepted_iff f).mp ⟨_, _, hp⟩
    rw [accept_panic (by decide) hp]
    refine and_congr Iff.rfl (and_congr Iff.rfl (or_congr Iff.rfl ?_))
    have e : ∀ ps ds, trans2Reply.make i ps ds = .panic ↔ ShortPiece ps ds := by
      intro ps ds
      rw [make_plain trans2Reply rfl i]
      rcases trans2_create i ps ds with ⟨p, _, h2, e⟩ | ⟨h1, _, e⟩ | ⟨h1, _, e⟩
      · rw [show trans2Reply.create _ = _ from e]; simp [h2]
      · rw [show trans2Reply.create _ = _ from e]; simp [h1]
      · rw [show trans2Reply.create _ = _ from e]; simp [h1]
    simp only [e]
  constructor
  · intro h
    rcases hn : flatNext t mid b with ⟨o, b1⟩
    have hnp := flatNext_no_panic t mid b
    rw [hn] at hnp
    rw [flatReply_eq] at h
    cases o with
    | ok p =>
      obtain ⟨f, ha, hp⟩ := awaits_of_flatNext t mid _ b (Nat.lt_succ_self _) p b1 hn
      obtain ⟨i, r⟩ := p
      have hr := (C17_read f i r hp).1
      subst hr
      refine ⟨f, b1, ha, (key f i hp).mp ?_⟩
      have h : ((M.ofRes id (accept trans2Reply i (f.drop 32)) : M Error Bytes _) b1).1 = .panic := (congrArg Prod.fst (M.bind_ok hn)).symm.trans h
      cases hx : accept trans2Reply i (f.drop 32) <;> rw [hx] at h <;> first | rfl | cases h
    | err e => exact absurd ((congrArg Prod.fst (M.bind_err hn)).symm.trans h) (by simp)
    | panic => exact absurd rfl hnp
    | pending => exact absurd ((congrArg Prod.fst (M.bind_pending hn)).symm.trans h) (by simp)
    | running => exact absurd ((congrArg Prod.fst (M.bind_running hn)).symm.trans h) (by simp)
  · rintro ⟨f, rest, ha, hb⟩
    obtain ⟨i, hi, e⟩ := reply_awaits trans2Reply t mid ha
    rw [e, (key f i hi).mpr hb]
    rfl

theorem page_panic {op : Op} (ho : op.isFind = true) (P D : Bytes) : op.page P D = .panic ↔ BadPage op P D := by
  cases op <;> first | (simp [Op.isFind] at ho; done) | skip
  case findFirst =>
    show (findFirst2Parse P D).mapOk Val.first = .panic ↔ 10 ≤ P.length ∧ OddEntries true D
    rw [← (findFirst_parse P D).2]
    cases findFirst2Parse P D <;> simp [Res.mapOk]
  case findNext =>
    show (findNext2Parse P D).mapOk Val.next = .panic ↔ 4 ≤ P.length ∧ OddEntries false D
    rw [← (findNext_parse P D).2]
    cases findNext2Parse P D <;> simp [Res.mapOk]

/-- When a search whose request was sent panics. -/
theorem find_panic {E : Env σ} {log : σ → List Bytes} (hlog : Logs E.V log) {op : Op} (ho : op.isFind = true) {s : St σ} {req : Bytes}
    (h : log (runOp E op s).2.w.srv = log s.w.srv ++ [req]) : (runOp E op s).1 = .panic ↔ SearchCrashes E log op s := by
  have hs := isFind_single ho
  have out_panic : ∀ {r : Res SmbError Val}, ((r.mapErr Error.SMBError).out = .panic ↔ r = .panic) := by
    intro r; cases r <;> simp [Res.mapErr, Res.out]
  obtain ⟨fr, s1, e1, e2, e3, e4, e5, e6, e7⟩ := single_send E log hlog op hs s req h
  have hmid : midOf req = some s.cli.mid.toNat := by
    rw [e3]; exact requestFrame_mid (sends_keepsMid (first_sent op hs)) e1
  obtain ⟨ib, _, hr⟩ := runOp_find E op ho s s1 _ e4
  constructor
  · intro hv
    rw [hr] at hv
    rw [show ((op.search s.cli.mid (E.V.tail s1.w.srv) s1.w.flat).1, s1.setInbox ib).1 = _ from search_gather op ho _ _ _] at hv
    obtain ⟨l, rest, hp, hc⟩ := gather_cases (E.V.tail s1.w.srv) s.cli.mid _ s1.w.flat (Nat.lt_succ_self _) [] agree_nil
    rw [e7] at hp
    rcases hc with ⟨r, h1, h2⟩ | ⟨h1, o, b', h2, h3, h4⟩
    · left
      have h2 : (flatGather (E.V.tail s1.w.srv) s.cli.mid .new s1.w.flat).1 = _ := h2
      rw [h2] at hv
      rcases take_cases l [] agree_nil with ⟨pre, post, rfl, k1, k2, k3, k4⟩ | ⟨r', k1, k2⟩ | ⟨k1, _⟩
      · rw [k4] at h1
        cases h1
        obtain ⟨rest', hp'⟩ := pieces_prefix hp
        have hv : (((op.finish (ctxOf ([] ++ pre))).mapErr Error.SMBError).out : Out Error Val) = .panic := hv
        rw [out_panic] at hv
        rcases sub_cases op.page k1 k2 with ⟨P, D, hcut, e⟩ | ⟨_, r, e⟩
        · rw [Op.finish, List.nil_append, e, page_panic ho] at hv
          exact ⟨pre, rest', P, D, ⟨req, _, h, hmid, hp'⟩, hcut, hv⟩
        · rw [Op.finish, List.nil_append, e] at hv; cases hv
      · rw [k1] at h1
        cases h1
        cases hv
      · rw [k1] at h1; cases h1
    · right
      have h4 : (flatGather (E.V.tail s1.w.srv) s.cli.mid .new s1.w.flat).1 = _ := h4
      rw [h4] at hv
      have ho' : o = .panic := by
        cases o with
        | ok r => exact absurd rfl (h3 r)
        | panic => rfl
        | err e => cases hv
        | pending => cases hv
        | running => cases hv
      obtain ⟨f, rest', ha, hb⟩ := (piece_panic (E.V.tail s1.w.srv) s.cli.mid rest).mp (by rw [h2, ho'])
      rcases take_cases l [] agree_nil with ⟨pre, post, _, _, _, _, k4⟩ | ⟨r', k1, k2⟩ | ⟨_, k2, k3⟩
      · exact absurd (h1.symm.trans k4) (by simp)
      · exact absurd (h1.symm.trans k1) (by simp)
      · exact ⟨req, _, l, rest, f, rest', h, hmid, hp, k2, k3, ha, hb⟩
  · rintro (⟨l, rest, P, D, hl, hc, hb⟩ | ⟨req', mid, l, rest, f, rest', h1, h2, hp, hag, hen, ha, hb⟩)
    · rw [searched_cuts hlog ho hl hc, out_panic, page_panic ho]
      exact hb
    · have : req' = req := by
        rw [h] at h1
        exact (List.singleton_inj.mp (List.append_cancel_left h1)).symm
      subst this
      rw [hmid] at h2
      cases h2
      rw [hr]
      rw [show ((op.search s.cli.mid (E.V.tail s1.w.srv) s1.w.flat).1, s1.setInbox ib).1 = _ from search_gather op ho _ _ _]
      rw [← e7] at hp
      have hn : takePieces (ctxOf []) l = none := by
        rcases take_cases l [] agree_nil with ⟨pre, post, rfl, k1, k2, k3, k4⟩ | ⟨r', k1, k2⟩ | ⟨k1, _⟩
        · exact absurd (enough_append (l' := post) k3) (hen (by cases pre <;> simp_all))
        · exact absurd hag k2
        · exact k1
      have e : flatGather (E.V.tail s1.w.srv) s.cli.mid .new s1.w.flat = flatGather _ _ (ctxOf ([] ++ l)) rest := gather_none _ _ hp [] agree_nil hn
      rw [e, flatGather_eq]
      have := (piece_panic (E.V.tail s1.w.srv) s.cli.mid rest).mpr ⟨f, rest', ha, hb⟩
      rcases hx : flatReply trans2Reply s.cli.mid (E.V.tail s1.w.srv) rest with ⟨o, b'⟩
      rw [hx] at this
      cases this
      rfl

end Cifs
