import Verif.Lemmas.Cause
import Verif.Lemmas.Said
/-!
# What a reply does to the client

The decoders fail with one error only, except for what `Complaint` names; so the outcome of a reply is what `Means` says.
-/

namespace Cifs
open Spec

variable {σ α β ε : Type}

/-! ## Decoders with a single error -/

/-- The only error of `r` is `e`. -/
def ErrIs (e : ε) (r : Res ε α) : Prop := ∀ e', r = .err e' → e' = e

theorem ErrIs.ok (e : ε) (a : α) : ErrIs e (.ok a : Res ε α) := fun _ h => by cases h
theorem ErrIs.panic (e : ε) : ErrIs e (.panic : Res ε α) := fun _ h => by cases h
theorem ErrIs.err (e : ε) : ErrIs e (.err e : Res ε α) := fun _ h => by cases h; rfl

theorem ErrIs.bind {e : ε} {r : Res ε α} {f : α → Res ε β} (h : ErrIs e r) (hf : ∀ a, ErrIs e (f a)) : ErrIs e (r.bind f) := by
  cases r with
  | ok a => exact hf a
  | err e' => intro e'' h'; cases h'; exact h _ rfl
  | panic => exact ErrIs.panic e

theorem ErrIs.bindM {e : ε} {r : Res ε α} {f : α → Res ε β} (h : ErrIs e r) (hf : ∀ a, ErrIs e (f a)) : ErrIs e (r >>= f) := ErrIs.bind h hf

theorem ErrIs.ite {e : ε} {c : Prop} [Decidable c] {r r' : Res ε α} (h : ErrIs e r) (h' : ErrIs e r') : ErrIs e (if c then r else r') := by
  split
  · exact h
  · exact h'

theorem ErrIs.getLE (e : ε) (k : Nat) (b : Bytes) : ErrIs e (Rd.getLE k b) := ErrIs.ite (ErrIs.panic e) (ErrIs.ok e _)
theorem ErrIs.getU8 (e : ε) (b : Bytes) : ErrIs e (Rd.getU8 b) := ErrIs.bind (ErrIs.getLE e 1 b) fun _ => ErrIs.ok e _
theorem ErrIs.getU16 (e : ε) (b : Bytes) : ErrIs e (Rd.getU16 b) := ErrIs.bind (ErrIs.getLE e 2 b) fun _ => ErrIs.ok e _
theorem ErrIs.getU32 (e : ε) (b : Bytes) : ErrIs e (Rd.getU32 b) := ErrIs.bind (ErrIs.getLE e 4 b) fun _ => ErrIs.ok e _
theorem ErrIs.getU64 (e : ε) (b : Bytes) : ErrIs e (Rd.getU64 b) := ErrIs.bind (ErrIs.getLE e 8 b) fun _ => ErrIs.ok e _
theorem ErrIs.advance (e : ε) (k : Nat) (b : Bytes) : ErrIs e (Rd.advance k b) := ErrIs.ite (ErrIs.panic e) (ErrIs.ok e _)
theorem ErrIs.copyToBytes (e : ε) (k : Nat) (b : Bytes) : ErrIs e (Rd.copyToBytes k b) := ErrIs.ite (ErrIs.panic e) (ErrIs.ok e _)
theorem ErrIs.sliceRange (e : ε) (d : Bytes) (a b : Nat) : ErrIs e (sliceRange d a b) := ErrIs.ite (ErrIs.ok e _) (ErrIs.panic e)

theorem ErrIs.parseStr0 (e : ε) (b : Bytes) : ErrIs e (parseStr0 e b) := by
  rcases parseStr0_cases e b with ⟨h, _⟩ | ⟨_, _, h, _⟩ <;> rw [h]
  · exact ErrIs.err e
  · exact ErrIs.ok e _

theorem ErrIs.parseUtf16le0Loop (e : ε) (n : Nat) : ∀ (b : Bytes) (acc : List Nat), b.length < n → ErrIs e (parseUtf16le0Loop e acc b) := by
  induction n with
  | zero => intro b acc h; omega
  | succ n ih =>
    intro b acc hl
    unfold Cifs.parseUtf16le0Loop
    split
    · exact ErrIs.err e
    · exact ErrIs.err e
    · split
      · split
        · exact ErrIs.ok e _
        · exact ErrIs.err e
      · rename_i r _
        exact ih r _ (by simp at hl; omega)

theorem ErrIs.parseUtf16le0 (e : ε) (b : Bytes) : ErrIs e (parseUtf16le0 e b) := ErrIs.parseUtf16le0Loop e _ b [] (Nat.lt_succ_self _)

theorem ErrIs.decodeUtf16le (e : ε) (n : Nat) : ∀ b : Bytes, b.length < n → ErrIs e (decodeUtf16le e b) := by
  induction n with
  | zero => intro b h; omega
  | succ n ih =>
    intro b hl
    unfold Cifs.decodeUtf16le
    split
    · exact ErrIs.ok e _
    · exact ErrIs.panic e
    · dsimp only
      split
      · exact ErrIs.bind (ih _ (by simp at hl; omega)) fun _ => ErrIs.ok e _
      · split
        · exact ErrIs.err e
        · split
          · exact ErrIs.err e
          · exact ErrIs.panic e
          · split
            · exact ErrIs.err e
            · exact ErrIs.bind (ih _ (by simp at hl; omega)) fun _ => ErrIs.ok e _

theorem ErrIs.optRights (b : Bytes) : ErrIs .InvalidData (Share.optRights b) := by
  unfold Share.optRights
  exact ErrIs.ite (ErrIs.bindM (ErrIs.getU32 _ _) fun _ => ErrIs.ok _ _) (ErrIs.ok _ _)

theorem Share.create_errIs (ctx : ReplyCtx) : ErrIs .InvalidData (Share.create ctx) := by
  unfold Share.create
  refine ErrIs.bindM (ErrIs.advance _ _ _) fun _ => ErrIs.bindM (ErrIs.optRights _) fun _ => ErrIs.bindM (ErrIs.optRights _) fun _ =>
    ErrIs.bindM (ErrIs.parseStr0 _ _) fun _ => ErrIs.bindM (ErrIs.ite (ErrIs.bindM (ErrIs.ite (ErrIs.advance _ _ _) (ErrIs.ok _ _)) fun _ =>
      ErrIs.parseUtf16le0 _ _) (ErrIs.parseStr0 _ _)) fun _ => ErrIs.ok _ _

theorem Handle.create_errIs (ctx : ReplyCtx) : ErrIs .InvalidData (Handle.create ctx) := by
  unfold Handle.create
  exact ErrIs.bindM (ErrIs.getU8 _ _) fun _ => ErrIs.bindM (ErrIs.getU16 _ _) fun _ => ErrIs.bindM (ErrIs.getU32 _ _) fun _ =>
    ErrIs.bindM (ErrIs.getU64 _ _) fun _ => ErrIs.bindM (ErrIs.getU64 _ _) fun _ => ErrIs.bindM (ErrIs.getU64 _ _) fun _ =>
    ErrIs.bindM (ErrIs.getU64 _ _) fun _ => ErrIs.bindM (ErrIs.getU32 _ _) fun _ => ErrIs.bindM (ErrIs.getU64 _ _) fun _ =>
    ErrIs.bindM (ErrIs.getU64 _ _) fun _ => ErrIs.bindM (ErrIs.getU16 _ _) fun _ => ErrIs.bindM (ErrIs.advance _ _ _) fun _ =>
    ErrIs.bindM (ErrIs.getU8 _ _) fun _ => ErrIs.ite (ErrIs.ok _ _) (ErrIs.err _)

theorem readCreate_errIs (ctx : ReplyCtx) : ErrIs .InvalidData (readCreate ctx) := by
  unfold readCreate
  exact ErrIs.bindM (ErrIs.advance _ _ _) fun _ => ErrIs.bindM (ErrIs.advance _ _ _) fun _ => ErrIs.bindM (ErrIs.advance _ _ _) fun _ =>
    ErrIs.bindM (ErrIs.getU16 _ _) fun _ => ErrIs.bindM (ErrIs.ite (ErrIs.advance _ _ _) (ErrIs.ok _ _)) fun _ =>
    ErrIs.ite (ErrIs.err _) (ErrIs.bindM (ErrIs.copyToBytes _ _ _) fun _ => ErrIs.ok _ _)

theorem transBlock_errIs (d : Bytes) (o r n : Nat) : ErrIs .InvalidData (transBlock d o r n) := by
  unfold transBlock
  refine ErrIs.ite ?_ (ErrIs.ok _ _)
  split
  · exact ErrIs.err _
  · exact ErrIs.sliceRange _ _ _ _

theorem parseNotifyInfo_errIs (b : Bytes) : ErrIs .InvalidData (parseNotifyInfo b) := by
  unfold parseNotifyInfo
  refine ErrIs.ite (ErrIs.err _) (ErrIs.bindM (ErrIs.getU32 _ _) fun p => ?_)
  obtain ⟨x, r⟩ := p
  dsimp only
  split
  · exact ErrIs.err _
  · exact ErrIs.bindM (ErrIs.getU32 _ _) fun _ => ErrIs.ite (ErrIs.err _) (ErrIs.bindM (ErrIs.copyToBytes _ _ _) fun _ =>
      ErrIs.bindM (ErrIs.decodeUtf16le _ _ _ (Nat.lt_succ_self _)) fun _ => ErrIs.ok _ _)

theorem notifyLoop_errIs (p : Bytes) (n : Nat) : ∀ (start : Nat) (acc : List (Str × NotifyAction)), p.length + 1 - start < n →
    ErrIs .InvalidData (notifyLoop p start acc) := by
  induction n with
  | zero => intro s acc h; omega
  | succ n ih =>
    intro s acc hl
    unfold notifyLoop
    split
    · exact ErrIs.panic _
    · dsimp only
      refine ErrIs.ite (ErrIs.ok _ _) (ErrIs.ite (ErrIs.err _) ?_)
      split
      · exact ErrIs.panic _
      · rename_i he; rw [parseNotifyInfo_errIs _ _ he]; exact ErrIs.err _
      · split
        · exact ErrIs.ok _ _
        · exact ih _ _ (by omega)

theorem notify_errs (i : Info) {ps : Bytes} (ds : Bytes) :
    (SplitNtReply ps → ¬ ShortNtReply ps ds → transactCreate notificationParse { info := i, parameter := ps, data := ds, dataOffset := 35 + ps.length } =
      .err (.Unsupported "transaction message split to multiple packets")) ∧
    (¬ SplitNtReply ps → ErrIs .InvalidData (transactCreate notificationParse { info := i, parameter := ps, data := ds, dataOffset := 35 + ps.length })) := by
  by_cases h : ps.length < 36
  · rw [transactCreate_short _ i ds _ h]
    exact ⟨fun _ h' => absurd (.inl h) h', fun _ => ErrIs.panic _⟩
  · obtain ⟨tp, td, cp, op, cd, od, sc, h1, h2, h3, h4, h5, h6, h7, e⟩ := transactCreate_eq notificationParse i ds (35 + ps.length)
      (show 36 ≤ ps.length by omega)
    rw [e]
    refine ⟨fun hs hn => ?_, fun hs => ?_⟩
    · obtain ⟨_, _, _, _, k1, k2, k3, k4, hc⟩ := hs
      rw [h1] at k1; cases k1; rw [h2] at k2; cases k2; rw [h3] at k3; cases k3; rw [h5] at k4; cases k4
      rw [if_neg fun h => hn (.inr (.inl ⟨_, h7, h⟩)), if_pos hc]
    · rw [if_neg (c := cp.toNat < tp.toNat ∨ cd.toNat < td.toNat) fun h => hs ⟨_, _, _, _, h1, h2, h3, h5, h⟩]
      exact ErrIs.ite (ErrIs.panic _) (ErrIs.bind (transBlock_errIs _ _ _ _) fun _ => ErrIs.bind (transBlock_errIs _ _ _ _) fun _ =>
        notifyLoop_errIs _ _ _ _ (Nat.lt_succ_self _))

theorem DirInfo.parse_errIs (b : Bytes) : ErrIs .InvalidData (DirInfo.parse b) := by
  unfold DirInfo.parse
  have time : ∀ t : UInt64, ErrIs SmbError.InvalidData (decodeWindowsTime t) := fun t => by rw [time_eq]; exact ErrIs.ok _ _
  refine ErrIs.ite (ErrIs.err _) (ErrIs.bind ?_ fun _ => ErrIs.ok _ _)
  simp only [Rd.bind_apply, Rd.lift_apply]
  refine ErrIs.bind (ErrIs.advance _ _ _) fun _ => ?_
  refine ErrIs.bind (ErrIs.getU64 _ _) fun _ => ErrIs.bind (ErrIs.bind (time _) fun _ => ErrIs.ok _ _) fun _ => ?_
  refine ErrIs.bind (ErrIs.getU64 _ _) fun _ => ErrIs.bind (ErrIs.bind (time _) fun _ => ErrIs.ok _ _) fun _ => ?_
  refine ErrIs.bind (ErrIs.getU64 _ _) fun _ => ErrIs.bind (ErrIs.bind (time _) fun _ => ErrIs.ok _ _) fun _ => ?_
  refine ErrIs.bind (ErrIs.getU64 _ _) fun _ => ErrIs.bind (ErrIs.bind (time _) fun _ => ErrIs.ok _ _) fun _ => ?_
  refine ErrIs.bind (ErrIs.getU64 _ _) fun _ => ErrIs.bind (ErrIs.advance _ _ _) fun _ => ErrIs.bind (ErrIs.getU32 _ _) fun _ =>
    ErrIs.bind (ErrIs.getU32 _ _) fun _ => ErrIs.bind (ErrIs.ok _ _) fun _ => ?_
  split
  · exact ErrIs.err _
  · exact ErrIs.bind (ErrIs.copyToBytes _ _ _) fun _ => ErrIs.bind (ErrIs.bind (ErrIs.decodeUtf16le _ _ _ (Nat.lt_succ_self _)) fun _ => ErrIs.ok _ _)
      fun _ => ErrIs.ok _ _

theorem entryLoop_errIs (zero : Bool) (n : Nat) : ∀ (b : Bytes) (acc : List DirInfo), b.length < n → ErrIs .InvalidData (entryLoop zero b acc) := by
  induction n with
  | zero => intro b acc h; omega
  | succ n ih =>
    intro b acc hl
    unfold entryLoop
    refine ErrIs.ite (ErrIs.ok _ _) ?_
    split
    · exact ErrIs.err _
    · dsimp only
      refine ErrIs.ite (ErrIs.err _) ?_
      refine ErrIs.ite (r := Res.ok acc) (ErrIs.ok _ _) (ErrIs.ite (ErrIs.err _) ?_)
      split
      · exact ErrIs.panic _
      · rename_i he; rw [DirInfo.parse_errIs _ _ he]; exact ErrIs.err _
      · exact ih _ _ (by simp only [List.length_drop]; omega)

theorem page_errIs {op : Op} (P D : Bytes) : ErrIs .InvalidData (op.page P D) := by
  have map : ∀ {α : Type} (g : α → Val) {r : Res SmbError α}, ErrIs .InvalidData r → ErrIs .InvalidData (r.mapOk g) := fun g r h e he => h e (mapOk_err he)
  unfold Op.page
  split
  · refine map _ (ErrIs.ite (ErrIs.err _) ?_)
    refine ErrIs.bindM (ErrIs.getU16 _ _) fun _ => ErrIs.bindM (ErrIs.getU16 _ _) fun _ => ErrIs.bindM (ErrIs.getU16 _ _) fun _ =>
      ErrIs.bindM (ErrIs.advance _ _ _) fun _ => ?_
    dsimp only
    rw [findFirstLoop_eq]
    exact ErrIs.bindM (entryLoop_errIs _ _ _ _ (Nat.lt_succ_self _)) fun _ => ErrIs.ite (ErrIs.err _) (ErrIs.ite (ErrIs.err _) (ErrIs.ok _ _))
  · refine map _ (ErrIs.ite (ErrIs.err _) ?_)
    refine ErrIs.bindM (ErrIs.getU16 _ _) fun _ => ErrIs.bindM (ErrIs.getU16 _ _) fun _ => ?_
    dsimp only
    rw [findNextLoop_eq]
    exact ErrIs.bindM (entryLoop_errIs _ _ _ _ (Nat.lt_succ_self _)) fun _ => ErrIs.ite (ErrIs.err _) (ErrIs.ite (ErrIs.err _) (ErrIs.ok _ _))
  · exact ErrIs.panic _

theorem trans2Create_errIs (ctx : ReplyCtx) : ErrIs .InvalidData (trans2Create ctx) := by
  have opt : ∀ o : Option Nat, ErrIs SmbError.InvalidData (Res.ofOption .InvalidData o) := fun o => by
    cases o
    · exact ErrIs.err _
    · exact ErrIs.ok _ _
  unfold trans2Create
  exact ErrIs.bindM (ErrIs.getU16 _ _) fun _ => ErrIs.bindM (ErrIs.getU16 _ _) fun _ => ErrIs.bindM (ErrIs.advance _ _ _) fun _ =>
    ErrIs.bindM (ErrIs.getU16 _ _) fun _ => ErrIs.bindM (ErrIs.getU16 _ _) fun _ => ErrIs.bindM (opt _) fun _ => ErrIs.bindM (ErrIs.getU16 _ _) fun _ =>
    ErrIs.bindM (ErrIs.getU16 _ _) fun _ => ErrIs.bindM (ErrIs.getU16 _ _) fun _ => ErrIs.bindM (opt _) fun _ => ErrIs.bindM (ErrIs.getU16 _ _) fun _ =>
    ErrIs.bindM (ErrIs.sliceRange _ _ _ _) fun _ => ErrIs.bindM (ErrIs.sliceRange _ _ _ _) fun _ => ErrIs.ok _ _

/-! ## The AndX block -/

theorem make_andx_complaint {R : Reply α} (hR : R.andx = true) (i : Info) {ps : Bytes} (ds : Bytes) {op : Op} (ho : chainable op = true) (hl : 4 ≤ ps.length)
    (hx : ¬ LastAndX ps) : ∃ e, R.make i ps ds = .err e ∧ Complaint op ps e := by
  obtain ⟨x, r, rfl⟩ := split_u8 ps (by omega)
  obtain ⟨y, r, rfl⟩ := split_u8 r (by simp at hl; omega)
  obtain ⟨z, r, rfl⟩ := split_u16 r (by simp at hl; omega)
  have hxx : x ≠ 0xff := by rintro rfl; exact hx ⟨rfl, by simp⟩
  rw [Reply.make, if_pos hR]
  have e : AndX.parse (x :: y :: (putU16 z ++ r)) = match Cmd.tryFrom x with
      | some c => .ok (some (c, z), r)
      | none => .err (.InvalidCommand x) := by
    unfold AndX.parse
    simp only [Rd.bind_apply, Rd.getU8_cons, Res.bind_ok]
    rw [show y :: (putU16 z ++ r) = [y] ++ (putU16 z ++ r) from rfl, Rd.advance_append 1 _ _ rfl]
    simp only [Res.bind_ok, Rd.getU16_put]
    rw [if_neg hxx]
    cases Cmd.tryFrom x <;> rfl
  rw [e]
  cases ht : Cmd.tryFrom x with
  | some c =>
    refine ⟨_, rfl, .chained ho rfl (fun h => hxx (UInt8.toNat_inj.mp h)) ?_⟩
    rw [← tryFrom_some ht]
    exact code_known c
  | none =>
    refine ⟨_, rfl, .unknown ho rfl fun hk => ?_⟩
    obtain ⟨c, hc⟩ := known_code _ hk
    rw [ht] at hc
    cases hc

/-- The client has only one complaint about a reply. -/
theorem complaint_det {op : Op} {ps : Bytes} {e e' : SmbError} (h : Complaint op ps e) (h' : Complaint op ps e') : e = e' := by
  have known : (255 : Nat) ∈ knownCodes := by decide
  cases h with
  | chained ho h hc hk =>
    cases h' with
    | chained => rfl
    | unknown _ h' hk' => rw [h] at h'; cases h'; exact absurd hk hk'
    | split => cases ho
    | data hx => rw [hx ho] at h; cases h; exact absurd rfl hc
  | unknown ho h hk =>
    cases h' with
    | chained _ h' _ hk' => rw [h'] at h; cases h; exact absurd hk' hk
    | unknown _ h' _ => rw [h] at h'; rw [UInt8.toNat_inj.mp (Option.some.inj h')]
    | split => cases ho
    | data hx => rw [hx ho] at h; rw [← Option.some.inj h] at hk; exact absurd known hk
  | split h =>
    cases h' with
    | chained ho => cases ho
    | unknown ho => cases ho
    | split => rfl
    | data _ hs => exact absurd h (hs _ _ rfl)
  | data hx hs =>
    cases h' with
    | chained ho h hc => rw [hx ho] at h; cases h; exact absurd rfl hc
    | unknown ho h hk => rw [hx ho] at h; rw [← Option.some.inj h] at hk; exact absurd known hk
    | split h => exact absurd h (hs _ _ rfl)
    | data => rfl

/-! ## Replies that are not accepted -/

theorem accept_declined {R : Reply α} (hR : R.cmd ≠ .SessionSetup) {f : Bytes} {i : Info} (hp : Info.parse f = .ok (i, f.drop 32)) :
    (Accepted R.cmd.code.toNat f ∧ accept R i (f.drop 32) = (R.parse i (f.drop 32)).mapErr Error.SMBError) ∨
      ∃ e, Declined R.cmd.code.toNat f e ∧ accept R i (f.drop 32) = .err e := by
  have hr := C17_read f i _ hp
  by_cases hc : i.cmd = R.cmd
  · by_cases hs : i.status = .Known .SUCCESS
    · have h1 : cmdOf (message f) = some R.cmd.code.toNat := by rw [hr.2.1, hc]
      have h2 : statusOf (message f) = some 0 := by rw [hr.2.2.1, hs]; rfl
      exact .inl ⟨⟨h1, h2⟩, accept_body R hp h1 h2⟩
    · have ha : accept R i (f.drop 32) = .err (.ServerError i.status) := by
        unfold accept
        rw [if_neg (by simpa using hc), if_neg (by
          rintro (h | h)
          · exact hs h
          · exact hR (hc ▸ h.2))]
      obtain ⟨st, h1, h2⟩ := accept_refuses hp ha
      exact .inr ⟨_, .refused h2, by rw [ha, h1]⟩
  · refine .inr ⟨_, .other rfl hr.2.1 hc, ?_⟩
    unfold accept
    rw [if_pos hc]

theorem declined_det {code : Nat} {f : Bytes} {e e' : Error} (h : Declined code f e) (h' : Declined code f e') : e = e' := by
  cases h with
  | other hw hg hne =>
    cases h' with
    | other hw' hg' _ =>
      rw [hg] at hg'
      rw [code_inj (hw.trans hw'.symm), code_inj (Option.some.inj hg')]
    | refused h =>
      rw [h.2.1] at hg
      exact absurd (code_inj ((Option.some.inj hg).symm.trans hw.symm)) hne
  | refused h =>
    cases h' with
    | other hw hg hne =>
      rw [h.2.1] at hg
      exact absurd (code_inj ((Option.some.inj hg).symm.trans hw.symm)) hne
    | refused h' =>
      have := h.2.2
      rw [h'.2.2] at this
      rw [UInt32.toNat_inj.mp (Option.some.inj this)]

theorem declined_not {code : Nat} {f : Bytes} {e : Error} (h : Declined code f e) : ¬ Accepted code f := by
  rintro ⟨h1, h2⟩
  cases h with
  | other hw hg hne =>
    rw [h1] at hg
    exact hne (code_inj ((Option.some.inj hg).symm.trans hw.symm))
  | refused h =>
    rw [h.2.2] at h2
    exact h.1 (UInt32.toNat_inj.mp (Option.some.inj h2))

/-! ## All replies -/

/-- What is known about the reply type `R` of an operation. -/
structure Decoder (op : Op) (c : Call) (R : Reply α) (g : α → Val) : Prop where
  plain : R.cmd ≠ .SessionSetup
  code : R.cmd.code.toNat = c.code
  decode : ∀ i b, op.decode i b = (accept R i b).mapOk g
  bad : ∀ f i u ps ds, Info.parse f = .ok (i, f.drop 32) → unicodeOf (message f) = some u → ReplyBody (message f) ps ds →
    (R.make i ps ds = .panic ↔ BadBody u op ps ds)
  unread : ∀ f i u ps ds e, Info.parse f = .ok (i, f.drop 32) → unicodeOf (message f) = some u → ReplyBody (message f) ps ds →
    R.make i ps ds = .err e → Complaint op ps e

theorem unicode_some {f : Bytes} {i : Info} (hp : Info.parse f = .ok (i, f.drop 32)) : ∃ u, unicodeOf (message f) = some u := by
  obtain ⟨n, h1, _⟩ := (C17_read f i _ hp).2.2.2.2.1
  exact ⟨_, by rw [unicodeOf, h1]; rfl⟩

theorem Decoder.means {op : Op} {c : Call} {R : Reply α} {g : α → Val} (h : Decoder op c R g) (hc : callOf op = some c) {f : Bytes} {i : Info}
    (hp : Info.parse f = .ok (i, f.drop 32)) : Means op c f (op.decode i (f.drop 32)).out := by
  obtain ⟨u, hu⟩ := unicode_some hp
  have hl := ((C13_accepted_iff f).mp ⟨_, _, hp⟩).1
  cases hd : op.decode i (f.drop 32) with
  | ok v => exact .value (decode_said hc hp hd)
  | panic =>
    have hno : ∀ v, ¬ Gives f c v := fun v hv => by rw [decode_gives hc hp hv] at hd; cases hd
    rw [h.decode] at hd
    have hd : accept R i (f.drop 32) = .panic := by cases ha : accept R i (f.drop 32) <;> rw [ha] at hd <;> first | rfl | cases hd
    obtain ⟨h1, h2, h3⟩ := (accept_panic h.plain hp).mp hd
    rw [h.code] at h1
    rcases h3 with h3 | ⟨ps, ds, h3, h4⟩
    · exact .short ⟨h1, h2⟩ h3
    · exact .bad ⟨h1, h2⟩ h3 hu ((h.bad f i u ps ds hp hu h3).mp h4)
  | err e =>
    have hno : ∀ v, ¬ Gives f c v := fun v hv => by rw [decode_gives hc hp hv] at hd; cases hd
    rw [h.decode] at hd
    have hd := mapOk_err hd
    rcases accept_declined h.plain hp with ⟨h1, h2⟩ | ⟨e', h1, h2⟩
    · rw [h.code] at h1
      rw [h2] at hd
      by_cases hb : ∃ ps ds, ReplyBody (message f) ps ds
      · obtain ⟨ps, ds, hb⟩ := hb
        rw [parse_body R i hl hb] at hd
        cases hm : R.make i ps ds with
        | ok a => rw [hm] at hd; cases hd
        | panic => rw [hm] at hd; cases hd
        | err e' =>
          rw [hm] at hd
          cases hd
          refine .unread h1 hb hu (fun hbad => ?_) hno (h.unread f i u ps ds e' hp hu hb hm)
          rw [← h.bad f i u ps ds hp hu hb, hm] at hbad
          cases hbad
      · rw [parse_short R i hl hb] at hd
        cases hd
    · rw [h2] at hd
      cases hd
      rw [h.code] at h1
      exact .declined h1

/-- All of them. -/
theorem decoder_of {op : Op} {c : Call} (hc : callOf op = some c) (ho : oneReply op = true) : ∃ (α : Type) (R : Reply α) (g : α → Val), Decoder op c R g := by
  have plain : ∀ (R : Reply Unit), R.andx = false → (∀ c, R.create c = .ok ()) → ∀ i ps ds, R.make i ps ds = .ok () := by
    intro R h1 h2 i ps ds
    rw [make_plain R h1 i, h2]
  have unread : ∀ {α : Type} (R : Reply α) (op : Op), R.andx = true → chainable op = true → (∀ ctx, ErrIs .InvalidData (R.create ctx)) →
      ∀ i (ps ds : Bytes) e, R.make i ps ds = .err e → Complaint op ps e := by
    intro α R op hR ho he i ps ds e hm
    by_cases hl : ps.length < 4
    · rw [make_andx_short R hR i hl] at hm; cases hm
    by_cases hx : LastAndX ps
    · rw [make_andx R hR i hx.1 hx.2] at hm
      rw [he _ _ hm]
      refine .data (fun _ => hx.1) fun hd what e => ?_
      rw [e] at ho
      cases ho
    · obtain ⟨e', h1, h2⟩ := make_andx_complaint hR i ds ho (by omega) hx
      rw [h1] at hm
      cases hm
      exact h2
  have unit : ∀ (R : Reply Unit) (op : Op) (c : Call), R.andx = false → (∀ c, R.create c = .ok ()) → R.cmd ≠ .SessionSetup → R.cmd.code.toNat = c.code →
      (∀ i b, op.decode i b = (accept R i b).mapOk fun _ => Val.unit) → (∀ u ps ds, ¬ BadBody u op ps ds) → Decoder op c R fun _ => Val.unit := by
    intro R op c h1 h2 h3 h4 h5 h6
    refine ⟨h3, h4, h5, fun f i u ps ds _ _ _ => ?_, fun f i u ps ds e _ _ _ hm => ?_⟩
    · rw [plain R h1 h2]
      exact ⟨fun h => (by cases h), fun h => absurd h (h6 u ps ds)⟩
    · rw [plain R h1 h2] at hm; cases hm
  cases op
  case download => simp [oneReply] at ho
  case list => simp [oneReply] at ho
  case findFirst => simp [oneReply] at ho
  case findNext => simp [oneReply] at ho
  case mount =>
    cases hc
    refine ⟨_, Share.reply, Val.share, by decide, rfl, fun _ _ => rfl, fun f i u ps ds hp hu _ => ?_,
      fun f i u ps ds e _ _ _ hm => unread Share.reply _ rfl rfl Share.create_errIs i ps ds e hm⟩
    rw [andx_panic Share.reply rfl i]
    exact or_congr Iff.rfl (and_congr Iff.rfl (Share.create_panic hp hu ps ds (35 + ps.length)))
  case umount => cases hc; exact ⟨_, treeDisconnectReply, _, unit _ _ _ rfl (fun _ => rfl) (by decide) rfl (fun _ _ => rfl) fun _ _ _ h => h⟩
  case openfile =>
    cases hc
    refine ⟨_, Handle.reply, Val.handle, by decide, rfl, fun _ _ => rfl, fun f i u ps ds hp hu _ => ?_,
      fun f i u ps ds e _ _ _ hm => unread Handle.reply _ rfl rfl Handle.create_errIs i ps ds e hm⟩
    rw [andx_panic Handle.reply rfl i]
    exact or_congr Iff.rfl (and_congr Iff.rfl (Handle.create_panic i ps ds (35 + ps.length)))
  case opendir =>
    cases hc
    refine ⟨_, Handle.reply, Val.handle, by decide, rfl, fun _ _ => rfl, fun f i u ps ds hp hu _ => ?_,
      fun f i u ps ds e _ _ _ hm => unread Handle.reply _ rfl rfl Handle.create_errIs i ps ds e hm⟩
    rw [andx_panic Handle.reply rfl i]
    exact or_congr Iff.rfl (and_congr Iff.rfl (Handle.create_panic i ps ds (35 + ps.length)))
  case close => cases hc; exact ⟨_, closeReply, _, unit _ _ _ rfl (fun _ => rfl) (by decide) rfl (fun _ _ => rfl) fun _ _ _ h => h⟩
  case read =>
    cases hc
    refine ⟨_, readReply, Val.bytes, by decide, rfl, fun _ _ => rfl, fun f i u ps ds hp hu _ => ?_,
      fun f i u ps ds e _ _ _ hm => unread readReply _ rfl rfl readCreate_errIs i ps ds e hm⟩
    rw [andx_panic readReply rfl i]
    exact or_congr Iff.rfl (and_congr Iff.rfl (readCreate_panic i ps ds (35 + ps.length)))
  case delete => cases hc; exact ⟨_, deleteReply, _, unit _ _ _ rfl (fun _ => rfl) (by decide) rfl (fun _ _ => rfl) fun _ _ _ h => h⟩
  case rmdir => cases hc; exact ⟨_, rmdirReply, _, unit _ _ _ rfl (fun _ => rfl) (by decide) rfl (fun _ _ => rfl) fun _ _ _ h => h⟩
  case notify hd what =>
    cases hc
    refine ⟨_, transactReply notificationParse, Val.changes, by decide, rfl, fun _ _ => rfl, fun f i u ps ds hp hu _ => ?_, fun f i u ps ds e _ _ _ hm => ?_⟩
    · rw [make_plain _ rfl i]
      exact (notify_create i ps ds).2
    · rw [make_plain _ rfl i] at hm
      by_cases hs : SplitNtReply ps
      · by_cases hn : ShortNtReply ps ds
        · have := (notify_create i ps ds).2.mpr (.inl hn)
          rw [show (transactReply notificationParse).create = transactCreate notificationParse from rfl, this] at hm
          cases hm
        · have := (notify_errs i ds).1 hs hn
          rw [show (transactReply notificationParse).create = transactCreate notificationParse from rfl, this] at hm
          cases hm
          exact .split hs
      · rw [(notify_errs i ds).2 hs _ hm]
        refine .data (fun h => (by cases h)) fun _ _ e => hs

/-- The outcome of a reply is what it means. -/
theorem means_iff {op : Op} {c : Call} (hc : callOf op = some c) (ho : oneReply op = true) {f : Bytes} {i : Info} (hp : Info.parse f = .ok (i, f.drop 32))
    (o : Out Error Val) : Means op c f o ↔ o = (op.decode i (f.drop 32)).out := by
  obtain ⟨α, R, g, hd⟩ := decoder_of hc ho
  constructor
  · intro h
    have hl := ((C13_accepted_iff f).mp ⟨_, _, hp⟩).1
    have ha : Accepted c.code f → accept R i (f.drop 32) = (R.parse i (f.drop 32)).mapErr Error.SMBError := fun h =>
      accept_body R hp (by rw [hd.code]; exact h.1) h.2
    cases h with
    | declined h =>
      rcases accept_declined hd.plain hp with ⟨h1, _⟩ | ⟨e', h1, h2⟩
      · rw [hd.code] at h1
        exact absurd h1 (declined_not h)
      · rw [hd.code] at h1
        rw [declined_det h h1, hd.decode, h2]
        rfl
    | short h1 h2 => rw [hd.decode, ha h1, parse_short R i hl h2]; rfl
    | bad h1 hb hu h2 => rw [hd.decode, ha h1, parse_body R i hl hb, (hd.bad f i _ _ _ hp hu hb).mpr h2]; rfl
    | @unread ps ds u e h1 hb hu hn hv he =>
      rw [hd.decode, ha h1, parse_body R i hl hb]
      cases hm : R.make i ps ds with
      | ok a =>
        refine absurd (decode_said (x := g a) hc hp ?_) (hv _)
        rw [hd.decode, ha h1, parse_body R i hl hb, hm]
        rfl
      | panic => exact absurd ((hd.bad f i _ _ _ hp hu hb).mp hm) hn
      | err e' => rw [complaint_det he (hd.unread f i _ _ _ _ hp hu hb hm)]; rfl
    | value h => rw [decode_gives hc hp h]; rfl
  · rintro rfl
    exact hd.means hc hp

end Cifs
