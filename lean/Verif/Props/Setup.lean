import Verif.Lemmas.Decode
import Verif.Lemmas.Masks
import Verif.Lemmas.Flow
import Verif.Lemmas.DemoReplies
import Verif.Lemmas.Wide
/-!
# Properties about replies: the contents of replies to mount (C31), negotiation and login (C32)
-/

namespace Cifs
open Spec

variable {σ : Type}

/-! ## C31 -/

theorem unicode_contains {f : Bytes} {i : Info} {r : Bytes} (h : Info.parse f = .ok (i, r)) {u : Bool} (hu : unicodeOf (message f) = some u) :
    Flags2.contains i.flags2 Flags2.UNICODE = u := by
  obtain ⟨n, h1, h2⟩ := (C17_read f i r h).2.2.2.2.1
  rw [unicodeOf, h1] at hu
  rw [contains16 _ _ 15 rfl, h2, mask_bit _ _ 15 (by decide)]
  exact Option.some.inj hu

theorem optRights_none {b : Bytes} (h : b.length < 4) : Share.optRights b = .ok (none, b) := by
  rw [Share.optRights, if_neg (by omega)]
theorem optRights_some (x : UInt32) (b : Bytes) : Share.optRights (putU32 x ++ b) = .ok (some (DirAccessMask.truncate x), b) := by
  rw [Share.optRights, if_pos (by simp), Rd.getU32_put]; rfl

theorem Share.create_short {p ds : Bytes} (i : Info) (o : Nat) (h : p.length < 2) :
    Share.create { info := i, parameter := p, data := ds, dataOffset := o } = .panic := by
  unfold Share.create
  rw [Rd.advance_short h]; rfl

/-- The rights fields. -/
theorem rights_eq {ps : Bytes} (h : 6 ≤ ps.length) : ∃ ar gr b b', IsRights ps 6 ar ∧ IsRights ps 10 gr ∧ Share.optRights (ps.drop 6) = .ok (ar, b) ∧
    Share.optRights b = .ok (gr, b') := by
  obtain ⟨a, p, ha, rfl⟩ := split_n 6 ps h
  rw [List.drop_left' ha]
  by_cases h1 : p.length < 4
  · exact ⟨none, none, p, p, by simp [IsRights]; omega, by simp [IsRights]; omega, optRights_none h1, optRights_none h1⟩
  · obtain ⟨x, p, rfl⟩ := split_u32 p (by omega)
    have hx : IsRights (a ++ (putU32 x ++ p)) 6 (some (DirAccessMask.truncate x)) :=
      ⟨x.toNat, by rw [u32At_append_right _ _ _ (by omega), ha]; wire, mask_rights x⟩
    by_cases h2 : p.length < 4
    · exact ⟨_, none, p, p, hx, by simp [IsRights]; omega, optRights_some x p, optRights_none h2⟩
    · obtain ⟨y, p, rfl⟩ := split_u32 p (by omega)
      exact ⟨_, some (DirAccessMask.truncate y), _, _, hx, ⟨y.toNat, by rw [u32At_append_right _ _ _ (by omega), ha]; wire, mask_rights y⟩, optRights_some x _, optRights_some y _⟩

theorem utf8_bytes (s : Str) : utf8 s = utf8Bytes s := C54_utf8_standard s

theorem Share.create_eq {ps ds : Bytes} (i : Info) (h : 6 ≤ ps.length) (he : ps.length % 2 = 0) {service filesystem : Str}
    (hd : IsTreeConnectData (Flags2.contains i.flags2 Flags2.UNICODE) ps ds service filesystem) :
    ∃ ar gr, IsRights ps 6 ar ∧ IsRights ps 10 gr ∧ Share.create { info := i, parameter := ps.drop 4, data := ds, dataOffset := 35 + ps.length } =
      .ok { accessRights := ar, guestRights := gr, service := service, filesystem := filesystem, tid := i.tid } := by
  obtain ⟨ar, gr, b, b', h1, h2, h3, h4⟩ := rights_eq h
  refine ⟨ar, gr, h1, h2, ?_⟩
  unfold Share.create
  dsimp only
  have e : ps.drop 4 = (ps.drop 4).take 2 ++ ps.drop 6 := by
    rw [show ps.drop 6 = (ps.drop 4).drop 2 by rw [List.drop_drop], List.take_append_drop]
  rw [e, Rd.advance_append 2 _ _ (by simp; omega)]
  simp only [Res.ok_bind]
  rw [h3]
  simp only [Res.ok_bind]
  rw [h4]
  simp only [Res.ok_bind]
  obtain ⟨pad, name, more, hs, hf, hd⟩ := hd
  cases hu : Flags2.contains i.flags2 Flags2.UNICODE with
  | true =>
    rw [hu, if_pos rfl] at hd
    obtain ⟨hp, ha, hn, rfl⟩ := hd
    rw [utf16le_iff] at hn
    subst hn
    rw [← utf8_bytes] at ha ⊢
    simp only [List.append_assoc, List.cons_append, List.nil_append, if_true]
    rw [parseStr0_utf8 _ _ _ hs]
    simp only [Res.ok_bind]
    by_cases h5 : (utf8 service).length % 2 = 1
    · rw [if_pos h5, Rd.advance_append 1 _ _ (by omega)]
      simp only [Res.ok_bind]
      rw [parseUtf16le0_encode _ _ _ hf]
      rfl
    · rw [if_neg h5]
      have : pad = [] := List.eq_nil_of_length_eq_zero (by omega)
      subst this
      simp only [Res.ok_bind, List.nil_append]
      rw [parseUtf16le0_encode _ _ _ hf]
      rfl
  | false =>
    rw [hu, if_neg (by simp)] at hd
    obtain ⟨_, rfl, rfl⟩ := hd
    rw [← utf8_bytes, ← utf8_bytes]
    simp only [List.append_assoc, List.cons_append, List.nil_append]
    rw [parseStr0_utf8 _ _ _ hs]
    simp only [Res.ok_bind]
    rw [if_neg (by simp), parseStr0_utf8 _ _ _ hf]
    rfl

/-- **C31** `mount` returns the tree id, the rights, and the service and file system names that the reply contains, in the encoding
that the reply announces. -/
theorem C31_mount {E : Env σ} {log : σ → List Bytes} (hlog : Logs E.V log) (path password : Str) {s : St σ} {f ps ds : Bytes}
    (h : Answered E log (.mount path password) s f ps ds) (hx : LastAndX ps) (hl : 6 ≤ ps.length) (unicode : Bool)
    (hu : unicodeOf (message f) = some unicode) (service filesystem : Str) (hd : IsTreeConnectData unicode ps ds service filesystem) :
    ∃ share : Share, (runOp E (.mount path password) s).1 = .ok (.share share) ∧ tidOf (message f) = some share.tid.toNat ∧
      IsRights ps 6 share.accessRights ∧ IsRights ps 10 share.guestRights ∧ share.service = service ∧ share.filesystem = filesystem := by
  have he : ps.length % 2 = 0 := by
    obtain ⟨_, _, hxx, _, _, _, hb⟩ := h
    obtain ⟨_, _, _, _, _, _, _, hg, _⟩ := hxx
    obtain ⟨w, _, _, _, e, _⟩ := body_split hg.1 hb
    omega
  obtain ⟨i, hp, ho⟩ := answered Share.reply Val.share hlog rfl (fun _ _ => rfl) rfl h
  have huc := unicode_contains hp hu
  rw [make_andx Share.reply rfl i hx.1 hx.2] at ho
  rw [← huc] at hd
  obtain ⟨ar, gr, h1, h2, h3⟩ := Share.create_eq i hl he hd
  have e : Share.reply.create { info := i, parameter := ps.drop 4, data := ds, dataOffset := 35 + ps.length } =
      .ok { accessRights := ar, guestRights := gr, service := service, filesystem := filesystem, tid := i.tid } := h3
  rw [e] at ho
  exact ⟨_, ho, (C17_read f i _ hp).2.2.2.2.2.2.2.1, h1, h2, rfl, rfl⟩

theorem nul_split {s t x y : Bytes} (hs : (0 : UInt8) ∉ s) (ht : (0 : UInt8) ∉ t) (e : s ++ 0 :: x = t ++ 0 :: y) : s = t ∧ x = y := by
  induction s generalizing t with
  | nil =>
    cases t with
    | nil => simpa using e
    | cons b t => simp at e ht; exact absurd e.1 (by simpa using ht.1)
  | cons a s ih =>
    cases t with
    | nil => simp at e hs; exact absurd e.1.symm (by simpa using hs.1)
    | cons b t =>
      simp only [List.cons_append, List.cons.injEq] at e
      simp only [List.mem_cons, not_or] at hs ht
      obtain ⟨h1, h2⟩ := ih hs.2 ht.2 e.2
      exact ⟨by rw [e.1, h1], h2⟩

/-- **C31** The data bytes determine the names. -/
theorem C31_unique (unicode : Bool) (ps ds : Bytes) (s s' fs fs' : Str) (h : IsTreeConnectData unicode ps ds s fs)
    (h' : IsTreeConnectData unicode ps ds s' fs') : s = s' ∧ fs = fs' := by
  obtain ⟨pad, name, more, h1, h2, h3⟩ := h
  obtain ⟨pad', name', more', h1', h2', h3'⟩ := h'
  have z1 : (0 : UInt8) ∉ utf8 s := by rwa [mem_utf8_zero]
  have z2 : (0 : UInt8) ∉ utf8 s' := by rwa [mem_utf8_zero]
  cases unicode with
  | true =>
    rw [if_pos rfl] at h3 h3'
    obtain ⟨a1, a2, a3, a4⟩ := h3
    obtain ⟨b1, b2, b3, b4⟩ := h3'
    rw [a4, ← utf8_bytes, ← utf8_bytes] at b4
    simp only [List.append_assoc, List.cons_append, List.nil_append] at b4
    obtain ⟨e1, e2⟩ := nul_split z1 z2 b4
    have es : s = s' := Option.some.inj (by rw [← fromUtf8_utf8 s, ← fromUtf8_utf8 s', e1])
    subst es
    have ep : pad.length = pad'.length := by omega
    obtain ⟨_, e3⟩ := List.append_inj e2 ep
    rw [utf16le_iff] at a3 b3
    subst a3 b3
    have p1 := parseUtf16le0_encode SmbError.InvalidData fs more h2
    rw [e3, parseUtf16le0_encode _ _ _ h2'] at p1
    cases p1
    exact ⟨rfl, rfl⟩
  | false =>
    rw [if_neg (by simp)] at h3 h3'
    obtain ⟨_, rfl, a4⟩ := h3
    obtain ⟨_, rfl, b4⟩ := h3'
    rw [a4, ← utf8_bytes, ← utf8_bytes, ← utf8_bytes, ← utf8_bytes] at b4
    simp only [List.append_assoc, List.cons_append, List.nil_append] at b4
    obtain ⟨e1, e2⟩ := nul_split z1 z2 b4
    have es : s = s' := Option.some.inj (by rw [← fromUtf8_utf8 s, ← fromUtf8_utf8 s', e1])
    obtain ⟨e3, _⟩ := nul_split (by rwa [mem_utf8_zero]) (by rwa [mem_utf8_zero]) e2
    exact ⟨es, Option.some.inj (by rw [← fromUtf8_utf8 fs, ← fromUtf8_utf8 fs', e3])⟩

namespace Demo

/-- A reply to a mount in Unicode with an odd service name and no rights, and one in bytes with both rights. -/
def mountReply : Bytes := { Info.default .TreeConnect with flags1 := 0x98, mid := 7, tid := 5 : Info }.write ++ [3, 0xff, 0, 0, 0, 1, 0] ++
  putU16 11 ++ [65, 58, 0, 78, 0, 84, 0, 0, 0, 9, 9]

example : Answered (env true) Prod.snd (.mount ['a'] []) (st (answer mountReply)) mountReply [0xff, 0, 0, 0, 1, 0] [65, 58, 0, 78, 0, 84, 0, 0, 0, 9, 9] ∧
    LastAndX [0xff, 0, 0, 0, 1, 0] ∧ unicodeOf (message mountReply) = some true ∧
    IsTreeConnectData false [0xff, 0, 0, 0, 1, 0] [65, 58, 0, 78, 84, 0] ['A', ':'] ['N', 'T'] ∧
    IsTreeConnectData true [0xff, 0, 0, 0, 1, 0] [65, 58, 0, 78, 0, 84, 0, 0, 0, 9, 9] ['A', ':'] ['N', 'T'] ∧
    IsTreeConnectData true [0xff, 0, 0, 0, 1, 0] [65, 58, 59, 0, 17, 78, 0, 84, 0, 0, 0] ['A', ':', ';'] ['N', 'T'] := by
  refine ⟨answered _ rfl (by decide +kernel) _ _ _ (by decide +kernel) (by decide +kernel) (by decide +kernel) (by decide +kernel),
    by decide +kernel, by decide +kernel, ⟨[], [78, 84], [], by decide, by decide, ?_⟩, ⟨[], [78, 0, 84, 0], [9, 9], by decide, by decide, ?_⟩,
    ⟨[17], [78, 0, 84, 0], [], by decide, by decide, ?_⟩⟩
  · simp only [Bool.false_eq_true, if_false]; decide +kernel
  · rw [if_pos rfl]; exact ⟨by decide, by decide +kernel, .basic rfl (.basic rfl .nil), by decide +kernel⟩
  · rw [if_pos rfl]; exact ⟨by decide, by decide +kernel, .basic rfl (.basic rfl .nil), by decide +kernel⟩

end Demo

/-! ## C32 -/

theorem split_negotiate {ps : Bytes} (h : 34 ≤ ps.length) : ∃ (d : UInt16) (m : UInt8) (a b : UInt16) (x1 x2 x3 x4 : UInt32) (t : UInt64) (z : UInt16) (n : UInt8)
    (r : Bytes), ps = putU16 d ++ (m :: (putU16 a ++ (putU16 b ++ (putU32 x1 ++ (putU32 x2 ++ (putU32 x3 ++ (putU32 x4 ++ (putU64 t ++ (putU16 z ++
      (n :: r)))))))))) := by
  obtain ⟨d, p, rfl⟩ := split_u16 ps (by omega)
  rw [List.length_append, length_putU16] at h
  obtain ⟨m, p, rfl⟩ := split_u8 p (by omega)
  rw [List.length_cons] at h
  obtain ⟨a, p, rfl⟩ := split_u16 p (by omega)
  rw [List.length_append, length_putU16] at h
  obtain ⟨b, p, rfl⟩ := split_u16 p (by omega)
  rw [List.length_append, length_putU16] at h
  obtain ⟨x1, p, rfl⟩ := split_u32 p (by omega)
  rw [List.length_append, length_putU32] at h
  obtain ⟨x2, p, rfl⟩ := split_u32 p (by omega)
  rw [List.length_append, length_putU32] at h
  obtain ⟨x3, p, rfl⟩ := split_u32 p (by omega)
  rw [List.length_append, length_putU32] at h
  obtain ⟨x4, p, rfl⟩ := split_u32 p (by omega)
  rw [List.length_append, length_putU32] at h
  obtain ⟨t, p, rfl⟩ := split_u64 p (by omega)
  rw [List.length_append, length_putU64] at h
  obtain ⟨z, p, rfl⟩ := split_u16 p (by omega)
  rw [List.length_append, length_putU16] at h
  obtain ⟨n, p, rfl⟩ := split_u8 p (by omega)
  exact ⟨d, m, a, b, x1, x2, x3, x4, t, z, n, p, rfl⟩

theorem dialect_known (d : Nat) : SMB_SUPPORTED_DIALECTS[d]?.isNone = true ↔ d ≠ 0 := by
  cases d <;> simp [SMB_SUPPORTED_DIALECTS]

theorem ServerSetup.create_dialect {ps : Bytes} (i : Info) (ds : Bytes) (o : Nat) (h : 17 ≤ ps.length) (d : Nat) (hd : u16At ps 0 = some d) (h0 : d ≠ 0) :
    ServerSetup.create { info := i, parameter := ps, data := ds, dataOffset := o } = .err (if d = 0xffff then .NoDialect else .InvalidHeader) := by
  obtain ⟨x, r, rfl, rfl⟩ := u16At_zero hd
  unfold ServerSetup.create
  rw [if_neg (by simpa using h)]
  simp only [Rd.getU16_put, Res.ok_bind]
  by_cases hf : x.toNat = 0xffff
  · rw [if_pos hf, if_pos hf]
  · rw [if_neg hf, if_neg hf, if_pos ((dialect_known _).mpr h0)]

theorem decodeTime_eq (t : UInt64) : (decodeWindowsTime t : Res SmbError Instant) = .ok (((t.toNat / 10 : Nat) : Int) * 1000) := by
  obtain ⟨r, h1, h2, h3, h4, h5⟩ := C53_decode t
  rw [h1]
  have e : r = ((t.toNat / 10 : Nat) : Int) * 1000 := by omega
  rw [e]

theorem ServerSetup.create_eq {ps : Bytes} (i : Info) (ds : Bytes) (o : Nat) (h : 34 ≤ ps.length) (hd : u16At ps 0 = some 0) (n : Nat)
    (hn : u8At ps 33 = some n) :
    if n ≤ ds.length then ∃ v, ServerSetup.create { info := i, parameter := ps, data := ds, dataOffset := o } = .ok v ∧ IsNegotiateReply ps ds v
    else ServerSetup.create { info := i, parameter := ps, data := ds, dataOffset := o } = .err .InvalidData := by
  have hl : ¬ ps.length < 17 := by omega
  obtain ⟨d, m, a, b, x1, x2, x3, x4, t, z, l, r, rfl⟩ := split_negotiate h
  rw [u16At_put] at hd
  have hd := Option.some.inj hd
  have e : u8At (putU16 d ++ (m :: (putU16 a ++ (putU16 b ++ (putU32 x1 ++ (putU32 x2 ++ (putU32 x3 ++ (putU32 x4 ++ (putU64 t ++ (putU16 z ++
      (l :: r)))))))))) ) 33 = some l.toNat := by wire
  rw [e] at hn
  have hn := Option.some.inj hn
  subst hn
  have hf : ¬ d.toNat = 0xffff := by omega
  have hk : ¬ SMB_SUPPORTED_DIALECTS[d.toNat]?.isNone = true := by rw [dialect_known]; omega
  unfold ServerSetup.create
  dsimp only
  simp only [if_neg hl, Rd.getU16_put, Res.ok_bind, if_neg hf, if_neg hk]
  simp only [Rd.getU8_cons, Rd.getU16_put, Rd.getU32_put, Rd.getU64_put, Res.ok_bind, decodeTime_eq]
  by_cases hc : l.toNat ≤ ds.length
  · rw [if_pos hc, if_neg (by omega)]
    obtain ⟨ch, r', hch, rfl⟩ := split_n l.toNat ds hc
    rw [Rd.copyToBytes_append _ _ _ hch]
    simp only [Res.ok_bind]
    refine ⟨_, rfl, ?_⟩
    constructor
    · exact u16At_put d _
    · wire
    · wire
    · wire
    · wire
    · wire
    · wire
    · refine ⟨x4.toNat, by wire, ?_⟩
      rw [Capabilities.truncate, UInt32.toNat_and]; rfl
    · exact ⟨t.toNat, by wire, rfl⟩
    · wire
    · exact ⟨by rw [hch]; wire, r', rfl⟩
  · rw [if_neg hc, if_pos (by omega)]


/-- **C32** Negotiation: the parameters of the session are those at the protocol positions of the reply. -/
theorem C32_negotiate {E : Env σ} {log : σ → List Bytes} (hlog : Logs E.V log) {s : St σ} {f ps ds : Bytes}
    (h : Replied E log (negotiate E) s 0x72 0 f ps ds) (hl : 34 ≤ ps.length) (hd : u16At ps 0 = some 0) (n : Nat) (hn : u8At ps 33 = some n)
    (hc : n ≤ ds.length) : ∃ v, (negotiate E s).1 = .ok v ∧ IsNegotiateReply ps ds v := by
  obtain ⟨i, _, ho⟩ := replied hlog keeps_negotiate ServerSetup.reply h (.inl rfl)
  have := ServerSetup.create_eq i ds (35 + ps.length) hl hd n hn
  rw [if_pos hc] at this
  obtain ⟨v, h1, h2⟩ := this
  refine ⟨v, ?_, h2⟩
  rw [make_plain ServerSetup.reply rfl i] at ho
  have e : ServerSetup.reply.create { info := i, parameter := ps, data := ds, dataOffset := 35 + ps.length } = .ok v := h1
  rw [e] at ho
  exact ho

/-- **C32** A dialect that was not offered is refused, and so is a challenge longer than the data. -/
theorem C32_refused {E : Env σ} {log : σ → List Bytes} (hlog : Logs E.V log) {s : St σ} {f ps ds : Bytes}
    (h : Replied E log (negotiate E) s 0x72 0 f ps ds) :
    (∀ d, 17 ≤ ps.length → u16At ps 0 = some d → d ≠ 0 →
      (negotiate E s).1 = .err (.SMBError (if d = 0xffff then .NoDialect else .InvalidHeader))) ∧
    (∀ n, 34 ≤ ps.length → u16At ps 0 = some 0 → u8At ps 33 = some n → ds.length < n → (negotiate E s).1 = .err (.SMBError .InvalidData)) ∧
    (ps.length < 17 → ∃ e, (negotiate E s).1 = .err (.SMBError e)) := by
  obtain ⟨i, _, ho⟩ := replied hlog keeps_negotiate ServerSetup.reply h (.inl rfl)
  rw [make_plain ServerSetup.reply rfl i] at ho
  have e : ServerSetup.reply.create { info := i, parameter := ps, data := ds, dataOffset := 35 + ps.length } =
    ServerSetup.create { info := i, parameter := ps, data := ds, dataOffset := 35 + ps.length } := rfl
  rw [e] at ho
  refine ⟨?_, ?_, ?_⟩
  · intro d hl hd h0
    rw [ServerSetup.create_dialect i ds _ hl d hd h0] at ho
    exact ho
  · intro n hl hd hn hc
    have := ServerSetup.create_eq i ds (35 + ps.length) hl hd n hn
    rw [if_neg (by omega)] at this
    rw [this] at ho
    exact ho
  · intro hl
    unfold ServerSetup.create at ho
    rw [if_pos hl] at ho
    exact ⟨_, ho⟩

theorem guest_bit (a : UInt16) : ((a &&& 0x0001 == 1) = true) ↔ a.toNat % 2 = 1 := by
  rw [beq_iff_eq, ← UInt16.toNat_inj, UInt16.toNat_and]
  show a.toNat &&& 2 ^ 1 - 1 = 1 ↔ _
  rw [Nat.and_two_pow_sub_one_eq_mod]

theorem SessionSetupReply.create_eq {ps : Bytes} (i : Info) (ds : Bytes) (o : Nat) (h : 6 ≤ ps.length)
    (hb : ∀ n, u16At ps 6 = some n → n ≤ ds.length) :
    ∃ v, SessionSetupReply.create { info := i, parameter := ps.drop 4, data := ds, dataOffset := o } = .ok v ∧ IsSessionReply ps ds i.uid.toNat v := by
  obtain ⟨a, p, ha, rfl⟩ := split_n 4 ps (by omega)
  rw [List.drop_left' ha]
  rw [List.length_append, ha] at h
  obtain ⟨x, p, rfl⟩ := split_u16 p (by omega)
  have e4 : u16At (a ++ (putU16 x ++ p)) 4 = some x.toNat := by rw [u16At_append_right _ _ _ (by omega), ha]; wire
  unfold SessionSetupReply.create
  dsimp only
  simp only [Rd.getU16_put, Res.ok_bind]
  by_cases hl : p.length ≥ 2
  · obtain ⟨y, p, rfl⟩ := split_u16 p hl
    have e6 : u16At (a ++ (putU16 x ++ (putU16 y ++ p))) 6 = some y.toNat := by rw [u16At_append_right _ _ _ (by omega), ha]; wire
    have hle := hb _ e6
    obtain ⟨bl, r, hbl, rfl⟩ := split_n y.toNat ds hle
    rw [if_pos hl, Rd.getU16_put]
    simp only [Res.ok_bind]
    rw [Rd.copyToBytes_append _ _ _ hbl]
    simp only [Res.ok_bind]
    exact ⟨_, rfl, ⟨⟨x.toNat, e4, guest_bit x⟩, rfl, .inr ⟨by rw [e6, hbl], r, rfl⟩⟩⟩
  · rw [if_neg hl]
    simp only [Res.ok_bind]
    have e0 : (Rd.copyToBytes (0 : UInt16).toNat ds : Res SmbError _) = .ok ([], ds) := by simp [Rd.copyToBytes]
    rw [e0]
    simp only [Res.ok_bind]
    exact ⟨_, rfl, ⟨⟨x.toNat, e4, guest_bit x⟩, rfl, .inl ⟨by simp; omega, rfl⟩⟩⟩

/-- **C32** Session setup, in both forms: action, security blob and user id are those of the reply. -/
theorem C32_session {E : Env σ} {log : σ → List Bytes} (hlog : Logs E.V log) {s : St σ} {f ps ds : Bytes} {step : CM σ SessionSetupReply}
    (hstep : (∃ blob, step = sessionSetupNtlmv2 E blob) ∨ ∃ user domain secret, step = sessionSetup E user domain secret) {st : Nat}
    (hst : st = 0 ∨ st = moreProcessing) (h : Replied E log step s 0x73 st f ps ds) (hx : LastAndX ps) (hl : 6 ≤ ps.length)
    (hb : ∀ n, u16At ps 6 = some n → n ≤ ds.length) :
    ∃ v uid, (step s).1 = .ok v ∧ uidOf (message f) = some uid ∧ IsSessionReply ps ds uid v := by
  have key : ∃ i, Info.parse f = .ok (i, f.drop 32) ∧ (step s).1 = ((SessionSetupReply.reply.make i ps ds).mapErr Error.SMBError).out := by
    have hs : st = 0 ∨ (st = moreProcessing ∧ SessionSetupReply.reply.cmd = .SessionSetup) := by
      rcases hst with h | h
      · exact .inl h
      · exact .inr ⟨h, rfl⟩
    rcases hstep with ⟨blob, rfl⟩ | ⟨user, domain, secret, rfl⟩
    · exact replied hlog (keeps_setup _) SessionSetupReply.reply h hs
    · exact replied hlog (keeps_setup _) SessionSetupReply.reply h hs
  obtain ⟨i, hp, ho⟩ := key
  obtain ⟨v, h1, h2⟩ := SessionSetupReply.create_eq i ds (35 + ps.length) hl hb
  refine ⟨v, i.uid.toNat, ?_, (C17_read f i _ hp).2.2.2.2.2.2.2.2.1, h2⟩
  rw [make_andx SessionSetupReply.reply rfl i hx.1 hx.2] at ho
  have e : SessionSetupReply.reply.create { info := i, parameter := ps.drop 4, data := ds, dataOffset := 35 + ps.length } = .ok v := h1
  rw [e] at ho
  exact ho

namespace Demo

/-- The parameter bytes of a reply to the negotiation: dialect, mode, counts, sizes, key, capabilities, time, zone, challenge length. -/
def negotiateParams (d : UInt16) (caps : UInt32) (n : UInt8) : Bytes :=
  putU16 d ++ [3] ++ putU16 50 ++ putU16 1 ++ putU32 16644 ++ putU32 65536 ++ putU32 0 ++ putU32 caps ++ putU64 133700000000000000 ++
    putU16 0xffc4 ++ [n]

example : Replied (env true) Prod.snd (negotiate (env true)) (st (answer (reply .Negotiate 7 (negotiateParams 0 0x8000f3fd 0) [1, 2, 3]))) 0x72 0
      (reply .Negotiate 7 (negotiateParams 0 0x8000f3fd 0) [1, 2, 3]) (negotiateParams 0 0x8000f3fd 0) [1, 2, 3] ∧
    34 ≤ (negotiateParams 0 0x8000f3fd 0).length ∧ u16At (negotiateParams 0 0x8000f3fd 0) 0 = some 0 ∧
    u8At (negotiateParams 0 0x8000f3fd 0) 33 = some 0 :=
  ⟨replied keeps_negotiate _ (by decide +kernel) _ _ _ _ _ (by decide +kernel) (by decide +kernel) (by decide +kernel) (by decide +kernel),
    by decide +kernel, by decide +kernel, by decide +kernel⟩

example : Replied (env true) Prod.snd (negotiate (env true)) (st (answer (reply .Negotiate 7 (negotiateParams 0xffff 0 0) []))) 0x72 0
      (reply .Negotiate 7 (negotiateParams 0xffff 0 0) []) (negotiateParams 0xffff 0 0) [] ∧ u16At (negotiateParams 0xffff 0 0) 0 = some 0xffff :=
  ⟨replied keeps_negotiate _ (by decide +kernel) _ _ _ _ _ (by decide +kernel) (by decide +kernel) (by decide +kernel) (by decide +kernel),
    by decide +kernel⟩

/-- A session setup reply with a blob of two bytes. -/
def moreReply : Bytes := { Info.default .SessionSetup with flags1 := 0x98, mid := 7, uid := 100, status := .Known .MORE_PROCESSING : Info }.write ++
  [4, 0xff, 0, 0, 0, 1, 0, 2, 0] ++ putU16 3 ++ [65, 66, 67]

example : Replied (env true) Prod.snd (sessionSetupNtlmv2 (env true) [1, 2]) (st (answer moreReply)) 0x73 moreProcessing
      moreReply [0xff, 0, 0, 0, 1, 0, 2, 0] [65, 66, 67] ∧ LastAndX [0xff, 0, 0, 0, 1, 0, 2, 0] ∧ u16At [0xff, 0, 0, 0, 1, 0, 2, 0] 6 = some 2 :=
  ⟨replied (keeps_setup _) _ (by decide +kernel) _ _ _ _ _ (by decide +kernel) (by decide +kernel) (by decide +kernel) (by decide +kernel),
    by decide +kernel, by decide +kernel⟩

end Demo

end Cifs
