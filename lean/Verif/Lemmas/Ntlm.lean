import Verif.Spec.Ntlm
import Verif.Lemmas.Short
import Verif.Lemmas.OddText
import Verif.Lemmas.Notify
import Verif.Lemmas.Masks
import Verif.Model.Ntlm
/-! # NTLM messages, written and read -/

namespace Cifs
open Spec

/-! ## Writing -/

/-- The eight bytes of a descriptor. -/
def descBytes (len pos : Nat) : Bytes := putU16 (UInt16.ofNat len) ++ putU16 (UInt16.ofNat len) ++ putU32 (UInt32.ofNat pos)

theorem length_descBytes (len pos : Nat) : (descBytes len pos).length = 8 := by simp [descBytes]

/-- Can this entry be written? -/
def PacketEntry.fits (offset : Nat) : PacketEntry → Prop
  | .Binary _ => True
  | .Buffer b => b.length < 65536 ∧ b.capacity < 65536 ∧ offset + b.position < 2 ^ 32

instance (offset : Nat) : (e : PacketEntry) → Decidable (e.fits offset)
  | .Binary _ => inferInstanceAs (Decidable True)
  | .Buffer b => inferInstanceAs (Decidable (b.length < 65536 ∧ b.capacity < 65536 ∧ offset + b.position < 2 ^ 32))

/-- How it is written. -/
def PacketEntry.bytes (offset : Nat) : PacketEntry → Bytes
  | .Binary b => b
  | .Buffer b => putU16 (UInt16.ofNat b.length) ++ putU16 (UInt16.ofNat b.capacity) ++ putU32 (UInt32.ofNat (offset + b.position))

theorem NtlmBuffer.write_eq (b : NtlmBuffer) (offset : Nat) :
    b.write offset = if (PacketEntry.Buffer b).fits offset then .ok ((PacketEntry.Buffer b).bytes offset) else .err .InputParameter := by
  simp only [NtlmBuffer.write, tryInto, PacketEntry.fits, PacketEntry.bytes]
  by_cases h1 : b.length < 65536 <;> by_cases h2 : b.capacity < 65536 <;> by_cases h3 : offset + b.position < 2 ^ 32 <;> simp [h1, h2, h3]

theorem writeEntries_eq (offset : Nat) (es : List PacketEntry) :
    writeEntries offset es = if ∀ e ∈ es, e.fits offset then .ok (es.flatMap (PacketEntry.bytes offset)) else .err .InputParameter := by
  induction es with
  | nil => simp [writeEntries]
  | cons e es ih =>
    cases e with
    | Binary b =>
      simp only [writeEntries, ih]
      by_cases h : ∀ e ∈ es, e.fits offset
      · rw [if_pos h, if_pos (by simpa [PacketEntry.fits] using h)]; simp [PacketEntry.bytes]
      · rw [if_neg h, if_neg (by simpa [PacketEntry.fits] using h)]; simp
    | Buffer b =>
      simp only [writeEntries, ih, NtlmBuffer.write_eq]
      by_cases hb : (PacketEntry.Buffer b).fits offset
      · by_cases h : ∀ e ∈ es, e.fits offset
        · rw [if_pos h, if_pos hb, if_pos (by simpa using ⟨hb, h⟩)]; simp
        · rw [if_neg h, if_pos hb, if_neg (by simpa [hb] using h)]; simp
      · rw [if_neg hb]
        exact (if_neg (fun h => hb (h _ List.mem_cons_self))).symm

/-- The version bytes in use. -/
def ntlmVersionBytes : Bytes := [5] ++ [0] ++ putU16 2195 ++ zeros 3 ++ [NTLM_REVISION]

/-- The first message. -/
theorem ntlmInit_eq (flags : UInt32) (domain workstation : Str) :
    ntlmInit flags domain workstation =
      if (utf8 domain).length < 65536 ∧ (utf8 workstation).length < 65536 then
        .ok (NTLMSSP_MAGIC ++ putU32 1 ++ putU32 flags ++ descBytes (utf8 domain).length 40 ++
          descBytes (utf8 workstation).length (40 + (utf8 domain).length) ++ ntlmVersionBytes ++ (utf8 domain ++ utf8 workstation))
      else .err .InputParameter := by
  have hb : Packet.baseLen ((((((Packet.new.appendBinary NTLMSSP_MAGIC).appendU32 NTLM_MSG_INIT).appendU32 flags).appendBuffer (utf8 domain)).appendBuffer
    (utf8 workstation)).appendBinary ntlmVersionBytes) = 40 := by rfl
  show Packet.toBytes ((((((Packet.new.appendBinary NTLMSSP_MAGIC).appendU32 NTLM_MSG_INIT).appendU32 flags).appendBuffer (utf8 domain)).appendBuffer
    (utf8 workstation)).appendBinary ntlmVersionBytes) = _
  unfold Packet.toBytes
  rw [hb, writeEntries_eq]
  simp only [Packet.appendBinary, Packet.appendU32, Packet.appendBuffer, Packet.new, List.nil_append, List.cons_append, List.length_nil,
    List.mem_cons, List.not_mem_nil, or_false, forall_eq_or_imp, forall_eq, PacketEntry.fits, true_and, and_true, List.flatMap_cons, List.flatMap_nil,
    PacketEntry.bytes, Nat.add_zero]
  by_cases h : (utf8 domain).length < 65536 ∧ (utf8 workstation).length < 65536
  · rw [if_pos h, if_pos (by obtain ⟨h1, h2⟩ := h; refine ⟨⟨h1, h1, by omega⟩, h2, h2, by omega⟩)]
    simp [descBytes, NTLM_MSG_INIT]
  · rw [if_neg h, if_neg (fun hc => h ⟨hc.1.1, hc.2.1⟩)]; rfl

/-- The text of a name in the third message. -/
def ntlmName (unicode : Bool) (s : Str) : Bytes := if unicode then encodeUtf16le s else utf8 s

theorem appendString_eq (p : Packet) (s : Str) (unicode : Bool) : p.appendString s unicode = p.appendBuffer (ntlmName unicode s) := by
  unfold Packet.appendString ntlmName; split <;> rfl

/-- The third message. -/
theorem response_eq (C : Crypto) (m : ChallengeMsg) (a : Auth) (time : UInt64) (random : Bytes) {nt d u w : Bytes}
    (hnt : (ntlmv2Authenticate C a m time random).2 = nt) (hd : ntlmName (NtlmFlags.contains m.flags NtlmFlags.UNICODE) a.domain = d)
    (hu : ntlmName (NtlmFlags.contains m.flags NtlmFlags.UNICODE) a.user = u)
    (hw : ntlmName (NtlmFlags.contains m.flags NtlmFlags.UNICODE) a.workstation = w) :
    m.response C a time random =
      if nt.length < 65536 ∧ d.length < 65536 ∧ u.length < 65536 ∧ w.length < 65536 then
        .ok (NTLMSSP_MAGIC ++ putU32 3 ++ descBytes 24 52 ++ descBytes nt.length 76 ++ descBytes d.length (76 + nt.length) ++
          descBytes u.length (76 + nt.length + d.length) ++ descBytes w.length (76 + nt.length + d.length + u.length) ++
          (zeros 24 ++ nt ++ d ++ u ++ w))
      else .err .InputParameter := by
  unfold ChallengeMsg.response
  simp only [appendString_eq, hnt, hd, hu, hw]
  have hb : Packet.baseLen (((((((Packet.new.appendBinary NTLMSSP_MAGIC).appendU32 NTLM_MSG_RESPONSE).appendBuffer (zeros 24)).appendBuffer
    nt).appendBuffer d).appendBuffer u).appendBuffer w) = 52 := by rfl
  unfold Packet.toBytes
  rw [hb, writeEntries_eq]
  simp only [Packet.appendBinary, Packet.appendU32, Packet.appendBuffer, Packet.new, List.nil_append, List.cons_append, List.length_nil,
    List.mem_cons, List.not_mem_nil, or_false, forall_eq_or_imp, forall_eq, PacketEntry.fits, true_and, List.flatMap_cons, List.flatMap_nil,
    PacketEntry.bytes, Nat.add_zero, List.length_append, length_zeros]
  by_cases h : nt.length < 65536 ∧ d.length < 65536 ∧ u.length < 65536 ∧ w.length < 65536
  · rw [if_pos h, if_pos (by
      obtain ⟨h1, h2, h3, h4⟩ := h
      refine ⟨⟨by omega, by omega, by omega⟩, ⟨h1, h1, by omega⟩, ⟨h2, h2, by omega⟩, ⟨h3, h3, by omega⟩, h4, h4, by omega⟩)]
    simp only [descBytes, NTLM_MSG_RESPONSE, Res.ok_bind]
    rw [show 52 + (24 + nt.length) = 76 + nt.length by omega, show 52 + (24 + nt.length + d.length) = 76 + nt.length + d.length by omega,
      show 52 + (24 + nt.length + d.length + u.length) = 76 + nt.length + d.length + u.length by omega]
    simp only [List.append_assoc, List.append_nil]
  · rw [if_neg h, if_neg (fun hc => h ⟨hc.2.1.1, hc.2.2.1.1, hc.2.2.2.1.1, hc.2.2.2.2.1⟩)]; rfl

theorem delimits_of {m a b p q payload : Bytes} {d o : Nat} (hm : m = a ++ (descBytes payload.length o ++ b)) (ha : a.length = d)
    (hm' : m = p ++ (payload ++ q)) (hp : p.length = o) (hl : payload.length < 65536) (ho : o < 2 ^ 32) :
    u16At m (d + 2) = some payload.length ∧ Delimits m d o payload := by
  have e1 : (UInt16.ofNat payload.length).toNat = payload.length := by rw [UInt16.toNat_ofNat']; exact Nat.mod_eq_of_lt hl
  have e2 : (UInt32.ofNat o).toNat = o := by rw [UInt32.toNat_ofNat']; exact Nat.mod_eq_of_lt ho
  refine ⟨?_, ?_, ?_, ?_⟩
  · rw [hm, u16At_append_right _ _ _ (by omega), show d + 2 - a.length = 2 by omega, descBytes]
    wire; rw [e1]
  · rw [hm, u16At_append_right _ _ _ (by omega), show d - a.length = 0 by omega, descBytes]
    wire; rw [e1]
  · rw [hm, u32At_append_right _ _ _ (by omega), show d + 4 - a.length = 4 by omega, descBytes]
    wire; rw [e2]
  · rw [hm', sliceAt_append_right _ _ _ _ (by omega), show o - p.length = 0 by omega]
    exact sliceAt_zero _ _ rfl

theorem length_ntlmv2 (C : Crypto) (a : Auth) (m : ChallengeMsg) (time : UInt64) (random : Bytes) :
    (ntlmv2Authenticate C a m time random).2.length = 40 + random.length + m.info.length := by
  simp [ntlmv2Authenticate, ntlmv2Blob, C.hmacMd5_len]; omega

/-- What the first message looks like. -/
theorem ntlmInit_ok {flags : UInt32} {domain workstation : Str} {m : Bytes} (h : ntlmInit flags domain workstation = .ok m) :
    (utf8 domain).length < 65536 ∧ (utf8 workstation).length < 65536 ∧ IsNtlmNegotiate m flags.toNat (utf8Bytes domain) (utf8Bytes workstation) := by
  rw [ntlmInit_eq] at h
  split at h
  · rename_i hl
    obtain ⟨h1, h2⟩ := hl
    refine ⟨h1, h2, ?_⟩
    rw [utf8Bytes_eq, utf8Bytes_eq]
    generalize utf8 domain = d at *
    generalize utf8 workstation = w at *
    injection h with h
    have hlen : m.length = 40 + d.length + w.length := by
      rw [← h]; simp [length_descBytes, NTLMSSP_MAGIC, ntlmVersionBytes]; omega
    refine ⟨⟨by rw [← h]; rfl, by rw [← h]; rfl⟩, ?_, ⟨40, 40 + d.length, ?_, ?_, ?_, ?_⟩, ⟨5, 0, putU16 2195, ?_, rfl⟩⟩
    · rw [← h, NTLMSSP_MAGIC]; wire
    · intro x hx
      simp only [List.mem_cons, List.not_mem_nil, or_false] at hx
      rcases hx with rfl | rfl
      · exact ⟨by simp, delimits_of (a := NTLMSSP_MAGIC ++ putU32 1 ++ putU32 flags) (b := descBytes w.length (40 + d.length) ++ ntlmVersionBytes ++ (d ++ w))
          (p := NTLMSSP_MAGIC ++ putU32 1 ++ putU32 flags ++ descBytes d.length 40 ++ descBytes w.length (40 + d.length) ++ ntlmVersionBytes) (q := w)
          (by rw [← h]; simp only [List.append_assoc]) rfl (by rw [← h]) rfl h1 (by simp)⟩
      · exact ⟨by simp, delimits_of (a := NTLMSSP_MAGIC ++ putU32 1 ++ putU32 flags ++ descBytes d.length 40) (b := ntlmVersionBytes ++ (d ++ w))
          (p := NTLMSSP_MAGIC ++ putU32 1 ++ putU32 flags ++ descBytes d.length 40 ++ descBytes w.length (40 + d.length) ++ ntlmVersionBytes ++ d) (q := [])
          (by rw [← h]; simp only [List.append_assoc]) rfl (by rw [← h]; simp only [List.append_assoc, List.append_nil])
          (by simp [length_descBytes, NTLMSSP_MAGIC, ntlmVersionBytes]; omega) h2 (by simp only []; omega)⟩
    · intro x hx
      simp only [List.mem_cons, List.not_mem_nil, or_false] at hx
      rcases hx with rfl | rfl
      · exact ⟨Nat.le_refl _, by simp only []; omega⟩
      · exact ⟨by simp only []; omega, by simp only []; omega⟩
    · simp
    · simp [hlen]; omega
    · rw [← h]; rfl
  · cases h

/-- What the third message looks like. -/
theorem response_ok {C : Crypto} {c : ChallengeMsg} {a : Auth} {time : UInt64} {random m : Bytes} (h : c.response C a time random = .ok m)
    {unicode : Bool} (hu : NtlmFlags.contains c.flags NtlmFlags.UNICODE = unicode) :
    (ntlmv2Authenticate C a c time random).2.length < 65536 ∧ (ntlmName unicode a.domain).length < 65536 ∧
      (ntlmName unicode a.user).length < 65536 ∧ (ntlmName unicode a.workstation).length < 65536 ∧
      IsNtlmAuthenticate m (List.replicate 24 0) (ntlmv2Authenticate C a c time random).2 (ntlmName unicode a.domain) (ntlmName unicode a.user)
        (ntlmName unicode a.workstation) := by
  subst hu
  rw [response_eq C c a time random rfl rfl rfl rfl] at h
  generalize (ntlmv2Authenticate C a c time random).2 = nt at *
  generalize ntlmName _ a.domain = d at *
  generalize ntlmName _ a.user = u at *
  generalize ntlmName _ a.workstation = w at *
  split at h
  · rename_i hl
    obtain ⟨h1, h2, h3, h4⟩ := hl
    refine ⟨h1, h2, h3, h4, ?_⟩
    injection h with h
    have hz : (zeros 24).length = 24 := rfl
    have hlen : m.length = 76 + nt.length + d.length + u.length + w.length := by
      rw [← h]; simp [length_descBytes, NTLMSSP_MAGIC]; omega
    refine ⟨⟨by rw [← h]; rfl, by rw [← h]; rfl⟩, ⟨52, 76, 76 + nt.length, 76 + nt.length + d.length, 76 + nt.length + d.length + u.length, ?_, ?_, ?_, ?_⟩⟩
    · generalize hH : NTLMSSP_MAGIC ++ putU32 3 ++ descBytes 24 52 ++ descBytes nt.length 76 ++ descBytes d.length (76 + nt.length) ++
          descBytes u.length (76 + nt.length + d.length) ++ descBytes w.length (76 + nt.length + d.length + u.length) = H at *
      have lH : H.length = 52 := by rw [← hH]; rfl
      intro x hx
      simp only [List.mem_cons, List.not_mem_nil, or_false] at hx
      rcases hx with rfl | rfl | rfl | rfl | rfl
      · exact ⟨by simp, delimits_of (a := NTLMSSP_MAGIC ++ putU32 3) (p := H) (q := nt ++ d ++ u ++ w)
          (by rw [← h, ← hH]; simp only [List.append_assoc, List.length_replicate]; rfl) rfl
          (by rw [← h]; simp only [List.append_assoc]; rfl) lH (by simp) (by simp)⟩
      · exact ⟨by simp, delimits_of (a := NTLMSSP_MAGIC ++ putU32 3 ++ descBytes 24 52) (p := H ++ zeros 24) (q := d ++ u ++ w)
          (by rw [← h, ← hH]; simp only [List.append_assoc]; rfl) rfl
          (by rw [← h]; simp only [List.append_assoc]) (by rw [List.length_append, lH, hz]) h1 (by simp)⟩
      · exact ⟨by simp, delimits_of (a := NTLMSSP_MAGIC ++ putU32 3 ++ descBytes 24 52 ++ descBytes nt.length 76) (p := H ++ zeros 24 ++ nt) (q := u ++ w)
          (by rw [← h, ← hH]; simp only [List.append_assoc]; rfl) rfl
          (by rw [← h]; simp only [List.append_assoc]) (by simp only [List.length_append, lH, hz]) h2 (by simp only []; omega)⟩
      · exact ⟨by simp, delimits_of (a := NTLMSSP_MAGIC ++ putU32 3 ++ descBytes 24 52 ++ descBytes nt.length 76 ++ descBytes d.length (76 + nt.length))
          (p := H ++ zeros 24 ++ nt ++ d) (q := w) (by rw [← h, ← hH]; simp only [List.append_assoc]; rfl) rfl
          (by rw [← h]; simp only [List.append_assoc]) (by simp only [List.length_append, lH, hz]) h3 (by simp only []; omega)⟩
      · exact ⟨by simp, delimits_of (a := NTLMSSP_MAGIC ++ putU32 3 ++ descBytes 24 52 ++ descBytes nt.length 76 ++ descBytes d.length (76 + nt.length) ++
            descBytes u.length (76 + nt.length + d.length))
          (p := H ++ zeros 24 ++ nt ++ d ++ u) (q := []) (by rw [← h, ← hH]; simp only [List.append_assoc]; rfl) rfl
          (by rw [← h]; simp only [List.append_assoc, List.append_nil]) (by simp only [List.length_append, lH, hz]) h4 (by simp only []; omega)⟩
    · intro x hx
      simp only [List.mem_cons, List.not_mem_nil, or_false] at hx
      rcases hx with rfl | rfl | rfl | rfl | rfl <;> simp only [List.length_replicate] <;> omega
    · simp only [List.pairwise_cons, List.mem_cons, List.not_mem_nil, or_false, List.length_replicate]
      refine ⟨?_, ?_, ?_, ?_, by simp, .nil⟩ <;> intro x hx
      · rcases hx with rfl | rfl | rfl | rfl <;> simp only [] <;> omega
      · rcases hx with rfl | rfl | rfl <;> simp only [] <;> omega
      · rcases hx with rfl | rfl <;> simp only [] <;> omega
      · rcases hx with rfl; simp only []; omega
    · simp [hlen]; omega
  · cases h

/-! ## Reading -/

theorem sliceRange_at {ε : Type} (m : Bytes) (o n : Nat) :
    (sliceRange m o (o + n) : Res ε Bytes) = match sliceAt m o n with | some b => .ok b | none => .panic := by
  unfold sliceRange sliceAt
  by_cases h : o + n ≤ m.length
  · rw [if_pos ⟨by omega, h⟩, if_pos h, List.drop_take, Nat.add_sub_cancel_left]
  · rw [if_neg (fun hc => h hc.2), if_neg h]

theorem ntlm_unicode (f : UInt32) : NtlmFlags.contains (NtlmFlags.truncate f) NtlmFlags.UNICODE = decide (f.toNat % 2 = 1) := by
  have h : (NtlmFlags.truncate f).toNat = f.toNat &&& ntlmFlagMask := by rw [NtlmFlags.truncate, UInt32.toNat_and]; rfl
  have e := contains32 (NtlmFlags.truncate f) NtlmFlags.UNICODE 0 rfl
  rw [h, mask_bit _ _ _ (by decide)] at e
  have e' : NtlmFlags.contains (NtlmFlags.truncate f) NtlmFlags.UNICODE = decide (f.toNat / 2 ^ 0 % 2 = 1) := e
  simpa using e'

theorem mask_ntlm (f : UInt32) : (NtlmFlags.truncate f).toNat = f.toNat &&& ntlmFlagMask := by rw [NtlmFlags.truncate, UInt32.toNat_and]; rfl

theorem challenge_cut {m : Bytes} (h : m.length < 8) : ChallengeMsg.parse m = .panic := by
  unfold ChallengeMsg.parse
  rw [Rd.copyToBytes_short h]; rfl

theorem challenge_unsigned {m : Bytes} (h : 8 ≤ m.length) (hs : sliceAt m 0 8 ≠ some ntlmSignature) : ChallengeMsg.parse m = .err .InvalidPacket := by
  obtain ⟨a, r, ha, rfl⟩ := split_n 8 m h
  rw [sliceAt_zero _ _ ha] at hs
  unfold ChallengeMsg.parse
  rw [Rd.copyToBytes_append _ _ _ ha, Res.ok_bind]
  exact if_pos (fun hc => hs (by rw [hc]; rfl))

theorem signed_split {m : Bytes} (hs : sliceAt m 0 8 = some ntlmSignature) : ∃ r, m = NTLMSSP_MAGIC ++ r := by
  obtain ⟨r, hr, _⟩ := sliceAt_zero_some hs
  exact ⟨r, hr⟩

theorem challenge_untyped {m : Bytes} (hs : sliceAt m 0 8 = some ntlmSignature) (h : m.length < 12) : ChallengeMsg.parse m = .panic := by
  obtain ⟨r, rfl⟩ := signed_split hs
  unfold ChallengeMsg.parse
  rw [Rd.copyToBytes_append 8 _ _ rfl, Res.ok_bind]
  have hr : r.length < 4 := by rw [List.length_append] at h; have : NTLMSSP_MAGIC.length = 8 := rfl; omega
  simp only [ne_eq, not_true_eq_false, if_false]
  rw [Rd.getU32_short hr]; rfl

theorem typed_split {m : Bytes} (hs : sliceAt m 0 8 = some ntlmSignature) (h : 12 ≤ m.length) : ∃ t r, m = NTLMSSP_MAGIC ++ (putU32 t ++ r) ∧
    u32At m 8 = some t.toNat := by
  obtain ⟨r, rfl⟩ := signed_split hs
  obtain ⟨t, r, rfl⟩ := split_u32 r (by rw [List.length_append] at h; have : NTLMSSP_MAGIC.length = 8 := rfl; omega)
  refine ⟨t, r, rfl, ?_⟩
  rw [u32At_append_right _ _ _ (by decide)]; exact u32At_put t r

theorem challenge_other {m : Bytes} (hs : sliceAt m 0 8 = some ntlmSignature) (h : 12 ≤ m.length) (ht : u32At m 8 ≠ some 2) :
    ChallengeMsg.parse m = .err .InvalidPacket := by
  obtain ⟨t, r, rfl, h8⟩ := typed_split hs h
  unfold ChallengeMsg.parse
  rw [Rd.copyToBytes_append 8 _ _ rfl, Res.ok_bind]
  have ht : t ≠ NTLM_MSG_CHALLENGE := fun hc => ht (by rw [h8, hc]; rfl)
  simp only [ne_eq, not_true_eq_false, if_false, Rd.getU32_put, Res.ok_bind]
  exact if_pos ht

theorem buffer_parse (l c : UInt16) (p : UInt32) (r : Bytes) :
    NtlmBuffer.parse (putU16 l ++ (putU16 c ++ (putU32 p ++ r))) = .ok ({ length := l.toNat, capacity := c.toNat, position := p.toNat }, r) := by
  simp [NtlmBuffer.parse]

theorem buffer_short {b : Bytes} (h : b.length < 8) : NtlmBuffer.parse b = .panic := by
  unfold NtlmBuffer.parse
  by_cases h1 : b.length < 2
  · rw [Rd.bind_apply, Rd.getU16_short h1]; rfl
  obtain ⟨x, b, rfl⟩ := split_u16 b (by omega)
  rw [Rd.bind_apply, Rd.getU16_put]
  simp only [List.length_append, length_putU16] at h h1
  by_cases h2 : b.length < 2
  · rw [Res.bind_ok, Rd.bind_apply, Rd.getU16_short h2]; rfl
  obtain ⟨y, b, rfl⟩ := split_u16 b (by omega)
  simp only [List.length_append, length_putU16] at h
  rw [Res.bind_ok, Rd.bind_apply, Rd.getU16_put, Res.bind_ok, Rd.bind_apply, Rd.getU32_short (show b.length < 4 by omega)]; rfl

theorem challenge_short {m : Bytes} (ht : NtlmType m 2) (h : m.length < 48) : ChallengeMsg.parse m = .panic := by
  obtain ⟨hs, ht⟩ := ht
  obtain ⟨t, r, rfl, h8⟩ := typed_split hs (u32At_length ht)
  rw [h8] at ht
  have ht : t = NTLM_MSG_CHALLENGE := UInt32.toNat_inj.mp (Option.some.inj ht)
  subst ht
  unfold ChallengeMsg.parse
  rw [Rd.copyToBytes_append 8 _ _ rfl, Res.ok_bind]
  simp only [ne_eq, not_true_eq_false, if_false, Rd.getU32_put, Res.ok_bind]
  have hr : r.length < 36 := by
    rw [List.length_append, List.length_append, length_putU32] at h; have : NTLMSSP_MAGIC.length = 8 := rfl; omega
  by_cases h1 : r.length < 8
  · rw [buffer_short h1]; rfl
  obtain ⟨l, r, rfl⟩ := split_u16 r (by omega)
  simp only [List.length_append, length_putU16] at hr h1
  obtain ⟨c, r, rfl⟩ := split_u16 r (by omega)
  simp only [List.length_append, length_putU16] at hr h1
  obtain ⟨p, r, rfl⟩ := split_u32 r (by omega)
  simp only [List.length_append, length_putU32] at hr h1
  rw [buffer_parse, Res.ok_bind]
  dsimp only
  by_cases h2 : r.length < 4
  · rw [Rd.getU32_short h2]; rfl
  obtain ⟨f, r, rfl⟩ := split_u32 r (by omega)
  simp only [List.length_append, length_putU32] at hr h2
  rw [Rd.getU32_put, Res.ok_bind]
  dsimp only
  by_cases h3 : r.length < 8
  · rw [Rd.copyToBytes_short h3]; rfl
  obtain ⟨ch, r, hch, rfl⟩ := split_n 8 r (by omega)
  simp only [List.length_append, hch] at hr h3
  rw [Rd.copyToBytes_append _ _ _ hch, Res.ok_bind]
  dsimp only
  by_cases h4 : r.length < 8
  · rw [Rd.advance_short h4]; rfl
  obtain ⟨cx, r, hcx, rfl⟩ := split_n 8 r (by omega)
  simp only [List.length_append, hcx] at hr h4
  rw [Rd.advance_append _ _ _ hcx, Res.ok_bind]
  dsimp only
  rw [buffer_short (by omega)]; rfl

/-- The decoder on a message of the right type and length. -/
theorem challenge_long {m : Bytes} (ht : NtlmType m 2) (h : 48 ≤ m.length) :
    ∃ (tl tp il ip : Nat) (f : UInt32) (ch : Bytes), u16At m 12 = some tl ∧ u32At m 16 = some tp ∧ u32At m 20 = some f.toNat ∧
      sliceAt m 24 8 = some ch ∧ u16At m 40 = some il ∧ u32At m 44 = some ip ∧
      ChallengeMsg.parse m = (match sliceAt m tp tl with
        | none => .panic
        | some b => (if f.toNat % 2 = 1 then decodeUtf16le .InvalidPacket b else Res.ofOption .InvalidPacket (fromUtf8 b)).bind (fun target =>
            match sliceAt m ip il with
            | none => .panic
            | some info => .ok { target, flags := NtlmFlags.truncate f, challenge := ch, info })) := by
  obtain ⟨hs, ht⟩ := ht
  obtain ⟨t, r, hm, h8⟩ := typed_split hs (u32At_length ht)
  rw [h8] at ht
  have ht : t = NTLM_MSG_CHALLENGE := UInt32.toNat_inj.mp (Option.some.inj ht)
  subst ht
  have hr : 36 ≤ r.length := by
    rw [hm, List.length_append, List.length_append, length_putU32] at h; have : NTLMSSP_MAGIC.length = 8 := rfl; omega
  obtain ⟨l, r, rfl⟩ := split_u16 r (by omega)
  simp only [List.length_append, length_putU16] at hr
  obtain ⟨c, r, rfl⟩ := split_u16 r (by omega)
  simp only [List.length_append, length_putU16] at hr
  obtain ⟨p, r, rfl⟩ := split_u32 r (by omega)
  simp only [List.length_append, length_putU32] at hr
  obtain ⟨f, r, rfl⟩ := split_u32 r (by omega)
  simp only [List.length_append, length_putU32] at hr
  obtain ⟨ch, r, hch, rfl⟩ := split_n 8 r (by omega)
  simp only [List.length_append, hch] at hr
  obtain ⟨cx, r, hcx, rfl⟩ := split_n 8 r (by omega)
  simp only [List.length_append, hcx] at hr
  obtain ⟨l', r, rfl⟩ := split_u16 r (by omega)
  simp only [List.length_append, length_putU16] at hr
  obtain ⟨c', r, rfl⟩ := split_u16 r (by omega)
  simp only [List.length_append, length_putU16] at hr
  obtain ⟨p', r, rfl⟩ := split_u32 r (by omega)
  have hM : NTLMSSP_MAGIC.length = 8 := rfl
  refine ⟨l.toNat, p.toNat, l'.toNat, p'.toNat, f, ch, ?_, ?_, ?_, ?_, ?_, ?_, ?_⟩
  · rw [hm, u16At_append_right _ _ _ (by omega), hM]; wire
  · rw [hm, u32At_append_right _ _ _ (by omega), hM]; wire
  · rw [hm, u32At_append_right _ _ _ (by omega), hM]; wire
  · rw [hm, sliceAt_append_right _ _ _ _ (by omega), hM]; wire
    exact sliceAt_zero _ _ hch
  · rw [hm, u16At_append_right _ _ _ (by omega), hM]
    simp only [u16At_append_right, length_putU16, length_putU32, hch, hcx, Nat.reduceLeDiff, Nat.reduceSub]
    exact u16At_put _ _
  · rw [hm, u32At_append_right _ _ _ (by omega), hM]
    simp only [u32At_append_right, length_putU16, length_putU32, hch, hcx, Nat.reduceLeDiff, Nat.reduceSub]
    exact u32At_put _ _
  · have e : ChallengeMsg.parse m = ((NtlmBuffer.mk l.toNat c.toNat p.toNat).extractString m
        (NtlmFlags.contains (NtlmFlags.truncate f) NtlmFlags.UNICODE) >>= fun target =>
        (NtlmBuffer.mk l'.toNat c'.toNat p'.toNat).extract m >>= fun info =>
        .ok { target, flags := NtlmFlags.truncate f, challenge := ch, info }) := by
      unfold ChallengeMsg.parse
      have e0 : (Rd.copyToBytes 8 m : Res NtlmError _) = .ok (NTLMSSP_MAGIC, (putU32 NTLM_MSG_CHALLENGE ++ (putU16 l ++ (putU16 c ++ (putU32 p ++
        (putU32 f ++ (ch ++ (cx ++ (putU16 l' ++ (putU16 c' ++ (putU32 p' ++ r)))))))))) ) := by rw [hm]; exact Rd.copyToBytes_append 8 _ _ rfl
      rw [e0, Res.ok_bind]
      simp only [ne_eq, not_true_eq_false, if_false, Rd.getU32_put, Res.ok_bind, buffer_parse]
      rw [Rd.copyToBytes_append _ _ _ hch, Res.ok_bind]
      dsimp only
      rw [Rd.advance_append _ _ _ hcx, Res.ok_bind]
      dsimp only
      rw [buffer_parse, Res.ok_bind]
    rw [e, ntlm_unicode]
    unfold NtlmBuffer.extractString NtlmBuffer.extract
    dsimp only
    rw [sliceRange_at, sliceRange_at]
    cases sliceAt m p.toNat l.toNat with
    | none => rfl
    | some b =>
      simp only [Res.ok_bind, decide_eq_true_iff]
      generalize (if f.toNat % 2 = 1 then decodeUtf16le NtlmError.InvalidPacket b else Res.ofOption NtlmError.InvalidPacket (fromUtf8 b)) = x
      cases x with
      | ok t => cases sliceAt m p'.toNat l'.toNat <;> rfl
      | err e => rfl
      | panic => rfl

theorem fromUtf8_iff (b : Bytes) (s : Str) : fromUtf8 b = some s ↔ b = utf8Bytes s := by
  rw [utf8Bytes_eq]
  exact ⟨fun h => (utf8_fromUtf8 b s h).symm, fun h => by rw [h]; exact fromUtf8_utf8 s⟩

theorem ntlmText_iff (flags : Nat) (s : Str) (b : Bytes) :
    (if flags % 2 = 1 then decodeUtf16le NtlmError.InvalidPacket b else Res.ofOption .InvalidPacket (fromUtf8 b)) = .ok s ↔ NtlmText flags s b := by
  unfold NtlmText
  split
  · exact decode_ok_iff _ _ _
  · rw [← fromUtf8_iff]; cases fromUtf8 b <;> simp [Res.ofOption]

end Cifs
