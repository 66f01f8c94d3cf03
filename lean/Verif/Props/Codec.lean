import Verif.Model.Ntlm
import Verif.Lemmas.Wide
import Verif.Spec.Header
import Verif.Lemmas.Header
import Verif.Lemmas.Text
import Verif.Lemmas.Bits
/-!
# Headers, status codes, text, time and key material

C13, C16, C17 (headers), C52 (legacy key expansion), C53 (time), C54 (text), C58 (paths).
-/

namespace Cifs
open Spec

/-! ## C13 -/

/-- **C13** Only genuine replies are accepted. -/
theorem C13_accepted_iff (f : Bytes) : (∃ i rest, Info.parse f = .ok (i, rest)) ↔ Genuine f := by
  by_cases h : 32 ≤ f.length
  · obtain ⟨magic, cmd, status, f1, f2, ph, sig, tid, pl, uid, mid, rest, h1, h2, rfl⟩ := split_header f h
    rw [parse_rawHeader _ _ _ _ _ _ _ _ _ _ _ h1 h2, Genuine, raw_magic _ _ _ _ _ _ _ _ _ _ _ h1 h2, raw_cmd _ _ _ _ _ _ _ _ _ _ _ h1 h2,
      raw_flags1 _ _ _ _ _ _ _ _ _ _ _ h1 h2]
    by_cases hm : magic = SMB_MAGIC
    · subst hm
      rw [if_neg (by simp)]
      cases hc : Cmd.tryFrom cmd with
      | none =>
        refine iff_of_false (by rintro ⟨_, _, h⟩; cases h) ?_
        rintro ⟨_, _, ⟨c, hk, hc'⟩, _⟩
        simp only [Option.some.injEq] at hc'
        subst hc'
        obtain ⟨c, h⟩ := known_code _ hk
        simp [hc] at h
      | some c =>
        dsimp only
        by_cases hr : f1.toNat / 128 % 2 = 1
        · rw [if_neg (by rw [reply_bit]; omega)]
          refine iff_of_true ⟨_, _, rfl⟩ ⟨h, rfl, ⟨cmd.toNat, ?_, rfl⟩, _, rfl, hr⟩
          rw [← tryFrom_some hc]; exact code_known c
        · rw [if_pos ((reply_bit _).mpr hr)]
          refine iff_of_false (by rintro ⟨_, _, h⟩; cases h) ?_
          rintro ⟨_, _, _, n, hn, hb⟩
          simp only [Option.some.injEq] at hn
          subst hn; exact hr hb
    · rw [if_pos hm]
      refine iff_of_false (by rintro ⟨_, _, h⟩; cases h) ?_
      rintro ⟨_, hm', _⟩
      simp only [Option.some.injEq] at hm'
      exact hm hm'
  · refine iff_of_false ?_ (fun hg => h hg.1)
    rintro ⟨i, rest, hp⟩
    simp only [Info.parse, Rd.bind_apply, Rd.remaining, Res.bind_ok] at hp
    rw [if_pos (by simp [SMB_HEADER_LEN]; omega)] at hp
    cases hp

/-- **C13** Anything else is rejected with a header error (never a panic): too short or wrong magic, then an unknown command code, then
a missing reply bit. -/
theorem C13_rejected (f : Bytes) :
    (Info.parse f = .err .InvalidHeader ↔ ¬ (32 ≤ f.length ∧ magicOf (message f) = some smbMagic)) ∧
    (¬ Genuine f → 32 ≤ f.length → magicOf (message f) = some smbMagic →
      (∃ c : UInt8, cmdOf (message f) = some c.toNat ∧ c.toNat ∉ knownCodes ∧ Info.parse f = .err (.InvalidCommand c)) ∨
      (∃ n, flags1Of (message f) = some n ∧ n / 128 % 2 = 0 ∧ Info.parse f = .err .ReplyExpected)) := by
  by_cases h : 32 ≤ f.length
  · obtain ⟨magic, cmd, status, f1, f2, ph, sig, tid, pl, uid, mid, rest, h1, h2, rfl⟩ := split_header f h
    rw [parse_rawHeader _ _ _ _ _ _ _ _ _ _ _ h1 h2, Genuine, raw_magic _ _ _ _ _ _ _ _ _ _ _ h1 h2, raw_cmd _ _ _ _ _ _ _ _ _ _ _ h1 h2,
      raw_flags1 _ _ _ _ _ _ _ _ _ _ _ h1 h2]
    by_cases hm : magic = SMB_MAGIC
    · subst hm
      rw [if_neg (by simp)]
      cases hc : Cmd.tryFrom cmd with
      | none =>
        refine ⟨iff_of_false (by simp) (fun hh => hh ⟨h, rfl⟩), fun _ _ _ => .inl ⟨cmd, rfl, ?_, rfl⟩⟩
        intro hk
        obtain ⟨c, h⟩ := known_code _ hk
        simp [hc] at h
      | some c =>
        dsimp only
        by_cases hr : f1.toNat / 128 % 2 = 1
        · rw [if_neg (by rw [reply_bit]; omega)]
          refine ⟨iff_of_false (by simp) (fun hh => hh ⟨h, rfl⟩), fun hg _ _ => absurd ⟨h, rfl, ⟨cmd.toNat, ?_, rfl⟩, _, rfl, hr⟩ hg⟩
          rw [← tryFrom_some hc]; exact code_known c
        · rw [if_pos ((reply_bit _).mpr hr)]
          exact ⟨iff_of_false (by simp) (fun hh => hh ⟨h, rfl⟩), fun _ _ _ => .inr ⟨_, rfl, by omega, rfl⟩⟩
    · rw [if_pos hm]
      refine ⟨iff_of_true rfl ?_, ?_⟩
      · rintro ⟨_, hm'⟩
        simp only [Option.some.injEq] at hm'
        exact hm hm'
      · intro _ _ hm'
        simp only [Option.some.injEq] at hm'
        exact absurd hm' hm
  · have hp : Info.parse f = .err .InvalidHeader := by
      simp only [Info.parse, Rd.bind_apply, Rd.remaining, Res.bind_ok]
      rw [if_pos (by simp [SMB_HEADER_LEN]; omega)]; rfl
    exact ⟨iff_of_true hp (fun hh => h hh.1), fun _ hh => absurd hh h⟩

/-- A reply to a read request with status 0 and multiplex id 7. -/
example : Genuine ([0xff, 0x53, 0x4d, 0x42, 0x2e, 0, 0, 0, 0, 0x88] ++ List.replicate 20 0 ++ [7, 0] ++ [0, 0, 0]) :=
  ⟨by decide, by decide, ⟨comRead, by decide, by decide⟩, 0x88, by decide, by decide⟩
/-- Its request is not. -/
example : ¬ Genuine ([0xff, 0x53, 0x4d, 0x42, 0x2e, 0, 0, 0, 0, 0x08] ++ List.replicate 20 0 ++ [7, 0] ++ [0, 0, 0]) := by
  rintro ⟨_, _, _, n, h, hb⟩
  rw [show flags1Of _ = some 8 from by decide] at h
  cases h; simp at hb

/-! ## C16 -/

/-- **C16** Status codes survive the conversion to the library's type and back. -/
theorem C16_roundtrip (n : UInt32) : (Status.ofU32 n).toU32 = n := by
  unfold Status.ofU32
  cases h : NTStatus.tryFrom n with
  | none => rfl
  | some s => have := List.find?_some h; simpa [Status.toU32] using this

/-- **C16** Different codes never become the same status. -/
theorem C16_injective (a b : UInt32) (h : Status.ofU32 a = Status.ofU32 b) : a = b := by
  rw [← C16_roundtrip a, h, C16_roundtrip]

/-- **C16** Every named status is recognised by its code; in particular no two names share one. -/
theorem C16_named (s : NTStatus) : Status.ofU32 s.code = .Known s := by cases s <;> decide

/-- **C16** Every code without a name is kept as a number. -/
theorem C16_unnamed (n : UInt32) (h : ∀ s : NTStatus, s.code ≠ n) : Status.ofU32 n = .Unknown n := by
  unfold Status.ofU32
  cases hs : NTStatus.tryFrom n with
  | none => rfl
  | some s => have := List.find?_some hs; exact absurd (by simpa using this) (h s)

example : Status.ofU32 0xc0000022 = .Known .ACCESS_DENIED ∧ Status.ofU32 0xc0000023 ≠ Status.ofU32 0xc0000022 := by decide
example : ∀ s : NTStatus, s.code ≠ 0xdeadbeef := by intro s; cases s <;> decide

/-! ## C17 -/

/-- **C17** What is read from an accepted header is what stands at the protocol positions; undefined flag bits are dropped and the body
is left untouched. -/
theorem C17_read (f : Bytes) (i : Info) (rest : Bytes) (h : Info.parse f = .ok (i, rest)) :
    rest = f.drop 32 ∧ cmdOf (message f) = some i.cmd.code.toNat ∧ statusOf (message f) = some i.status.toU32.toNat ∧
    flags1Of (message f) = some i.flags1.toNat ∧ (∃ n, flags2Of (message f) = some n ∧ i.flags2.toNat = n &&& flags2Mask) ∧
    pidHighOf (message f) = some (i.pid.toNat / 65536) ∧ pidLowOf (message f) = some (i.pid.toNat % 65536) ∧
    tidOf (message f) = some i.tid.toNat ∧ uidOf (message f) = some i.uid.toNat ∧ midOf (message f) = some i.mid.toNat := by
  have hl := ((C13_accepted_iff f).mp ⟨i, rest, h⟩).1
  obtain ⟨magic, cmd, status, f1, f2, ph, sig, tid, pl, uid, mid, body, h1, h2, rfl⟩ := split_header f hl
  have hlen := length_rawHeader magic cmd status f1 f2 ph sig tid pl uid mid h1 h2
  rw [parse_rawHeader _ _ _ _ _ _ _ _ _ _ _ h1 h2] at h
  split at h
  · cases h
  · split at h
    · cases h
    · rename_i c hc
      split at h
      · cases h
      · cases h
        have hpl := pl.toNat_lt
        refine ⟨?_, ?_, ?_, ?_, ⟨f2.toNat, ?_, ?_⟩, ?_, ?_, ?_, ?_, ?_⟩
        · rw [← hlen, List.drop_left]
        · rw [raw_cmd _ _ _ _ _ _ _ _ _ _ _ h1 h2, mkInfo, tryFrom_some hc]
        · rw [raw_status _ _ _ _ _ _ _ _ _ _ _ h1 h2, mkInfo, C16_roundtrip]
        · rw [raw_flags1 _ _ _ _ _ _ _ _ _ _ _ h1 h2, mkInfo, truncate1]
        · rw [raw_flags2 _ _ _ _ _ _ _ _ _ _ _ h1 h2]
        · rw [mkInfo, truncate2]
        · rw [raw_pidHigh _ _ _ _ _ _ _ _ _ _ _ h1 h2, mkInfo, pid_join]; congr 1; omega
        · rw [raw_pidLow _ _ _ _ _ _ _ _ _ _ _ h1 h2, mkInfo, pid_join]; congr 1; omega
        · rw [raw_tid _ _ _ _ _ _ _ _ _ _ _ h1 h2, mkInfo]
        · rw [raw_uid _ _ _ _ _ _ _ _ _ _ _ h1 h2, mkInfo]
        · rw [raw_mid _ _ _ _ _ _ _ _ _ _ _ h1 h2, mkInfo]

/-- **C17** Header round trip: reading a written reply header gives it back, up to undefined flag bits, and leaves the body. The
hypotheses say that it is a reply and that its status is not a named one spelled as a number. -/
theorem C17_roundtrip (i : Info) (body : Bytes) (hr : i.flags1.toNat / 128 % 2 = 1) (hs : ∃ n, i.status = Status.ofU32 n) :
    Info.parse (i.write ++ body) = .ok ({ i with flags2 := i.flags2 &&& Flags2.all }, body) := by
  obtain ⟨n, hn⟩ := hs
  have e : i.write = rawHeader SMB_MAGIC i.cmd.code i.status.toU32 i.flags1 i.flags2 (i.pid >>> 16).toUInt16 (zeros 8 ++ zeros 2) i.tid
      (i.pid &&& 0xffff).toUInt16 i.uid i.mid := by simp [Info.write, rawHeader]
  rw [e, parse_rawHeader _ _ _ _ _ _ _ _ _ _ _ rfl rfl, if_neg (by simp), tryFrom_code]
  dsimp only
  rw [if_neg (by rw [reply_bit]; omega), mkInfo, pid_split, truncate1, hn, C16_roundtrip, ← hn]
  rfl

/-- **C17** The mask of `C17_roundtrip` is the set of declared flag bits. -/
theorem C17_mask : Flags2.all.toNat = flags2Mask := by decide

example : ∃ i : Info, i.flags1.toNat / 128 % 2 = 1 ∧ (∃ n, i.status = Status.ofU32 n) ∧ i.flags2.toNat &&& flags2Mask ≠ i.flags2.toNat :=
  ⟨{ Info.default .Read with flags1 := 0x98, flags2 := 0xffff, status := .Known .ACCESS_DENIED, pid := 0xdeadbeef }, by decide,
    ⟨0xc0000022, by decide⟩, by decide⟩

/-! ## C52 -/

/-- **C52** The key expansion spreads up to seven bytes, zero padded, seven bits per key byte. -/
theorem C52_key (data : Bytes) (h : data.length ≤ 7) : ∃ key, (expandDesKey data : Res SmbError Bytes) = .ok key ∧ IsDesKey data key := by
  have hb : ∀ n, n < 64 → bitAt (toBe64 ((List.range 8).foldl desKeyStep (beVal ([0] ++ data ++ zeros (7 - data.length)), 0)).2) n =
      (decide (n % 8 ≠ 7) && bitAt data (7 * (n / 8) + n % 8)) := by
    intro n hn
    rw [← testBit_beVal _ _ (by rw [length_toBe64]; omega), length_toBe64, beVal_toBe64, Nat.testBit_mod_two_pow, (desKey_fold _ _ _).2]
    by_cases h7 : n % 8 = 7
    · have e1 : (8 * 8 - 1 - n) % 8 = 0 := by omega
      simp [h7, e1]
    · have e1 : (8 * 8 - 1 - n) % 8 = 7 - n % 8 := by omega
      have e2 : (8 * 8 - 1 - n) / 8 = 7 - n / 8 := by omega
      have hl : ([0] ++ data ++ zeros (7 - data.length)).length = 8 := by simp [zeros]; omega
      have e3 : 7 * (7 - n / 8) + (7 - n % 8 - 1) = 8 * 8 - 1 - (8 + (7 * (n / 8) + n % 8)) := by omega
      rw [e1, e2, e3]
      have := testBit_beVal ([0] ++ data ++ zeros (7 - data.length)) (8 + (7 * (n / 8) + n % 8)) (by rw [hl]; omega)
      rw [hl] at this
      rw [this, bitAt_append_zeros]
      have e4 : bitAt ([0] ++ data) (8 + (7 * (n / 8) + n % 8)) = bitAt data (7 * (n / 8) + n % 8) := by
        unfold bitAt
        rw [show (8 + (7 * (n / 8) + n % 8)) / 8 = (7 * (n / 8) + n % 8) / 8 + 1 by omega,
          show (8 + (7 * (n / 8) + n % 8)) % 8 = (7 * (n / 8) + n % 8) % 8 by omega]
        rfl
      rw [e4]
      have : 8 * 8 - 1 - n < 64 := by omega
      have h8 : 7 - n / 8 < 8 := by omega
      have h9 : 7 - n % 8 ≠ 0 := by omega
      simp [h7, this, h8, h9]
  refine ⟨_, by rw [expandDesKey, if_neg (by omega)], length_toBe64 _, ?_⟩
  intro i hi
  refine ⟨fun j hj => ?_, ?_⟩
  · rw [hb _ (by omega), show (8 * i + j) / 8 = i by omega, show (8 * i + j) % 8 = j by omega]
    have : j ≠ 7 := by omega
    simp [this]
  · rw [hb _ (by omega), show (8 * i + 7) % 8 = 7 by omega]
    simp

/-- **C52** The description determines the key. -/
theorem C52_key_unique (data k k' : Bytes) (h : IsDesKey data k) (h' : IsDesKey data k') : k = k' := by
  have hb : ∀ n < 64, bitAt k n = bitAt k' n := by
    intro n hn
    have e : n = 8 * (n / 8) + n % 8 := by omega
    by_cases h7 : n % 8 = 7
    · rw [e, h7, (h.2 _ (by omega)).2, (h'.2 _ (by omega)).2]
    · rw [e, (h.2 _ (by omega)).1 _ (by omega), (h'.2 _ (by omega)).1 _ (by omega)]
  apply List.ext_getElem (by rw [h.1, h'.1])
  intro i h1 h2
  have hi : i < 8 := by rw [h.1] at h1; exact h1
  apply UInt8.toNat.inj
  apply Nat.eq_of_testBit_eq
  intro j
  by_cases hj : j < 8
  · have := hb (8 * i + (7 - j)) (by omega)
    unfold bitAt at this
    rw [show (8 * i + (7 - j)) / 8 = i by omega, show 7 - (8 * i + (7 - j)) % 8 = j by omega, List.getElem?_eq_getElem h1,
      List.getElem?_eq_getElem h2] at this
    simpa using this
  · rw [Nat.testBit_lt_two_pow, Nat.testBit_lt_two_pow]
    · exact Nat.lt_of_lt_of_le (UInt8.toNat_lt _) (Nat.pow_le_pow_right (by decide) (show 8 ≤ j by omega))
    · exact Nat.lt_of_lt_of_le (UInt8.toNat_lt _) (Nat.pow_le_pow_right (by decide) (show 8 ≤ j by omega))

/-- **C52** The legacy response: three DES encryptions of the challenge, under the keys made of bytes 0-6, 7-13 and 14-15 of the NT hash. -/
theorem C52_response (C : Crypto) (a : Auth) (challenge : Bytes) (hc : challenge.length = 8) :
    ∃ k1 k2 k3, IsDesKey ((C.md4 (encodeUtf16le a.password)).take 7) k1 ∧
      IsDesKey (((C.md4 (encodeUtf16le a.password)).drop 7).take 7) k2 ∧ IsDesKey ((C.md4 (encodeUtf16le a.password)).drop 14) k3 ∧
      (ntlmv1Authenticate C a challenge : Res SmbError Bytes) = .ok (C.des k1 challenge ++ C.des k2 challenge ++ C.des k3 challenge) ∧
      (C.des k1 challenge ++ C.des k2 challenge ++ C.des k3 challenge).length = 24 := by
  have hl := C.md4_len (encodeUtf16le a.password)
  have hd : ∀ d : Bytes, d.length ≤ 7 → ∃ k, IsDesKey d k ∧ (desOneshot C d challenge : Res SmbError Bytes) = .ok (C.des k challenge) := by
    intro d h
    obtain ⟨k, h1, h2⟩ := C52_key d h
    refine ⟨k, h2, ?_⟩
    rw [desOneshot, h1, Res.ok_bind, if_neg (by omega)]
  obtain ⟨k1, h1, e1⟩ := hd ((C.md4 (encodeUtf16le a.password)).take 7) (by simp; omega)
  obtain ⟨k2, h2, e2⟩ := hd (((C.md4 (encodeUtf16le a.password)).drop 7).take 7) (by simp; omega)
  obtain ⟨k3, h3, e3⟩ := hd ((C.md4 (encodeUtf16le a.password)).drop 14) (by simp; omega)
  refine ⟨k1, k2, k3, h1, h2, h3, ?_, by simp [C.des_len]⟩
  unfold ntlmv1Authenticate ntlmHash
  dsimp only
  rw [List.drop_zero, e1, List.drop_take, e2, List.take_of_length_le (by omega), e3]
  rfl

example : IsDesKey [0x81, 0x02, 0x03] ((expandDesKey [0x81, 0x02, 0x03] : Res SmbError Bytes).bind (fun k => (.ok k : Res SmbError Bytes)) |> fun
    | .ok k => k
    | _ => []) := by
  refine ⟨by decide, by decide⟩
example : (expandDesKey [0x81, 0x02, 0x03] : Res SmbError Bytes) = .ok [0x80, 0x80, 0x80, 0x60, 0, 0, 0, 0] := by decide

/-! ## C53 -/

/-- **C53** Every FILETIME converts, to the instant (in nanoseconds since 1601) it denotes, rounded down to microseconds. -/
theorem C53_decode (t : UInt64) :
    ∃ r : Int, (decodeWindowsTime t : Res SmbError Instant) = .ok r ∧ r % 1000 = 0 ∧ 0 ≤ r ∧ r ≤ 100 * (t.toNat : Int) ∧ 100 * (t.toNat : Int) - r < 1000 := by
  have ht := t.toNat_lt
  have e : asI64 (t.toNat / 10) = ((t.toNat / 10 : Nat) : Int) := by
    unfold asI64
    rw [Nat.mod_eq_of_lt (by omega), if_pos (by omega)]
  refine ⟨((t.toNat / 10 : Nat) : Int) * 1000, ?_, by omega, by omega, by omega, by omega⟩
  unfold decodeWindowsTime chronoMax
  simp only [e]
  rw [if_neg (by omega)]

/-- **C53** Conversion is monotone. -/
theorem C53_monotone (t u : UInt64) (h : t.toNat ≤ u.toNat) (r s : Instant) (hr : (decodeWindowsTime t : Res SmbError Instant) = .ok r)
    (hs : (decodeWindowsTime u : Res SmbError Instant) = .ok s) : r ≤ s := by
  obtain ⟨a, ha, a1, a2, a3, a4⟩ := C53_decode t
  obtain ⟨b, hb, b1, b2, b3, b4⟩ := C53_decode u
  rw [ha] at hr
  rw [hb] at hs
  cases hr; cases hs
  unfold Instant at *
  omega

/-- **C53** Every instant from 1601 on that a FILETIME can hold is encoded to the FILETIME of its microsecond, with and without overflow
checks. -/
theorem C53_encode (checked : Bool) (t : Instant) (h0 : 0 ≤ t) (h1 : 10 * (t / 1000) < 2 ^ 64) :
    ∃ n : UInt64, (encodeWindowsTime checked t : Res SmbError UInt64) = .ok n ∧ (n.toNat : Int) = 10 * (t / 1000) := by
  have h0' : (0 : Int) ≤ t := h0
  have h1' : (10 * (t / 1000) : Int) < 2 ^ 64 := h1
  have e : t.tdiv 1000 = t / 1000 := Int.tdiv_eq_ediv_of_nonneg h0
  unfold encodeWindowsTime
  simp only [e]
  rw [if_neg (by omega), if_neg (by simp only [not_and]; intro _; omega)]
  refine ⟨_, rfl, ?_⟩
  rw [UInt64.toNat_ofNat', Nat.mod_eq_of_lt (by omega)]
  omega

/-- **C53** Encoding and decoding an instant is the identity on microseconds. -/
theorem C53_roundtrip (checked : Bool) (t : Instant) (h0 : 0 ≤ t) (h1 : 10 * (t / 1000) < 2 ^ 64) :
    ∃ n : UInt64, (encodeWindowsTime checked t : Res SmbError UInt64) = .ok n ∧
      (decodeWindowsTime n : Res SmbError Instant) = .ok (t / 1000 * 1000) := by
  obtain ⟨n, hn, e⟩ := C53_encode checked t h0 h1
  obtain ⟨r, hr, a1, a2, a3, a4⟩ := C53_decode n
  refine ⟨n, hn, ?_⟩
  rw [hr]
  congr 1
  unfold Instant at *
  omega

/-- **C53** In the other direction: decoding and encoding a FILETIME loses the sub-microsecond digit only. -/
theorem C53_roundtrip_decode (checked : Bool) (t : UInt64) : ∃ r : Instant, (decodeWindowsTime t : Res SmbError Instant) = .ok r ∧
    (encodeWindowsTime checked r : Res SmbError UInt64) = .ok (UInt64.ofNat (t.toNat / 10 * 10)) := by
  have ht := t.toNat_lt
  obtain ⟨r, hr, a1, a2, a3, a4⟩ := C53_decode t
  obtain ⟨n, hn, e⟩ := C53_encode checked r a2 (by unfold Instant at *; omega)
  refine ⟨r, hr, ?_⟩
  rw [hn]
  congr 1
  apply UInt64.toNat.inj
  rw [UInt64.toNat_ofNat', Nat.mod_eq_of_lt (by omega)]
  unfold Instant at *
  omega

/-- 2023-11-14T22:13:20.123456789Z. -/
example : (0 : Int) ≤ 13344473600123456789 ∧ (10 * (13344473600123456789 / 1000) : Int) < 2 ^ 64 := by decide

/-! ## C54 -/

/-- **C54** UTF-16LE: decoding an encoded string gives the string. -/
theorem C54_utf16 (s : Str) : (decodeUtf16le SmbError.InvalidData (encodeUtf16le s)) = .ok s := decodeUtf16le_encode _ s

/-- **C54** UTF-16LE: whatever decodes is the encoding of the result, so nothing malformed decodes and nothing is lost. -/
theorem C54_utf16_strict (b : Bytes) (s : Str) (h : decodeUtf16le SmbError.InvalidData b = .ok s) : b = encodeUtf16le s :=
  (encode_decodeUtf16le _ b s h).symm

/-- **C54** UTF-16LE: on an even number of bytes decoding never panics: it fails if the bytes are no encoding of any string. -/
theorem C54_utf16_even (b : Bytes) (h : b.length % 2 = 0) (hn : ∀ s, b ≠ encodeUtf16le s) :
    decodeUtf16le SmbError.InvalidData b = .err .InvalidData := by
  cases hd : decodeUtf16le SmbError.InvalidData b with
  | ok s => exact absurd (C54_utf16_strict b s hd) (hn s)
  | err e => rw [decodeUtf16le_err _ b e hd]
  | panic => exact absurd hd (decodeUtf16le_even _ b h)

/-- **C54** UTF-8: decoding an encoded string gives the string. -/
theorem C54_utf8 (s : Str) : fromUtf8 (utf8 s) = some s := fromUtf8_utf8 s

/-- **C54** UTF-8: whatever decodes is the encoding of the result. -/
theorem C54_utf8_strict (b : Bytes) (s : Str) (h : fromUtf8 b = some s) : b = utf8 s := (utf8_fromUtf8 b s h).symm

/-- **C54** The model's UTF-8 is Lean's own. -/
theorem C54_utf8_standard (s : Str) : utf8 s = s.flatMap String.utf8EncodeChar := by
  unfold utf8
  congr 1
  funext c
  exact utf8Char_eq c

example : decodeUtf16le SmbError.InvalidData [0x3d, 0xd8, 0x00, 0xde] = .ok ['😀'] ∧
    decodeUtf16le SmbError.InvalidData [0x3d, 0xd8, 0x41, 0x00] = .err .InvalidData ∧ fromUtf8 [0xc0, 0x80] = none ∧
    fromUtf8 [0xed, 0xa0, 0x80] = none ∧ fromUtf8 [0xf0, 0x9f, 0x98, 0x80] = some ['😀'] := by decide

/-! ## C58 -/

/-- **C58** Sanitizing a path: position by position, `/` becomes a backslash and everything else stays. -/
theorem C58_pointwise (p : Str) (i : Nat) : (sanitizePath p)[i]? = (p[i]?).map (fun c => if c = '/' then '\\' else c) := by
  simp [sanitizePath]

/-- **C58** It keeps the length, leaves no `/`, and is idempotent. -/
theorem C58_length (p : Str) : (sanitizePath p).length = p.length := by simp [sanitizePath]
theorem C58_no_slash (p : Str) : '/' ∉ sanitizePath p := by
  simp only [sanitizePath, List.mem_map, not_exists, not_and]
  intro c _ h
  split at h
  · exact absurd h (by decide)
  · contradiction
theorem C58_idempotent (p : Str) : sanitizePath (sanitizePath p) = sanitizePath p := by
  simp only [sanitizePath, List.map_map]
  apply List.map_congr_left
  intro c _
  by_cases h : c = '/' <;> simp [h]
/-- **C58** Paths without `/` are not changed. -/
theorem C58_fixed (p : Str) (h : '/' ∉ p) : sanitizePath p = p := by
  unfold sanitizePath
  conv => rhs; rw [← List.map_id p]
  apply List.map_congr_left
  intro c hc
  exact if_neg (fun e : c = '/' => h (e ▸ hc))

example : sanitizePath "a/b\\c//".toList = "a\\b\\c\\\\".toList := by decide

/-- **C54.** The encoder, against the definition of UTF-16LE: a string has exactly one encoding, the one the code computes. -/
theorem C54_utf16_definition (s : Str) (b : Bytes) : Utf16le s b ↔ b = encodeUtf16le s := utf16le_iff

/-- Both kinds of character. -/
example : Utf16le ['a', '😀'] [0x61, 0, 0x3d, 0xd8, 0x00, 0xde] := utf16le_iff.mpr (by decide)

end Cifs
