import Verif.Model.Reply
import Verif.Lemmas.Fields
import Verif.Spec.Smb
/-! # Taking byte strings apart into fields -/

set_option linter.unusedSectionVars false

namespace Cifs
open Spec

theorem split_n (n : Nat) (b : Bytes) (h : n ≤ b.length) : ∃ a r, a.length = n ∧ b = a ++ r :=
  ⟨b.take n, b.drop n, by simp; omega, (List.take_append_drop n b).symm⟩

theorem split_u8 (b : Bytes) (h : 1 ≤ b.length) : ∃ x r, b = x :: r := by
  match b, h with
  | x :: r, _ => exact ⟨x, r, rfl⟩

theorem split_u16 (b : Bytes) (h : 2 ≤ b.length) : ∃ x r, b = putU16 x ++ r := by
  obtain ⟨a, r, hl, rfl⟩ := split_n 2 b h
  refine ⟨UInt16.ofNat (leVal a), r, ?_⟩
  have hlt := leVal_lt a
  rw [hl] at hlt
  have : (UInt16.ofNat (leVal a)).toNat = leVal a := by simp; omega
  rw [putU16, this, ← hl, putLE_leVal]

theorem split_u32 (b : Bytes) (h : 4 ≤ b.length) : ∃ x r, b = putU32 x ++ r := by
  obtain ⟨a, r, hl, rfl⟩ := split_n 4 b h
  refine ⟨UInt32.ofNat (leVal a), r, ?_⟩
  have hlt := leVal_lt a
  rw [hl] at hlt
  have : (UInt32.ofNat (leVal a)).toNat = leVal a := by simp; omega
  rw [putU32, this, ← hl, putLE_leVal]

theorem split_u64 (b : Bytes) (h : 8 ≤ b.length) : ∃ x r, b = putU64 x ++ r := by
  obtain ⟨a, r, hl, rfl⟩ := split_n 8 b h
  refine ⟨UInt64.ofNat (leVal a), r, ?_⟩
  have hlt := leVal_lt a
  rw [hl] at hlt
  have : (UInt64.ofNat (leVal a)).toNat = leVal a := by simp; omega
  rw [putU64, this, ← hl, putLE_leVal]

/-! ## The header -/

/-- The 32 header bytes with arbitrary contents. -/
def rawHeader (magic : Bytes) (cmd : UInt8) (status : UInt32) (f1 : UInt8) (f2 ph : UInt16) (sig : Bytes) (tid pl uid mid : UInt16) : Bytes :=
  magic ++ ([cmd] ++ (putU32 status ++ ([f1] ++ (putU16 f2 ++ (putU16 ph ++ (sig ++ (putU16 tid ++ (putU16 pl ++ (putU16 uid
    ++ putU16 mid)))))))))

theorem split_header (f : Bytes) (h : 32 ≤ f.length) : ∃ magic cmd status f1 f2 ph sig tid pl uid mid rest, magic.length = 4 ∧
    sig.length = 10 ∧ f = rawHeader magic cmd status f1 f2 ph sig tid pl uid mid ++ rest := by
  obtain ⟨magic, r, h1, rfl⟩ := split_n 4 f (by omega)
  rw [List.length_append, h1] at h
  obtain ⟨cmd, r, rfl⟩ := split_u8 r (by omega)
  rw [List.length_cons] at h
  obtain ⟨st, r, rfl⟩ := split_u32 r (by omega)
  rw [List.length_append, length_putU32] at h
  obtain ⟨f1, r, rfl⟩ := split_u8 r (by omega)
  rw [List.length_cons] at h
  obtain ⟨f2, r, rfl⟩ := split_u16 r (by omega)
  rw [List.length_append, length_putU16] at h
  obtain ⟨ph, r, rfl⟩ := split_u16 r (by omega)
  rw [List.length_append, length_putU16] at h
  obtain ⟨sig, r, h2, rfl⟩ := split_n 10 r (by omega)
  rw [List.length_append, h2] at h
  obtain ⟨tid, r, rfl⟩ := split_u16 r (by omega)
  rw [List.length_append, length_putU16] at h
  obtain ⟨pl, r, rfl⟩ := split_u16 r (by omega)
  rw [List.length_append, length_putU16] at h
  obtain ⟨uid, r, rfl⟩ := split_u16 r (by omega)
  rw [List.length_append, length_putU16] at h
  obtain ⟨mid, r, rfl⟩ := split_u16 r (by omega)
  exact ⟨magic, cmd, st, f1, f2, ph, sig, tid, pl, uid, mid, r, h1, h2, by simp [rawHeader]⟩

section
variable (magic : Bytes) (cmd : UInt8) (status : UInt32) (f1 : UInt8) (f2 ph : UInt16) (sig : Bytes) (tid pl uid mid : UInt16)
  (h1 : magic.length = 4) (h2 : sig.length = 10) (rest : Bytes)

/-- The header a parser makes of the raw fields. -/
def mkInfo (c : Cmd) : Info :=
  { cmd := c, status := Status.ofU32 status, flags1 := Flags1.truncate f1, flags2 := Flags2.truncate f2
    pid := (ph.toUInt32 <<< 16) ||| pl.toUInt32, tid, uid, mid }

include h1 h2

theorem length_rawHeader : (rawHeader magic cmd status f1 f2 ph sig tid pl uid mid).length = 32 := by simp [rawHeader, h1, h2]

theorem parse_rawHeader : Info.parse (rawHeader magic cmd status f1 f2 ph sig tid pl uid mid ++ rest) =
    if magic ≠ SMB_MAGIC then .err .InvalidHeader
    else match Cmd.tryFrom cmd with
      | none => .err (.InvalidCommand cmd)
      | some c => if Flags1.truncate f1 &&& Flags1.REPLY ≠ Flags1.REPLY then .err .ReplyExpected
        else .ok (mkInfo status f1 f2 ph tid pl uid mid c, rest) := by
  obtain ⟨sig1, sig2, h3, rfl⟩ := split_n 8 sig (by omega)
  have h4 : sig2.length = 2 := by simp at h2; omega
  have hl := length_rawHeader magic cmd status f1 f2 ph (sig1 ++ sig2) tid pl uid mid h1 h2
  unfold Info.parse
  simp only [Rd.bind_apply, Rd.remaining, List.length_append, hl, Res.bind_ok]
  rw [if_neg (by simp [SMB_HEADER_LEN])]
  unfold rawHeader
  simp only [List.append_assoc, Rd.bind_apply]
  rw [Rd.copyToBytes_append 4 magic _ h1]
  simp only [Res.bind_ok]
  by_cases hm : magic ≠ SMB_MAGIC
  · rw [if_pos hm, if_pos hm]; rfl
  · rw [if_neg hm, if_neg hm]
    simp only [Rd.bind_apply, List.cons_append, List.nil_append, Rd.getU8_cons, Res.bind_ok]
    cases Cmd.tryFrom cmd with
    | none => rfl
    | some c =>
      dsimp only
      simp only [Rd.bind_apply, Rd.getU8_cons, Rd.getU16_put, Rd.getU32_put, Res.bind_ok]
      rw [Rd.advance_append 8 sig1 _ h3]
      simp only [Res.bind_ok]
      rw [Rd.advance_append 2 sig2 _ h4]
      simp only [Res.bind_ok, Rd.getU16_put]
      split
      · rfl
      · rfl

theorem raw_magic : magicOf (message (rawHeader magic cmd status f1 f2 ph sig tid pl uid mid ++ rest)) = some magic := by
  obtain ⟨h, hl, e⟩ := message_eq (rawHeader magic cmd status f1 f2 ph sig tid pl uid mid ++ rest)
  rw [e, magicOf, rawHeader, sliceAt_append_right _ _ _ _ (by omega), hl]
  simp only [List.append_assoc]
  exact sliceAt_zero _ _ h1

theorem raw_cmd : cmdOf (message (rawHeader magic cmd status f1 f2 ph sig tid pl uid mid ++ rest)) = some cmd.toNat := by
  obtain ⟨h, hl, e⟩ := message_eq (rawHeader magic cmd status f1 f2 ph sig tid pl uid mid ++ rest)
  rw [e, cmdOf, rawHeader]
  simp only [List.append_assoc]
  rw [u8At_append_right _ _ _ (by omega), hl, u8At_append_right _ _ _ (by omega), h1]
  wire

theorem raw_status : statusOf (message (rawHeader magic cmd status f1 f2 ph sig tid pl uid mid ++ rest)) = some status.toNat := by
  obtain ⟨h, hl, e⟩ := message_eq (rawHeader magic cmd status f1 f2 ph sig tid pl uid mid ++ rest)
  rw [e, statusOf, rawHeader]
  simp only [List.append_assoc]
  rw [u32At_append_right _ _ _ (by omega), hl, u32At_append_right _ _ _ (by omega), h1]
  wire

theorem raw_flags1 : flags1Of (message (rawHeader magic cmd status f1 f2 ph sig tid pl uid mid ++ rest)) = some f1.toNat := by
  obtain ⟨h, hl, e⟩ := message_eq (rawHeader magic cmd status f1 f2 ph sig tid pl uid mid ++ rest)
  rw [e, flags1Of, rawHeader]
  simp only [List.append_assoc]
  rw [u8At_append_right _ _ _ (by omega), hl, u8At_append_right _ _ _ (by omega), h1]
  wire

theorem raw_flags2 : flags2Of (message (rawHeader magic cmd status f1 f2 ph sig tid pl uid mid ++ rest)) = some f2.toNat := by
  obtain ⟨h, hl, e⟩ := message_eq (rawHeader magic cmd status f1 f2 ph sig tid pl uid mid ++ rest)
  rw [e, flags2Of, rawHeader]
  simp only [List.append_assoc]
  rw [u16At_append_right _ _ _ (by omega), hl, u16At_append_right _ _ _ (by omega), h1]
  wire

theorem raw_pidHigh : pidHighOf (message (rawHeader magic cmd status f1 f2 ph sig tid pl uid mid ++ rest)) = some ph.toNat := by
  obtain ⟨h, hl, e⟩ := message_eq (rawHeader magic cmd status f1 f2 ph sig tid pl uid mid ++ rest)
  rw [e, pidHighOf, rawHeader]
  simp only [List.append_assoc]
  rw [u16At_append_right _ _ _ (by omega), hl, u16At_append_right _ _ _ (by omega), h1]
  wire

theorem raw_tid : tidOf (message (rawHeader magic cmd status f1 f2 ph sig tid pl uid mid ++ rest)) = some tid.toNat := by
  obtain ⟨h, hl, e⟩ := message_eq (rawHeader magic cmd status f1 f2 ph sig tid pl uid mid ++ rest)
  rw [e, tidOf, rawHeader]
  simp only [List.append_assoc]
  rw [u16At_append_right _ _ _ (by omega), hl, u16At_append_right _ _ _ (by omega), h1]
  wire
  rw [u16At_append_right _ _ _ (by omega), h2]
  wire

theorem raw_pidLow : pidLowOf (message (rawHeader magic cmd status f1 f2 ph sig tid pl uid mid ++ rest)) = some pl.toNat := by
  obtain ⟨h, hl, e⟩ := message_eq (rawHeader magic cmd status f1 f2 ph sig tid pl uid mid ++ rest)
  rw [e, pidLowOf, rawHeader]
  simp only [List.append_assoc]
  rw [u16At_append_right _ _ _ (by omega), hl, u16At_append_right _ _ _ (by omega), h1]
  wire
  rw [u16At_append_right _ _ _ (by omega), h2]
  wire

theorem raw_uid : uidOf (message (rawHeader magic cmd status f1 f2 ph sig tid pl uid mid ++ rest)) = some uid.toNat := by
  obtain ⟨h, hl, e⟩ := message_eq (rawHeader magic cmd status f1 f2 ph sig tid pl uid mid ++ rest)
  rw [e, uidOf, rawHeader]
  simp only [List.append_assoc]
  rw [u16At_append_right _ _ _ (by omega), hl, u16At_append_right _ _ _ (by omega), h1]
  wire
  rw [u16At_append_right _ _ _ (by omega), h2]
  wire

theorem raw_mid : midOf (message (rawHeader magic cmd status f1 f2 ph sig tid pl uid mid ++ rest)) = some mid.toNat := by
  obtain ⟨h, hl, e⟩ := message_eq (rawHeader magic cmd status f1 f2 ph sig tid pl uid mid ++ rest)
  rw [e, midOf, rawHeader]
  simp only [List.append_assoc]
  rw [u16At_append_right _ _ _ (by omega), hl, u16At_append_right _ _ _ (by omega), h1]
  wire
  rw [u16At_append_right _ _ _ (by omega), h2]
  wire
end

end Cifs
