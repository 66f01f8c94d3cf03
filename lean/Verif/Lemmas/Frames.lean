import Verif.Spec.Smb
import Verif.Lemmas.Trace
/-! # Layout of request frames -/

namespace Cifs
open Spec

/-- The bytes of a request whose body consists of `params` and `data`. -/
def frameOf (i : Info) (params data : Bytes) : Bytes :=
  i.write ++ (UInt8.ofNat (params.length / 2) :: (params ++ (putU16 (UInt16.ofNat data.length) ++ data)))

/-- The parameter bytes including the AndX block. -/
def Msg.params (m : Msg) (p : Bytes) : Bytes := (if m.andx then [0xff, 0, 0, 0] else []) ++ p

theorem andx_none : AndX.write .NoCommand 0 = [0xff, 0, 0, 0] := by decide

@[simp] theorem length_write (i : Info) : i.write.length = 32 := rfl

/-- The frame built for a request, in terms of its body. -/
theorem requestFrame_eq (c : Cli) (m : Msg) : requestFrame c m =
    (m.body (requestInfo c m)).bind (fun pd =>
      if (m.params pd.1).length / 2 < 256 then
        if pd.2.length < 65536 then .ok (frameOf (requestInfo c m) (m.params pd.1) pd.2)
        else .err (.CreatePacket "data length too big")
      else .err (.CreatePacket "parameter length too big")) := by
  unfold requestFrame Msg.write
  cases hb : m.body (requestInfo c m) with
  | err e => rfl
  | panic => rfl
  | ok pd =>
    obtain ⟨p, d⟩ := pd
    simp only [Res.ok_bind]
    rw [andx_none]
    have hp : (if m.andx then [0xff, 0, 0, 0] else []) ++ p = m.params p := rfl
    rw [hp, length_write]
    simp only [Res.bind_ok]
    unfold tryInto
    by_cases h1 : (m.params p).length / 2 < 256
    · rw [if_pos h1, if_pos h1, Res.ok_bind, if_neg (by simp only [usizeMax]; omega)]
      by_cases h2 : d.length < 65536
      · rw [if_pos h2, if_pos h2, Res.ok_bind, if_neg (by simp only [usizeMax]; omega)]
        simp [frameOf]
      · rw [if_neg h2, if_neg h2]; rfl
    · rw [if_neg h1, if_neg h1]; rfl

theorem requestFrame_of_body {c : Cli} {m : Msg} {p d : Bytes} (hb : m.body (requestInfo c m) = .ok (p, d))
    (h1 : (m.params p).length / 2 < 256) (h2 : d.length < 65536) :
    requestFrame c m = .ok (frameOf (requestInfo c m) (m.params p) d) := by
  rw [requestFrame_eq, hb, Res.bind_ok]
  rw [if_pos h1, if_pos h2]

theorem requestFrame_ok {c : Cli} {m : Msg} {f : Bytes} (h : requestFrame c m = .ok f) :
    ∃ p d, m.body (requestInfo c m) = .ok (p, d) ∧ (m.params p).length / 2 < 256 ∧ d.length < 65536 ∧
      f = frameOf (requestInfo c m) (m.params p) d := by
  rw [requestFrame_eq] at h
  cases hb : m.body (requestInfo c m) with
  | err e => rw [hb] at h; simp at h
  | panic => rw [hb] at h; simp at h
  | ok pd =>
    rw [hb] at h
    simp only [Res.bind_ok] at h
    split at h
    · split at h
      · rename_i h1 h2
        simp only [Res.ok.injEq] at h
        exact ⟨pd.1, pd.2, rfl, h1, h2, h.symm⟩
      · simp at h
    · simp at h

/-! ## Header fields -/

section header
variable (i : Info) (p d : Bytes)

theorem frame_magic : magicOf (message (frameOf i p d)) = some [0xff, 0x53, 0x4d, 0x42] := by
  obtain ⟨h, hl, e⟩ := message_eq (frameOf i p d)
  rw [e, magicOf, frameOf, Info.write, SMB_MAGIC, sliceAt_append_right _ _ _ _ (by omega), hl]
  simp only [List.append_assoc]
  exact sliceAt_zero _ _ rfl

theorem frame_cmd : cmdOf (message (frameOf i p d)) = some i.cmd.code.toNat := by
  obtain ⟨h, hl, e⟩ := message_eq (frameOf i p d)
  rw [e, cmdOf, frameOf, Info.write, SMB_MAGIC, u8At_append_right _ _ _ (by omega), hl]
  wire

theorem frame_status : statusOf (message (frameOf i p d)) = some i.status.toU32.toNat := by
  obtain ⟨h, hl, e⟩ := message_eq (frameOf i p d)
  rw [e, statusOf, frameOf, Info.write, SMB_MAGIC, u32At_append_right _ _ _ (by omega), hl]
  wire

theorem frame_flags1 : flags1Of (message (frameOf i p d)) = some i.flags1.toNat := by
  obtain ⟨h, hl, e⟩ := message_eq (frameOf i p d)
  rw [e, flags1Of, frameOf, Info.write, SMB_MAGIC, u8At_append_right _ _ _ (by omega), hl]
  wire

theorem frame_flags2 : flags2Of (message (frameOf i p d)) = some i.flags2.toNat := by
  obtain ⟨h, hl, e⟩ := message_eq (frameOf i p d)
  rw [e, flags2Of, frameOf, Info.write, SMB_MAGIC, u16At_append_right _ _ _ (by omega), hl]
  wire

theorem frame_pidHigh : pidHighOf (message (frameOf i p d)) = some (i.pid.toNat / 65536) := by
  obtain ⟨h, hl, e⟩ := message_eq (frameOf i p d)
  rw [e, pidHighOf, frameOf, Info.write, SMB_MAGIC, u16At_append_right _ _ _ (by omega), hl]
  wire
  have := i.pid.toNat_lt
  simp [Nat.shiftRight_eq_div_pow]; omega

theorem frame_signature : signatureOf (message (frameOf i p d)) = some (List.replicate 10 0) := by
  obtain ⟨h, hl, e⟩ := message_eq (frameOf i p d)
  rw [e, signatureOf, frameOf, Info.write, SMB_MAGIC, sliceAt_append_right _ _ _ _ (by omega), hl]
  wire
  rw [← List.append_assoc]
  exact sliceAt_zero _ _ rfl

theorem frame_tid : tidOf (message (frameOf i p d)) = some i.tid.toNat := by
  obtain ⟨h, hl, e⟩ := message_eq (frameOf i p d)
  rw [e, tidOf, frameOf, Info.write, SMB_MAGIC, u16At_append_right _ _ _ (by omega), hl]
  wire

theorem frame_pidLow : pidLowOf (message (frameOf i p d)) = some (i.pid.toNat % 65536) := by
  obtain ⟨h, hl, e⟩ := message_eq (frameOf i p d)
  rw [e, pidLowOf, frameOf, Info.write, SMB_MAGIC, u16At_append_right _ _ _ (by omega), hl]
  wire
  have e : i.pid.toNat % 65536 &&& 65535 = i.pid.toNat % 65536 % 65536 := Nat.and_two_pow_sub_one_eq_mod _ 16
  simp [e]

theorem frame_uid : uidOf (message (frameOf i p d)) = some i.uid.toNat := by
  obtain ⟨h, hl, e⟩ := message_eq (frameOf i p d)
  rw [e, uidOf, frameOf, Info.write, SMB_MAGIC, u16At_append_right _ _ _ (by omega), hl]
  wire

theorem frame_mid : midOf (message (frameOf i p d)) = some i.mid.toNat := by
  obtain ⟨h, hl, e⟩ := message_eq (frameOf i p d)
  rw [e, midOf, frameOf, Info.write, SMB_MAGIC, u16At_append_right _ _ _ (by omega), hl]
  wire

/-! ## Body -/

theorem frame_split : ∃ h, h.length = 36 ∧ message (frameOf i p d) =
    h ++ (UInt8.ofNat (p.length / 2) :: (p ++ (putU16 (UInt16.ofNat d.length) ++ d))) := by
  obtain ⟨h, hl, e⟩ := message_eq (frameOf i p d)
  exact ⟨h ++ i.write, by simp [hl], by rw [e, frameOf, List.append_assoc]⟩

theorem frame_wordCount (h : p.length / 2 < 256) : wordCountOf (message (frameOf i p d)) = some (p.length / 2) := by
  obtain ⟨hd, hl, e⟩ := frame_split i p d
  rw [wordCountOf, e, u8At_append_right _ _ _ (by omega), hl]
  wire
  simp; omega

/-- The packet, cut after the word count. -/
theorem frame_split37 : ∃ h, h.length = 37 ∧ message (frameOf i p d) = h ++ (p ++ (putU16 (UInt16.ofNat d.length) ++ d)) := by
  obtain ⟨hd, hl, e⟩ := frame_split i p d
  exact ⟨hd ++ [UInt8.ofNat (p.length / 2)], by simp [hl], by rw [e]; simp⟩

theorem frame_params (h : p.length / 2 < 256) (he : p.length % 2 = 0) : paramsOf (message (frameOf i p d)) = some p := by
  obtain ⟨hd, hl, e⟩ := frame_split37 i p d
  rw [paramsOf, frame_wordCount i p d h, Option.bind_some, e]
  exact sliceAt_mid _ _ _ _ _ hl (by omega)

theorem frame_byteCount (h : p.length / 2 < 256) (he : p.length % 2 = 0) (hd : d.length < 65536) :
    byteCountOf (message (frameOf i p d)) = some d.length := by
  obtain ⟨hh, hl, e⟩ := frame_split37 i p d
  rw [byteCountOf, frame_wordCount i p d h, Option.bind_some, e, ← List.append_assoc,
    u16At_append_right _ _ _ (by rw [List.length_append, hl]; omega)]
  rw [List.length_append, hl, show 37 + 2 * (p.length / 2) - (37 + p.length) = 0 by omega, u16At_put]
  simp; omega

theorem frame_data (h : p.length / 2 < 256) (he : p.length % 2 = 0) : dataOf (message (frameOf i p d)) = some d := by
  obtain ⟨hh, hl, e⟩ := frame_split37 i p d
  rw [dataOf, frame_wordCount i p d h, Option.map_some, e, ← List.append_assoc, ← List.append_assoc,
    List.drop_append_of_le_length, List.drop_of_length_le, List.nil_append]
  all_goals simp only [List.length_append, hl, length_putU16]; omega

theorem frame_length : (message (frameOf i p d)).length = 39 + p.length + d.length := by
  obtain ⟨hh, hl, e⟩ := frame_split37 i p d
  rw [e]; simp [hl]; omega

theorem frame_consistent (h : p.length / 2 < 256) (he : p.length % 2 = 0) (hd : d.length < 65536) :
    BodyConsistent (message (frameOf i p d)) :=
  ⟨_, _, _, _, frame_wordCount i p d h, frame_byteCount i p d h he hd, frame_params i p d h he, frame_data i p d h he,
    by omega, rfl, by rw [frame_length]; omega⟩
end header

variable {σ : Type}

/-- Everything an operation sends is a frame built from one of its messages, by a client that differs from the current one at most in
the multiplex counter. -/
theorem sent_frame {E : Env σ} {log : σ → List Bytes} (hlog : Logs E.V log) {op : Op} {s : St σ} {pkt : Bytes}
    (h : Sent log s.w.srv (runOp E op s).2.w.srv pkt) :
    ∃ k m p d, op.sends m ∧ m.body (requestInfo (s.cli.withMid k) m) = .ok (p, d) ∧ (m.params p).length / 2 < 256 ∧ d.length < 65536 ∧
      pkt = message (frameOf (requestInfo (s.cli.withMid k) m) (m.params p) d) := by
  obtain ⟨fs, n, _, _, h3, _, _, h6⟩ := runOp_trace E log hlog op s
  obtain ⟨new, e, hp⟩ := h
  rw [h3] at e
  have e' := List.append_cancel_left e
  rw [← e'] at hp
  obtain ⟨f, hf, rfl⟩ := List.mem_map.mp hp
  obtain ⟨i, hi, rfl⟩ := List.mem_iff_getElem.mp hf
  obtain ⟨_, m, hm, hfr⟩ := h6 i _ (List.getElem?_eq_getElem hi)
  obtain ⟨p, d, hb, h1, h2, e3⟩ := requestFrame_ok hfr
  exact ⟨_, m, p, d, hm, hb, h1, h2, by rw [e3]⟩

/-- The header of a request of a message bound to a tree. -/
theorem requestInfo_setTid (c : Cli) (m : Msg) (t : UInt16) (h : m.fixHeader = setTid t) :
    requestInfo c m = { cmd := m.cmd, status := .Known .SUCCESS, flags1 := Flags1.default
                        flags2 := Flags2.set Flags2.default Flags2.UNICODE c.useUnicode, pid := 0xfeff, tid := t, uid := c.uid, mid := c.mid } := by
  rw [requestInfo, h]; rfl

/-- The header of a request of a message not bound to a tree. -/
theorem requestInfo_id (c : Cli) (m : Msg) (h : m.fixHeader = id) :
    requestInfo c m = { cmd := m.cmd, status := .Known .SUCCESS, flags1 := Flags1.default
                        flags2 := Flags2.set Flags2.default Flags2.UNICODE c.useUnicode, pid := 0xfeff, tid := 0xffff, uid := c.uid
                        mid := c.mid } := by
  rw [requestInfo, h]; rfl

end Cifs
