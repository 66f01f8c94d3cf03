import Verif.Spec.Requests
import Verif.Lemmas.Wide
import Verif.Lemmas.Frames
/-! # Requests built by the model and their specification -/

namespace Cifs
open Spec

theorem body_treeDisconnect (t : UInt16) (i : Info) : (treeDisconnectMsg t).body i = .ok ([], []) := rfl
theorem body_close (t f : UInt16) (i : Info) : (closeMsg t f).body i = .ok (putU16 f ++ putU32 0, []) := rfl

theorem params_treeDisconnect (t : UInt16) : (treeDisconnectMsg t).params [] = [] := rfl
theorem params_close (t f : UInt16) (p : Bytes) : (closeMsg t f).params p = p := rfl
theorem params_read (t f : UInt16) (o : UInt64) (p : Bytes) : (readMsg t f o).params p = [0xff, 0, 0, 0] ++ p := rfl
theorem params_open (m : OpenMsg) (p : Bytes) : m.msg.params p = [0xff, 0, 0, 0] ++ p := rfl
theorem params_treeConnect (a b : Str) (p : Bytes) : (treeConnectMsg a b).params p = [0xff, 0, 0, 0] ++ p := rfl
theorem params_delete (t : UInt16) (f : Str) (p : Bytes) : (deleteMsg t f).params p = p := rfl
theorem params_rmdir (t : UInt16) (f : Str) (p : Bytes) : (rmdirMsg t f).params p = p := rfl
theorem params_transact (t : UInt16) (c : SubCmd) (p : Bytes) : (transactMsg t c).params p = p := rfl
theorem params_transact2 (t : UInt16) (c : SubCmd2) (p : Bytes) : (transact2Msg t c).params p = p := rfl

theorem is_treeDisconnect (i : Info) (t : UInt16) (p d : Bytes) (h : (treeDisconnectMsg t).body i = .ok (p, d)) :
    IsTreeDisconnect (message (frameOf i ((treeDisconnectMsg t).params p) d)) := by
  cases h
  rw [params_treeDisconnect]
  exact ⟨frame_wordCount i [] [] (by decide), frame_data i [] [] (by decide) (by decide)⟩

theorem is_close (i : Info) (t f : UInt16) (p d : Bytes) (h : (closeMsg t f).body i = .ok (p, d)) :
    IsClose (message (frameOf i ((closeMsg t f).params p) d)) f.toNat := by
  cases h
  rw [params_close]
  have hl : (putU16 f ++ putU32 0).length = 6 := rfl
  refine ⟨?_, frame_data _ _ _ (by omega) (by omega), _, frame_params _ _ _ (by omega) (by omega), ?_, ?_⟩
  · rw [frame_wordCount _ _ _ (by omega), hl]
  · wire
  · wire; rfl

theorem is_read (i : Info) (t f : UInt16) (o : UInt64) (p d : Bytes) (h : (readMsg t f o).body i = .ok (p, d)) :
    IsRead (message (frameOf i ((readMsg t f o).params p) d)) f.toNat o.toNat := by
  cases h
  rw [params_read]
  generalize hP : ([0xff, 0, 0, 0] : Bytes) ++ (putU16 f ++ putU32 (o &&& 0xffffffff).toUInt32 ++ putU16 SMB_READ_MAX ++ putU16 SMB_READ_MIN
          ++ putU32 0 ++ putU16 0 ++ putU32 (o >>> 32).toUInt32) = P
  have hl : P.length = 24 := by rw [← hP]; rfl
  refine ⟨?_, frame_data _ _ _ (by omega) (by omega), P, frame_params _ _ _ (by omega) (by omega), ?_⟩
  · rw [frame_wordCount _ _ _ (by omega), hl]
  · subst hP
    refine ⟨sliceAt_zero _ _ rfl, by wire, ⟨(o &&& 0xffffffff).toUInt32.toNat, (o >>> 32).toUInt32.toNat, by wire, by wire, ?_⟩,
      ⟨SMB_READ_MAX.toNat, by wire, by decide, by decide⟩, ⟨SMB_READ_MIN.toNat, SMB_READ_MAX.toNat, by wire, by wire, by decide⟩,
      by wire; rfl, by wire; rfl⟩
    have ho := o.toNat_lt
    simp only [UInt64.toNat_toUInt32, UInt64.toNat_and, UInt64.toNat_shiftRight]
    rw [show UInt64.toNat 0xffffffff = 2 ^ 32 - 1 from rfl, Nat.and_two_pow_sub_one_eq_mod, Nat.shiftRight_eq_div_pow]
    rw [show UInt64.toNat 32 % 64 = 32 from rfl]
    omega

theorem body_open_ok {m : OpenMsg} {i : Info} {p d : Bytes} (h : m.msg.body i = .ok (p, d)) :
    2 * utf16Len m.filename + 2 < 65536 ∧
    p = [0] ++ putU16 (UInt16.ofNat (2 * utf16Len m.filename + 2)) ++ putU32 m.createFlags ++ putU32 m.directory ++ putU32 m.access
          ++ putU64 m.allocationSize ++ putU32 m.attributes ++ putU32 m.shareAccess ++ putU32 m.disposition
          ++ putU32 m.options ++ putU32 m.impersonation ++ [m.security] ∧
    d = 0 :: encodeUtf16le m.filename ++ [0, 0] := by
  have hl : (encodeUtf16le0 m.filename).length = 2 * utf16Len m.filename + 2 := by simp [encodeUtf16le0]
  simp only [OpenMsg.msg, tryInto, hl] at h
  by_cases hb : 2 * utf16Len m.filename + 2 < 65536
  · rw [if_pos hb] at h
    cases h
    exact ⟨hb, rfl, rfl⟩
  · rw [if_neg hb] at h; cases h

theorem body_open (m : OpenMsg) (i : Info) (hb : 2 * utf16Len m.filename + 2 < 65536) : ∃ p d, m.msg.body i = .ok (p, d) ∧
    (m.msg.params p).length = 48 ∧ d.length = 2 * utf16Len m.filename + 3 := by
  have hl : (encodeUtf16le0 m.filename).length = 2 * utf16Len m.filename + 2 := by simp [encodeUtf16le0]
  simp only [OpenMsg.msg, tryInto, hl]
  rw [if_pos hb]
  exact ⟨_, _, rfl, rfl, by simp [encodeUtf16le0]⟩

theorem body_open_long (m : OpenMsg) (i : Info) (hb : ¬ 2 * utf16Len m.filename + 2 < 65536) :
    m.msg.body i = .err (.CreatePacket "filename too long") := by
  have hl : (encodeUtf16le0 m.filename).length = 2 * utf16Len m.filename + 2 := by simp [encodeUtf16le0]
  simp only [OpenMsg.msg, tryInto, hl]
  rw [if_neg hb]; rfl

theorem is_open (i : Info) (m : OpenMsg) (p d : Bytes) (h : m.msg.body i = .ok (p, d)) (h0 : m.createFlags = 0) (h1 : m.directory = 0)
    (h2 : m.allocationSize = 0) (h3 : m.attributes = 0) (h4 : m.disposition = 1) (h5 : m.impersonation = 2) (h6 : m.security = 0) :
    IsOpen (message (frameOf i (m.msg.params p) d)) m.filename m.access.toNat m.shareAccess.toNat m.options.toNat := by
  obtain ⟨hb, hp, hd⟩ := body_open_ok h
  rw [params_open]
  have hl : ([0xff, 0, 0, 0] ++ p).length = 48 := by rw [hp]; rfl
  have hpar := frame_params i ([0xff, 0, 0, 0] ++ p) d (by omega) (by omega)
  refine ⟨?_, ⟨encodeUtf16le m.filename, ?_, utf16le_encode _, _, hpar, ?_⟩, _, hpar, ?_⟩
  · rw [frame_wordCount _ _ _ (by omega), hl]
  · rw [frame_data _ _ _ (by omega) (by omega), hd]
  · subst hp
    refine ⟨sliceAt_zero _ _ rfl, by wire; rfl, ?_⟩
    wire
    simp; omega
  · subst hp
    rw [h0, h1, h2, h3, h4, h5, h6]
    refine ⟨by wire; rfl, by wire; rfl, by wire, by wire; rfl, by wire; rfl, by wire, by wire; rfl, by wire, by wire; rfl, by wire; rfl⟩

theorem is_delete (i : Info) (t : UInt16) (f : Str) (p d : Bytes) (h : (deleteMsg t f).body i = .ok (p, d)) :
    IsDelete (message (frameOf i ((deleteMsg t f).params p) d)) 6 f := by
  cases h
  rw [params_delete]
  have hl : (putU16 (FileAttr.HIDDEN ||| FileAttr.SYSTEM)).length = 2 := rfl
  refine ⟨?_, ⟨_, frame_params _ _ _ (by omega) (by omega), ?_⟩, encodeUtf16le f, ?_, utf16le_encode f⟩
  · rw [frame_wordCount _ _ _ (by omega), hl]
  · wire; rfl
  · rw [frame_data _ _ _ (by omega) (by omega)]; rfl

theorem is_rmdir (i : Info) (t : UInt16) (f : Str) (p d : Bytes) (h : (rmdirMsg t f).body i = .ok (p, d)) :
    IsRmdir (message (frameOf i ((rmdirMsg t f).params p) d)) f := by
  cases h
  rw [params_rmdir]
  refine ⟨?_, encodeUtf16le f, ?_, utf16le_encode f⟩
  · rw [frame_wordCount _ _ _ (by decide)]; rfl
  · rw [frame_data _ _ _ (by decide) (by decide)]; rfl

/-! ## Tree connect -/

/-- The data bytes of a tree connect. -/
def treeConnectData (unicode : Bool) (path password : Str) : Bytes :=
  passwordField password ++
    (if unicode then (if (passwordField password).length % 2 = 0 then [0] else []) ++ encodeUtf16le path ++ putU16 0 else utf8 path ++ [0])
    ++ List.replicate 5 0x3f ++ [0]

theorem passwordField_eq (password : Str) : (if (utf8 password).length > 0 then utf8 password else [0x00]) = passwordField password := by
  unfold passwordField
  rw [utf8Bytes_eq]
  by_cases h : password = []
  · subst h; rfl
  · rw [if_neg h, if_pos]
    have := utf8_ne_nil h
    exact List.length_pos_iff.mpr this

theorem body_treeConnect_eq (path password : Str) (i : Info) : (treeConnectMsg path password).body i =
    if (passwordField password).length < 65536 then
      .ok (putU16 8 ++ putU16 (UInt16.ofNat (passwordField password).length), treeConnectData (Flags2.contains i.flags2 Flags2.UNICODE) path password)
    else .err (.CreatePacket "password too long") := by
  simp only [treeConnectMsg, passwordField_eq, tryInto]
  by_cases h : (passwordField password).length < 65536
  · rw [if_pos h, if_pos h, Res.ok_bind]; rfl
  · rw [if_neg h, if_neg h]; rfl

theorem length_treeConnectData (unicode : Bool) (path password : Str) : (treeConnectData unicode path password).length =
    (passwordField password).length +
      (if unicode then (if (passwordField password).length % 2 = 0 then 1 else 0) + 2 * utf16Len path + 2 else (utf8 path).length + 1) + 6 := by
  unfold treeConnectData
  cases unicode
  · simp; omega
  · simp only [if_true, List.length_append, length_utf16le]
    split <;> simp <;> omega

theorem is_treeConnect (i : Info) (path password : Str) (p d : Bytes) (h : (treeConnectMsg path password).body i = .ok (p, d)) :
    IsTreeConnect (message (frameOf i ((treeConnectMsg path password).params p) d)) (Flags2.contains i.flags2 Flags2.UNICODE)
      (passwordField password) path := by
  rw [body_treeConnect_eq] at h
  split at h
  case isFalse => cases h
  case isTrue hb =>
  cases h
  rw [params_treeConnect]
  have hl : ([0xff, 0, 0, 0] ++ (putU16 8 ++ putU16 (UInt16.ofNat (passwordField password).length))).length = 8 := rfl
  refine ⟨?_, ⟨_, frame_params _ _ _ (by omega) (by omega), sliceAt_zero _ _ rfl, by wire; rfl, ?_⟩, ?_⟩
  · rw [frame_wordCount _ _ _ (by omega), hl]
  · wire; simp; omega
  · rw [frame_data _ _ _ (by omega) (by omega)]
    cases hu : Flags2.contains i.flags2 Flags2.UNICODE
    · exact ⟨[], utf8 path, [0], by simp [treeConnectData, List.replicate], by simp [utf8Bytes_eq]⟩
    · by_cases hp : (passwordField password).length % 2 = 0
      · exact ⟨[0], encodeUtf16le path, [0, 0], by simp [treeConnectData, List.replicate, hp]; decide, .inr rfl,
          by simp; omega, utf16le_encode path, rfl⟩
      · exact ⟨[], encodeUtf16le path, [0, 0], by simp [treeConnectData, List.replicate, hp]; decide, .inl rfl,
          by simp; omega, utf16le_encode path, rfl⟩

/-! ## Transactions -/

theorem transact2_body (t : UInt16) (c : SubCmd2) (i : Info) (sp sd : Bytes) (hp : c.parameter = .ok sp) (hd : c.data = .ok sd) :
    (transact2Msg t c).body i =
      if 65536 ≤ sp.length then .err (.CreatePacket "parameter transaction2 sub-command is too large")
      else if 65536 ≤ sd.length then .err (.CreatePacket "data of transaction2 sub-command is too large")
      else if 65536 ≤ roundUp4n (68 + sp.length) then .panic
      else .ok (putU16 (UInt16.ofNat sp.length) ++ putU16 (UInt16.ofNat sd.length)
          ++ putU16 c.maxParamCount ++ putU16 c.maxDataCount ++ [c.maxSetupCount] ++ [0]
          ++ putU16 0 ++ putU32 0 ++ putU16 0
          ++ putU16 (UInt16.ofNat sp.length) ++ putU16 68
          ++ putU16 (UInt16.ofNat sd.length) ++ putU16 (UInt16.ofNat (roundUp4n (68 + sp.length)))
          ++ [1] ++ [0] ++ putU16 c.setup,
         ([0, 0, 0] ++ sp) ++ zeros (fillUp4n (68 + sp.length)) ++ sd) := by
  simp only [transact2Msg, hp, hd, Res.ok_bind, tryInto, tryIntoExpect]
  by_cases h1 : sp.length < 65536
  · rw [if_pos h1, if_neg (show ¬ 65536 ≤ sp.length by omega), Res.ok_bind]
    by_cases h2 : sd.length < 65536
    · rw [if_pos h2, if_neg (show ¬ 65536 ≤ sd.length by omega), Res.ok_bind]
      have e1 : roundUp4n (SMB_HEADER_LEN + 1 + 30 + 2 + 1) = 68 := rfl
      rw [e1]
      rw [if_pos (show 68 < 65536 by omega), Res.ok_bind]
      by_cases h3 : roundUp4n (68 + sp.length) < 65536
      · rw [if_pos h3, if_neg (show ¬ 65536 ≤ roundUp4n (68 + sp.length) by omega), Res.ok_bind]
        have e2 : ([0] : Bytes) ++ zeros (fillUp4n (SMB_HEADER_LEN + 1 + 30 + 2 + ([0] : Bytes).length)) = [0, 0, 0] := by decide
        rw [e2]
        have e3 : SMB_HEADER_LEN + 1 + 30 + 2 + ([0, 0, 0] ++ sp : Bytes).length = 68 + sp.length := by simp [SMB_HEADER_LEN]; omega
        rw [e3]
        rfl
      · rw [if_neg h3, if_pos (show 65536 ≤ roundUp4n (68 + sp.length) by omega)]; rfl
    · rw [if_neg h2, if_pos (show 65536 ≤ sd.length by omega)]; rfl
  · rw [if_neg h1, if_pos (show 65536 ≤ sp.length by omega)]; rfl

theorem slice_first (hh P q sp z sd : Bytes) (o n : Nat) (ho : hh.length + P.length + q.length + 3 = o) (hn : sp.length = n) :
    sliceAt (hh ++ (P ++ (q ++ ([0, 0, 0] ++ sp ++ z ++ sd)))) o n = some sp := by
  have e2 : hh ++ (P ++ (q ++ ([0, 0, 0] ++ sp ++ z ++ sd))) = (hh ++ P ++ q ++ [0, 0, 0]) ++ (sp ++ (z ++ sd)) := by
    simp only [List.append_assoc]
  rw [e2]
  exact sliceAt_mid _ _ _ _ _ (by simp; omega) hn

theorem slice_second (hh P q sp z sd : Bytes) (o n : Nat) (ho : hh.length + P.length + q.length + 3 + sp.length + z.length = o)
    (hn : sd.length = n) : sliceAt (hh ++ (P ++ (q ++ ([0, 0, 0] ++ sp ++ z ++ sd)))) o n = some sd := by
  have e2 : hh ++ (P ++ (q ++ ([0, 0, 0] ++ sp ++ z ++ sd))) = (hh ++ P ++ q ++ [0, 0, 0] ++ sp ++ z) ++ sd := by
    simp only [List.append_assoc]
  rw [e2]
  exact sliceAt_end _ _ _ _ (by simp; omega) hn

theorem is_transact2 (i : Info) (t : UInt16) (c : SubCmd2) (sp sd p d : Bytes) (hp : c.parameter = .ok sp) (hd : c.data = .ok sd)
    (hm : c.maxParamCount = 10 ∧ c.maxDataCount = 65535 ∧ c.maxSetupCount = 0) (h : (transact2Msg t c).body i = .ok (p, d)) :
    IsTransact2 (message (frameOf i ((transact2Msg t c).params p) d)) c.setup.toNat sp sd := by
  rw [transact2_body t c i sp sd hp hd] at h
  rw [params_transact2]
  split at h
  case isTrue => cases h
  split at h
  case isTrue => cases h
  split at h
  case isTrue => cases h
  rename_i h1 h2 h3
  cases h
  generalize hP : putU16 (UInt16.ofNat sp.length) ++ putU16 (UInt16.ofNat sd.length)
          ++ putU16 c.maxParamCount ++ putU16 c.maxDataCount ++ [c.maxSetupCount] ++ [0]
          ++ putU16 0 ++ putU32 0 ++ putU16 0
          ++ putU16 (UInt16.ofNat sp.length) ++ putU16 68
          ++ putU16 (UInt16.ofNat sd.length) ++ putU16 (UInt16.ofNat (roundUp4n (68 + sp.length)))
          ++ [1] ++ [0] ++ putU16 c.setup = P
  have hl : P.length = 30 := by rw [← hP]; simp
  have l1 : u16At P 4 = some 10 := by subst hP; rw [hm.1]; wire; rfl
  have l2 : u16At P 6 = some 65535 := by subst hP; rw [hm.2.1]; wire; rfl
  have l3 : u8At P 8 = some 0 := by subst hP; rw [hm.2.2]; wire; rfl
  have l4 : u16At P 10 = some 0 := by subst hP; wire; rfl
  have l5 : u32At P 12 = some 0 := by subst hP; wire; rfl
  refine ⟨?_, ⟨P, frame_params _ _ _ (by omega) (by omega), ?_⟩, P, frame_params _ _ _ (by omega) (by omega), l1, l2, l3, l4, l5⟩
  · rw [frame_wordCount _ _ _ (by omega), hl]
  · have hr : roundUp4n (68 + sp.length) = 68 + sp.length + fillUp4n (68 + sp.length) := by unfold roundUp4n fillUp4n; omega
    have f1 : u8At P 26 = some 1 := by subst hP; wire; rfl
    have f2 : u16At P 28 = some c.setup.toNat := by subst hP; wire
    have f3 : u16At P 0 = some sp.length := by subst hP; wire; simp; omega
    have f4 : u16At P 18 = some sp.length := by subst hP; wire; simp; omega
    have f5 : u16At P 2 = some sd.length := by subst hP; wire; simp; omega
    have f6 : u16At P 22 = some sd.length := by subst hP; wire; simp; omega
    have f7 : u16At P 20 = some 68 := by subst hP; wire; rfl
    have f8 : u16At P 24 = some (roundUp4n (68 + sp.length)) := by subst hP; wire; simp; omega
    clear hP
    have g1 : roundUp4n (68 + sp.length) % 4 = 0 := by unfold roundUp4n; omega
    generalize hfill : fillUp4n (68 + sp.length) = n at *
    obtain ⟨hh, hhl, e⟩ := frame_split37 i P ([0, 0, 0] ++ sp ++ zeros n ++ sd)
    refine ⟨f1, f2, f3, f4, f5, f6, 68, _, f7, f8, rfl, g1, by omega, by omega, ?_, ?_, ?_⟩
    · rw [e]
      exact slice_first hh P _ sp _ sd _ _ (by simp [hhl, hl]) rfl
    · rw [e]
      exact slice_second hh P _ sp _ sd _ _ (by simp [hhl, hl, hr]; omega) rfl
    · rw [frame_length, hl, hr]; simp; omega

theorem is_findFirst (f : Str) (a : UInt16) (sp : Bytes) (h : (findFirst2Cmd f a).parameter = .ok sp) : IsFindFirst sp a.toNat f := by
  cases h
  refine ⟨by wire, ⟨1024, by wire; rfl, by decide⟩, by wire; rfl, by wire; rfl, by wire; rfl, encodeUtf16le f, ?_, utf16le_encode f⟩
  rfl

theorem is_findNext (sid : UInt16) (f : Str) (sp : Bytes) (h : (findNext2Cmd sid f).parameter = .ok sp) : IsFindNext sp sid.toNat f := by
  cases h
  refine ⟨by wire, ⟨1024, by wire; rfl, by decide⟩, by wire; rfl, by wire; rfl, by wire; rfl, encodeUtf16le f, ?_, utf16le_encode f⟩
  rfl

theorem transact_body (t : UInt16) (fid : UInt16) (mode : UInt32) (i : Info) :
    (transactMsg t (notifySetup fid mode false)).body i =
      .ok ([0] ++ putU16 0 ++ putU32 0 ++ putU32 0 ++ putU32 1000 ++ putU32 0 ++ putU32 0 ++ putU32 84 ++ putU32 0 ++ putU32 84
            ++ [4] ++ putU16 4 ++ (putU32 mode ++ putU16 fid ++ [0] ++ [0]), [0, 0, 0]) := by
  simp only [transactMsg, notifySetup, Res.ok_bind, tryInto, tryIntoExpect]
  have hl : (putU32 mode ++ putU16 fid ++ [if false = true then 1 else 0] ++ [0]).length = 8 := rfl
  rw [hl]
  rw [if_pos (by decide), Res.ok_bind, if_pos (by decide), Res.ok_bind, if_pos (by decide), Res.ok_bind,
    if_pos (by decide), Res.ok_bind, if_pos (by decide), Res.ok_bind]
  rfl

theorem is_transact (i : Info) (t fid : UInt16) (mode : UInt32) (p d : Bytes)
    (h : (transactMsg t (notifySetup fid mode false)).body i = .ok (p, d)) :
    ∃ setup, IsNtTransact (message (frameOf i ((transactMsg t (notifySetup fid mode false)).params p) d)) 4 setup [] [] ∧
      IsNotify setup mode.toNat fid.toNat := by
  rw [transact_body] at h
  rw [params_transact]
  cases h
  generalize hS : putU32 mode ++ putU16 fid ++ [0] ++ [0] = S
  have hs : S.length = 8 := by rw [← hS]; rfl
  refine ⟨S, ?_, hs, by subst hS; wire, by subst hS; wire, by subst hS; wire; rfl⟩
  clear hS
  generalize hP : [0] ++ putU16 0 ++ putU32 0 ++ putU32 0 ++ putU32 1000 ++ putU32 0 ++ putU32 0 ++ putU32 84 ++ putU32 0 ++ putU32 84
            ++ [4] ++ putU16 4 ++ S = P
  have hl : P.length = 46 := by rw [← hP]; simp [hs]
  have e0 : (S.length / 2) = 4 := by omega
  refine ⟨?_, ⟨P, frame_params _ _ _ (by omega) (by omega), ?_⟩, P, frame_params _ _ _ (by omega) (by omega),
    by subst hP; rfl, by subst hP; wire; rfl, by subst hP; wire; rfl⟩
  · rw [frame_wordCount _ _ _ (by omega), hl, e0]
  · rw [e0, hs]
    have g1 : sliceAt P 38 8 = some S := by subst hP; exact sliceAt_end _ _ _ _ (by simp) hs
    refine ⟨by subst hP; wire; rfl, by subst hP; wire; rfl, g1, rfl, by subst hP; wire; rfl, by subst hP; wire; rfl,
      by subst hP; wire; rfl, by subst hP; wire; rfl, 84, 84, by subst hP; wire; rfl, by subst hP; wire; rfl, rfl, rfl, by omega,
      Nat.le_refl _, ?_, ?_, ?_⟩
    · simp [sliceAt, frame_length, hl]
    · simp [sliceAt, frame_length, hl]
    · simp [frame_length, hl]

end Cifs
