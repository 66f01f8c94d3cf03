import Verif.Lemmas.Download
import Verif.Lemmas.Demo
/-! # A concrete file server, used to show that hypotheses can be met and that properties are violated -/

namespace Cifs.Demo
open Spec

/-- The header of a reply to `req`. -/
def replyInfo (req : Bytes) (cmd : Cmd) (status : Status) : Info :=
  { Info.default cmd with flags1 := 0x98, status := status, tid := 0x0801, mid := UInt16.ofNat ((midOf req).getD 0) }

/-- The parameter bytes of a reply to a request to open a file. -/
def sizeParams (size : UInt64) : Bytes :=
  [0xff, 0, 0, 0, 0] ++ putU16 0x4002 ++ putU32 1 ++ putU64 0 ++ putU64 0 ++ putU64 0 ++ putU64 0 ++ putU32 0 ++ putU64 0 ++ putU64 size
    ++ putU16 0 ++ putU16 0 ++ [0]

/-- The parameter bytes of a reply to a request to read. -/
def readParams (n : Nat) : Bytes :=
  [0xff, 0, 0, 0, 0, 0, 0, 0, 0, 0] ++ putU16 (UInt16.ofNat n) ++ [0x3c, 0, 0, 0, 0, 0, 0, 0, 0, 0, 0, 0]

/-- The offset in a request to read. -/
def offsetOf (req : Bytes) : Nat :=
  match paramsOf req with
  | some ps => ((u32At ps 20).getD 0) * 2 ^ 32 + (u32At ps 6).getD 0
  | none => 0

/-- The reply of a file server that announces the size `size`, and answers a request to read at an offset with a chunk or with an error. -/
def fileReply (size : UInt64) (chunkAt : Nat → Option Bytes) (req : Bytes) : Bytes :=
  if cmdOf req = some 0xa2 then frameOf (replyInfo req .Create (.Known .SUCCESS)) (sizeParams size) []
  else if cmdOf req = some 0x2e then
    match chunkAt (offsetOf req) with
    | some chunk => frameOf (replyInfo req .Read (.Known .SUCCESS)) (readParams chunk.length) chunk
    | none => frameOf (replyInfo req .Read (.Known .ACCESS_DENIED)) [] []
  else frameOf (replyInfo req .Close (.Known .SUCCESS)) [] []

/-- The file server. It sends each reply in two segments, after a keep-alive. -/
def fileServer (size : UInt64) (chunkAt : Nat → Option Bytes) : Server Unit where
  react := fun _ req => ((), [keepAlive ++ (message (fileReply size chunkAt req)).take 5, (message (fileReply size chunkAt req)).drop 5])
  tail := fun _ => .eof

/-- The environment with a file server. -/
def fileEnv (checked : Bool) (size : UInt64) (chunkAt : Nat → Option Bytes) : Env (Unit × List Bytes) where
  V := logged (fileServer size chunkAt)
  C := crypto
  checked := checked
  now := 13370000000000000000
  random := [1, 2, 3, 4, 5, 6, 7, 8]
  random_len := rfl

/-- A session with the file server. -/
def fileSt : St (Unit × List Bytes) := { cli := cli, w := { inbox := [], wsched := [.accept 3, .accept 10], out := [], srv := ((), []) } }

/-- The handle it gives. -/
def fileHandle (size : UInt64) : Handle := { handle with size := size }

theorem has_mid {p : Bytes} {n : Nat} (h : wordCountOf p = some n) : ∃ m, midOf p = some m := by
  have hl := u8At_lt h
  obtain ⟨a, ha⟩ : ∃ a, u8At p 34 = some a := ⟨_, by rw [u8At, List.getElem?_eq_getElem (by omega)]; rfl⟩
  obtain ⟨b, hb⟩ : ∃ b, u8At p 35 = some b := ⟨_, by rw [u8At, List.getElem?_eq_getElem (by omega)]; rfl⟩
  exact ⟨a + 256 * b, by rw [midOf, u16At, ha, hb]; rfl⟩

theorem frame_body_length (i : Info) (ps ds : Bytes) : (frameOf i ps ds).length = 35 + ps.length + ds.length := by
  have h1 := frame_length i ps ds
  obtain ⟨hh, hl, e⟩ := message_eq (frameOf i ps ds)
  rw [e] at h1
  simp only [List.length_append, hl] at h1
  omega

theorem reply_genuine (req : Bytes) (cmd : Cmd) (st : Status) (ps ds : Bytes) (hm : ∃ m, midOf req = some m) :
    Genuine (frameOf (replyInfo req cmd st) ps ds) ∧ midOf (message (frameOf (replyInfo req cmd st) ps ds)) = midOf req := by
  refine ⟨⟨by rw [frame_body_length]; omega, frame_magic _ _ _, ⟨cmd.code.toNat, ?_, frame_cmd _ _ _⟩, _, frame_flags1 _ _ _, by show (0x98 : UInt8).toNat / 128 % 2 = 1; decide⟩, ?_⟩
  · cases cmd <;> decide
  · obtain ⟨m, hm⟩ := hm
    rw [frame_mid, hm]
    have : m < 65536 := u16At_small hm
    simp [replyInfo, hm]
    omega

theorem reply_succeeds (req : Bytes) (cmd : Cmd) (ps ds : Bytes) (h : ps.length / 2 < 256) (he : ps.length % 2 = 0) (hd : ds.length < 65536) :
    Succeeds (frameOf (replyInfo req cmd (.Known .SUCCESS)) ps ds) cmd.code.toNat ps ds := by
  refine ⟨frame_cmd _ _ _, by rw [frame_status]; rfl, frame_params _ _ _ h he, _, frame_byteCount _ _ _ h he hd, ?_⟩
  obtain ⟨hh, hl, e⟩ := frame_split37 (replyInfo req cmd (.Known .SUCCESS)) ps ds
  rw [e, ← List.append_assoc, ← List.append_assoc]
  have := sliceAt_mid (hh ++ ps ++ putU16 (UInt16.ofNat ds.length)) ds [] (39 + ps.length) ds.length (by simp [hl]; omega) rfl
  simpa using this

theorem opens (req : Bytes) (size : UInt64) : Opens (frameOf (replyInfo req .Create (.Known .SUCCESS)) (sizeParams size) []) (fileHandle size) := by
  refine ⟨_, _, 0x0801, reply_succeeds req .Create (sizeParams size) [] (by show 68 / 2 < 256; decide) (by show 68 % 2 = 0; rfl) (by decide),
    ⟨rfl, by show 4 ≤ 68; decide⟩, ?_, ?_⟩
  · rw [frame_tid]; rfl
  · constructor
    · rfl
    · exact ⟨0, rfl, rfl⟩
    · rfl
    · exact ⟨1, rfl, rfl⟩
    · rfl
    · rfl
    · rfl
    · rfl
    · exact ⟨0, rfl, rfl⟩
    · rfl
    · unfold sizeParams; wire; rfl
    · exact ⟨0, rfl, rfl⟩
    · rfl

theorem yields (req chunk : Bytes) (h : chunk.length < 65536) :
    Yields (frameOf (replyInfo req .Read (.Known .SUCCESS)) (readParams chunk.length) chunk) chunk := by
  refine ⟨_, [], reply_succeeds req .Read (readParams chunk.length) chunk (by show 24 / 2 < 256; decide) (by show 24 % 2 = 0; rfl) h,
    ⟨rfl, by show 4 ≤ 24; decide⟩, by simp, ?_⟩
  unfold readParams; wire
  simp; omega

theorem closes (req : Bytes) : Closes (frameOf (replyInfo req .Close (.Known .SUCCESS)) [] []) :=
  ⟨_, _, reply_succeeds req .Close [] [] (by decide) rfl (by decide)⟩

theorem offset_read {req : Bytes} {h : Handle} {o : Nat} (hr : ReadRequest req h o) : offsetOf req = o := by
  obtain ⟨ps, h1, _, _, ⟨lo, hi, h2, h3, h4⟩, _⟩ := hr.2.2.fields
  rw [offsetOf, h1]
  simp [h2, h3, h4]

theorem frame_short (i : Info) (ps ds : Bytes) (h : ps.length ≤ 100) (hd : ds.length < 65536) : (frameOf i ps ds).length ≤ maxPayload := by
  rw [frame_body_length]
  simp only [maxPayload]; omega

theorem fileReply_serves (own : Nat → Prop) (size : UInt64) (chunkAt : Nat → Option Bytes) (v : Unit × List Bytes) (req f : Bytes)
    (he : fileReply size chunkAt req = f) (hl : f.length ≤ maxPayload) (hg : Genuine f) (hm : midOf (message f) = midOf req) :
    Serves (logged (fileServer size chunkAt)) own v req f := by
  refine ⟨keepAlive ++ [], [], ?_, .keepAlive .nil, .nil, hl, hg, hm⟩
  show List.flatten [keepAlive ++ (message (fileReply size chunkAt req)).take 5, (message (fileReply size chunkAt req)).drop 5] = _
  rw [he]
  simp

theorem served_open (own : Nat → Prop) (size : UInt64) (chunkAt : Nat → Option Bytes) (v : Unit × List Bytes) (req : Bytes) {tid : Nat} {path : Str}
    (hr : OpenRequest req tid path) :
    ∃ f, Serves (logged (fileServer size chunkAt)) own v req f ∧ Opens f (fileHandle size) := by
  have hg := reply_genuine req .Create (.Known .SUCCESS) (sizeParams size) [] (has_mid hr.2.2.words)
  refine ⟨_, fileReply_serves own size chunkAt v req _ ?_ (frame_short _ _ _ (by show 68 ≤ 100; decide) (by decide)) hg.1 hg.2, opens req size⟩
  rw [fileReply, if_pos hr.1]

theorem served_read (own : Nat → Prop) (size : UInt64) (chunkAt : Nat → Option Bytes) (v : Unit × List Bytes) (req : Bytes) {h : Handle} {o : Nat}
    (hr : ReadRequest req h o) (chunk : Bytes) (hc : chunkAt o = some chunk) (hl : chunk.length < 65536) :
    ∃ f, Serves (logged (fileServer size chunkAt)) own v req f ∧ Yields f chunk := by
  have hg := reply_genuine req .Read (.Known .SUCCESS) (readParams chunk.length) chunk (has_mid hr.2.2.words)
  refine ⟨_, fileReply_serves own size chunkAt v req _ ?_ (frame_short _ _ _ (by show 24 ≤ 100; decide) hl) hg.1 hg.2, yields req chunk hl⟩
  rw [fileReply, if_neg (by rw [hr.1]; decide), if_pos hr.1, offset_read hr, hc]

theorem served_close (own : Nat → Prop) (size : UInt64) (chunkAt : Nat → Option Bytes) (v : Unit × List Bytes) (req : Bytes) {h : Handle}
    (hr : CloseRequest req h) : ∃ f, Serves (logged (fileServer size chunkAt)) own v req f ∧ Closes f := by
  have hg := reply_genuine req .Close (.Known .SUCCESS) [] [] (has_mid hr.2.2.words)
  refine ⟨_, fileReply_serves own size chunkAt v req _ ?_ (frame_short _ _ _ (by decide) (by decide)) hg.1 hg.2, closes req⟩
  rw [fileReply, if_neg (by rw [hr.1]; decide), if_neg (by rw [hr.1]; decide)]

end Cifs.Demo
