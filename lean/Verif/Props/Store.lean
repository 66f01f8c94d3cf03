import Verif.Props.Service
import Verif.Props.Listing
import Verif.Props.Notify
/-!
# Every service can be offered over the wire (C66)

A request stands for one call only. So a server can tell which call to answer, and every deterministic service whose answers fit into
replies is offered by some server.
-/

namespace Cifs
open Spec

variable {σ A α : Type}

/-! ## A request stands for one call -/

theorem wide_unique {s t : Str} {b : Bytes} (hs : Utf16le s b) (ht : Utf16le t b) : s = t := by
  rw [utf16le_unique hs] at ht
  exact encodeUtf16le_inj (utf16le_unique ht)

theorem open_unique {p : Bytes} {s t : Str} {a b c a' b' c' : Nat} (h : IsOpen p s a b c) (h' : IsOpen p t a' b' c') : s = t ∧ a = a' := by
  obtain ⟨_, ⟨n, hn, hs, _⟩, ps, hp, _, _, ha, _⟩ := h
  obtain ⟨_, ⟨n', hn', ht, _⟩, ps', hp', _, _, ha', _⟩ := h'
  have e := Option.some.inj (hn.symm.trans hn')
  have e2 : n = n' := by simpa using e
  subst e2
  cases Option.some.inj (hp.symm.trans hp')
  exact ⟨wide_unique hs ht, Option.some.inj (ha.symm.trans ha')⟩

theorem transact2_unique {p : Bytes} {k k' : Nat} {ps ps' ds ds' : Bytes} (h : IsTransact2 p k ps ds) (h' : IsTransact2 p k' ps' ds') :
    k = k' ∧ ps = ps' := by
  obtain ⟨_, ⟨w, hw, _, hk, _, hl, _, _, po, _, hpo, _, _, _, _, _, hs, _⟩, _⟩ := h
  obtain ⟨_, ⟨w', hw', _, hk', _, hl', _, _, po', _, hpo', _, _, _, _, _, hs', _⟩, _⟩ := h'
  cases Option.some.inj (hw.symm.trans hw')
  cases Option.some.inj (hpo.symm.trans hpo')
  rw [← Option.some.inj (hl.symm.trans hl')] at hs'
  exact ⟨Option.some.inj (hk.symm.trans hk'), Option.some.inj (hs.symm.trans hs')⟩

theorem notify_unique {p : Bytes} {k k' : Nat} {s s' ps ps' ds ds' : Bytes} (h : IsNtTransact p k s ps ds) (h' : IsNtTransact p k' s' ps' ds')
    (hl : s.length = 8) (hl' : s'.length = 8) : s = s' := by
  obtain ⟨_, ⟨w, hw, _, _, hs, _⟩, _⟩ := h
  obtain ⟨_, ⟨w', hw', _, _, hs', _⟩, _⟩ := h'
  cases Option.some.inj (hw.symm.trans hw')
  rw [hl] at hs
  rw [hl'] at hs'
  exact Option.some.inj (hs.symm.trans hs')

theorem drop_unique {ps : Bytes} {s t : Str} (h : ∃ n, ps.drop 12 = n ++ [0, 0] ∧ Utf16le s n) (h' : ∃ n, ps.drop 12 = n ++ [0, 0] ∧ Utf16le t n) :
    s = t := by
  obtain ⟨n, hn, hs⟩ := h
  obtain ⟨n', hn', ht⟩ := h'
  have e : n = n' := by simpa using hn.symm.trans hn'
  subst e
  exact wide_unique hs ht

theorem format_unique {p : Bytes} {s t : Str} (h : ∃ n, dataOf p = some (4 :: n ++ [0, 0]) ∧ Utf16le s n)
    (h' : ∃ n, dataOf p = some (4 :: n ++ [0, 0]) ∧ Utf16le t n) : s = t := by
  obtain ⟨n, hn, hs⟩ := h
  obtain ⟨n', hn', ht⟩ := h'
  have e : n = n' := by simpa using Option.some.inj (hn.symm.trans hn')
  subst e
  exact wide_unique hs ht

/-- **C66** A request stands for one call only: whatever two calls a packet can be read as, they are the same. -/
theorem C66_unambiguous {unicode : Bool} {req : Bytes} {c c' : Call} (h : IsCall unicode req c) (h' : IsCall unicode req c') : c = c' := by
  have tids : ∀ {t t' : Nat}, tidOf req = some t → tidOf req = some t' → t = t' := fun a b => Option.some.inj (a.symm.trans b)
  cases c <;> cases c' <;> first
    | (exfalso; exact absurd (Option.some.inj (h.1.symm.trans h'.1)) (by decide))
    | skip
  case mount.mount => obtain ⟨rfl, rfl⟩ := C22_recover h.2 h'.2; rfl
  case umount.umount => cases tids h.2.1 h'.2.1; rfl
  case openfile.openfile => cases tids h.2.1 h'.2.1; cases (open_unique h.2.2 h'.2.2).1; rfl
  case openfile.opendir => exact absurd (open_unique h.2.2 h'.2.2).2 (by decide)
  case opendir.openfile => exact absurd (open_unique h.2.2 h'.2.2).2 (by decide)
  case opendir.opendir => cases tids h.2.1 h'.2.1; cases (open_unique h.2.2 h'.2.2).1; rfl
  case close.close =>
    cases tids h.2.1 h'.2.1
    obtain ⟨ps, hp, hf, _⟩ := h.2.2.fields
    obtain ⟨ps', hp', hf', _⟩ := h'.2.2.fields
    cases Option.some.inj (hp.symm.trans hp')
    cases Option.some.inj (hf.symm.trans hf')
    rfl
  case read.read =>
    cases tids h.2.1 h'.2.1
    obtain ⟨ps, hp, _, hf, ⟨lo, hi, h1, h2, h3⟩, _⟩ := h.2.2.fields
    obtain ⟨ps', hp', _, hf', ⟨lo', hi', h1', h2', h3'⟩, _⟩ := h'.2.2.fields
    cases Option.some.inj (hp.symm.trans hp')
    cases Option.some.inj (hf.symm.trans hf')
    cases Option.some.inj (h1.symm.trans h1')
    cases Option.some.inj (h2.symm.trans h2')
    rw [← h3, ← h3']
  case delete.delete => cases tids h.2.1 h'.2.1; cases format_unique h.2.2.name h'.2.2.name; rfl
  case rmdir.rmdir => cases tids h.2.1 h'.2.1; cases format_unique h.2.2.name h'.2.2.name; rfl
  case notify.notify =>
    cases tids h.2.1 h'.2.1
    obtain ⟨s, hs, hn⟩ := h.2.2
    obtain ⟨s', hs', hn'⟩ := h'.2.2
    cases notify_unique hs hs' hn.length hn'.length
    cases Option.some.inj (hn.what.symm.trans hn'.what)
    cases Option.some.inj (hn.fid.symm.trans hn'.fid)
    rfl
  case findFirst.findFirst =>
    cases tids h.2.1 h'.2.1
    obtain ⟨ps, hs, hn⟩ := h.2.2
    obtain ⟨ps', hs', hn'⟩ := h'.2.2
    cases (transact2_unique hs hs').2
    cases drop_unique hn.pattern hn'.pattern
    rfl
  case findFirst.findNext =>
    obtain ⟨ps, hs, hn⟩ := h.2.2
    obtain ⟨ps', hs', hn'⟩ := h'.2.2
    exact absurd (transact2_unique hs hs').1 (by decide)
  case findNext.findFirst =>
    obtain ⟨ps, hs, hn⟩ := h.2.2
    obtain ⟨ps', hs', hn'⟩ := h'.2.2
    exact absurd (transact2_unique hs hs').1 (by decide)
  case findNext.findNext =>
    cases tids h.2.1 h'.2.1
    obtain ⟨ps, hs, hn⟩ := h.2.2
    obtain ⟨ps', hs', hn'⟩ := h'.2.2
    cases (transact2_unique hs hs').2
    cases Option.some.inj (hn.sid.symm.trans hn'.sid)
    cases drop_unique hn.last hn'.last
    rfl

/-! ## A server for any service -/

/-- A server that always sends the same. -/
def mute (segs : List Bytes) : Server Unit where
  react := fun _ _ => ((), segs)
  tail := fun _ => .eof

/-- What a server says depends on nothing but the bytes it sends. -/
theorem answers_congr {V : Server σ} {W : Server A} {own : Nat → Prop} {v : σ} {w : A} {req : Bytes} {c : Call} {r : Answer}
    (e : (W.react w req).2 = (V.react v req).2) (h : Answers V own v req c r) : Answers W own w req c r := by
  have s : ∀ f, Serves V own v req f → Serves W own w req f := fun f ⟨b, a, h1, h2⟩ => ⟨b, a, by rw [e]; exact h1, h2⟩
  have p : ∀ P D, ServesPage V own v req P D → ServesPage W own w req P D := fun P D ⟨m, l, h1, h2, h3⟩ => ⟨m, l, h1, by rw [e]; exact h2, h3⟩
  cases r with
  | refused status => obtain ⟨h0, f, h1, h2⟩ := h; exact ⟨h0, f, s f h1, h2⟩
  | value x =>
    cases c <;> cases x <;> first
      | (obtain ⟨f, h1, h2⟩ := h; exact ⟨f, s f h1, h2⟩)
      | (obtain ⟨P, D, h1, h2⟩ := h; exact ⟨P, D, p P D h1, h2⟩)

/-- The answer can be told in a reply to any request for the call. -/
def Tellable (own : Nat → Prop) (unicode : Bool) (c : Call) (r : Answer) : Prop :=
  ∀ req, IsCall unicode req c → ∃ segs, Answers (mute segs) own () req c r

open Classical in
/-- The server that offers the service `step`. -/
noncomputable def serverOf (own : Nat → Prop) (unicode : Bool) (step : A → Call → Answer × A) : Server A where
  react := fun a req =>
    if h : ∃ c, IsCall unicode req c then
      ((step a h.choose).2,
        if k : ∃ segs, Answers (mute segs) own () req h.choose (step a h.choose).1 then k.choose else [])
    else (a, [])
  tail := fun _ => .eof

theorem serverOf_implements (own : Nat → Prop) (unicode : Bool) (step : A → Call → Answer × A) (h : ∀ a c, Tellable own unicode c (step a c).1)
    (uid : Nat) : Implements (serverOf own unicode step) own unicode uid (fun a c r a' => step a c = (r, a')) (fun a v => a = v) := by
  rintro a _ req c rfl hc _
  have he : ∃ c, IsCall unicode req c := ⟨c, hc⟩
  have hch : he.choose = c := C66_unambiguous he.choose_spec hc
  have ht : ∃ segs, Answers (mute segs) own () req he.choose (step a he.choose).1 := by rw [hch]; exact h a c req hc
  have hr : (serverOf own unicode step).react a req = ((step a he.choose).2, ht.choose) := by
    unfold serverOf
    simp only [dif_pos he, dif_pos ht]
  refine ⟨(step a c).1, (step a c).2, rfl, ?_, ?_⟩
  · have hs := ht.choose_spec
    have := answers_congr (W := serverOf own unicode step) (w := a) (by rw [hr]; rfl) hs
    rw [hch] at this
    exact this
  · rw [hr]; show _ = (step a he.choose).2; rw [hch]

/-- **C66** Every deterministic service whose answers can be told is offered by some server. -/
theorem C66_possible (own : Nat → Prop) (unicode : Bool) (step : A → Call → Answer × A) (h : ∀ a c, Tellable own unicode c (step a c).1) :
    ∃ V : Server A, ∀ uid, Implements V own unicode uid (fun a c r a' => step a c = (r, a')) (fun a v => a = v) :=
  ⟨serverOf own unicode step, serverOf_implements own unicode step h⟩

/-! ## Which answers can be told -/

/-- A reply to `req` for the tree `tid`. -/
def replyTo (req : Bytes) (cmd : Cmd) (status : Status) (tid : UInt16) (ps ds : Bytes) : Bytes :=
  frameOf { Demo.replyInfo req cmd status with tid := tid } ps ds

theorem replyTo_genuine (req : Bytes) (cmd : Cmd) (st : Status) (tid : UInt16) (ps ds : Bytes) (hm : ∃ m, midOf req = some m) :
    Genuine (replyTo req cmd st tid ps ds) ∧ midOf (message (replyTo req cmd st tid ps ds)) = midOf req := by
  refine ⟨⟨by rw [replyTo, Demo.frame_body_length]; omega, frame_magic _ _ _, ⟨cmd.code.toNat, ?_, frame_cmd _ _ _⟩, _, frame_flags1 _ _ _,
    by show (0x98 : UInt8).toNat / 128 % 2 = 1; decide⟩, ?_⟩
  · cases cmd <;> decide
  · obtain ⟨m, hm⟩ := hm
    rw [replyTo, frame_mid, hm]
    have : m < 65536 := u16At_small hm
    simp [Demo.replyInfo, hm]
    omega

theorem replyTo_succeeds (req : Bytes) (cmd : Cmd) (tid : UInt16) (ps ds : Bytes) (h : ps.length / 2 < 256) (he : ps.length % 2 = 0)
    (hd : ds.length < 65536) : Succeeds (replyTo req cmd (.Known .SUCCESS) tid ps ds) cmd.code.toNat ps ds := by
  refine ⟨frame_cmd _ _ _, by rw [replyTo, frame_status]; rfl, frame_params _ _ _ h he, _, frame_byteCount _ _ _ h he hd, ?_⟩
  obtain ⟨hh, hl, e⟩ := frame_split37 { Demo.replyInfo req cmd (.Known .SUCCESS) with tid := tid } ps ds
  rw [replyTo, e, ← List.append_assoc, ← List.append_assoc]
  have := sliceAt_mid (hh ++ ps ++ putU16 (UInt16.ofNat ds.length)) ds [] (39 + ps.length) ds.length (by simp [hl]; omega) rfl
  simpa using this

theorem call_mid {unicode : Bool} {req : Bytes} {c : Call} (h : IsCall unicode req c) : ∃ m, midOf req = some m := by
  cases c
  case mount => exact Demo.has_mid h.2.words
  case notify => obtain ⟨_, _, s, h, _⟩ := h; exact Demo.has_mid h.words
  case findFirst => obtain ⟨_, _, s, h, _⟩ := h; exact Demo.has_mid h.words
  case findNext => obtain ⟨_, _, s, h, _⟩ := h; exact Demo.has_mid h.words
  all_goals exact Demo.has_mid h.2.2.words

theorem replyTo_serves (own : Nat → Prop) {unicode : Bool} {req : Bytes} {c : Call} (hc : IsCall unicode req c) (cmd : Cmd) (st : Status) (tid : UInt16)
    (ps ds : Bytes) (hp : ps.length ≤ 100) (hd : ds.length < 65536) :
    Serves (mute [message (replyTo req cmd st tid ps ds)]) own () req (replyTo req cmd st tid ps ds) := by
  have hg := replyTo_genuine req cmd st tid ps ds (call_mid hc)
  exact ⟨[], [], by simp [mute], .nil, .nil, Demo.frame_short _ _ _ hp hd, hg.1, hg.2⟩

/-- The command of a call. -/
def cmdFor : Call → Cmd
  | .mount .. => .TreeConnect
  | .umount .. => .TreeDisconnect
  | .openfile .. => .Create
  | .opendir .. => .Create
  | .close .. => .Close
  | .read .. => .Read
  | .delete .. => .Delete
  | .rmdir .. => .Rmdir
  | .notify .. => .Transact
  | .findFirst .. => .Transact2
  | .findNext .. => .Transact2

theorem cmdFor_code (c : Call) : (cmdFor c).code.toNat = c.code := by cases c <;> rfl

/-- The words of the reply to an open request. -/
def handleWords (h : Handle) : Bytes :=
  [0xff, 0, 0, 0, h.oplock] ++ putU16 h.fid ++ putU32 h.disposition ++ putU64 h.createTime ++ putU64 h.accessTime ++ putU64 h.writeTime ++
    putU64 h.changeTime ++ putU32 h.attributes ++ putU64 h.allocationSize ++ putU64 h.size ++ putU16 h.fileType ++ putU16 0 ++
    [if h.directory then 1 else 0]

/-- What an open file can be like: the fields that the protocol limits keep to the limits. -/
def HandleFits (h : Handle) : Prop :=
  h.oplock.toNat < 4 ∧ h.disposition.toNat < 8 ∧ h.attributes.toNat &&& attrMask = h.attributes.toNat ∧ h.fileType.toNat < 8

theorem handleWords_length (h : Handle) : (handleWords h).length = 68 := by
  simp [handleWords, putU16, putU32, putU64, putLE]

theorem handle_opens (req : Bytes) (h : Handle) (hf : HandleFits h) :
    Opens (replyTo req .Create (.Known .SUCCESS) h.tid (handleWords h) []) h := by
  refine ⟨_, _, h.tid.toNat, replyTo_succeeds req .Create h.tid (handleWords h) [] (by rw [handleWords_length]; decide) (by rw [handleWords_length]) (by decide),
    ⟨by unfold handleWords; simp only [List.append_assoc, List.cons_append]; rfl, by rw [handleWords_length]; decide⟩, ?_, ?_⟩
  · rw [replyTo, frame_tid]
  · obtain ⟨h1, h2, h3, h4⟩ := hf
    constructor
    · rfl
    · exact ⟨h.oplock.toNat, by unfold handleWords; simp only [List.append_assoc, List.cons_append]; rfl, (Nat.mod_eq_of_lt h1).symm⟩
    · unfold handleWords; wire
    · refine ⟨h.disposition.toNat, by unfold handleWords; wire, (Nat.mod_eq_of_lt h2).symm⟩
    · unfold handleWords; wire
    · unfold handleWords; wire
    · unfold handleWords; wire
    · unfold handleWords; wire
    · exact ⟨h.attributes.toNat, by unfold handleWords; wire, h3.symm⟩
    · unfold handleWords; wire
    · unfold handleWords; wire
    · exact ⟨h.fileType.toNat, by unfold handleWords; wire, (Nat.mod_eq_of_lt h4).symm⟩
    · unfold handleWords; wire; cases h.directory <;> rfl

/-- An optional rights field. -/
def rightsWords : Option UInt32 → Bytes
  | none => []
  | some r => putU32 r

/-- What a share can be like: rights that the client knows, guest rights only with rights; texts without NUL that fit a reply. -/
def ShareFits (s : Share) : Prop :=
  (∀ r, s.accessRights = some r → r.toNat &&& rightsMask = r.toNat) ∧ (∀ r, s.guestRights = some r → r.toNat &&& rightsMask = r.toNat) ∧
    (s.accessRights = none → s.guestRights = none) ∧ '\x00' ∉ s.service ∧ '\x00' ∉ s.filesystem ∧
    (utf8Bytes s.service).length + (encodeUtf16le s.filesystem).length < 65000

/-- The words of the reply to a mount request. -/
def shareWords (s : Share) : Bytes := [0xff, 0, 0, 0, 1, 0] ++ rightsWords s.accessRights ++ rightsWords s.guestRights

/-- The data bytes of that reply. -/
def shareData (s : Share) : Bytes :=
  utf8Bytes s.service ++ [0] ++ List.replicate ((utf8Bytes s.service).length % 2) 0 ++ encodeUtf16le s.filesystem ++ [0, 0] ++ []

theorem share_mounts (req : Bytes) (s : Share) (hf : ShareFits s) : Mounts (replyTo req .TreeConnect (.Known .SUCCESS) s.tid (shareWords s) (shareData s)) s ∧
    (shareWords s).length ≤ 14 ∧ (shareData s).length < 65536 := by
  obtain ⟨h1, h2, h3, h4, h5, h6⟩ := hf
  have hl : (shareWords s).length ≤ 14 ∧ (shareWords s).length % 2 = 0 ∧ 6 ≤ (shareWords s).length := by
    unfold shareWords
    cases s.accessRights <;> cases s.guestRights <;> simp [rightsWords, putU32, putLE]
  have hd : (shareData s).length < 65536 := by
    unfold shareData
    simp only [List.length_append, List.length_replicate, List.length_cons, List.length_nil]
    omega
  refine ⟨⟨_, _, true, replyTo_succeeds req .TreeConnect s.tid (shareWords s) (shareData s) (by omega) hl.2.1 hd, ⟨rfl, by omega⟩, hl.2.2, ?_, ?_, ?_, ?_, ?_⟩,
    hl.1, hd⟩
  · rw [unicodeOf, replyTo, frame_flags2]; exact (by decide : (some Flags2.default.toNat).map (fun n => decide (n / 0x8000 % 2 = 1)) = some true)
  · rw [replyTo, frame_tid]
  · cases ha : s.accessRights with
    | none => unfold IsRights shareWords; rw [ha, h3 ha]; decide
    | some r =>
      refine ⟨r.toNat, ?_, (h1 r ha).symm⟩
      unfold shareWords; rw [ha]; unfold rightsWords
      rw [List.append_assoc]; wire
  · cases ha : s.guestRights with
    | none =>
      unfold IsRights shareWords
      cases hb : s.accessRights <;> rw [ha] <;> simp [rightsWords, putU32, putLE]
    | some r =>
      cases hb : s.accessRights with
      | none => rw [h3 hb] at ha; cases ha
      | some r' =>
        refine ⟨r.toNat, ?_, (h2 r ha).symm⟩
        unfold shareWords; rw [ha, hb]; unfold rightsWords
        wire
  · refine ⟨List.replicate ((utf8Bytes s.service).length % 2) 0, encodeUtf16le s.filesystem, [], h4, h5, ?_⟩
    rw [if_pos rfl]
    refine ⟨by simp only [List.length_replicate]; omega, by simp only [List.length_replicate]; omega, utf16le_encode _, rfl⟩

/-- The words of the reply to a request for changes: the changes stand right behind the byte count. -/
def changesWords (n : Nat) : Bytes :=
  [0, 0, 0] ++ putU32 (UInt32.ofNat n) ++ putU32 0 ++ putU32 (UInt32.ofNat n) ++ putU32 71 ++ putU32 0 ++ putU32 0 ++ putU32 0 ++ putU32 0 ++ [0]

theorem changes_notifies (req b : Bytes) {l : List (Str × NotifyAction)} (h : Changes b l) (hl : b.length < 65536) :
    Notifies (replyTo req .Transact (.Known .SUCCESS) 0 (changesWords b.length) b) l := by
  have ho : (UInt32.ofNat b.length).toNat = b.length := by simp; omega
  refine ⟨_, _, b, [], replyTo_succeeds req .Transact 0 (changesWords b.length) b (by show 36 / 2 < 256; decide) (by show 36 % 2 = 0; rfl) hl,
    ⟨b.length, 0, b.length, 71, 0, 0, 0, ?_, ?_, ?_, ?_, ?_, ?_, ?_, ?_, Nat.le_refl _, Nat.le_refl _, ?_, .inl ⟨rfl, rfl⟩⟩, h⟩
  · unfold changesWords; wire; rw [ho]
  · unfold changesWords; wire; rfl
  · unfold changesWords; wire; rw [ho]
  · unfold changesWords; wire; rfl
  · unfold changesWords; wire; rfl
  · unfold changesWords; wire; rfl
  · unfold changesWords; wire; rfl
  · show 36 + 2 * 0 ≤ 36; decide
  · rcases Nat.eq_zero_or_pos b.length with h0 | h0
    · exact .inl ⟨h0, List.length_eq_zero_iff.mp h0⟩
    · refine .inr ⟨h0, by show 35 + 36 ≤ 71; decide, ?_⟩
      show sliceAt b (71 - (35 + 36)) b.length = some b
      have := sliceAt_left b [] b.length rfl
      simpa using this

theorem page_serves (own : Nat → Prop) {req P D : Bytes} (hm : ∃ m, midOf req = some m) (hl : P.length + D.length < 60000) :
    ServesPage (mute [message (Demo.dirReply req P D)]) own () req P D := by
  obtain ⟨mid, hm⟩ := hm
  have hg := Demo.reply_genuine req .Transact2 (.Known .SUCCESS) (putU16 (UInt16.ofNat P.length) ++ putU16 (UInt16.ofNat D.length) ++ putU16 0 ++
    putU16 (UInt16.ofNat P.length) ++ putU16 55 ++ putU16 0 ++ putU16 (UInt16.ofNat D.length) ++ putU16 (UInt16.ofNat (55 + P.length)) ++ putU16 0 ++ [0, 0])
    (P ++ D) ⟨mid, hm⟩
  refine ⟨mid, [whole P D], hm, ?_, cuts_whole _ _, fun pre post P' D' e hne hc => ?_⟩
  · have := Brought.cons (own := own) (mid := mid) (b := []) (f := Demo.dirReply req P D) (rest := []) .nil
      (Demo.frame_short _ _ _ (by show 20 ≤ 100; decide) (by simp only [List.length_append]; omega)) hg.1 (hg.2.trans hm)
      (Demo.dirReply_brings req _ _ (by omega) (by omega)) (.nil .nil)
    simpa [mute] using this
  · cases pre with
    | nil => exact hc.1 rfl
    | cons x pre =>
      simp at e
      exact hne e.2.2

/-- A reply to `req` that brings a piece of the answer. -/
def partReply (req : Bytes) (p : Piece) : Bytes :=
  frameOf (Demo.replyInfo req .Transact2 (.Known .SUCCESS)) (putU16 (UInt16.ofNat p.paramsTotal) ++ putU16 (UInt16.ofNat p.dataTotal) ++ putU16 0 ++
    putU16 (UInt16.ofNat p.params.length) ++ putU16 55 ++ putU16 (UInt16.ofNat p.paramsAt) ++ putU16 (UInt16.ofNat p.data.length) ++
    putU16 (UInt16.ofNat (55 + p.params.length)) ++ putU16 (UInt16.ofNat p.dataAt) ++ [0, 0]) (p.params ++ p.data)

theorem partReply_brings (req : Bytes) (p : Piece) (h1 : p.paramsTotal < 65536) (h2 : p.dataTotal < 65536) (h3 : p.params.length + p.data.length < 60000)
    (h4 : p.paramsAt < 65536) (h5 : p.dataAt < 65536) : Brings (partReply req p) p := by
  obtain ⟨P, o, t, D, o', t'⟩ := p
  dsimp only at h1 h2 h3 h4 h5
  have hs := Demo.reply_succeeds req .Transact2 (putU16 (UInt16.ofNat t) ++ putU16 (UInt16.ofNat t') ++ putU16 0 ++ putU16 (UInt16.ofNat P.length) ++ putU16 55 ++
    putU16 (UInt16.ofNat o) ++ putU16 (UInt16.ofNat D.length) ++ putU16 (UInt16.ofNat (55 + P.length)) ++ putU16 (UInt16.ofNat o') ++ [0, 0])
    (P ++ D) (by show 20 / 2 < 256; decide) (by show 20 % 2 = 0; decide) (by simp; omega)
  obtain ⟨k1, k2, k3⟩ := hs
  have ho : ∀ n, n < 65536 → (UInt16.ofNat n).toNat = n := fun n hn => by simp; omega
  refine ⟨k1, k2, _, _, k3, P.length, 55, D.length, 55 + P.length, ?_, ?_, ?_, ?_, ?_, ?_, ?_, ?_, ⟨Nat.le_refl _, ?_⟩, ⟨?_, ?_⟩⟩
  · wire; rw [ho _ h1]
  · wire; rw [ho _ h2]
  · wire; rw [ho _ (by omega)]
  · wire; rfl
  · wire; rw [ho _ h4]
  · wire; rw [ho _ (by omega)]
  · wire; rw [ho _ (by omega)]
  · wire; rw [ho _ h5]
  · exact sliceAt_left _ _ _ rfl
  · show 55 ≤ 55 + P.length; omega
  · show sliceAt (P ++ D) (55 + P.length - 55) D.length = some D
    rw [Nat.add_sub_cancel_left]
    have := sliceAt_mid P D [] P.length D.length rfl rfl
    simpa using this

theorem partReply_brought (own : Nat → Prop) {req : Bytes} {mid : Nat} (hm : midOf req = some mid) : ∀ {l : List Piece}, (∀ p ∈ l, p.paramsTotal < 65536 ∧
    p.dataTotal < 65536 ∧ p.params.length + p.data.length < 60000 ∧ p.paramsAt < 65536 ∧ p.dataAt < 65536) →
    Brought own mid (l.map fun p => message (partReply req p)).flatten l
  | [], _ => .nil .nil
  | p :: l, h => by
    obtain ⟨h1, h2, h3, h4, h5⟩ := h p (by simp)
    have hg := Demo.reply_genuine req .Transact2 (.Known .SUCCESS) (putU16 (UInt16.ofNat p.paramsTotal) ++ putU16 (UInt16.ofNat p.dataTotal) ++ putU16 0 ++
      putU16 (UInt16.ofNat p.params.length) ++ putU16 55 ++ putU16 (UInt16.ofNat p.paramsAt) ++ putU16 (UInt16.ofNat p.data.length) ++
      putU16 (UInt16.ofNat (55 + p.params.length)) ++ putU16 (UInt16.ofNat p.dataAt) ++ [0, 0]) (p.params ++ p.data) ⟨mid, hm⟩
    exact Brought.cons (b := []) .nil (Demo.frame_short _ _ _ (by show 20 ≤ 100; decide) (by simp only [List.length_append]; omega)) hg.1 (hg.2.trans hm)
      (partReply_brings req p h1 h2 h3 h4 h5) (partReply_brought own hm fun q hq => h q (by simp [hq]))

/-- Two blocks in two pieces: the second one brings what does not fit into the first. -/
def halves (P D : Bytes) : List Piece := [⟨P, 0, P.length, D.take 30000, 0, D.length⟩, ⟨[], P.length, P.length, D.drop 30000, 30000, D.length⟩]

theorem halves_cuts {P D : Bytes} (h : 30000 < D.length) : Cuts (halves P D) P D := by
  refine ⟨by simp [halves], by intro p hp; simp only [halves, List.mem_cons, List.not_mem_nil, or_false] at hp; rcases hp with rfl | rfl <;> exact ⟨rfl, rfl⟩, ?_, ?_⟩
  · obtain ⟨l, h1, h2⟩ := cut_one P
    have e : fragments [(0, P), (P.length, [])] = fragments [(0, P)] := by cases P <;> rfl
    exact ⟨l, by show (fragments [(0, P), (P.length, [])]).Perm l; rw [e]; exact h1, h2⟩
  · have e1 : (D.take 30000).isEmpty = false := by
      rw [List.isEmpty_eq_false_iff]; intro e; have := congrArg List.length e; rw [List.length_take, List.length_nil] at this; omega
    have e2 : (D.drop 30000).isEmpty = false := by
      rw [List.isEmpty_eq_false_iff]; intro e; have := congrArg List.length e; rw [List.length_drop, List.length_nil] at this; omega
    refine ⟨[(0, D.take 30000), (30000, D.drop 30000)], by simp [halves, fragments, e1, e2], ?_⟩
    have hl : (D.take 30000).length = 30000 := by rw [List.length_take]; omega
    have := Tiling.cons (o := 0) (d := D.take 30000) (b := D.drop 30000) (l := [(30000, D.drop 30000)])
      (by have := Tiling.cons (o := 0 + (D.take 30000).length) (d := D.drop 30000) (b := []) (l := []) (.nil _); rw [hl, List.append_nil] at this; rw [hl]; exact this)
    rwa [List.take_append_drop] at this

/-- Whatever two blocks of less than 2^16 bytes are the answer, there are replies that bring them. -/
theorem page_told (own : Nat → Prop) {req P D : Bytes} (hm : ∃ m, midOf req = some m) (hP : P.length < 30000) (hD : D.length < 65536) :
    ∃ segs, ServesPage (mute segs) own () req P D := by
  by_cases hl : 30000 < D.length
  · obtain ⟨mid, hm⟩ := hm
    refine ⟨(halves P D).map fun p => message (partReply req p), mid, halves P D, hm, partReply_brought own hm ?_, halves_cuts hl, ?_⟩
    · intro p hp
      simp only [halves, List.mem_cons, List.not_mem_nil, or_false] at hp
      rcases hp with rfl | rfl <;> simp only [List.length_take, List.length_drop, List.length_nil] <;> omega
    · intro pre post P' D' e hne hc
      cases pre with
      | nil => exact hc.1 rfl
      | cons x pre =>
        simp only [halves, List.cons_append, List.cons.injEq] at e
        obtain ⟨rfl, e⟩ := e
        cases pre with
        | nil =>
          obtain ⟨_, h2, _, l', h4, h5⟩ := hc
          have e1 : (D.take 30000).isEmpty = false := by
            rw [List.isEmpty_eq_false_iff]; intro e; have := congrArg List.length e; rw [List.length_take, List.length_nil] at this; omega
          have h4 : [(0, D.take 30000)].Perm l' := by simpa [fragments, e1] using h4
          rw [List.perm_comm, List.perm_singleton] at h4
          subst h4
          have : D' = D.take 30000 := by cases h5 with | cons h => cases h; simp
          have h6 : D.length = D'.length := (h2 _ (List.mem_singleton.mpr rfl)).2
          rw [this, List.length_take] at h6
          omega
        | cons y pre =>
          simp only [List.cons_append, List.cons.injEq] at e
          exact hne (by have := e.2; simp at this; exact this.2)
  · exact ⟨_, page_serves own hm (by omega)⟩

/-- The answers that can be told in a reply: of the kind that the call asks for, within the limits of the protocol, and not longer than a
reply. -/
def Speakable : Call → Answer → Prop
  | _, .refused status => status ≠ 0
  | .mount .., .value (.share s) => ShareFits s
  | .umount .., .value .unit => True
  | .openfile .., .value (.handle h) => HandleFits h
  | .opendir .., .value (.handle h) => HandleFits h
  | .close .., .value .unit => True
  | .read .., .value (.bytes b) => b.length < 65536
  | .delete .., .value .unit => True
  | .rmdir .., .value .unit => True
  | .notify .., .value (.changes l) => ∃ b, Changes b l ∧ b.length < 65536
  | .findFirst .., .value (.first r) => ∃ P D, FirstPage P D r.sid.toNat r.done r.info ∧ P.length < 30000 ∧ D.length < 65536
  | .findNext .., .value (.next r) => ∃ P D, NextPage P D r.done r.info ∧ P.length < 30000 ∧ D.length < 65536
  | _, _ => False

theorem speakable_tellable (own : Nat → Prop) (unicode : Bool) {c : Call} {r : Answer} (h : Speakable c r) : Tellable own unicode c r := by
  intro req hc
  cases r with
  | refused status =>
    have hs : status ≠ 0 := by cases c <;> exact h
    refine ⟨[message (replyTo req (cmdFor c) (Status.ofU32 status) 0 [] [])], hs, _, replyTo_serves own hc _ _ 0 [] [] (by decide) (by decide), ?_, ?_⟩
    · rw [replyTo, frame_cmd, ← cmdFor_code]; rfl
    · rw [replyTo, frame_status]; show some (Status.ofU32 status).toU32.toNat = _; rw [C16_roundtrip]
  | value x =>
    cases c <;> cases x <;> first | exact h.elim | skip
    case mount.share s =>
      obtain ⟨h1, h2, h3⟩ := share_mounts req s h
      exact ⟨_, _, replyTo_serves own hc _ _ _ _ _ (by omega) h3, h1⟩
    case umount.unit => exact ⟨_, _, replyTo_serves own hc .TreeDisconnect (.Known .SUCCESS) 0 [] [] (by decide) (by decide), _, _, replyTo_succeeds _ _ _ _ _ (by decide) rfl (by decide)⟩
    case openfile.handle => exact ⟨_, _, replyTo_serves own hc _ _ _ _ _ (by rw [handleWords_length]; decide) (by decide), handle_opens req _ h⟩
    case opendir.handle => exact ⟨_, _, replyTo_serves own hc _ _ _ _ _ (by rw [handleWords_length]; decide) (by decide), handle_opens req _ h⟩
    case close.unit => exact ⟨_, _, replyTo_serves own hc .Close (.Known .SUCCESS) 0 [] [] (by decide) (by decide), _, _, replyTo_succeeds _ _ _ _ _ (by decide) rfl (by decide)⟩
    case read.bytes b =>
      exact ⟨_, _, replyTo_serves own hc .Read (.Known .SUCCESS) 0x0801 (Demo.readParams b.length) b (by show 24 ≤ 100; decide) h, Demo.yields req b h⟩
    case delete.unit => exact ⟨_, _, replyTo_serves own hc .Delete (.Known .SUCCESS) 0 [] [] (by decide) (by decide), _, _, replyTo_succeeds _ _ _ _ _ (by decide) rfl (by decide)⟩
    case rmdir.unit => exact ⟨_, _, replyTo_serves own hc .Rmdir (.Known .SUCCESS) 0 [] [] (by decide) (by decide), _, _, replyTo_succeeds _ _ _ _ _ (by decide) rfl (by decide)⟩
    case notify.changes l =>
      obtain ⟨b, h1, h2⟩ := h
      exact ⟨_, _, replyTo_serves own hc _ _ _ _ _ (by show 36 ≤ 100; decide) h2, changes_notifies req b h1 h2⟩
    case findFirst.first r =>
      obtain ⟨P, D, h1, h2, h3⟩ := h
      obtain ⟨segs, hs⟩ := page_told own (call_mid hc) h2 h3
      exact ⟨segs, P, D, hs, h1⟩
    case findNext.next r =>
      obtain ⟨P, D, h1, h2, h3⟩ := h
      obtain ⟨segs, hs⟩ := page_told own (call_mid hc) h2 h3
      exact ⟨segs, P, D, hs, h1⟩

/-- **C66** Every deterministic service is offered by some server, if its answers are of the kind that the calls ask for and fit replies. -/
theorem C66_services (own : Nat → Prop) (unicode : Bool) (step : A → Call → Answer × A) (h : ∀ a c, Speakable c (step a c).1) :
    ∃ V : Server A, ∀ uid, Implements V own unicode uid (fun a c r a' => step a c = (r, a')) (fun a v => a = v) :=
  C66_possible own unicode step fun a c => speakable_tellable own unicode (h a c)

/-! ## An example -/

namespace Demo

/-- A service with at most one file, called `\\a`. -/
def shop : Option Bytes → Call → Answer × Option Bytes
  | some b, .openfile _ path => if path = ['\\', 'a'] then (.value (.handle { handle with size := UInt64.ofNat b.length }), some b) else (.refused 0xC0000034, some b)
  | none, .openfile _ _ => (.refused 0xC0000034, none)
  | f, .read _ _ o => (.value (.bytes (((f.getD []).drop o).take 1000)), f)
  | f, .close _ _ => (.value .unit, f)
  | f, .delete _ path => if path = ['\\', 'a'] then (.value .unit, none) else (.refused 0xC0000034, f)
  | f, _ => (.refused 0xC00000BB, f)

theorem shop_speakable (f : Option Bytes) (c : Call) : Speakable c (shop f c).1 := by
  have hb : ∀ l : Bytes, (l.take 1000).length < 65536 := fun l => by rw [List.length_take]; omega
  cases f <;> cases c <;> simp only [shop] <;> first
    | (split <;> simp [Speakable, HandleFits, handle])
    | exact hb _
    | simp [Speakable]

/-- A server that offers it. -/
noncomputable def shopServer (own : Nat → Prop) : Server (Option Bytes) := (C66_services own true shop shop_speakable).choose

/-- Download the file, delete it, and try to download it again. -/
def visit (share : Share) : Prog (Out Error Val × Out Error Val × Out Error Val) :=
  .call (.download 9 share ['/', 'a']) fun x => .call (.delete share ['/', 'a']) fun y => .call (.download 9 share ['/', 'a']) fun z => .done (x, y, z)

/-- The program sees the file, then no more. -/
theorem visit_runs {share : Share} {x : Out Error Val × Out Error Val × Out Error Val} {a' : Option Bytes}
    (h1 : (visit share).Runs (fun a c r a' => shop a c = (r, a')) true (some [1, 2, 3]) x a') :
    x = (.ok (.bytes [1, 2, 3]), .ok .unit, .err (.ServerError (.Known .NAME_NOT_FOUND))) := by
  have hb : backslashed ['/', 'a'] = ['\\', 'a'] := by decide +kernel
  have hd : ∀ {a o a'}, Behaves (fun a c r a' => shop a c = (r, a')) true a (.download 9 share ['/', 'a']) o a' →
      (a = some [1, 2, 3] → o = .ok (.bytes [1, 2, 3]) ∧ a' = a) ∧ (a = none → o = .err (.ServerError (.Known .NAME_NOT_FOUND)) ∧ a' = a) := by
    intro a o a' h
    cases h with
    | long ho => exact absurd (by decide +kernel : utf16Len ['/', 'a'] ≤ nameLimit) ho.1
    | single hc => cases hc
    | unopened hr =>
      rw [hb] at hr
      refine ⟨fun h => ?_, fun h => ?_⟩ <;> subst h
      · rw [shop, if_pos rfl] at hr; cases hr
      · cases hr; exact ⟨rfl, rfl⟩
    | opened hr hs =>
      rw [hb] at hr
      refine ⟨fun h => ?_, fun h => ?_⟩ <;> subst h
      · rw [shop, if_pos rfl] at hr
        cases hr
        cases hs with
        | refused hl hr => cases hr
        | closed hl => exact absurd hl (by decide)
        | unclosed hl => exact absurd hl (by decide)
        | chunk hl hr hs =>
          cases hr
          cases hs with
          | refused hl hr => cases hr
          | chunk hl => exact absurd hl (by decide)
          | closed hl hr => cases hr; exact ⟨rfl, rfl⟩
          | unclosed hl hr => cases hr
      · cases hr
  cases h1 with
  | call b1 r1 =>
    obtain ⟨rfl, rfl⟩ := (hd b1).1 rfl
    cases r1 with
    | call b2 r2 =>
      cases b2 with
      | long ho => exact absurd (by decide +kernel : utf16Len ['/', 'a'] ≤ nameLimit) ho.1
      | single hc hr =>
        cases hc
        rw [hb, shop, if_pos rfl] at hr
        cases hr
        cases r2 with
        | call b3 r3 =>
          obtain ⟨rfl, rfl⟩ := (hd b3).2 rfl
          cases r3
          rfl

/-- That is so whoever offers the service, and however the bytes are delivered. -/
theorem visit_shop {σ : Type} {E : Env σ} {own : Nat → Prop} {rel : Option Bytes → σ → Prop} {s : St σ} (hu : s.cli.useUnicode = true)
    (hi : Implements E.V own true s.cli.uid.toNat (fun a c r a' => shop a c = (r, a')) rel) (hr : Ready E own 21 s) (ha : rel (some [1, 2, 3]) s.w.srv) (share : Share) :
    ((visit share).run E s).1 = (.ok (.bytes [1, 2, 3]), .ok .unit, .err (.ServerError (.Known .NAME_NOT_FOUND))) := by
  obtain ⟨x, a', s', h1, h2, _⟩ := C66_program (visit share) (by rw [hu]; exact hi) 21 _ hr (by simp [visit, Prog.Within, cost]) ha
  rw [h2]
  rw [hu] at h1
  exact visit_runs h1

/-- There is such a server. -/
example (own : Nat → Prop) (uid : Nat) : Implements (shopServer own) own true uid (fun a c r a' => shop a c = (r, a')) (fun a v => a = v) :=
  (C66_services own true shop shop_speakable).choose_spec uid

/-- And a session with it. -/
example : (cli.useUnicode = true) ∧ Ready { env true with V := shopServer (fun _ => True) } (fun _ => True) 21
    { cli := cli, w := { inbox := [], wsched := [.accept 3, .accept 10], out := [], srv := some [1, 2, 3] } } :=
  ⟨rfl, ⟨by intro ev he; simp at he; rcases he with rfl | rfl <;> exact ⟨_, rfl⟩, .nil, fun _ _ => trivial, fun _ => by decide⟩⟩

end Demo

end Cifs
