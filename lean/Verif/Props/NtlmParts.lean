import Verif.Spec.NtlmParts
import Verif.Props.Ntlm
/-! # C49: whatever an NTLM message is put together from -/

namespace Cifs
open Spec

/-- What the code does for a part. -/
def addPart (p : Packet) : NtlmPart → Packet
  | .fixed b => p.appendBinary b
  | .field b => p.appendBuffer b

/-- A message put together from parts, one after the other. -/
def assembled (parts : List NtlmPart) : Packet := parts.foldl addPart Packet.new

def partEntries (off : Nat) : List NtlmPart → List PacketEntry
  | [] => []
  | .fixed b :: r => .Binary b :: partEntries off r
  | .field p :: r => .Buffer { length := p.length, capacity := p.length, position := off } :: partEntries (off + p.length) r

def partPayloads : List NtlmPart → Bytes
  | [] => []
  | .fixed _ :: r => partPayloads r
  | .field p :: r => p ++ partPayloads r

def partHeads (base off : Nat) : List NtlmPart → Bytes
  | [] => []
  | .fixed b :: r => b ++ partHeads base off r
  | .field p :: r => descBytes p.length (base + off) ++ partHeads base (off + p.length) r

def partFields (base pos off : Nat) : List NtlmPart → NtlmFields
  | [] => []
  | .fixed b :: r => partFields base (pos + b.length) off r
  | .field p :: r => (pos, base + off, p) :: partFields base (pos + 8) (off + p.length) r

@[simp] theorem headSize_nil : headSize [] = 0 := rfl
@[simp] theorem headSize_fixed (b : Bytes) (r : List NtlmPart) : headSize (.fixed b :: r) = b.length + headSize r := by
  simp [headSize, NtlmPart.size]
@[simp] theorem headSize_field (p : Bytes) (r : List NtlmPart) : headSize (.field p :: r) = 8 + headSize r := by
  simp [headSize, NtlmPart.size]
@[simp] theorem payloadSize_nil : payloadSize [] = 0 := rfl
@[simp] theorem payloadSize_fixed (b : Bytes) (r : List NtlmPart) : payloadSize (.fixed b :: r) = payloadSize r := by
  simp [payloadSize, NtlmPart.behind]
@[simp] theorem payloadSize_field (p : Bytes) (r : List NtlmPart) : payloadSize (.field p :: r) = p.length + payloadSize r := by
  simp [payloadSize, NtlmPart.behind]

theorem assembled_eq (parts : List NtlmPart) (p : Packet) :
    parts.foldl addPart p = { entries := p.entries ++ partEntries p.extra.length parts, extra := p.extra ++ partPayloads parts } := by
  induction parts generalizing p with
  | nil => simp [partEntries, partPayloads]
  | cons x r ih =>
    rw [List.foldl_cons, ih]
    cases x <;> simp [addPart, partEntries, partPayloads, Packet.appendBinary, Packet.appendBuffer]

theorem partEntries_len (parts : List NtlmPart) (off : Nat) : ((partEntries off parts).map PacketEntry.len).sum = headSize parts := by
  induction parts generalizing off with
  | nil => rfl
  | cons x r ih => cases x <;> simp [partEntries, PacketEntry.len, ih]

theorem partEntries_bytes (base : Nat) (parts : List NtlmPart) (off : Nat) :
    (partEntries off parts).flatMap (PacketEntry.bytes base) = partHeads base off parts := by
  induction parts generalizing off with
  | nil => rfl
  | cons x r ih => cases x <;> simp [partEntries, partHeads, PacketEntry.bytes, descBytes, ih]

theorem partEntries_fit (base : Nat) (parts : List NtlmPart) (off : Nat) :
    (∀ e ∈ partEntries off parts, e.fits base) ↔
      ∀ pre p post, parts = pre ++ .field p :: post → p.length < 65536 ∧ base + (off + payloadSize pre) < 2 ^ 32 := by
  induction parts generalizing off with
  | nil => simp [partEntries]
  | cons x r ih =>
    cases x with
    | fixed b =>
      simp only [partEntries, List.mem_cons, forall_eq_or_imp, ih]
      rw [show PacketEntry.fits base (.Binary b) ↔ True from Iff.rfl, true_and]
      constructor
      · intro h pre p post e
        cases pre with
        | nil => cases e
        | cons y pre => injection e with e1 e2; subst e1; simpa using h pre p post e2
      · intro h pre p post e
        simpa using h (.fixed b :: pre) p post (by rw [e]; rfl)
    | field q =>
      simp only [partEntries, List.mem_cons, forall_eq_or_imp, ih]
      constructor
      · rintro ⟨⟨h1, _, h2⟩, h⟩ pre p post e
        cases pre with
        | nil => injection e with e1 e2; injection e1 with e1; subst e1; exact ⟨h1, by simpa using h2⟩
        | cons y pre =>
          injection e with e1 e2; subst e1
          have := h pre p post e2
          rw [payloadSize_field]; omega
      · intro h
        have h0 := h [] q r rfl
        rw [payloadSize_nil] at h0
        refine ⟨⟨h0.1, h0.1, h0.2⟩, fun pre p post e => ?_⟩
        have := h (.field q :: pre) p post (by rw [e]; rfl)
        rw [payloadSize_field] at this; omega

theorem length_partHeads (base : Nat) (parts : List NtlmPart) (off : Nat) : (partHeads base off parts).length = headSize parts := by
  induction parts generalizing off with
  | nil => rfl
  | cons x r ih => cases x <;> simp [partHeads, length_descBytes, ih]

theorem length_partPayloads (parts : List NtlmPart) : (partPayloads parts).length = payloadSize parts := by
  induction parts with
  | nil => rfl
  | cons x r ih => cases x <;> simp [partPayloads, ih]

theorem assembled_bytes (parts : List NtlmPart) :
    (NtlmFits parts → (assembled parts).toBytes = .ok (partHeads (headSize parts) 0 parts ++ partPayloads parts)) ∧
    (¬ NtlmFits parts → (assembled parts).toBytes = .err .InputParameter) := by
  have e : assembled parts = { entries := partEntries 0 parts, extra := partPayloads parts } := by
    rw [assembled, assembled_eq]; simp [Packet.new]
  have hb : Packet.baseLen { entries := partEntries 0 parts, extra := partPayloads parts } = headSize parts := partEntries_len parts 0
  have hf : (∀ e ∈ partEntries 0 parts, e.fits (headSize parts)) ↔ NtlmFits parts := by
    rw [partEntries_fit]; simp only [Nat.zero_add]; rfl
  rw [e, Packet.toBytes, hb, writeEntries_eq]
  constructor
  · intro h
    rw [if_pos (hf.mpr h), partEntries_bytes]; rfl
  · intro h
    rw [if_neg (fun hc => h (hf.mp hc))]; rfl

theorem partHeads_append (base : Nat) (xs ys : List NtlmPart) (off : Nat) :
    partHeads base off (xs ++ ys) = partHeads base off xs ++ partHeads base (off + payloadSize xs) ys := by
  induction xs generalizing off with
  | nil => rfl
  | cons x r ih => cases x <;> simp [partHeads, ih, Nat.add_assoc]

theorem partFields_append (base : Nat) (xs ys : List NtlmPart) (pos off : Nat) :
    partFields base pos off (xs ++ ys) = partFields base pos off xs ++ partFields base (pos + headSize xs) (off + payloadSize xs) ys := by
  induction xs generalizing pos off with
  | nil => rfl
  | cons x r ih => cases x <;> simp [partFields, ih, Nat.add_assoc]

theorem partFields_sum (base : Nat) (parts : List NtlmPart) (pos off : Nat) :
    ((partFields base pos off parts).map (fun x => x.2.2.length)).sum = payloadSize parts := by
  induction parts generalizing pos off with
  | nil => rfl
  | cons x r ih => cases x <;> simp [partFields, ih]

theorem partFields_mem (base : Nat) (parts : List NtlmPart) (pos off : Nat) : ∀ x ∈ partFields base pos off parts,
    ∃ pre post, parts = pre ++ .field x.2.2 :: post ∧ x.1 = pos + headSize pre ∧ x.2.1 = base + (off + payloadSize pre) := by
  induction parts generalizing pos off with
  | nil => intro x hx; cases hx
  | cons y r ih =>
    cases y with
    | fixed b =>
      intro x hx
      obtain ⟨pre, post, e, h1, h2⟩ := ih _ _ x hx
      exact ⟨.fixed b :: pre, post, by rw [e]; rfl, by rw [h1, headSize_fixed]; omega, by rw [h2, payloadSize_fixed]⟩
    | field p =>
      intro x hx
      rcases List.mem_cons.mp hx with rfl | hx
      · exact ⟨[], r, rfl, by simp, by simp⟩
      · obtain ⟨pre, post, e, h1, h2⟩ := ih _ _ x hx
        exact ⟨.field p :: pre, post, by rw [e]; rfl, by rw [h1, headSize_field]; omega, by rw [h2, payloadSize_field]; omega⟩

theorem partFields_apart (base : Nat) (parts : List NtlmPart) (pos off : Nat) : (partFields base pos off parts).Pairwise
    (fun x y => x.1 + 8 ≤ y.1 ∧ (x.2.1 + x.2.2.length ≤ y.2.1 ∨ y.2.1 + y.2.2.length ≤ x.2.1)) := by
  induction parts generalizing pos off with
  | nil => exact .nil
  | cons y r ih =>
    cases y with
    | fixed b => exact ih _ _
    | field p =>
      refine .cons (fun x hx => ?_) (ih _ _)
      obtain ⟨pre, post, _, h1, h2⟩ := partFields_mem _ _ _ _ x hx
      rw [h1, h2]
      exact ⟨by simp only []; omega, .inl (by simp only []; omega)⟩

theorem headSize_append (xs ys : List NtlmPart) : headSize (xs ++ ys) = headSize xs + headSize ys := by simp [headSize]
theorem payloadSize_append (xs ys : List NtlmPart) : payloadSize (xs ++ ys) = payloadSize xs + payloadSize ys := by simp [payloadSize]
theorem partPayloads_append (xs ys : List NtlmPart) : partPayloads (xs ++ ys) = partPayloads xs ++ partPayloads ys := by
  induction xs with
  | nil => rfl
  | cons x r ih => cases x <;> simp [partPayloads, ih]

/-- **C49** Whatever fixed bytes and fields a message is put together from: if the numbers fit into the descriptors, the message has these
parts, and otherwise it is refused. -/
theorem C49_parts (parts : List NtlmPart) :
    (NtlmFits parts → ∃ m, (assembled parts).toBytes = .ok m ∧ LaidOut m parts) ∧
    (¬ NtlmFits parts → (assembled parts).toBytes = .err .InputParameter) := by
  refine ⟨fun h => ⟨_, (assembled_bytes parts).1 h, ?_, partFields (headSize parts) 0 0 parts, ⟨?_, ?_, partFields_apart _ _ _ _, ?_⟩, ?_, ?_⟩,
    (assembled_bytes parts).2⟩
  · intro pre b post e
    generalize hB : headSize parts = B
    rw [e, partHeads_append, List.append_assoc, sliceAt_append_right _ _ _ _ (by rw [length_partHeads]; exact Nat.le_refl _), length_partHeads,
      Nat.sub_self, partHeads, List.append_assoc]
    exact sliceAt_zero _ _ rfl
  · intro x hx
    obtain ⟨pre, post, e, h1, h2⟩ := partFields_mem _ _ _ _ x hx
    obtain ⟨f1, f2⟩ := h pre x.2.2 post e
    rw [Nat.zero_add] at h1 h2
    have hB : headSize parts = headSize pre + (8 + headSize post) := by rw [e, headSize_append, headSize_field]
    refine ⟨by omega, delimits_of (a := partHeads (headSize parts) 0 pre)
      (b := partHeads (headSize parts) (0 + payloadSize pre + x.2.2.length) post ++ partPayloads parts)
      (p := partHeads (headSize parts) 0 parts ++ partPayloads pre) (q := partPayloads post) ?_ ?_ ?_ ?_ f1 (by omega)⟩
    · generalize headSize parts = B at *
      conv => lhs; arg 1; rw [e]
      rw [partHeads_append, partHeads, h2, Nat.zero_add]
      simp only [List.append_assoc]
    · rw [length_partHeads, h1]
    · conv => lhs; arg 2; rw [e]
      rw [partPayloads_append, partPayloads]
      simp only [List.append_assoc]
    · rw [List.length_append, length_partHeads, length_partPayloads, h2]
  · intro x hx
    obtain ⟨pre, post, e, h1, h2⟩ := partFields_mem _ _ _ _ x hx
    rw [List.length_append, length_partHeads, length_partPayloads, h2, Nat.zero_add]
    have : payloadSize parts = payloadSize pre + (x.2.2.length + payloadSize post) := by
      conv => lhs; rw [e]
      rw [payloadSize_append, payloadSize_field]
    omega
  · rw [List.length_append, length_partHeads, length_partPayloads, partFields_sum]
  · intro pre p post e
    refine ⟨headSize parts + (0 + payloadSize pre), ?_⟩
    generalize headSize parts = B
    rw [e, partFields_append]
    exact List.mem_append_right _ (by rw [partFields, Nat.zero_add]; exact List.mem_cons_self)
  · intro x hx
    obtain ⟨pre, post, e, h1, _⟩ := partFields_mem _ _ _ _ x hx
    exact ⟨pre, post, e, by rw [h1, Nat.zero_add]⟩

/-- The parts of the first message in all its forms: [MS-NLMP] 2.2.1.1, the version as in 2.2.2.10. -/
def initParts (flags : UInt32) (origin : Option (Str × Str)) (version : Option (UInt8 × UInt8 × UInt16)) : List NtlmPart :=
  [.fixed ntlmSignature, .fixed [1, 0, 0, 0], .fixed (putU32 flags)] ++
  (match origin with
    | some (domain, workstation) => [.field (utf8Bytes domain), .field (utf8Bytes workstation)]
    | none => []) ++
  (match version with
    | some (major, minor, build) => [.fixed ([major, minor] ++ putU16 build ++ [0, 0, 0, 15])]
    | none => [])

/-- The first message, with or without the names and the version. -/
def initForm (flags : UInt32) (origin : Option (Str × Str)) (version : Option (UInt8 × UInt8 × UInt16)) : InitMsg :=
  let m := InitMsg.new flags
  let m := match origin with
    | some (domain, workstation) => m.setOrigin domain workstation
    | none => m
  match version with
    | some (major, minor, build) => m.setVersion major minor build
    | none => m

theorem initForm_bytes (flags : UInt32) (origin : Option (Str × Str)) (version : Option (UInt8 × UInt8 × UInt16)) :
    (initForm flags origin version).toBytes = (assembled (initParts flags origin version)).toBytes := by
  rcases origin with _ | ⟨d, w⟩ <;> rcases version with _ | ⟨a, b, c⟩ <;> (try simp only [initParts, utf8Bytes_eq]) <;> rfl

/-- **C49** The first message can be made with or without names and with or without a version, whatever the version. Each form has its parts
in their places, or is refused because a name is too long. -/
theorem C49_forms (flags : UInt32) (origin : Option (Str × Str)) (version : Option (UInt8 × UInt8 × UInt16)) :
    ((∀ d w, origin = some (d, w) → (utf8Bytes d).length < 65536 ∧ (utf8Bytes w).length < 65536) →
      ∃ m, (initForm flags origin version).toBytes = .ok m ∧ LaidOut m (initParts flags origin version)) ∧
    (¬ (∀ d w, origin = some (d, w) → (utf8Bytes d).length < 65536 ∧ (utf8Bytes w).length < 65536) →
      (initForm flags origin version).toBytes = .err .InputParameter) := by
  have hfit : NtlmFits (initParts flags origin version) ↔
      (∀ d w, origin = some (d, w) → (utf8Bytes d).length < 65536 ∧ (utf8Bytes w).length < 65536) := by
    have key := partEntries_fit (headSize (initParts flags origin version)) (initParts flags origin version) 0
    simp only [Nat.zero_add] at key
    rw [NtlmFits, ← key]
    rcases origin with _ | ⟨d, w⟩
    · rcases version with _ | ⟨a, b, c⟩ <;> simp [initParts, partEntries, PacketEntry.fits]
    · rcases version with _ | ⟨a, b, c⟩ <;> simp [initParts, partEntries, PacketEntry.fits, ntlmSignature] <;> omega
  rw [initForm_bytes, ← hfit]
  exact C49_parts _

/-- **C49** What the client sends is the form with names and version 5.0, build 2195. -/
theorem C49_form_used (flags : UInt32) (domain workstation : Str) :
    ntlmInit flags domain workstation = (initForm flags (some (domain, workstation)) (some (5, 0, 2195))).toBytes := rfl

/-- A call by which the first message is put together, /repo/src/ntlm/init.rs:86-102. -/
inductive InitCall where
  | origin (domain workstation : Str)
  | version (major minor : UInt8) (build : UInt16)
  | defaultVersion

/-- What a call makes of a message. -/
def InitCall.on (m : InitMsg) : InitCall → InitMsg
  | .origin domain workstation => m.setOrigin domain workstation
  | .version major minor build => m.setVersion major minor build
  | .defaultVersion => m.setDefaultVersion

/-- The calls made one after the other on a new message. -/
def initCalls (flags : UInt32) (calls : List InitCall) : InitMsg := calls.foldl InitCall.on (InitMsg.new flags)

/-- The names that a call gives. -/
def InitCall.names : InitCall → Option (Str × Str)
  | .origin domain workstation => some (domain, workstation)
  | _ => none

/-- The version that a call gives; that of Windows 2000 if none is told. -/
def InitCall.numbers : InitCall → Option (UInt8 × UInt8 × UInt16)
  | .version major minor build => some (major, minor, build)
  | .defaultVersion => some (5, 0, 2195)
  | .origin _ _ => none

/-- **C49** In whatever order and however often names and versions are set, the last of each count: the message is one of the forms of `C49_forms`. -/
theorem C49_calls (flags : UInt32) (calls : List InitCall) :
    initCalls flags calls = initForm flags (calls.filterMap InitCall.names).getLast? (calls.filterMap InitCall.numbers).getLast? := by
  have key : ∀ (calls : List InitCall) o v,
      calls.foldl InitCall.on (initForm flags o v) =
      initForm flags ((calls.filterMap InitCall.names).getLast?.or o) ((calls.filterMap InitCall.numbers).getLast?.or v) := by
    intro calls
    induction calls with
    | nil => intro o v; rfl
    | cons c calls ih =>
      intro o v
      cases c with
      | origin d w =>
        have e : InitCall.on (initForm flags o v) (.origin d w) = initForm flags (some (d, w)) v := by
          rcases o with _ | ⟨_, _⟩ <;> rcases v with _ | ⟨_, _, _⟩ <;> rfl
        rw [List.foldl_cons, e, ih]
        simp only [List.filterMap_cons, InitCall.names, InitCall.numbers, List.getLast?_cons]
        cases (calls.filterMap InitCall.names).getLast? <;> rfl
      | version a b c =>
        have e : InitCall.on (initForm flags o v) (.version a b c) = initForm flags o (some (a, b, c)) := by
          rcases o with _ | ⟨_, _⟩ <;> rcases v with _ | ⟨_, _, _⟩ <;> rfl
        rw [List.foldl_cons, e, ih]
        simp only [List.filterMap_cons, InitCall.names, InitCall.numbers, List.getLast?_cons]
        cases (calls.filterMap InitCall.numbers).getLast? <;> rfl
      | defaultVersion =>
        have e : InitCall.on (initForm flags o v) .defaultVersion = initForm flags o (some (5, 0, 2195)) := by
          rcases o with _ | ⟨_, _⟩ <;> rcases v with _ | ⟨_, _, _⟩ <;> rfl
        rw [List.foldl_cons, e, ih]
        simp only [List.filterMap_cons, InitCall.names, InitCall.numbers, List.getLast?_cons]
        cases (calls.filterMap InitCall.numbers).getLast? <;> rfl
  have := key calls none none
  rw [Option.or_none, Option.or_none] at this
  exact this

/-- The default replaces a version set before, and names may come last. -/
example : initCalls 0 [.version 6 1 7601, .defaultVersion, .origin ['D'] ['W']] = initForm 0 (some (['D'], ['W'])) (some (5, 0, 2195)) := C49_calls ..

/-- The message of the test in /repo/src/ntlm/init.rs without its names. -/
example : (initForm 0 none (some (6, 1, 7601))).toBytes =
    .ok ([78, 84, 76, 77, 83, 83, 80, 0, 1, 0, 0, 0, 0, 0, 0, 0, 6, 1, 0xB1, 0x1D, 0, 0, 0, 15] : Bytes) := by decide +kernel

example : (initForm 0 none none).toBytes = .ok ([78, 84, 76, 77, 83, 83, 80, 0, 1, 0, 0, 0, 0, 0, 0, 0] : Bytes) := by decide +kernel

/-- A message with a field between fixed bytes, and one behind. -/
example : (assembled [.field [7, 8], .fixed [1], .field [9]]).toBytes =
    .ok ([2, 0, 2, 0, 17, 0, 0, 0, 1, 1, 0, 1, 0, 19, 0, 0, 0, 7, 8, 9] : Bytes) := by decide +kernel

/-- One that is refused. -/
example : (assembled [.field (List.replicate 65536 0)]).toBytes = .err .InputParameter :=
  (C49_parts _).2 fun h => absurd (h [] _ [] rfl).1 (by rw [List.length_replicate]; decide)

end Cifs
