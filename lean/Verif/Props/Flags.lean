import Verif.Model.Flags
import Verif.Spec.Flags
import Verif.Props.Only
import Verif.Props.Entries
/-!
# Flags have the values of the documents, and results have the flags that the server sent (C81)
-/

namespace Cifs
open Spec

variable {σ : Type}

/-- The names and values of a table of the client. -/
def C81_values {α : Type} (f : α → Nat) (t : List (String × α)) : List (String × Nat) := t.map (fun p => (p.1, f p.2))
/-- The names and values of a table of a document. -/
def C81_rows (r : Rows) : List (String × Nat) := r.map (fun p => (p.1, p.2.2))

/-- **C81** Every constant of a flag type has the value that the document gives it. -/
theorem C81_tables :
    C81_values UInt32.toNat FileAccessMask.table = C81_rows fileAccess ∧ C81_values UInt32.toNat DirAccessMask.table = C81_rows dirAccess ∧
    C81_values UInt16.toNat FileAttr.table = C81_rows fileAttributes ∧ C81_values UInt32.toNat ExtFileAttr.table = C81_rows extAttributes ∧
    C81_values UInt16.toNat TreeConnectFlags.table = C81_rows treeConnectFlags ∧ C81_values UInt32.toNat ShareAccess.table = C81_rows shareAccess ∧
    C81_values UInt32.toNat CreateFlags.table = C81_rows createFlags ∧ C81_values UInt32.toNat CreateDisposition.table = C81_rows dispositions ∧
    C81_values UInt32.toNat CreateOptions.table = C81_rows createOptions ∧ C81_values UInt32.toNat ImpersonationLevel.table = C81_rows impersonation ∧
    C81_values UInt8.toNat SecurityFlags.table = C81_rows securityFlags ∧ C81_values UInt16.toNat SmbFileAttr.table = C81_rows fileAttributes ∧
    C81_values UInt8.toNat OpLockLevel.table = C81_rows oplockLevels ∧ C81_values UInt16.toNat ResourceType.table = C81_rows resourceTypes ∧
    C81_values UInt8.toNat Flags1.table = C81_rows flags1 ∧ C81_values UInt16.toNat Flags2.table = C81_rows flags2 ∧
    C81_values UInt32.toNat Capabilities.table = C81_rows capabilities ∧ C81_values UInt16.toNat FindFlags.table = C81_rows findFlags ∧
    C81_values UInt16.toNat FindInfoLevel.table = C81_rows findLevels ∧ C81_values UInt32.toNat NotifyMode.table = C81_rows completionFilters ∧
    C81_values UInt32.toNat NtlmFlags.table = C81_rows negotiateFlags :=
  ⟨rfl, rfl, rfl, rfl, rfl, rfl, rfl, rfl, rfl, rfl, rfl, rfl, rfl, rfl, rfl, rfl, rfl, rfl, rfl, rfl, rfl⟩

/-- **C81** The constants that the client itself uses are those of the tables, and so are the bits that it keeps of a received word. -/
theorem C81_used :
    [("READ", FileAccessMask.READ), ("READ_EA", FileAccessMask.READ_EA), ("SYNCHRONIZE", FileAccessMask.SYNCHRONIZE)] ⊆ FileAccessMask.table ∧
    [("HIDDEN", FileAttr.HIDDEN), ("SYSTEM", FileAttr.SYSTEM), ("DIRECTORY", FileAttr.DIRECTORY)] ⊆ FileAttr.table ∧
    [("EXTENDED_RESPONSE", TreeConnectFlags.EXTENDED_RESPONSE)] ⊆ TreeConnectFlags.table ∧
    [("READ", ShareAccess.READ), ("WRITE", ShareAccess.WRITE), ("DELETE", ShareAccess.DELETE)] ⊆ ShareAccess.table ∧
    [("OPEN", CreateDisposition.OPEN)] ⊆ CreateDisposition.table ∧
    [("DIRECTORY", CreateOptions.DIRECTORY), ("NON_DIRECTORY", CreateOptions.NON_DIRECTORY)] ⊆ CreateOptions.table ∧
    [("IMPERSONATE", ImpersonationLevel.IMPERSONATE)] ⊆ ImpersonationLevel.table ∧
    [("CASE_INSENSITIVE", Flags1.CASE_INSENSITIVE), ("CANONICAL_PATHS", Flags1.CANONICAL_PATHS), ("REPLY", Flags1.REPLY)] ⊆ Flags1.table ∧
    [("LONG_NAMES_ALLOWED", Flags2.LONG_NAMES_ALLOWED), ("EAS", Flags2.EAS), ("LONG_NAMES_USED", Flags2.LONG_NAMES_USED),
      ("EXTENDED_SECURITY", Flags2.EXTENDED_SECURITY), ("NTSTATUS", Flags2.NTSTATUS), ("UNICODE", Flags2.UNICODE)] ⊆ Flags2.table ∧
    [("UNICODE", Capabilities.UNICODE), ("LARGE_FILES", Capabilities.LARGE_FILES), ("NT_SMBS", Capabilities.NT_SMBS),
      ("NTSTATUS", Capabilities.NTSTATUS), ("EXTENDED_SECURITY", Capabilities.EXTENDED_SECURITY)] ⊆ Capabilities.table ∧
    [("CLOSE_ON_EOS", FindFlags.CLOSE_ON_EOS)] ⊆ FindFlags.table ∧ [("DIRECTORY_INFO", FindInfoLevel.DIRECTORY_INFO)] ⊆ FindInfoLevel.table ∧
    [("UNICODE", NtlmFlags.UNICODE), ("OEM", NtlmFlags.OEM), ("REQUEST_TARGET", NtlmFlags.REQUEST_TARGET), ("NTLM", NtlmFlags.NTLM),
      ("DOMAIN_SUPPLIED", NtlmFlags.DOMAIN_SUPPLIED), ("WORKSTATION_SUPPLIED", NtlmFlags.WORKSTATION_SUPPLIED)] ⊆ NtlmFlags.table ∧
    DirAccessMask.all = orAll32 (DirAccessMask.table.map Prod.snd) ∧ ExtFileAttr.all = orAll32 (ExtFileAttr.table.map Prod.snd) ∧
    CreateDisposition.all = orAll32 (CreateDisposition.table.map Prod.snd) ∧ OpLockLevel.all = orAll8 (OpLockLevel.table.map Prod.snd) ∧
    ResourceType.all = orAll16 (ResourceType.table.map Prod.snd) ∧ Flags1.all = orAll8 (Flags1.table.map Prod.snd) ∧
    Flags2.all = orAll16 (Flags2.table.map Prod.snd) ∧ Capabilities.all = orAll32 (Capabilities.table.map Prod.snd) ∧
    NotifyMode.all = orAll32 (NotifyMode.table.map Prod.snd) ∧ NtlmFlags.all = orAll32 (NtlmFlags.table.map Prod.snd) := by
  decide +kernel

/-- Sets of flags: different names stand for different single bits, except that a name may stand for no bit. -/
def C81_Bits (r : Rows) : Prop :=
  (∀ p ∈ r, p.2.2 = 0 ∨ ∃ k < 32, p.2.2 = 2 ^ k) ∧ r.Pairwise (fun p q => p.2.2 &&& q.2.2 = 0) ∧ (r.map (·.1)).Nodup ∧ (r.map (·.2.2)).Nodup

instance (r : Rows) : Decidable (C81_Bits r) := inferInstanceAs (Decidable (_ ∧ _ ∧ _ ∧ _))

/-- Enumerations: different names stand for different values. -/
def C81_Names (r : Rows) : Prop := (r.map (·.1)).Nodup ∧ (r.map (·.2.2)).Nodup

instance (r : Rows) : Decidable (C81_Names r) := inferInstanceAs (Decidable (_ ∧ _))

/-- **C81** Sets of flags can be combined and taken apart, values of enumerations can be told apart. -/
theorem C81_apart :
    (∀ r ∈ [fileAccess, dirAccess, fileAttributes, extAttributes, treeConnectFlags, shareAccess, createFlags, createOptions, securityFlags, flags1,
      flags2, capabilities, findFlags, negotiateFlags], C81_Bits r) ∧
    (∀ r ∈ [dispositions, impersonation, oplockLevels, resourceTypes, findLevels, completionFilters], C81_Names r) := by
  decide +kernel

/-- What users of a word of flags see: the test with the constant `name` (`contains` of the `bitflags` crate). -/
def C81_test (t : List (String × UInt32)) (w : UInt32) (name : String) : Option Bool := (t.lookup name).map (fun x => w &&& x == x)

theorem test_masked {t : List (String × UInt32)} {w : UInt32} {m n v : Nat} {name : String} (hw : w.toNat = n &&& m)
    (ht : (t.lookup name).map UInt32.toNat = some v) (hm : m &&& v = v) : C81_test t w name = some (decide (HasBits n v)) := by
  unfold C81_test
  cases hx : t.lookup name with
  | none => rw [hx] at ht; cases ht
  | some x =>
    rw [hx] at ht
    have e : x.toNat = v := Option.some.inj ht
    rw [Option.map_some, Option.some_inj, Bool.eq_iff_iff, beq_iff_eq, decide_eq_true_iff, ← UInt32.toNat_inj, UInt32.toNat_and, hw, e, Nat.and_assoc, hm]
    rfl

theorem test_attr {w : UInt32} {n : Nat} (hw : w.toNat = n &&& attrMask) {r : String × String × Nat} (hr : r ∈ extAttributes) :
    C81_test ExtFileAttr.table w r.1 = some (decide (HasBits n r.2.2)) := by
  have key : ∀ r ∈ extAttributes, (ExtFileAttr.table.lookup r.1).map UInt32.toNat = some r.2.2 ∧ attrMask &&& r.2.2 = r.2.2 := by decide +kernel
  exact test_masked hw (key r hr).1 (key r hr).2

theorem test_right {w : UInt32} {n : Nat} (hw : w.toNat = n &&& rightsMask) {r : String × String × Nat} (hr : r ∈ dirAccess) :
    C81_test DirAccessMask.table w r.1 = some (decide (HasBits n r.2.2)) := by
  have key : ∀ r ∈ dirAccess, (DirAccessMask.table.lookup r.1).map UInt32.toNat = some r.2.2 ∧ rightsMask &&& r.2.2 = r.2.2 := by decide +kernel
  exact test_masked hw (key r hr).1 (key r hr).2

/-- **C81** A handle has a file attribute if and only if the reply has it. -/
theorem C81_handle {E : Env σ} {log : σ → List Bytes} (hlog : Logs E.V log) {op : Op}
    (hop : (∃ share path, op = .openfile share path) ∨ ∃ share path, op = .opendir share path) {s : St σ} {handle : Handle}
    (hv : (runOp E op s).1 = .ok (.handle handle)) :
    ∃ f ps ds n, Answered E log op s f ps ds ∧ u32At ps 43 = some n ∧
      ∀ r ∈ extAttributes, C81_test ExtFileAttr.table handle.attributes r.1 = some (decide (HasBits n r.2.2)) := by
  obtain ⟨f, ps, ds, tid, h1, _, _, h2⟩ := C30_only hlog hop hv
  obtain ⟨n, hn, he⟩ := h2.attributes
  exact ⟨f, ps, ds, n, h1, hn, fun r hr => test_attr he hr⟩

/-- **C81** The kinds that a handle names (lock, disposition, resource) are those of the reply, if the reply has values that the document defines. -/
theorem C81_kinds {E : Env σ} {log : σ → List Bytes} (hlog : Logs E.V log) {op : Op}
    (hop : (∃ share path, op = .openfile share path) ∨ ∃ share path, op = .opendir share path) {s : St σ} {handle : Handle}
    (hv : (runOp E op s).1 = .ok (.handle handle)) :
    ∃ f ps ds lock disposition resource, Answered E log op s f ps ds ∧ u8At ps 4 = some lock ∧ u32At ps 7 = some disposition ∧
      u16At ps 63 = some resource ∧
      (lock ∈ oplockLevels.map (·.2.2) → ∀ r ∈ oplockLevels, (OpLockLevel.table.lookup r.1 = some handle.oplock ↔ lock = r.2.2)) ∧
      (disposition ∈ dispositions.map (·.2.2) → ∀ r ∈ dispositions,
        (CreateDisposition.table.lookup r.1 = some handle.disposition ↔ disposition = r.2.2)) ∧
      (resource ∈ resourceUnknown :: resourceTypes.map (·.2.2) → ∀ r ∈ resourceTypes,
        (ResourceType.table.lookup r.1 = some handle.fileType ↔ resource = r.2.2)) := by
  obtain ⟨f, ps, ds, tid, h1, _, _, h2⟩ := C30_only hlog hop hv
  obtain ⟨a, ha, ea⟩ := h2.oplock
  obtain ⟨b, hb, eb⟩ := h2.disposition
  obtain ⟨c, hc, ec⟩ := h2.fileType
  have lift8 : ∀ (o : Option UInt8) (w : UInt8), o = some w ↔ o.map UInt8.toNat = some w.toNat := by
    intro o w; cases o <;> simp [UInt8.toNat_inj]
  have lift16 : ∀ (o : Option UInt16) (w : UInt16), o = some w ↔ o.map UInt16.toNat = some w.toNat := by
    intro o w; cases o <;> simp [UInt16.toNat_inj]
  have lift32 : ∀ (o : Option UInt32) (w : UInt32), o = some w ↔ o.map UInt32.toNat = some w.toNat := by
    intro o w; cases o <;> simp [UInt32.toNat_inj]
  refine ⟨f, ps, ds, a, b, c, h1, ha, hb, hc, ?_, ?_, ?_⟩
  · intro hm r hr
    rw [lift8, ea]
    revert hm hr
    have key : ∀ a ∈ oplockLevels.map (·.2.2), ∀ r ∈ oplockLevels, ((OpLockLevel.table.lookup r.1).map UInt8.toNat = some (a % 4) ↔ a = r.2.2) := by
      decide +kernel
    exact fun hm hr => key a hm r hr
  · intro hm r hr
    rw [lift32, eb]
    have key : ∀ a ∈ dispositions.map (·.2.2), ∀ r ∈ dispositions,
        ((CreateDisposition.table.lookup r.1).map UInt32.toNat = some (a % 8) ↔ a = r.2.2) := by
      decide +kernel
    exact key b hm r hr
  · intro hm r hr
    rw [lift16, ec]
    have key : ∀ a ∈ resourceUnknown :: resourceTypes.map (·.2.2), ∀ r ∈ resourceTypes,
        ((ResourceType.table.lookup r.1).map UInt16.toNat = some (a % 8) ↔ a = r.2.2) := by
      decide +kernel
    exact key c hm r hr

/-- The rights of a share, if it has any, are those in the reply. -/
def C81_Rights (ps : Bytes) (o : Nat) (r : Option UInt32) : Prop :=
  ∀ w, r = some w → ∃ n, u32At ps o = some n ∧ ∀ row ∈ dirAccess, C81_test DirAccessMask.table w row.1 = some (decide (HasBits n row.2.2))

theorem test_rights {ps : Bytes} {o : Nat} {r : Option UInt32} (h : IsRights ps o r) : C81_Rights ps o r := by
  intro w e
  subst e
  obtain ⟨n, hn, he⟩ := h
  exact ⟨n, hn, fun row hr => test_right he hr⟩

/-- **C81** A share has an access right if and only if the reply has it. -/
theorem C81_share {E : Env σ} {log : σ → List Bytes} (hlog : Logs E.V log) {path password : Str} {s : St σ} {share : Share}
    (hv : (runOp E (.mount path password) s).1 = .ok (.share share)) :
    ∃ f ps ds, Answered E log (.mount path password) s f ps ds ∧ C81_Rights ps 6 share.accessRights ∧ C81_Rights ps 10 share.guestRights := by
  obtain ⟨f, ps, ds, _, h1, _, _, _, _, h2, h3, _⟩ := C31_only hlog hv
  exact ⟨f, ps, ds, h1, test_rights h2, test_rights h3⟩

/-- **C81** An entry of a list has a file attribute if and only if its bytes have it. -/
theorem C81_entry {T : Str → Bytes → Prop} {b : Bytes} {d : DirInfo} (h : IsEntryIn T b d) :
    ∃ n, u32At b 56 = some n ∧ ∀ r ∈ extAttributes, C81_test ExtFileAttr.table d.attributes r.1 = some (decide (HasBits n r.2.2)) := by
  obtain ⟨n, hn, he⟩ := h.attributes
  exact ⟨n, hn, fun r hr => test_attr he hr⟩

/-- **C81** Every entry of a list that the client reads has the file attributes that its bytes have. -/
theorem C81_listed {z : Bool} {b : Bytes} {ds : List DirInfo} (h : Listed z b ds) : ∀ d ∈ ds, ∃ pre e post n, b = pre ++ e ++ post ∧ IsEntry e d ∧
    u32At e 56 = some n ∧ ∀ r ∈ extAttributes, C81_test ExtFileAttr.table d.attributes r.1 = some (decide (HasBits n r.2.2)) := by
  induction h with
  | none => intro d hd; cases hd
  | stop => intro d hd; cases hd
  | bare => intro d hd; cases hd
  | @last b d hz h hd =>
    intro x hx
    rw [List.mem_singleton] at hx
    subst hx
    obtain ⟨n, hn, hr⟩ := C81_entry hd
    exact ⟨[], b, [], n, by simp, hd, hn, hr⟩
  | @more b next d ds h h0 hl hd hs ih =>
    intro x hx
    rcases List.mem_cons.mp hx with rfl | hx
    · obtain ⟨n, hn, hr⟩ := C81_entry hd
      exact ⟨[], b.take next, b.drop next, n, by simp, hd, hn, hr⟩
    · obtain ⟨pre, e, post, n, h1, h2⟩ := ih x hx
      refine ⟨b.take next ++ pre, e, post, n, ?_, h2⟩
      rw [List.append_assoc, List.append_assoc, ← List.append_assoc pre, ← h1, List.take_append_drop]

/-- **C81** Whatever `find_first` returns has the file attributes that the page has. -/
theorem C81_first {E : Env σ} {log : σ → List Bytes} (hlog : Logs E.V log) {share : Share} {pattern : Str} {s : St σ} {r : FindFirst2}
    (hv : (runOp E (.findFirst share pattern) s).1 = .ok (.first r)) : ∃ l rest P D, Searched E log (.findFirst share pattern) s l rest ∧ Cuts l P D ∧
      ∀ d ∈ r.info, ∃ pre e post n, D = pre ++ e ++ post ∧ IsEntry e d ∧ u32At e 56 = some n ∧
        ∀ row ∈ extAttributes, C81_test ExtFileAttr.table d.attributes row.1 = some (decide (HasBits n row.2.2)) := by
  obtain ⟨l, rest, P, D, h1, h2, _, h3, _⟩ := C36_only hlog hv
  exact ⟨l, rest, P, D, h1, h2, C81_listed h3⟩

/-- A received word with the bits of a hidden directory and one that the client has no name for. -/
example : C81_test ExtFileAttr.table (ExtFileAttr.truncate 0x00000412) "DIRECTORY" = some true ∧
    C81_test ExtFileAttr.table (ExtFileAttr.truncate 0x00000412) "READONLY" = some false ∧
    C81_test ExtFileAttr.table (ExtFileAttr.truncate 0x00000412) "REPARSE_POINT" = none ∧ HasBits 0x412 0x10 ∧ ¬ HasBits 0x412 1 := by
  decide +kernel

/-- Enumerations are declared as sets of flags. A test with `contains` would find a byte pipe in a printer, and a disk in everything. -/
example : (0x0003 : UInt16) &&& 0x0001 = 0x0001 ∧ ∀ w : UInt16, w &&& 0x0000 = 0x0000 := ⟨by decide, fun w => by simp⟩

end Cifs
