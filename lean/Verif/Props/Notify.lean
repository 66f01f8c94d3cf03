import Verif.Lemmas.Transact
import Verif.Lemmas.DemoReplies
import Verif.Props.Endings
/-!
# Properties about change notifications (C33)
-/

namespace Cifs
open Spec

variable {σ : Type}

theorem notify_outcome {E : Env σ} {log : σ → List Bytes} (hlog : Logs E.V log) {handle : Handle} {what : UInt32} {s : St σ} {f ps ds : Bytes}
    (h : Answered E log (.notify handle what) s f ps ds) :
    ∃ i, (runOp E (.notify handle what) s).1 =
      (((transactCreate notificationParse { info := i, parameter := ps, data := ds, dataOffset := 35 + ps.length }).mapErr Error.SMBError).mapOk
        Val.changes).out := by
  obtain ⟨i, _, ho⟩ := answered (transactReply notificationParse) Val.changes hlog rfl (fun _ _ => rfl) rfl h
  exact ⟨i, by rw [ho, make_plain _ rfl i]; rfl⟩

/-- **C33** A notification reply with a list of changes in its parameter block, wherever the reply places that block, makes `notify` return
exactly this list. -/
theorem C33_notify {E : Env σ} {log : σ → List Bytes} (hlog : Logs E.V log) {handle : Handle} {what : UInt32} {s : St σ} {f ps ds : Bytes}
    (h : Answered E log (.notify handle what) s f ps ds) {pb db : Bytes} {l : List (Str × NotifyAction)} (ht : IsNtReply ps ds pb db)
    (hl : Changes pb l) : (runOp E (.notify handle what) s).1 = .ok (.changes l) := by
  obtain ⟨i, ho⟩ := notify_outcome hlog h
  rw [ho, ((notify_create i ps ds).1 l).mpr ⟨pb, db, ht, hl⟩]
  rfl

/-- **C33** Conversely, whatever `notify` returns is the list in such a reply. -/
theorem C33_only {E : Env σ} {log : σ → List Bytes} (hlog : Logs E.V log) {handle : Handle} {what : UInt32} {s : St σ}
    {l : List (Str × NotifyAction)} (hv : (runOp E (.notify handle what) s).1 = .ok (.changes l)) :
    ∃ f ps ds pb db, Answered E log (.notify handle what) s f ps ds ∧ IsNtReply ps ds pb db ∧ Changes pb l := by
  obtain ⟨f, ps, ds, i, a, hans, hp, hm, hva⟩ :=
    answered_of_ok (transactReply notificationParse) Val.changes hlog rfl (fun _ _ => rfl) rfl hv
  cases hva
  rw [make_plain _ rfl i] at hm
  obtain ⟨pb, db, ht, hl⟩ := ((notify_create i ps ds).1 l).mp hm
  exact ⟨f, ps, ds, pb, db, hans, ht, hl⟩

/-! ### Every list of changes has a reply that carries it -/

/-- The code of an action, as in the table of the specification. -/
def C33_code : NotifyAction → Nat
  | .ADDED => 1
  | .REMOVED => 2
  | .MODIFIED => 3
  | .RENAMED_OLD => 4
  | .RENAMED_NEW => 5
  | .ADDED_STREAM => 6
  | .REMOVED_STREAM => 7
  | .MODIFIED_STREAM => 8
  | .DELETED => 9
  | .NOT_TUNNELLED => 10
  | .TUNNELLED_COLLISION => 11

/-- A change: the name in UTF-16LE, the action, the bytes that follow the record. -/
structure C33_Record where
  name : Str
  wide : Bytes
  action : NotifyAction
  pad : Bytes

/-- The records one after the other; the last one says that nothing follows. -/
def C33_records : List C33_Record → Bytes
  | [] => []
  | [r] => putLE 4 0 ++ (putLE 4 (C33_code r.action) ++ (putLE 4 r.wide.length ++ (r.wide ++ r.pad)))
  | r :: r' :: rs => putLE 4 (12 + r.wide.length + r.pad.length) ++ (putLE 4 (C33_code r.action) ++ (putLE 4 r.wide.length ++ (r.wide ++ r.pad))) ++
      C33_records (r' :: rs)

theorem record_change (n : Nat) (r : C33_Record) (rest : Bytes) (hw : Utf16le r.name r.wide) (hl : r.wide.length < 2 ^ 32) :
    Change (putLE 4 n ++ (putLE 4 (C33_code r.action) ++ (putLE 4 r.wide.length ++ (r.wide ++ r.pad))) ++ rest) (r.name, r.action) := by
  have h4 : ∀ k, (putLE 4 k).length = 4 := fun k => rfl
  refine ⟨C33_code r.action, r.wide.length, r.wide, ?_, by cases r.action <;> rfl, ?_, ?_, hw⟩
  · rw [List.append_assoc, u32At_append_right _ _ _ (by rw [h4]; omega), h4, List.append_assoc, u32At_putLE, Nat.mod_eq_of_lt]
    cases r.action <;> decide
  · rw [List.append_assoc, u32At_append_right _ _ _ (by rw [h4]; omega), h4, List.append_assoc, u32At_append_right _ _ _ (by rw [h4]; omega), h4,
      List.append_assoc, u32At_putLE, Nat.mod_eq_of_lt hl]
  · rw [List.append_assoc, sliceAt_append_right _ _ _ _ (by rw [h4]; omega), h4, List.append_assoc, sliceAt_append_right _ _ _ _ (by rw [h4]; omega), h4,
      List.append_assoc, sliceAt_append_right _ _ _ _ (by rw [h4]; omega), h4, List.append_assoc]
    exact sliceAt_left _ _ _ rfl

/-- **C33** Every list of changes, with any bytes after each record, can be written as records of this form: `C33_notify` covers them all. -/
theorem C33_all (rs : List C33_Record) (hw : ∀ r ∈ rs, Utf16le r.name r.wide) (hl : ∀ r ∈ rs, 12 + r.wide.length + r.pad.length < 2 ^ 32) :
    Changes (C33_records rs) (rs.map fun r => (r.name, r.action)) := by
  induction rs with
  | nil => exact .none
  | cons r rs ih =>
    have hr := hl r (by simp)
    cases rs with
    | nil =>
      refine .last (u32At_putLE 0 _) ?_
      have := record_change 0 r [] (hw r (by simp)) (by omega)
      rw [List.append_nil] at this
      exact this
    | cons r' rs =>
      have he : (putLE 4 (12 + r.wide.length + r.pad.length) ++ (putLE 4 (C33_code r.action) ++ (putLE 4 r.wide.length ++ (r.wide ++ r.pad)))).length =
          12 + r.wide.length + r.pad.length := by
        simp [putLE]; omega
      refine .more (next := 12 + r.wide.length + r.pad.length) ?_ (by omega) ?_ (record_change _ r _ (hw r (by simp)) (by omega)) ?_
      · simp only [C33_records]
        rw [List.append_assoc, u32At_putLE, Nat.mod_eq_of_lt hr]
      · simp only [C33_records]
        rw [List.length_append, he]; omega
      · simp only [C33_records]
        rw [List.drop_left' he]
        exact ih (fun x hx => hw x (by simp [hx])) (fun x hx => hl x (by simp [hx]))

/-- **C33** At most one list of changes is read from given bytes. -/
theorem C33_unique {b : Bytes} {l l' : List (Str × NotifyAction)} (h : Changes b l) (h' : Changes b l') : l = l' := by
  have e := (notificationParse_ok [] b [] l).mpr h
  rw [(notificationParse_ok [] b [] l').mpr h'] at e
  cases e; rfl

/-- **C33** `notify` does not run forever, whatever the server sends. -/
theorem C33_ends (E : Env σ) (handle : Handle) (what : UInt32) (s : St σ) : (runOp E (.notify handle what) s).1 ≠ .running :=
  C08_call E _ rfl s

namespace Demo

/-- Two changes with a padding of one byte after the first. -/
def twoChanges : Bytes :=
  C33_records [⟨['a'], [0x61, 0], .ADDED, [9]⟩, ⟨['b', 'c'], [0x62, 0, 0x63, 0], .RENAMED_NEW, []⟩]

/-- A parameter block of `n` bytes at distance 72. -/
def notifyParams (n : UInt32) : Bytes := [0, 0, 0] ++ putU32 n ++ putU32 0 ++ putU32 n ++ putU32 72 ++ putU32 0 ++ putU32 0 ++ putU32 0 ++ putU32 0 ++ [0]

example : Answered (env true) Prod.snd (.notify handle 0xfff) (st (answer (reply .Transact 7 (notifyParams 31) (0 :: twoChanges))))
    (reply .Transact 7 (notifyParams 31) (0 :: twoChanges)) (notifyParams 31) (0 :: twoChanges) :=
  answered _ rfl (by decide +kernel) _ _ _ (by decide +kernel) (by decide +kernel) (by decide +kernel) (by decide +kernel)

example : IsNtReply (notifyParams 31) (0 :: twoChanges) twoChanges [] :=
  ⟨31, 0, 31, 72, 0, 0, 0, by decide +kernel, by decide +kernel, by decide +kernel, by decide +kernel, by decide +kernel, by decide +kernel,
    by decide +kernel, by decide +kernel, by decide, by decide, .inr ⟨by decide, by decide +kernel, by decide +kernel⟩, .inl ⟨rfl, rfl⟩⟩

example : Changes twoChanges [(['a'], .ADDED), (['b', 'c'], .RENAMED_NEW)] :=
  C33_all _ (by
    intro r hr
    rcases List.mem_cons.mp hr with rfl | hr
    · exact utf16le_encode ['a']
    · cases List.mem_singleton.mp hr
      exact utf16le_encode ['b', 'c']) (by decide +kernel)

end Demo

end Cifs
