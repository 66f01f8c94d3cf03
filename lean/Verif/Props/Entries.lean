import Verif.Props.Reassembly
/-!
# Properties about directory entries (C36, C37)
-/

namespace Cifs
open Spec

variable {σ : Type}

theorem first_page {E : Env σ} {log : σ → List Bytes} (hlog : Logs E.V log) {share : Share} {pattern : Str} {s : St σ} {l : List Piece}
    {rest P D : Bytes} (h : Searched E log (.findFirst share pattern) s l rest) (hc : Cuts l P D) :
    (runOp E (.findFirst share pattern) s).1 = (((findFirst2Parse P D).mapOk Val.first).mapErr Error.SMBError).out :=
  searched_cuts hlog rfl h hc

theorem next_page {E : Env σ} {log : σ → List Bytes} (hlog : Logs E.V log) {share : Share} {sid : UInt16} {last : Str} {s : St σ} {l : List Piece}
    {rest P D : Bytes} (h : Searched E log (.findNext share sid last) s l rest) (hc : Cuts l P D) :
    (runOp E (.findNext share sid last) s).1 = (((findNext2Parse P D).mapOk Val.next).mapErr Error.SMBError).out :=
  searched_cuts hlog rfl h hc

/-- A list that can be read does not come to a name of odd length. -/
theorem listed_not_odd {zero : Bool} {b : Bytes} {ds : List DirInfo} (h : Listed zero b ds) : ¬ OddEntries zero b := by
  intro ho
  have e := ((entryLoop_iff zero b []).1 ds).mpr ⟨ds, by simp, h⟩
  rw [(entryLoop_iff zero b []).2.mpr ho] at e
  cases e

/-- **C36** (partial: the names have to be Unicode; see `C36_violated`.) If the first page announces as many entries as it has, and marks the
end of the search if it has none, then `find_first` returns exactly these entries, in order. -/
theorem C36_partial {E : Env σ} {log : σ → List Bytes} (hlog : Logs E.V log) {share : Share} {pattern : Str} {s : St σ} {l : List Piece}
    {rest P D : Bytes} (h : Searched E log (.findFirst share pattern) s l rest) (hc : Cuts l P D) {sid : UInt16} {ended : Bool} {ds : List DirInfo}
    (hp : IsFirstParams P sid.toNat ds.length ended) (hd : Entries D ds) (he : ended = true ∨ ds ≠ []) :
    (runOp E (.findFirst share pattern) s).1 = .ok (.first { sid := sid, done := ended, info := ds }) := by
  rw [first_page hlog h hc, ((findFirst_parse P D).1 { sid := sid, done := ended, info := ds }).mpr ⟨hp, entries_listed hd, he⟩]
  rfl

/-- **C36** If the announced number differs from that of the entries, `find_first` fails. -/
theorem C36_count {E : Env σ} {log : σ → List Bytes} (hlog : Logs E.V log) {share : Share} {pattern : Str} {s : St σ} {l : List Piece}
    {rest P D : Bytes} (h : Searched E log (.findFirst share pattern) s l rest) (hc : Cuts l P D) {sid count : Nat} {ended : Bool} {ds : List DirInfo}
    (hp : IsFirstParams P sid count ended) (hd : Entries D ds) (hne : count ≠ ds.length) :
    ∃ e, (runOp E (.findFirst share pattern) s).1 = .err (.SMBError e) := by
  rw [first_page hlog h hc]
  cases hr : findFirst2Parse P D with
  | err e => exact ⟨e, rfl⟩
  | panic => exact absurd (((findFirst_parse P D).2.mp hr).2) (listed_not_odd (entries_listed hd))
  | ok r =>
    obtain ⟨h1, h2, _⟩ := ((findFirst_parse P D).1 r).mp hr
    have := listed_det h2 (entries_listed hd)
    rw [this] at h1
    have := hp.2.2.1.symm.trans h1.2.2.1
    exact absurd (Option.some.inj this) hne

/-- **C36** Whatever `find_first` returns was in a first page, in this order. -/
theorem C36_only {E : Env σ} {log : σ → List Bytes} (hlog : Logs E.V log) {share : Share} {pattern : Str} {s : St σ} {r : FindFirst2}
    (hv : (runOp E (.findFirst share pattern) s).1 = .ok (.first r)) : ∃ l rest P D, Searched E log (.findFirst share pattern) s l rest ∧ Cuts l P D ∧
      IsFirstParams P r.sid.toNat r.info.length r.done ∧ Listed true D r.info ∧ (r.done = true ∨ r.info ≠ []) := by
  obtain ⟨l, rest, P, D, h, hc, hp⟩ := searched_of_ok hlog rfl hv
  refine ⟨l, rest, P, D, h, hc, ?_⟩
  simp only [Op.page] at hp
  cases hr : findFirst2Parse P D with
  | err e => rw [hr] at hp; cases hp
  | panic => rw [hr] at hp; cases hp
  | ok r' =>
    rw [hr] at hp
    cases hp
    exact ((findFirst_parse P D).1 _).mp hr

/-- **C36** Given bytes are read as at most one list of entries. -/
theorem C36_unique {b : Bytes} {ds ds' : List DirInfo} (h : Entries b ds) (h' : Entries b ds') : ds = ds' :=
  listed_det (entries_listed h) (entries_listed h')

/-- **C37** (partial: no distance may be 0; see `C37_violated`. The names have to be Unicode, as in C36.) `find_next` returns the entries of a
page, the same that `find_first` returns. -/
theorem C37_partial {E : Env σ} {log : σ → List Bytes} (hlog : Logs E.V log) {share : Share} {sid : UInt16} {last : Str} {s : St σ} {l : List Piece}
    {rest P D : Bytes} (h : Searched E log (.findNext share sid last) s l rest) (hc : Cuts l P D) {ended : Bool} {ds : List DirInfo}
    (hp : IsNextParams P ds.length ended) (hd : Measured D ds) (he : ended = true ∨ ds ≠ []) :
    (runOp E (.findNext share sid last) s).1 = .ok (.next { done := ended, info := ds }) := by
  rw [next_page hlog h hc, ((findNext_parse P D).1 { done := ended, info := ds }).mpr ⟨hp, measured_listed hd, he⟩]
  rfl

/-- **C37** Lists without a distance of 0 are lists of entries. -/
theorem C37_measured {D : Bytes} {ds : List DirInfo} (h : Measured D ds) : Entries D ds := by
  induction h with
  | none => exact .none
  | more h h0 hl hd _ ih => exact .more h h0 hl hd ih

theorem listed_zero {D : Bytes} {ds : List DirInfo} (h : Listed false D ds) : Listed true D ds := by
  induction h with
  | none => exact .none
  | stop h => exact .stop h
  | bare hz => cases hz
  | last hz => cases hz
  | more h h0 hl hd _ ih => exact .more h h0 hl hd ih

/-- **C37** If the announced number differs from that of the entries, `find_next` fails too. -/
theorem C37_count {E : Env σ} {log : σ → List Bytes} (hlog : Logs E.V log) {share : Share} {sid : UInt16} {last : Str} {s : St σ} {l : List Piece}
    {rest P D : Bytes} (h : Searched E log (.findNext share sid last) s l rest) (hc : Cuts l P D) {count : Nat} {ended : Bool} {ds : List DirInfo}
    (hp : IsNextParams P count ended) (hd : Measured D ds) (hne : count ≠ ds.length) :
    ∃ e, (runOp E (.findNext share sid last) s).1 = .err (.SMBError e) := by
  rw [next_page hlog h hc]
  cases hr : findNext2Parse P D with
  | err e => exact ⟨e, rfl⟩
  | panic => exact absurd (((findNext_parse P D).2.mp hr).2) (listed_not_odd (measured_listed hd))
  | ok r =>
    obtain ⟨h1, h2, _⟩ := ((findNext_parse P D).1 r).mp hr
    have := listed_det h2 (measured_listed hd)
    rw [this] at h1
    have := hp.1.symm.trans h1.1
    exact absurd (Option.some.inj this) hne

theorem oddEntries_zero {b : Bytes} (h : OddEntries false b) : OddEntries true b := by
  induction h with
  | last hz => cases hz
  | here h h0 hl ho => exact .here h h0 hl ho
  | later h h0 hl hd _ ih => exact .later h h0 hl hd ih

theorem measured_of {b : Bytes} {ds : List DirInfo} (h : Entries b ds) (hf : Listed false b ds) : Measured b ds := by
  induction h with
  | none => exact .none
  | last h _ =>
    cases hf with
    | last hz => cases hz
    | more h' h0 => rw [h] at h'; cases h'; omega
  | more h h0 hl hd hs ih =>
    cases hf with
    | last hz => cases hz
    | more h' h0' hl' hd' hs' => rw [h] at h'; cases h'; exact .more h h0 hl hd (ih hs')

/-- **C37** Which pages these are: of all pages that `find_first` shows, `find_next` shows those in which no distance is 0 and refuses the others. So
every page is refused whose last entry has the distance 0, which is how the protocol marks it. -/
theorem C37_exactly {E : Env σ} {log : σ → List Bytes} (hlog : Logs E.V log) {share : Share} {sid : UInt16} {last : Str} {s : St σ} {l : List Piece}
    {rest P D : Bytes} (h : Searched E log (.findNext share sid last) s l rest) (hc : Cuts l P D) {ended : Bool} {ds : List DirInfo}
    (hp : IsNextParams P ds.length ended) (hd : Entries D ds) (he : ended = true ∨ ds ≠ []) :
    (Measured D ds → (runOp E (.findNext share sid last) s).1 = .ok (.next { done := ended, info := ds })) ∧
      (¬ Measured D ds → ∃ e, (runOp E (.findNext share sid last) s).1 = .err (.SMBError e)) := by
  refine ⟨fun hm => C37_partial hlog h hc hp hm he, fun hm => ?_⟩
  rw [next_page hlog h hc]
  cases hr : findNext2Parse P D with
  | err e => exact ⟨e, rfl⟩
  | panic => exact absurd (oddEntries_zero ((findNext_parse P D).2.mp hr).2) (listed_not_odd (entries_listed hd))
  | ok r =>
    obtain ⟨_, h2, _⟩ := ((findNext_parse P D).1 r).mp hr
    have := listed_det (listed_zero h2) (entries_listed hd)
    rw [this] at h2
    exact absurd (measured_of hd h2) hm

/-- **C37** The entries that `find_next` returns are those that `find_first` returns for the same data block (and parameters that match). -/
theorem C37_same {σ' : Type} {E : Env σ} {log : σ → List Bytes} (hlog : Logs E.V log) {E' : Env σ'} {log' : σ' → List Bytes} (hlog' : Logs E'.V log')
    {share share' : Share} {sid sid' : UInt16} {last pattern : Str} {s : St σ} {s' : St σ'} {r : FindNext2}
    (hv : (runOp E (.findNext share sid last) s).1 = .ok (.next r)) :
    ∃ l rest P D, Searched E log (.findNext share sid last) s l rest ∧ Cuts l P D ∧ IsNextParams P r.info.length r.done ∧
      ∀ l' rest' P', Searched E' log' (.findFirst share' pattern) s' l' rest' → Cuts l' P' D → IsFirstParams P' sid'.toNat r.info.length r.done →
        (runOp E' (.findFirst share' pattern) s').1 = .ok (.first { sid := sid', done := r.done, info := r.info }) := by
  obtain ⟨l, rest, P, D, h, hc, hp⟩ := searched_of_ok hlog rfl hv
  simp only [Op.page] at hp
  cases hr : findNext2Parse P D with
  | err e => rw [hr] at hp; cases hp
  | panic => rw [hr] at hp; cases hp
  | ok r' =>
    rw [hr] at hp
    cases hp
    obtain ⟨h1, h2, h3⟩ := ((findNext_parse P D).1 _).mp hr
    refine ⟨l, rest, P, D, h, hc, h1, fun l' rest' P' h' hc' hp' => ?_⟩
    rw [first_page hlog' h' hc', ((findFirst_parse P' D).1 { sid := sid', done := r.done, info := r.info }).mpr ⟨hp', listed_zero h2, h3⟩]
    rfl

/-! ### Every list of entries can be written -/

/-- An entry to be written: the four times, the size, the name with its UTF-16LE form, and what the client does not look at: the index, the
allocation size and the bytes after the name. -/
structure C36_Record where
  index : Nat
  created : Nat
  accessed : Nat
  written : Nat
  changed : Nat
  size : UInt64
  allocated : Nat
  attributes : Nat
  name : Str
  wide : Bytes
  pad : Bytes

/-- The entry after its first field. -/
def C36_Record.body (r : C36_Record) : Bytes :=
  putLE 4 r.index ++ (putLE 8 r.created ++ (putLE 8 r.accessed ++ (putLE 8 r.written ++ (putLE 8 r.changed ++ (putLE 8 r.size.toNat ++
    (putLE 8 r.allocated ++ (putLE 4 r.attributes ++ (putLE 4 r.wide.length ++ (r.wide ++ r.pad)))))))))

/-- What it describes. -/
def C36_Record.info (r : C36_Record) : DirInfo :=
  { creationTime := timeOf r.created, accessTime := timeOf r.accessed, writeTime := timeOf r.written, changeTime := timeOf r.changed
    filename := r.name, filesize := r.size, attributes := UInt32.ofNat (r.attributes &&& attrMask) }

/-- What can be written in the fields. -/
structure C36_Record.Fits (r : C36_Record) : Prop where
  created : r.created < 2 ^ 64
  accessed : r.accessed < 2 ^ 64
  written : r.written < 2 ^ 64
  changed : r.changed < 2 ^ 64
  attributes : r.attributes < 2 ^ 32
  length : 64 + r.wide.length + r.pad.length < 2 ^ 32
  wide : Utf16le r.name r.wide

theorem record_length (n : Nat) (r : C36_Record) : (putLE 4 n ++ r.body).length = 64 + r.wide.length + r.pad.length := by
  simp [putLE, C36_Record.body]; omega

theorem record_entry (n : Nat) (r : C36_Record) (h : r.Fits) : IsEntry (putLE 4 n ++ r.body) r.info := by
  have h4 : ∀ k, (putLE 4 k).length = 4 := fun k => rfl
  have h8 : ∀ k, (putLE 8 k).length = 8 := fun k => rfl
  have e8 : ∀ {k : Nat} (b : Bytes), k < 2 ^ 64 → u64At (putLE 8 k ++ b) 0 = some k := fun b hk => by rw [u64At_putLE, Nat.mod_eq_of_lt hk]
  have e4 : ∀ {k : Nat} (b : Bytes), k < 2 ^ 32 → u32At (putLE 4 k ++ b) 0 = some k := fun b hk => by rw [u32At_putLE, Nat.mod_eq_of_lt hk]
  unfold C36_Record.body
  refine ⟨⟨r.created, ?_, rfl⟩, ⟨r.accessed, ?_, rfl⟩, ⟨r.written, ?_, rfl⟩, ⟨r.changed, ?_, rfl⟩, ?_, ⟨r.attributes, ?_, ?_⟩,
    ⟨r.wide.length, r.wide, ?_, ?_, h.wide⟩⟩
  · rw [u64At_append_right _ _ _ (by rw [h4]; omega), h4, u64At_append_right _ _ _ (by rw [h4]; omega), h4]
    exact e8 _ h.created
  · rw [u64At_append_right _ _ _ (by rw [h4]; omega), h4, u64At_append_right _ _ _ (by rw [h4]; omega), h4,
      u64At_append_right _ _ _ (by rw [h8]; omega), h8]
    exact e8 _ h.accessed
  · rw [u64At_append_right _ _ _ (by rw [h4]; omega), h4, u64At_append_right _ _ _ (by rw [h4]; omega), h4,
      u64At_append_right _ _ _ (by rw [h8]; omega), h8, u64At_append_right _ _ _ (by rw [h8]; omega), h8]
    exact e8 _ h.written
  · rw [u64At_append_right _ _ _ (by rw [h4]; omega), h4, u64At_append_right _ _ _ (by rw [h4]; omega), h4,
      u64At_append_right _ _ _ (by rw [h8]; omega), h8, u64At_append_right _ _ _ (by rw [h8]; omega), h8,
      u64At_append_right _ _ _ (by rw [h8]; omega), h8]
    exact e8 _ h.changed
  · rw [u64At_append_right _ _ _ (by rw [h4]; omega), h4, u64At_append_right _ _ _ (by rw [h4]; omega), h4,
      u64At_append_right _ _ _ (by rw [h8]; omega), h8, u64At_append_right _ _ _ (by rw [h8]; omega), h8,
      u64At_append_right _ _ _ (by rw [h8]; omega), h8, u64At_append_right _ _ _ (by rw [h8]; omega), h8]
    exact e8 _ r.size.toNat_lt
  · rw [u32At_append_right _ _ _ (by rw [h4]; omega), h4, u32At_append_right _ _ _ (by rw [h4]; omega), h4,
      u32At_append_right _ _ _ (by rw [h8]; omega), h8, u32At_append_right _ _ _ (by rw [h8]; omega), h8,
      u32At_append_right _ _ _ (by rw [h8]; omega), h8, u32At_append_right _ _ _ (by rw [h8]; omega), h8,
      u32At_append_right _ _ _ (by rw [h8]; omega), h8, u32At_append_right _ _ _ (by rw [h8]; omega), h8]
    exact e4 _ h.attributes
  · show (UInt32.ofNat _).toNat = _
    have : r.attributes &&& attrMask ≤ r.attributes := Nat.and_le_left
    have := h.attributes
    rw [UInt32.toNat_ofNat_of_lt' (by show _ < 2 ^ 32; omega)]
  · rw [u32At_append_right _ _ _ (by rw [h4]; omega), h4, u32At_append_right _ _ _ (by rw [h4]; omega), h4,
      u32At_append_right _ _ _ (by rw [h8]; omega), h8, u32At_append_right _ _ _ (by rw [h8]; omega), h8,
      u32At_append_right _ _ _ (by rw [h8]; omega), h8, u32At_append_right _ _ _ (by rw [h8]; omega), h8,
      u32At_append_right _ _ _ (by rw [h8]; omega), h8, u32At_append_right _ _ _ (by rw [h8]; omega), h8,
      u32At_append_right _ _ _ (by rw [h4]; omega), h4]
    exact e4 _ (by have := h.length; omega)
  · rw [sliceAt_append_right _ _ _ _ (by rw [h4]; omega), h4, sliceAt_append_right _ _ _ _ (by rw [h4]; omega), h4,
      sliceAt_append_right _ _ _ _ (by rw [h8]; omega), h8, sliceAt_append_right _ _ _ _ (by rw [h8]; omega), h8,
      sliceAt_append_right _ _ _ _ (by rw [h8]; omega), h8, sliceAt_append_right _ _ _ _ (by rw [h8]; omega), h8,
      sliceAt_append_right _ _ _ _ (by rw [h8]; omega), h8, sliceAt_append_right _ _ _ _ (by rw [h8]; omega), h8,
      sliceAt_append_right _ _ _ _ (by rw [h4]; omega), h4, sliceAt_append_right _ _ _ _ (by rw [h4]; omega), h4]
    exact sliceAt_left _ _ _ rfl

/-- The entries one after the other, each with the distance to the next one or to the end. -/
def C36_measured : List C36_Record → Bytes
  | [] => []
  | r :: rs => putLE 4 (64 + r.wide.length + r.pad.length) ++ r.body ++ C36_measured rs

/-- The same, but the last one says 0. -/
def C36_zero : List C36_Record → Bytes
  | [] => []
  | [r] => putLE 4 0 ++ r.body
  | r :: r' :: rs => putLE 4 (64 + r.wide.length + r.pad.length) ++ r.body ++ C36_zero (r' :: rs)

theorem measured_cons {r : C36_Record} (hr : r.Fits) (b : Bytes) : let e := putLE 4 (64 + r.wide.length + r.pad.length) ++ r.body
    u32At (e ++ b) 0 = some (64 + r.wide.length + r.pad.length) ∧ 64 + r.wide.length + r.pad.length ≤ (e ++ b).length ∧
      IsEntry ((e ++ b).take (64 + r.wide.length + r.pad.length)) r.info ∧ (e ++ b).drop (64 + r.wide.length + r.pad.length) = b := by
  intro e
  have he : e.length = 64 + r.wide.length + r.pad.length := record_length _ r
  refine ⟨?_, ?_, ?_, ?_⟩
  · show u32At (putLE 4 _ ++ r.body ++ b) 0 = _
    rw [List.append_assoc, u32At_putLE, Nat.mod_eq_of_lt hr.length]
  · rw [List.length_append, he]; omega
  · rw [List.take_left' he]
    exact record_entry _ r hr
  · rw [List.drop_left' he]

/-- **C36** Every list of entries, with any bytes after each of them, can be written so that `C36_partial` and `C37_partial` apply. -/
theorem C37_all (rs : List C36_Record) (h : ∀ r ∈ rs, r.Fits) : Measured (C36_measured rs) (rs.map C36_Record.info) := by
  induction rs with
  | nil => exact .none
  | cons r rs ih =>
    obtain ⟨h1, h2, h3, h4⟩ := measured_cons (h r (by simp)) (C36_measured rs)
    exact .more h1 (by omega) h2 h3 (h4.symm ▸ ih (fun x hx => h x (by simp [hx])))

/-- **C36** So can it be with 0 at the end; `C36_partial` applies. -/
theorem C36_all (rs : List C36_Record) (h : ∀ r ∈ rs, r.Fits) : Entries (C36_zero rs) (rs.map C36_Record.info) := by
  induction rs with
  | nil => exact .none
  | cons r rs ih =>
    cases rs with
    | nil => exact .last (u32At_putLE 0 _) (record_entry 0 r (h r (by simp)))
    | cons r' rs =>
      obtain ⟨h1, h2, h3, h4⟩ := measured_cons (h r (by simp)) (C36_zero (r' :: rs))
      exact .more h1 (by omega) h2 h3 (h4.symm ▸ ih (fun x hx => h x (by simp [hx])))

/-- **C37** Every list of entries but the empty one, written with 0 at the end, is refused by `find_next`: by `C36_all` it conforms, and by `C37_exactly`
it is refused. -/
theorem C37_zero (rs : List C36_Record) (h : ∀ r ∈ rs, r.Fits) (hne : rs ≠ []) (ds : List DirInfo) : ¬ Measured (C36_zero rs) ds := by
  induction rs generalizing ds with
  | nil => exact absurd rfl hne
  | cons r rs ih =>
    cases rs with
    | nil =>
      intro hm
      cases he : C36_zero [r] with
      | nil => have := congrArg List.length he; rw [show C36_zero [r] = putLE 4 0 ++ r.body from rfl] at this; simp [putLE] at this
      | cons a b =>
        rw [he] at hm
        have h0 : u32At (a :: b) 0 = some 0 := by rw [← he]; exact u32At_putLE 0 _
        cases hm with
        | more h1 h2 => rw [h0] at h1; cases h1; omega
    | cons r' rs =>
      obtain ⟨h1, h2, h3, h4⟩ := measured_cons (h r (by simp)) (C36_zero (r' :: rs))
      intro hm
      rw [show C36_zero (r :: r' :: rs) = putLE 4 (64 + r.wide.length + r.pad.length) ++ r.body ++ C36_zero (r' :: rs) from rfl] at hm
      generalize hD : putLE 4 (64 + r.wide.length + r.pad.length) ++ r.body ++ C36_zero (r' :: rs) = D at hm h1 h2 h3 h4
      cases hm with
      | none => cases h1
      | more k1 _ _ _ ks =>
        rw [h1] at k1; cases k1
        rw [h4] at ks
        exact ih (fun x hx => h x (by simp [hx])) (by simp) _ ks

namespace Demo

/-- The entry of `entryBytes`. -/
def cat : DirInfo :=
  { creationTime := timeOf 116444736000000000, accessTime := timeOf 10, writeTime := timeOf 20, changeTime := timeOf 30
    filename := ['c', 'a', 't'], filesize := 1234, attributes := 0x21 }

theorem catIs : IsEntry entryBytes cat :=
  ⟨⟨_, by decide +kernel, rfl⟩, ⟨_, by decide +kernel, rfl⟩, ⟨_, by decide +kernel, rfl⟩, ⟨_, by decide +kernel, rfl⟩, by decide +kernel,
    ⟨0x21, by decide +kernel, by decide +kernel⟩, ⟨6, [0x63, 0, 0x61, 0, 0x74, 0], by decide +kernel, by decide +kernel, utf16le_encode ['c', 'a', 't']⟩⟩

theorem catFirst : IsFirstParams firstParams 5 1 true :=
  ⟨by decide, by decide +kernel, by decide +kernel, 1, by decide +kernel, by decide⟩

example : (runOp (env true) search (st [[message wholeReply]])).1 = .ok (.first { sid := 5, done := true, info := [cat] }) :=
  C36_partial (logs_logged script) searchedWhole (cuts_whole _ _) catFirst (.last (by decide +kernel) catIs) (.inl rfl)

/-- The continuation of the search, with one entry and the end mark. -/
def searchOn : Op := .findNext share 5 ['b']
def nextParams : Bytes := [1, 0, 1, 0, 0, 0, 0, 0, 0, 0]
def nextReply (entry : Bytes) : Bytes := reply .Transact2 7 (pieceParams 10 55 0 70 65 0) (nextParams ++ entry)

/-- The entry with its length as first field. -/
def measuredBytes : Bytes := putU32 70 ++ entryBytes.drop 4

theorem catMeasured : Measured measuredBytes [cat] :=
  .more (next := 70) (by decide +kernel) (by decide) (by decide +kernel)
    ⟨⟨_, by decide +kernel, rfl⟩, ⟨_, by decide +kernel, rfl⟩, ⟨_, by decide +kernel, rfl⟩, ⟨_, by decide +kernel, rfl⟩, by decide +kernel,
      ⟨0x21, by decide +kernel, by decide +kernel⟩, ⟨6, [0x63, 0, 0x61, 0, 0x74, 0], by decide +kernel, by decide +kernel, utf16le_encode ['c', 'a', 't']⟩⟩
    .none

theorem catNext : IsNextParams nextParams 1 true := ⟨by decide +kernel, 1, by decide +kernel, by decide⟩

theorem searchedNext : Searched (env true) Prod.snd searchOn (st [[message (nextReply measuredBytes)]]) [whole nextParams measuredBytes] [] := by
  have := step (r := nextReply measuredBytes) (ps := pieceParams 10 55 0 70 65 0) (ds := nextParams ++ measuredBytes) (b := [])
    (p := whole nextParams measuredBytes) (by decide +kernel)
    ⟨10, 55, 70, 65, by decide +kernel, by decide +kernel, by decide +kernel, by decide +kernel, by decide +kernel, by decide +kernel, by decide +kernel,
      by decide +kernel, ⟨by decide, by decide +kernel⟩, ⟨by decide, by decide +kernel⟩⟩ (.nil _)
  rw [List.append_nil] at this
  exact searched searchOn rfl (by decide +kernel) this

theorem searchedZero : Searched (env true) Prod.snd searchOn (st [[message (nextReply entryBytes)]]) [whole nextParams entryBytes] [] := by
  have := step (r := nextReply entryBytes) (ps := pieceParams 10 55 0 70 65 0) (ds := nextParams ++ entryBytes) (b := [])
    (p := whole nextParams entryBytes) (by decide +kernel)
    ⟨10, 55, 70, 65, by decide +kernel, by decide +kernel, by decide +kernel, by decide +kernel, by decide +kernel, by decide +kernel, by decide +kernel,
      by decide +kernel, ⟨by decide, by decide +kernel⟩, ⟨by decide, by decide +kernel⟩⟩ (.nil _)
  rw [List.append_nil] at this
  exact searched searchOn rfl (by decide +kernel) this

example : (runOp (env true) searchOn (st [[message (nextReply measuredBytes)]])).1 = .ok (.next { done := true, info := [cat] }) :=
  C37_partial (logs_logged script) searchedNext (cuts_whole _ _) catNext catMeasured (.inl rfl)

/-- The hypotheses of `C37_exactly` are met by a page that is shown and by one that is refused. -/
example : ∃ e, (runOp (env true) searchOn (st [[message (nextReply entryBytes)]])).1 = .err (.SMBError e) :=
  (C37_exactly (logs_logged script) searchedZero (cuts_whole _ _) (ds := [cat]) catNext (.last (by decide +kernel) catIs) (.inl rfl)).2 fun h => by
    cases h with
    | more h1 h2 => have : u32At entryBytes 0 = some 0 := by decide +kernel
                    rw [this] at h1; cases h1; omega

example : C36_Record.Fits ⟨3, 1, 2, 3, 4, 5, 6, 7, ['a'], [0x61, 0], [0, 0]⟩ :=
  ⟨by decide, by decide, by decide, by decide, by decide, by decide, utf16le_encode ['a']⟩

/-- The same replies with a count that is wrong. -/
def wrongFirst : Bytes := [5, 0, 2, 0, 1, 0, 0, 0, 0, 0]
def wrongNext : Bytes := [2, 0, 1, 0, 0, 0, 0, 0, 0, 0]

/-- The hypotheses of `C36_count` are met. -/
example : ∃ e, (runOp (env true) search (st [[message (reply .Transact2 7 (pieceParams 10 55 0 70 65 0) (wrongFirst ++ entryBytes))]])).1 = .err (.SMBError e) := by
  have := step (r := reply .Transact2 7 (pieceParams 10 55 0 70 65 0) (wrongFirst ++ entryBytes)) (ps := pieceParams 10 55 0 70 65 0)
    (ds := wrongFirst ++ entryBytes) (b := []) (p := whole wrongFirst entryBytes) (by decide +kernel)
    ⟨10, 55, 70, 65, by decide +kernel, by decide +kernel, by decide +kernel, by decide +kernel, by decide +kernel, by decide +kernel, by decide +kernel,
      by decide +kernel, ⟨by decide, by decide +kernel⟩, ⟨by decide, by decide +kernel⟩⟩ (.nil _)
  rw [List.append_nil] at this
  exact C36_count (logs_logged script) (searched search rfl (by decide +kernel) this) (cuts_whole _ _) (sid := 5) (count := 2) (ended := true)
    ⟨by decide, by decide +kernel, by decide +kernel, 1, by decide +kernel, by decide⟩ (.last (by decide +kernel) catIs) (by decide)

/-- The hypotheses of `C37_count` are met. -/
example : ∃ e, (runOp (env true) searchOn (st [[message (reply .Transact2 7 (pieceParams 10 55 0 70 65 0) (wrongNext ++ measuredBytes))]])).1 =
    .err (.SMBError e) := by
  have := step (r := reply .Transact2 7 (pieceParams 10 55 0 70 65 0) (wrongNext ++ measuredBytes)) (ps := pieceParams 10 55 0 70 65 0)
    (ds := wrongNext ++ measuredBytes) (b := []) (p := whole wrongNext measuredBytes) (by decide +kernel)
    ⟨10, 55, 70, 65, by decide +kernel, by decide +kernel, by decide +kernel, by decide +kernel, by decide +kernel, by decide +kernel, by decide +kernel,
      by decide +kernel, ⟨by decide, by decide +kernel⟩, ⟨by decide, by decide +kernel⟩⟩ (.nil _)
  rw [List.append_nil] at this
  exact C37_count (logs_logged script) (searched searchOn rfl (by decide +kernel) this) (cuts_whole _ _) (count := 2) (ended := true)
    ⟨by decide +kernel, 1, by decide +kernel, by decide⟩ catMeasured (by decide)

/-- The hypotheses of `C36_only` are met. -/
example : ∃ l rest P D, Searched (env true) Prod.snd search (st [[message wholeReply]]) l rest ∧ Cuts l P D ∧ IsFirstParams P 5 1 true ∧
    Listed true D [cat] ∧ (true = true ∨ [cat] ≠ []) :=
  C36_only (r := { sid := 5, done := true, info := [cat] }) (logs_logged script)
    (C36_partial (logs_logged script) searchedWhole (cuts_whole _ _) catFirst (.last (by decide +kernel) catIs) (.inl rfl))

/-- The hypotheses of `C36_unique` and `C37_measured` are met. -/
example (ds : List DirInfo) (h : Entries measuredBytes ds) : ds = [cat] := C36_unique h (C37_measured catMeasured)

/-- The hypotheses of `C37_same` are met. -/
example : ∃ l rest P D, Searched (env true) Prod.snd searchOn (st [[message (nextReply measuredBytes)]]) l rest ∧ Cuts l P D := by
  obtain ⟨l, rest, P, D, h1, h2, _⟩ := C37_same (r := { done := true, info := [cat] }) (logs_logged script) (E' := env true) (logs_logged script)
    (share' := share) (sid' := 5) (pattern := ['*']) (s' := st [])
    (C37_partial (logs_logged script) searchedNext (cuts_whole _ _) catNext catMeasured (.inl rfl))
  exact ⟨l, rest, P, D, h1, h2⟩

/-- A client in a session without Unicode, and an entry with a name of three bytes. -/
def oemCli : Cli := { cli with useUnicode := false }
def oemParams (nP atP disP nD atD disD : UInt16) : Bytes :=
  putU16 10 ++ putU16 67 ++ putU16 0 ++ putU16 nP ++ putU16 atP ++ putU16 disP ++ putU16 nD ++ putU16 atD ++ putU16 disD ++ [0, 0]
def oemBytes : Bytes := entryBytes.take 60 ++ putU32 3 ++ [0x63, 0x61, 0x74]
def oemReply : Bytes := reply .Transact2 7 (oemParams 10 55 0 67 65 0) (firstParams ++ oemBytes)

theorem oemIs : IsEntryIn Ascii oemBytes cat :=
  ⟨⟨_, by decide +kernel, rfl⟩, ⟨_, by decide +kernel, rfl⟩, ⟨_, by decide +kernel, rfl⟩, ⟨_, by decide +kernel, rfl⟩, by decide +kernel,
    ⟨0x21, by decide +kernel, by decide +kernel⟩, ⟨3, [0x63, 0x61, 0x74], by decide +kernel, by decide +kernel, by decide, by decide⟩⟩

theorem searchedOem : Searched (env true) Prod.snd search (stOf oemCli [[message oemReply]]) [whole firstParams oemBytes] [] := by
  have := step (r := oemReply) (ps := oemParams 10 55 0 67 65 0) (ds := firstParams ++ oemBytes) (b := [])
    (p := whole firstParams oemBytes) (by decide +kernel)
    ⟨10, 55, 67, 65, by decide +kernel, by decide +kernel, by decide +kernel, by decide +kernel, by decide +kernel, by decide +kernel, by decide +kernel,
      by decide +kernel, ⟨by decide, by decide +kernel⟩, ⟨by decide, by decide +kernel⟩⟩ (.nil _)
  rw [List.append_nil] at this
  exact searchedIn oemCli rfl search rfl (by decide +kernel) this

/-- Is the outcome a panic? -/
def isPanic {ε α : Type} : Out ε α → Bool
  | .panic => true
  | _ => false

theorem isPanic_of {ε α : Type} {o : Out ε α} (h : isPanic o = true) : o = .panic := by cases o <;> simp_all [isPanic]

end Demo

/-- **C36** is violated: in a session without Unicode, where names are OEM text, the client takes the name for UTF-16, and panics if the length
of the name is odd. -/
theorem C36_violated : ∃ (E : Env (List (List Bytes) × List Bytes)) (share : Share) (pattern : Str) (s : St _) (P D : Bytes) (sid : Nat) (d : DirInfo),
    Logs E.V Prod.snd ∧ s.cli.useUnicode = false ∧ Searched E Prod.snd (.findFirst share pattern) s [whole P D] [] ∧ IsFirstParams P sid 1 true ∧
    u32At D 0 = some 0 ∧ IsEntryIn Ascii D d ∧ (runOp E (.findFirst share pattern) s).1 = .panic :=
  ⟨Demo.env true, Demo.share, ['*'], Demo.stOf Demo.oemCli [[message Demo.oemReply]], Demo.firstParams, Demo.oemBytes, 5, Demo.cat, logs_logged _, rfl,
    Demo.searchedOem, Demo.catFirst, by decide +kernel, Demo.oemIs, Demo.isPanic_of (by decide +kernel)⟩

/-- **C37** is violated: `find_first` accepts a list whose last distance is 0, `find_next` refuses it. -/
theorem C37_violated : ∃ (E : Env (List (List Bytes) × List Bytes)) (share : Share) (pattern last : Str) (sid : UInt16) (s s' : St _) (P P' D : Bytes)
    (ds : List DirInfo), Logs E.V Prod.snd ∧ Searched E Prod.snd (.findFirst share pattern) s [whole P D] [] ∧ IsFirstParams P sid.toNat ds.length true ∧
      Searched E Prod.snd (.findNext share sid last) s' [whole P' D] [] ∧ IsNextParams P' ds.length true ∧ Entries D ds ∧
      (runOp E (.findFirst share pattern) s).1 = .ok (.first { sid := sid, done := true, info := ds }) ∧
      ∃ e, (runOp E (.findNext share sid last) s').1 = .err e :=
  ⟨Demo.env true, Demo.share, ['*'], ['b'], 5, Demo.st [[message Demo.wholeReply]], Demo.st [[message (Demo.nextReply Demo.entryBytes)]],
    Demo.firstParams, Demo.nextParams, Demo.entryBytes, [Demo.cat], logs_logged _, Demo.searchedWhole, Demo.catFirst, Demo.searchedZero, Demo.catNext,
    .last (by decide +kernel) Demo.catIs,
    C36_partial (logs_logged _) Demo.searchedWhole (cuts_whole _ _) Demo.catFirst (.last (by decide +kernel) Demo.catIs) (.inl rfl),
    Demo.isErr_of (by decide +kernel)⟩

end Cifs
