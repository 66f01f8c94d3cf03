import Verif.Props.Service
import Verif.Props.Entries
import Verif.Props.Notify
import Verif.Spec.Strange
/-!
# Names that are no text (C93)
-/

namespace Cifs
open Spec

variable {σ : Type} {E : Env σ} {log : σ → List Bytes}

theorem even_not_odd {nm : Bytes} (h : nm.length % 2 = 0) : ¬ OddText nm := fun ho =>
  decodeUtf16le_even () nm h ((decodeUtf16le_panic_iff () nm).mpr ho)

theorem named_length {b nm : Bytes} (h : Named b nm) : 64 ≤ b.length := by
  obtain ⟨n, h, -⟩ := h
  have := u32At_length h; omega

theorem named_det {b nm nm' : Bytes} (h : Named b nm) (h' : Named b nm') : nm = nm' := by
  obtain ⟨n, h1, h2⟩ := h
  obtain ⟨n', h3, h4⟩ := h'
  cases h1.symm.trans h3
  exact Option.some.inj (h2.symm.trans h4)

theorem named_entry {b nm : Bytes} {d : DirInfo} (h : Named b nm) (hd : IsEntry b d) : Utf16le d.filename nm := by
  obtain ⟨n, nm', h1, h2, h3⟩ := hd.name
  cases named_det h ⟨n, h1, h2⟩
  exact h3

theorem named_odd {b nm : Bytes} (h : Named b nm) (he : nm.length % 2 = 0) : ¬ OddEntry b := by
  rintro ⟨n, nm', h1, h2, h3⟩
  cases named_det h ⟨n, h1, h2⟩
  exact even_not_odd he h3

theorem take_named {b nm : Bytes} {next : Nat} (h : Named (b.take next) nm) : 64 ≤ next := by
  have := named_length h
  rw [List.length_take] at this; omega

/-- The names of a list that can be read are text. -/
theorem laid_listed {zero : Bool} {D : Bytes} {names : List Bytes} (h : Laid zero D names) : ∀ {ds : List DirInfo}, Listed zero D ds →
    ds.length = names.length ∧ ∀ nm ∈ names, ∃ d ∈ ds, Utf16le d.filename nm := by
  induction h with
  | none =>
    intro ds hl
    cases hl with
    | none => exact ⟨rfl, nofun⟩
    | stop h => have := u32At_length h; simp at this
    | bare _ h => have := u32At_length h; simp at this
    | last _ h => have := u32At_length h; simp at this
    | more h => have := u32At_length h; simp at this
  | last _ h hn =>
    intro ds hl
    have hlen := named_length hn
    cases hl with
    | none => simp at hlen
    | stop h' => rw [h] at h'; cases h'
    | bare _ _ h' => omega
    | last _ _ hd =>
      refine ⟨rfl, fun nm hm => ?_⟩
      cases List.mem_singleton.mp hm
      exact ⟨_, List.mem_singleton.mpr rfl, named_entry hn hd⟩
    | more h' h0 => rw [h] at h'; cases h'; omega
  | more h h0 hle hn hs ih =>
    intro ds hl
    have hnext := take_named hn
    cases hl with
    | none => have := u32At_length h; simp at this
    | stop h' => rw [h] at h'; cases h'; omega
    | bare _ h' => rw [h] at h'; cases h'; omega
    | last _ h' => rw [h] at h'; cases h'; omega
    | more h' _ _ hd hds =>
      rw [h] at h'; cases h'
      obtain ⟨h1, h2⟩ := ih hds
      refine ⟨by simp [h1], fun nm hm => ?_⟩
      rcases List.mem_cons.mp hm with rfl | hm
      · exact ⟨_, List.mem_cons_self, named_entry hn hd⟩
      · obtain ⟨d, hd, h3⟩ := h2 nm hm
        exact ⟨d, List.mem_cons_of_mem _ hd, h3⟩

theorem laid_not_odd {zero : Bool} {D : Bytes} {names : List Bytes} (h : Laid zero D names) (he : ∀ nm ∈ names, nm.length % 2 = 0) : ¬ OddEntries zero D := by
  induction h with
  | none =>
    intro ho
    cases ho with
    | last _ h => have := u32At_length h; simp at this
    | here h => have := u32At_length h; simp at this
    | later h => have := u32At_length h; simp at this
  | last _ h hn =>
    intro ho
    cases ho with
    | last _ _ ho => exact named_odd hn (he _ (by simp)) ho
    | here h' h0 => rw [h] at h'; cases h'; omega
    | later h' h0 => rw [h] at h'; cases h'; omega
  | more h h0 hle hn hs ih =>
    intro ho
    have hnext := take_named hn
    cases ho with
    | last _ h' => rw [h] at h'; cases h'; omega
    | here h' _ _ ho => rw [h] at h'; cases h'; exact named_odd hn (he _ (by simp)) ho
    | later h' _ _ _ ho => rw [h] at h'; cases h'; exact ih (fun nm hm => he nm (by simp [hm])) ho

/-- An entry whose name is text can be read. -/
theorem named_text {b nm : Bytes} {s : Str} (h : Named b nm) (ht : Utf16le s nm) : ∃ d, IsEntry b d ∧ d.filename = s := by
  have hlen := named_length h
  obtain ⟨n, h1, h2⟩ := h
  obtain ⟨t1, k1, -⟩ := Rd.getU64_at (ε := SmbError) b 8 (by omega)
  obtain ⟨t2, k2, -⟩ := Rd.getU64_at (ε := SmbError) b 16 (by omega)
  obtain ⟨t3, k3, -⟩ := Rd.getU64_at (ε := SmbError) b 24 (by omega)
  obtain ⟨t4, k4, -⟩ := Rd.getU64_at (ε := SmbError) b 32 (by omega)
  obtain ⟨sz, k5, -⟩ := Rd.getU64_at (ε := SmbError) b 40 (by omega)
  obtain ⟨at', k7, -⟩ := Rd.getU32_at (ε := SmbError) b 56 (by omega)
  exact ⟨⟨timeOf t1.toNat, timeOf t2.toNat, timeOf t3.toNat, timeOf t4.toNat, s, sz, ExtFileAttr.truncate at'⟩,
    ⟨⟨_, k1, rfl⟩, ⟨_, k2, rfl⟩, ⟨_, k3, rfl⟩, ⟨_, k4, rfl⟩, k5, ⟨_, k7, mask_attr _⟩, ⟨_, _, h1, h2, ht⟩⟩, rfl⟩

/-- A list of names that are text can be read. -/
theorem laid_text {zero : Bool} {D : Bytes} {names : List Bytes} (h : Laid zero D names) (ht : ∀ nm ∈ names, IsText nm) : ∃ ds, Listed zero D ds := by
  induction h with
  | none => exact ⟨[], .none⟩
  | last hz h hn =>
    obtain ⟨s, hs⟩ := ht _ List.mem_cons_self
    obtain ⟨d, hd, -⟩ := named_text hn hs
    exact ⟨[d], .last hz h hd⟩
  | more h h0 hle hn hs ih =>
    obtain ⟨s, hs⟩ := ht _ List.mem_cons_self
    obtain ⟨d, hd, -⟩ := named_text hn hs
    obtain ⟨ds, hds⟩ := ih fun nm hm => ht nm (by simp [hm])
    have := take_named hn
    exact ⟨d :: ds, .more h (by omega) hle hd hds⟩

/-- What the property says: of the files with these names, those are shown whose names are text. -/
def C93_Shows (E : Env σ) (op : Op) (s : St σ) (names : List Bytes) : Prop :=
  ∃ v, (runOp E op s).1 = .ok v ∧ ∀ nm ∈ names, ∀ t, Utf16le t nm → t ∈ namesIn v

/-- **C93**, as far as it holds (`_partial`: all the names have to be text): a first page in which all names are text is shown. -/
theorem C93_text_partial (hlog : Logs E.V log) {share : Share} {pattern : Str} {s : St σ} {l : List Piece} {rest P D : Bytes}
    (h : Searched E log (.findFirst share pattern) s l rest) (hc : Cuts l P D) {sid : UInt16} {ended : Bool} {names : List Bytes}
    (hp : IsFirstParams P sid.toNat names.length ended) (hd : Laid true D names) (he : ended = true ∨ names ≠ []) (ht : ∀ nm ∈ names, IsText nm) :
    C93_Shows E (.findFirst share pattern) s names := by
  obtain ⟨ds, hds⟩ := laid_text hd ht
  obtain ⟨h1, h2⟩ := laid_listed hd hds
  refine ⟨.first { sid := sid, done := ended, info := ds }, ?_, fun nm hm t hs => ?_⟩
  · rw [first_page hlog h hc, ((findFirst_parse P D).1 { sid := sid, done := ended, info := ds }).mpr ⟨by rw [h1]; exact hp, hds, ?_⟩]
    · rfl
    · refine he.imp_right fun hne h0 => hne (List.eq_nil_of_length_eq_zero ?_)
      rw [← h1, show ds = [] from h0]; rfl
  · obtain ⟨d, hd, h3⟩ := h2 nm hm
    have := (decode_ok_iff () nm t).mpr hs
    rw [(decode_ok_iff () nm _).mpr h3] at this
    cases this
    exact List.mem_map.mpr ⟨d, hd, rfl⟩

/-- **C93** The same for further pages (`_partial`: as above). -/
theorem C93_text_next_partial (hlog : Logs E.V log) {share : Share} {sid : UInt16} {last : Str} {s : St σ} {l : List Piece} {rest P D : Bytes}
    (h : Searched E log (.findNext share sid last) s l rest) (hc : Cuts l P D) {ended : Bool} {names : List Bytes}
    (hp : IsNextParams P names.length ended) (hd : Laid false D names) (he : ended = true ∨ names ≠ []) (ht : ∀ nm ∈ names, IsText nm) :
    C93_Shows E (.findNext share sid last) s names := by
  obtain ⟨ds, hds⟩ := laid_text hd ht
  obtain ⟨h1, h2⟩ := laid_listed hd hds
  refine ⟨.next { done := ended, info := ds }, ?_, fun nm hm t hs => ?_⟩
  · rw [next_page hlog h hc, ((findNext_parse P D).1 { done := ended, info := ds }).mpr ⟨by rw [h1]; exact hp, hds, ?_⟩]
    · rfl
    · refine he.imp_right fun hne h0 => hne (List.eq_nil_of_length_eq_zero ?_)
      rw [← h1, show ds = [] from h0]; rfl
  · obtain ⟨d, hd, h3⟩ := h2 nm hm
    have := (decode_ok_iff () nm t).mpr hs
    rw [(decode_ok_iff () nm _).mpr h3] at this
    cases this
    exact List.mem_map.mpr ⟨d, hd, rfl⟩

/-- **C93 violated.** If one name on a page is no text, then nothing on the page is shown: `find_first` fails, whatever else the page has, wherever the
name is on it, and in whatever pieces the page comes. -/
theorem C93_violated (hlog : Logs E.V log) {share : Share} {pattern : Str} {s : St σ} {l : List Piece} {rest P D : Bytes}
    (h : Searched E log (.findFirst share pattern) s l rest) (hc : Cuts l P D) {names : List Bytes} (hd : Laid true D names)
    (he : ∀ nm ∈ names, nm.length % 2 = 0) {nm : Bytes} (hm : nm ∈ names) (hn : ¬ IsText nm) :
    (∃ e, (runOp E (.findFirst share pattern) s).1 = .err (.SMBError e)) ∧ ¬ C93_Shows E (.findFirst share pattern) s names := by
  have main : ∃ e, (runOp E (.findFirst share pattern) s).1 = .err (.SMBError e) := by
    rw [first_page hlog h hc]
    cases hr : findFirst2Parse P D with
    | err e => exact ⟨e, rfl⟩
    | panic => exact absurd ((findFirst_parse P D).2.mp hr).2 (laid_not_odd hd he)
    | ok r =>
      obtain ⟨-, h2, -⟩ := ((findFirst_parse P D).1 r).mp hr
      obtain ⟨d, -, h3⟩ := (laid_listed hd h2).2 nm hm
      exact absurd ⟨_, h3⟩ hn
  refine ⟨main, fun ⟨v, hv, _⟩ => ?_⟩
  obtain ⟨e, h⟩ := main
  rw [h] at hv; cases hv

/-- **C93 violated** The same for further pages: `find_next` fails. -/
theorem C93_violated_next (hlog : Logs E.V log) {share : Share} {sid : UInt16} {last : Str} {s : St σ} {l : List Piece} {rest P D : Bytes}
    (h : Searched E log (.findNext share sid last) s l rest) (hc : Cuts l P D) {names : List Bytes} (hd : Laid false D names)
    (he : ∀ nm ∈ names, nm.length % 2 = 0) {nm : Bytes} (hm : nm ∈ names) (hn : ¬ IsText nm) :
    ∃ e, (runOp E (.findNext share sid last) s).1 = .err (.SMBError e) := by
  rw [next_page hlog h hc]
  cases hr : findNext2Parse P D with
  | err e => exact ⟨e, rfl⟩
  | panic => exact absurd ((findNext_parse P D).2.mp hr).2 (laid_not_odd hd he)
  | ok r =>
    obtain ⟨-, h2, -⟩ := ((findNext_parse P D).1 r).mp hr
    obtain ⟨d, -, h3⟩ := (laid_listed hd h2).2 nm hm
    exact absurd ⟨_, h3⟩ hn

/-- **C93 violated** So the directory cannot be listed at all: `list` fails if `find_first` does. -/
theorem C93_violated_list {k : Nat} {share : Share} {pattern : Str} {s : St σ} {e : Error} (h : (runOp E (.findFirst share pattern) s).1 = .err e) :
    (runOp E (.list k share pattern) s).1 = .err e := by
  rcases hr : findFirst E share pattern s with ⟨o, s'⟩
  have h : (M.map' Val.first (findFirst E share pattern) s).1 = .err e := h
  show (M.map' Val.entries (list E k share pattern) s).1 = .err e
  cases o with
  | err e' =>
    rw [map'_err hr] at h
    have hl : list E k share pattern s = (.err e', s') := M.bind_err hr
    rw [map'_err hl]
    exact h
  | ok _ | panic | pending | running => simp [M.map', M.bind, hr] at h

/-! ## Notifications -/

theorem touched_det {b nm nm' : Bytes} (h : Touched b nm) {c : Str × NotifyAction} (hc : Change b c) (hn : nm' = nm) : Utf16le c.1 nm' := by
  obtain ⟨a, n, action, -, -, h1, h2⟩ := h
  obtain ⟨a', n', m, -, -, h3, h4, h5⟩ := hc
  cases h1.symm.trans h3
  cases h2.symm.trans h4
  rw [hn]; exact h5

theorem touches_changes {b : Bytes} {names : List Bytes} (h : Touches b names) : ∀ {l : List (Str × NotifyAction)}, Changes b l →
    ∀ nm ∈ names, ∃ c ∈ l, Utf16le c.1 nm := by
  induction h with
  | none => intro _ _; nofun
  | last h hc =>
    intro l hl nm hm
    have e := List.mem_singleton.mp hm
    cases hl with
    | none => have := u32At_length h; simp at this
    | last _ hc' => exact ⟨_, List.mem_singleton.mpr rfl, touched_det hc hc' e⟩
    | more h' h0 => rw [h] at h'; cases h'; omega
  | more h h0 hle hc hs ih =>
    intro l hl nm hm
    cases hl with
    | none => have := u32At_length h; simp at this
    | last h' => rw [h] at h'; cases h'; omega
    | more h' _ _ hc' hs' =>
      rw [h] at h'; cases h'
      rcases List.mem_cons.mp hm with e | hm
      · exact ⟨_, List.mem_cons_self, touched_det hc hc' e⟩
      · obtain ⟨c, h1, h2⟩ := ih hs' nm hm
        exact ⟨c, List.mem_cons_of_mem _ h1, h2⟩

theorem touched_odd {b nm : Bytes} (h : Touched b nm) (he : nm.length % 2 = 0) : ¬ OddChange b := by
  rintro ⟨a', n', m, action', -, -, h3, h4, h5⟩
  obtain ⟨a, n, action, -, -, h1, h2⟩ := h
  cases h1.symm.trans h3
  cases h2.symm.trans h4
  exact even_not_odd he h5

theorem touched_length {b nm : Bytes} (h : Touched b nm) : 12 ≤ b.length := by
  obtain ⟨a, n, action, -, -, h1, -⟩ := h
  have := u32At_length h1; omega

theorem touches_not_broken {b : Bytes} {names : List Bytes} (h : Touches b names) (he : ∀ nm ∈ names, nm.length % 2 = 0) : ¬ BrokenChanges b := by
  induction h with
  | none =>
    intro ho
    cases ho with
    | odd h => obtain ⟨a, n, m, action, -, -, h, -⟩ := h; have := u32At_length h; simp at this
    | outside h => have := u32At_length h; simp at this
    | later h => have := u32At_length h; simp at this
  | last h hc =>
    intro ho
    cases ho with
    | odd ho => exact touched_odd hc (he _ (by simp)) ho
    | outside h' h0 => rw [h] at h'; cases h'; omega
    | later h' h0 => rw [h] at h'; cases h'; omega
  | more h h0 hle hc hs ih =>
    intro ho
    cases ho with
    | odd ho => exact touched_odd hc (he _ (by simp)) ho
    | outside h' h0 => rw [h] at h'; cases h'; omega
    | later h' _ _ _ ho => rw [h] at h'; cases h'; exact ih (fun nm hm => he nm (by simp [hm])) ho

theorem block_det {ps ds b b' : Bytes} {count offset : Nat} (h : Block ps ds count offset b) (h' : Block ps ds count offset b') : b = b' := by
  have e := ((transBlock_iff ps ds offset count).1 b).mpr h
  rw [((transBlock_iff ps ds offset count).1 b').mpr h'] at e
  cases e; rfl

theorem block_outside {ps ds b : Bytes} {count offset : Nat} (h : Block ps ds count offset b) : ¬ BlockOutside ps ds count offset := by
  intro h'
  have e := ((transBlock_iff ps ds offset count).1 b).mpr h
  rw [(transBlock_iff ps ds offset count).2.mpr h'] at e
  cases e

theorem nt_det {ps ds pb db pb' db' : Bytes} (h : IsNtReply ps ds pb db) (h' : IsNtReply ps ds pb' db') : pb = pb' := by
  obtain ⟨_, _, _, _, _, _, _, -, -, h1, h2, -, -, -, -, -, -, h3, -⟩ := h
  obtain ⟨_, _, _, _, _, _, _, -, -, h4, h5, -, -, -, -, -, -, h6, -⟩ := h'
  cases h1.symm.trans h4
  cases h2.symm.trans h5
  exact block_det h3 h6

theorem nt_not_short {ps ds pb db : Bytes} (h : IsNtReply ps ds pb db) : ¬ ShortNtReply ps ds := by
  obtain ⟨_, _, _, _, _, _, _, -, -, h1, h2, h3, h4, h5, h6, -, -, h7, h8⟩ := h
  rintro (h | ⟨n, h, h'⟩ | ⟨_, _, _, _, _, _, -, -, k1, k2, k3, k4, -, -, k5⟩)
  · have := u8At_lt h5; omega
  · cases h5.symm.trans h; omega
  · cases h1.symm.trans k1
    cases h2.symm.trans k2
    cases h3.symm.trans k3
    cases h4.symm.trans k4
    rcases k5 with k5 | ⟨-, k5⟩
    · exact block_outside h7 k5
    · exact block_outside h8 k5

/-- Records about files whose names are text can be read. -/
theorem touches_text {b : Bytes} {names : List Bytes} (h : Touches b names) (ht : ∀ nm ∈ names, IsText nm) : ∃ l, Changes b l := by
  induction h with
  | none => exact ⟨[], .none⟩
  | last h hc =>
    obtain ⟨t, ht⟩ := ht _ List.mem_cons_self
    obtain ⟨a, n, action, h1, h2, h3, h4⟩ := hc
    exact ⟨[(t, action)], .last h ⟨a, n, _, h1, h2, h3, h4, ht⟩⟩
  | more h h0 hle hc hs ih =>
    obtain ⟨t, ht'⟩ := ht _ List.mem_cons_self
    obtain ⟨l, hl⟩ := ih fun nm hm => ht nm (by simp [hm])
    obtain ⟨a, n, action, h1, h2, h3, h4⟩ := hc
    exact ⟨(t, action) :: l, .more h h0 hle ⟨a, n, _, h1, h2, h3, h4, ht'⟩ hl⟩

/-- **C93** The same for notifications (`_partial`: as above). -/
theorem C93_text_notify_partial (hlog : Logs E.V log) {handle : Handle} {what : UInt32} {s : St σ} {f ps ds : Bytes}
    (h : Answered E log (.notify handle what) s f ps ds) {pb db : Bytes} (hn : IsNtReply ps ds pb db) {names : List Bytes} (hd : Touches pb names)
    (ht : ∀ nm ∈ names, IsText nm) : C93_Shows E (.notify handle what) s names := by
  obtain ⟨l, hl⟩ := touches_text hd ht
  obtain ⟨i, ho⟩ := notify_outcome hlog h
  refine ⟨.changes l, ?_, fun nm hm t hs => ?_⟩
  · rw [ho, ((notify_create i ps ds).1 l).mpr ⟨pb, db, hn, hl⟩]; rfl
  · obtain ⟨c, hc, h3⟩ := touches_changes hd hl nm hm
    have := (decode_ok_iff () nm t).mpr hs
    rw [(decode_ok_iff () nm _).mpr h3] at this
    cases this
    exact List.mem_map.mpr ⟨c, hc, rfl⟩

/-- **C93 violated** The same for notifications: if one of the names is no text, all changes in the notification are lost. -/
theorem C93_violated_notify (hlog : Logs E.V log) {handle : Handle} {what : UInt32} {s : St σ} {f ps ds : Bytes}
    (h : Answered E log (.notify handle what) s f ps ds) {pb db : Bytes} (ht : IsNtReply ps ds pb db) {names : List Bytes} (hd : Touches pb names)
    (he : ∀ nm ∈ names, nm.length % 2 = 0) {nm : Bytes} (hm : nm ∈ names) (hn : ¬ IsText nm) :
    ∃ e, (runOp E (.notify handle what) s).1 = .err (.SMBError e) := by
  obtain ⟨i, ho⟩ := notify_outcome hlog h
  rw [ho]
  cases hr : transactCreate notificationParse { info := i, parameter := ps, data := ds, dataOffset := 35 + ps.length } with
  | err e => exact ⟨e, rfl⟩
  | panic =>
    rcases (notify_create i ps ds).2.mp hr with h | ⟨pb', db', h1, h2⟩
    · exact absurd h (nt_not_short ht)
    · cases nt_det ht h1
      exact absurd h2 (touches_not_broken hd he)
  | ok l =>
    obtain ⟨pb', db', h1, h2⟩ := ((notify_create i ps ds).1 l).mp hr
    cases nt_det ht h1
    obtain ⟨c, -, h3⟩ := touches_changes hd h2 nm hm
    exact absurd ⟨_, h3⟩ hn

namespace Demo

/-- A name of three 16-bit units, the middle one of them half of a character. -/
def strange : Bytes := [0x63, 0, 0, 0xD8, 0x74, 0]

theorem strange_no_text : ¬ IsText strange := by
  rintro ⟨s, h⟩
  have h1 := (decode_ok_iff () strange s).mpr h
  have h2 : (match decodeUtf16le () strange with | .ok _ => true | _ => false) = false := by decide +kernel
  rw [h1] at h2
  cases h2

/-- A page with the files "cat" and the strange one. -/
def pairBytes (zero : Bool) : Bytes := measuredBytes ++ (if zero then entryBytes else measuredBytes).take 64 ++ strange
def pairParams : Bytes := putU16 10 ++ putU16 140 ++ putU16 0 ++ putU16 10 ++ putU16 55 ++ putU16 0 ++ putU16 140 ++ putU16 65 ++ putU16 0 ++ [0, 0]
def pairFirst : Bytes := [5, 0, 2, 0, 1, 0, 0, 0, 0, 0]
def pairNext : Bytes := [2, 0, 1, 0, 0, 0, 0, 0, 0, 0]
def pairReply (P : Bytes) (zero : Bool) : Bytes := reply .Transact2 7 pairParams (P ++ pairBytes zero)

theorem pairLaid : Laid true (pairBytes true) [[0x63, 0, 0x61, 0, 0x74, 0], strange] :=
  .more (next := 70) (by decide +kernel) (by decide) (by decide +kernel) ⟨6, by decide +kernel, by decide +kernel⟩
    (.last rfl (by decide +kernel) ⟨6, by decide +kernel, by decide +kernel⟩)

theorem pairLaidOn : Laid false (pairBytes false) [[0x63, 0, 0x61, 0, 0x74, 0], strange] :=
  .more (next := 70) (by decide +kernel) (by decide) (by decide +kernel) ⟨6, by decide +kernel, by decide +kernel⟩
    (.more (next := 70) (by decide +kernel) (by decide) (by decide +kernel) ⟨6, by decide +kernel, by decide +kernel⟩ .none)

theorem pairSearched : Searched (env true) Prod.snd search (st [[message (pairReply pairFirst true)]]) [whole pairFirst (pairBytes true)] [] := by
  have := step (r := pairReply pairFirst true) (ps := pairParams) (ds := pairFirst ++ pairBytes true) (b := []) (p := whole pairFirst (pairBytes true))
    (by decide +kernel)
    ⟨10, 55, 140, 65, by decide +kernel, by decide +kernel, by decide +kernel, by decide +kernel, by decide +kernel, by decide +kernel, by decide +kernel,
      by decide +kernel, ⟨by decide, by decide +kernel⟩, ⟨by decide, by decide +kernel⟩⟩ (.nil _)
  rw [List.append_nil] at this
  exact searched search rfl (by decide +kernel) this

theorem pairSearchedOn : Searched (env true) Prod.snd searchOn (st [[message (pairReply pairNext false)]]) [whole pairNext (pairBytes false)] [] := by
  have := step (r := pairReply pairNext false) (ps := pairParams) (ds := pairNext ++ pairBytes false) (b := []) (p := whole pairNext (pairBytes false))
    (by decide +kernel)
    ⟨10, 55, 140, 65, by decide +kernel, by decide +kernel, by decide +kernel, by decide +kernel, by decide +kernel, by decide +kernel, by decide +kernel,
      by decide +kernel, ⟨by decide, by decide +kernel⟩, ⟨by decide, by decide +kernel⟩⟩ (.nil _)
  rw [List.append_nil] at this
  exact searched searchOn rfl (by decide +kernel) this

/-- The hypotheses of `C93_text_partial` are met. -/
example : C93_Shows (env true) search (st [[message wholeReply]]) [[0x63, 0, 0x61, 0, 0x74, 0]] :=
  C93_text_partial (logs_logged script) searchedWhole (cuts_whole _ _) (sid := 5) catFirst
    (.last rfl (by decide +kernel) ⟨6, by decide +kernel, by decide +kernel⟩) (.inl rfl)
    fun _ hm => by cases List.mem_singleton.mp hm; exact ⟨['c', 'a', 't'], utf16le_encode ['c', 'a', 't']⟩

/-- The hypotheses of `C93_text_next_partial` are met. -/
example : C93_Shows (env true) searchOn (st [[message (nextReply measuredBytes)]]) [[0x63, 0, 0x61, 0, 0x74, 0]] :=
  C93_text_next_partial (logs_logged script) searchedNext (cuts_whole _ _) catNext
    (.more (next := 70) (by decide +kernel) (by decide) (by decide +kernel) ⟨6, by decide +kernel, by decide +kernel⟩ .none) (.inl rfl)
    fun _ hm => by cases List.mem_singleton.mp hm; exact ⟨['c', 'a', 't'], utf16le_encode ['c', 'a', 't']⟩

/-- The hypotheses of `C93_violated` are met: the cat is not shown. -/
theorem pairFails : (∃ e, (runOp (env true) search (st [[message (pairReply pairFirst true)]])).1 = .err (.SMBError e)) ∧
    ¬ C93_Shows (env true) search (st [[message (pairReply pairFirst true)]]) [[0x63, 0, 0x61, 0, 0x74, 0], strange] :=
  C93_violated (logs_logged script) pairSearched (cuts_whole _ _) pairLaid (by decide) (nm := strange) (by decide) strange_no_text

/-- The hypotheses of `C93_violated_next` and `C93_violated_list` are met. -/
example : ∃ e, (runOp (env true) searchOn (st [[message (pairReply pairNext false)]])).1 = .err (.SMBError e) :=
  C93_violated_next (logs_logged script) pairSearchedOn (cuts_whole _ _) pairLaidOn (by decide) (nm := strange) (by decide) strange_no_text

example : ∃ e, (runOp (env true) (.list 9 share ['*']) (st [[message (pairReply pairFirst true)]])).1 = .err (.SMBError e) := by
  obtain ⟨e, h⟩ := pairFails.1
  exact ⟨e, C93_violated_list h⟩

/-- The change of a file with a strange name, after that of another one. -/
def strangeChanges : Bytes := putU32 15 ++ putU32 1 ++ putU32 2 ++ [0x61, 0, 9] ++ (putU32 0 ++ putU32 1 ++ putU32 6 ++ strange)

/-- The hypotheses of `C93_text_notify_partial` are met. -/
example : C93_Shows (env true) (.notify handle 0xfff) (st (answer (reply .Transact 7 (notifyParams 14) (0 :: (putU32 0 ++ putU32 1 ++ putU32 2 ++ [0x61, 0])))))
    [[0x61, 0]] :=
  C93_text_notify_partial (logs_logged script) (pb := putU32 0 ++ putU32 1 ++ putU32 2 ++ [0x61, 0]) (db := [])
    (answered _ rfl (by decide +kernel) _ (notifyParams 14) (0 :: (putU32 0 ++ putU32 1 ++ putU32 2 ++ [0x61, 0])) (by decide +kernel) (by decide +kernel)
      (by decide +kernel) (by decide +kernel))
    ⟨14, 0, 14, 72, 0, 0, 0, by decide +kernel, by decide +kernel, by decide +kernel, by decide +kernel, by decide +kernel, by decide +kernel,
      by decide +kernel, by decide +kernel, by decide, by decide, .inr ⟨by decide, by decide +kernel, by decide +kernel⟩, .inl ⟨rfl, rfl⟩⟩
    (.last (by decide +kernel) ⟨1, 2, .ADDED, by decide +kernel, by decide +kernel, by decide +kernel, by decide +kernel⟩)
    fun _ hm => by cases List.mem_singleton.mp hm; exact ⟨['a'], utf16le_encode ['a']⟩

/-- The hypotheses of `C93_violated_notify` are met. -/
example : ∃ e, (runOp (env true) (.notify handle 0xfff) (st (answer (reply .Transact 7 (notifyParams 33) (0 :: strangeChanges))))).1 = .err (.SMBError e) :=
  C93_violated_notify (logs_logged script) (pb := strangeChanges) (db := []) (names := [[0x61, 0], strange])
    (answered _ rfl (by decide +kernel) _ (notifyParams 33) (0 :: strangeChanges) (by decide +kernel) (by decide +kernel) (by decide +kernel) (by decide +kernel))
    ⟨33, 0, 33, 72, 0, 0, 0, by decide +kernel, by decide +kernel, by decide +kernel, by decide +kernel, by decide +kernel, by decide +kernel,
      by decide +kernel, by decide +kernel, by decide, by decide, .inr ⟨by decide, by decide +kernel, by decide +kernel⟩, .inl ⟨rfl, rfl⟩⟩
    (.more (next := 15) (by decide +kernel) (by decide) (by decide +kernel) ⟨1, 2, .ADDED, by decide +kernel, by decide +kernel, by decide +kernel, by decide +kernel⟩
      (.last (by decide +kernel) ⟨1, 6, .ADDED, by decide +kernel, by decide +kernel, by decide +kernel, by decide +kernel⟩))
    (by decide) (nm := strange) (by decide) strange_no_text

end Demo

end Cifs
