import Verif.Spec.Disk
import Verif.Props.Store
import Verif.Props.Listing
import Verif.Props.Gate
/-! # C80: the client as a way to a file system -/

namespace Cifs
open Spec

variable {σ α : Type} {E : Env σ} {own : Nat → Prop} {look : Volume → Str → List DirInfo} {unicode : Bool}

theorem entry2_same {β : Type} (f : Nat → Nat → Option β) (i j : Nat) (x : Option β) : entry2 f i j x i j = x := by simp [entry2]

theorem entry2_back {β : Type} (f : Nat → Nat → Option β) (i j : Nat) (x : Option β) (h : f i j = none) : entry2 (entry2 f i j x) i j none = f := by
  funext i' j'
  unfold entry2
  by_cases hi : i' = i ∧ j' = j
  · obtain ⟨rfl, rfl⟩ := hi; simp [h]
  · simp [hi]

theorem entry2_twice {β : Type} (f : Nat → Nat → Option β) (i j : Nat) (x y : Option β) : entry2 (entry2 f i j x) i j y = entry2 f i j y := by
  funext i' j'
  unfold entry2
  by_cases hi : i' = i ∧ j' = j
  · simp [hi]
  · simp [hi]

theorem entry2_none {β : Type} (f : Nat → Nat → Option β) (i j : Nat) (h : f i j = none) : entry2 f i j none = f := by
  funext i' j'
  unfold entry2
  by_cases hi : i' = i ∧ j' = j
  · obtain ⟨rfl, rfl⟩ := hi; simp [h]
  · simp [hi]

/-- The rest of a download from the file system. -/
theorem fetches_file {h : Handle} {contents : Bytes} (hsize : h.size.toNat = contents.length) {k : Nat} {data : Bytes} {a a' : Store} {o : Out Error Val}
    (hf : Fetches (FileSystem look) h k data a o a') (ho : a.opened h.tid.toNat h.fid.toNat = some (.file contents)) (hd : data <+: contents)
    (hk : contents.length < k + data.length) :
    o = .ok (.bytes contents) ∧ a' = { a with opened := entry2 a.opened h.tid.toNat h.fid.toNat none } := by
  induction hf with
  | budget => have := hd.length_le; omega
  | refused hl hr =>
    cases hr with
    | invalid h => exact absurd ho (h _)
    | isDir hc => rcases hc with hc | hc <;> cases hc
    | isFile hc => rcases hc with hc | hc <;> cases hc
    | absent hc => rcases hc with hc | hc | hc | hc <;> cases hc
    | full h => exact h.elim
  | chunk hl hr _ ih =>
    cases hr with
    | read ho' hc hn =>
      rw [ho] at ho'
      cases ho'
      have hne := hn (by omega)
      refine ih ho ?_ ?_
      · obtain ⟨t, rfl⟩ := hd
        rw [List.drop_left] at hc
        exact (List.prefix_append_right_inj _).mpr hc
      · have := List.length_pos_iff.mpr hne
        rw [List.length_append]; omega
  | closed hl hr =>
    have e := hd.eq_of_length_le (by omega)
    subst e
    cases hr with
    | close => exact ⟨rfl, rfl⟩
  | unclosed hl hr =>
    cases hr with
    | invalid h => exact absurd (ho.symm.trans h) nofun
    | isDir hc => rcases hc with hc | hc <;> cases hc
    | isFile hc => rcases hc with hc | hc <;> cases hc
    | absent hc => rcases hc with hc | hc | hc | hc <;> cases hc
    | full h => exact h.elim

/-- The rest of a listing from the file system. -/
theorem continues_search {share : Share} {sid : UInt16} {k : Nat} {got l : List DirInfo} {a a' : Store} {o : Out Error Val}
    (hf : Continues (FileSystem look) unicode share sid k got a o a') (hs : a.searches share.tid.toNat sid.toNat = some l) (hg : got ≠ []) (hl : l ≠ [])
    (hn : ∀ d ∈ got ++ l, utf16Len d.filename ≤ 32725) (hk : l.length ≤ k) :
    o = .ok (.entries (got ++ l)) ∧ a' = { a with searches := entry2 a.searches share.tid.toNat sid.toNat none } := by
  induction hf generalizing l with
  | budget => exact absurd (List.length_pos_iff.mpr hl) (by omega)
  | long hlast ho => exact absurd (hn _ (List.mem_append_left _ (List.mem_of_getLast? hlast))) ho.1
  | refused _ hr =>
    cases hr with
    | invalid h => exact absurd (hs.symm.trans h) nofun
    | isDir hc => rcases hc with hc | hc <;> cases hc
    | isFile hc => rcases hc with hc | hc <;> cases hc
    | absent hc => rcases hc with hc | hc | hc | hc <;> cases hc
    | full h => exact h.elim
  | ended _ hr =>
    cases hr with
    | @next _ _ _ _ rest hs' hd hn' =>
      rw [hs] at hs'
      cases hs'
      have : rest = [] := hd.mp rfl
      subst this
      simp [left]
  | @more k got page last a a1 a' o hlast hr _ _ ih =>
    cases hr with
    | @next _ _ _ _ rest hs' hd hn' =>
      rw [hs] at hs'
      cases hs'
      have hr : rest ≠ [] := fun h => by have := hd.mpr h; simp at this
      have := List.length_pos_iff.mpr hn'
      dsimp only at this hk hn ⊢
      rw [List.length_append] at hk
      obtain ⟨h1, h2⟩ := ih (l := rest) (by show entry2 _ _ _ _ _ _ = _; rw [entry2_same, left, if_neg hr]) (by simp [hg]) hr (by simpa using hn) (by omega)
      refine ⟨by rw [h1, List.append_assoc], ?_⟩
      rw [h2]
      dsimp only
      rw [entry2_twice]

/-- What is done with the service is what a user of the file system expects. -/
theorem behaves_expected {a a' : Store} {op : Op} {o : Out Error Val} (hb : Behaves (FileSystem look) unicode a op o a') (hc : a.Can look unicode op) :
    a.Expects look op o a' := by
  obtain ⟨hfit, hc⟩ := hc
  cases hb with
  | long ho => exact absurd hfit ho.1
  | single hcall hr => exact .single hcall hr
  | unopened hr =>
    obtain ⟨⟨i, hi, hroom⟩, vol, hvol, hk⟩ := hc
    cases hr with
    | absent hc hv hp =>
      rcases hc with hc | hc | hc | hc <;> cases hc
      exact .absent hv hp
    | isDir hc hv hp =>
      rcases hc with hc | hc <;> cases hc
      exact .isDir hv hp
    | isFile hc => rcases hc with hc | hc <;> cases hc
    | invalid h => exact absurd (hvol.symm.trans h) nofun
    | full h => exact absurd hroom (h i hi)
  | opened hr hs =>
    obtain ⟨⟨i, hi, hroom⟩, vol, hvol, hk⟩ := hc
    cases hr with
    | «open» hv hp hsize ht hf =>
      cases hvol.symm.trans hv
      have e := ht
      rw [← ht] at hs hf
      obtain ⟨h1, h2⟩ := fetches_file hsize hs (entry2_same _ _ _ _) List.nil_prefix (by simpa using hk _ hp)
      dsimp only at h2
      rw [entry2_back _ _ _ _ hf] at h2
      subst h1 h2
      exact .file hv hp
  | unlisted hr =>
    obtain ⟨⟨i, hi, hroom⟩, vol, hvol, hk, hn⟩ := hc
    cases hr with
    | isDir hc => rcases hc with hc | hc <;> cases hc
    | isFile hc => rcases hc with hc | hc <;> cases hc
    | absent hc => rcases hc with hc | hc | hc | hc <;> cases hc
    | invalid h => exact absurd (hvol.symm.trans h) nofun
    | full h => exact absurd hroom (h i hi)
  | listed hd hr =>
    cases hr with
    | first hv hl hdone hn hf =>
      have := hdone.mp hd
      subst this
      rw [left, if_pos rfl, entry2_none _ _ _ hf]
      rw [List.append_nil] at hl
      rw [← hl]
      exact .listed hv
  | listing hd hr hs =>
    obtain ⟨⟨i, hi, hroom⟩, vol, hvol, hk, hnames⟩ := hc
    cases hr with
    | @first _ _ _ _ rest hv hl hdone hn hf =>
      cases hvol.symm.trans hv
      have hr : rest ≠ [] := fun h => by rw [hdone.mpr h] at hd; cases hd
      rw [hl] at hk hnames
      rw [List.length_append] at hk
      obtain ⟨h1, h2⟩ := continues_search hs (l := rest) (by show entry2 _ _ _ _ _ _ = _; rw [entry2_same, left, if_neg hr]) (hn hd) hr hnames (by omega)
      dsimp only at h2
      rw [entry2_back _ _ _ _ hf] at h2
      rw [← hl] at h1
      subst h1 h2
      exact .listed hv

variable {rel : Store → σ → Prop}

/-- **C80** (partial: further pages of a search have to be written as `find_next` reads them, see `C80_violated`) An operation with a server that offers a file system: its outcome is what the user of a file system expects, and the file system
changes only as it should. In particular a download or a listing leaves nothing open. -/
theorem C80_operation_partial {s : St σ} (hi : Implements E.V own s.cli.useUnicode s.cli.uid.toNat (FileSystem look) rel) (op : Op) (n : Nat) (a : Store)
    (hr : Ready E own (n + cost op) s) (ha : rel a s.w.srv) (hc : a.Can look s.cli.useUnicode op) :
    ∃ o a' s', a.Expects look op o a' ∧ runOp E op s = (o, s') ∧ rel a' s'.w.srv ∧ SameUser s.cli s'.cli ∧ Ready E own n s' := by
  obtain ⟨o, a', s', h1, h2⟩ := C66_operation hi op n a hr ha
  exact ⟨o, a', s', behaves_expected h1 hc, h2⟩

/-- **C80** (partial, as above) A program, whose operations may depend on the outcomes of all earlier ones: what it ensures with every file system, it does with the
server. -/
theorem C80_program_partial {p : Prog α} {Q : α → Store → Prop} {a : Store} {s : St σ}
    (hi : Implements E.V own s.cli.useUnicode s.cli.uid.toNat (FileSystem look) rel) (n : Nat) (hr : Ready E own n s) (hn : p.Within n)
    (ha : rel a s.w.srv) (he : p.Ensures look s.cli.useUnicode Q a) :
    ∃ x a' s', p.run E s = (x, s') ∧ Q x a' ∧ rel a' s'.w.srv ∧ SameUser s.cli s'.cli := by
  induction p generalizing s n a with
  | done y => exact ⟨y, a, s, rfl, he, ha, rfl, rfl⟩
  | call op next ih =>
    obtain ⟨o, a1, s1, h0, h1, h2, h3, h4⟩ := C80_operation_partial hi op (n - cost op) a (by rw [Nat.sub_add_cancel hn.1]; exact hr) ha he.1
    obtain ⟨x, a', s', h5, h6, h7, h8⟩ := ih o (s := s1) (by rw [h3.1, h3.2]; exact hi) (n - cost op) h4 (hn.2 _) h2 (by rw [h3.1]; exact he.2 _ _ h0)
    refine ⟨x, a', s', ?_, h6, h7, h8.1.trans h3.1, h8.2.trans h3.2⟩
    show (next (runOp E op s).1).run E (runOp E op s).2 = _
    rw [h1]
    exact h5

/-- A program that ensures something ensures what follows from it. -/
theorem Ensures_mono {unicode : Bool} {Q R : α → Store → Prop} (h : ∀ x a, Q x a → R x a) {p : Prog α} {a : Store} (he : p.Ensures look unicode Q a) :
    p.Ensures look unicode R a := by
  induction p generalizing a with
  | done x => exact h _ _ he
  | call op next ih => exact ⟨he.1, fun o a' ho => ih o (he.2 o a' ho)⟩

/-- **C80** (partial, as above) From the outside: a program that connects to a server with a door, and gives the right password, sees the file system behind it. -/
theorem C80_session_partial {password : Str → Str → Option Str} {room : Nat} {fresh : σ → Prop} {asked : Bool → σ → Prop}
    {challenged : Bool → Nat → Bytes → Nat → σ → Prop} {legacy : Bool → Bytes → σ → Prop} {inside : Bool → Nat → σ → Prop} {outside : σ → Prop}
    (hD : Doorkeeper E.V own E.C.hashes E.C.des password room fresh asked challenged legacy inside outside) {dial : Dial σ} {port : UInt16}
    {auth : Auth} {w : World σ} (hdial : dial port = .ok w) {n : Nat} (hr : Ready E own (n + 3) { cli := .init auth, w }) (hs : fresh w.srv)
    (fit : NamesFit auth.user auth.workstation auth.domain room) (h0 : 0 ≤ E.now) (h1 : 10 * (E.now / 1000) < 2 ^ 64)
    (hp : password auth.user auth.domain = some auth.password) {a : Store}
    (hi : ∀ unicode uid v, inside unicode uid v → Implements E.V own unicode uid (FileSystem look) rel ∧ rel a v) {p : Prog α} (hw : p.Within n)
    {Q : α → Store → Prop} (he : ∀ unicode, p.Ensures look unicode Q a) :
    ∃ s1 x a' s', openCifs E dial (some port) (some auth) = { outcome := .ok (), state := some s1, ports := [port] } ∧
      p.run E s1 = (x, s') ∧ Q x a' ∧ rel a' s'.w.srv := by
  obtain ⟨s1, h2, h3, _, h4⟩ := C69_right hD hr hs fit h0 h1 hp
  obtain ⟨h5, h6⟩ := hi _ _ _ h4
  obtain ⟨x, a', s', h7, h8, h9, _⟩ := C80_program_partial h5 n h3 hw h6 (he _)
  refine ⟨s1, x, a', s', ?_, h7, h8, h9⟩
  simp only [openCifs, openRaw, hdial, Option.getD_some, h2]

/-! ## Such servers exist -/

open Demo

/-- An entry that fits a reply. -/
def EntryFits (d : DirInfo) : Prop := ∃ r : C36_Record, r.Fits ∧ r.info = d ∧ r.wide.length + r.pad.length < 59000

/-- A store that can be offered: files have less than 2^64 bytes; the numbers of trees have 16 bits; searches that are not yet ended have entries left, which fit replies. -/
structure Spec.Store.Sound (a : Store) : Prop where
  files : ∀ name vol path contents, a.disk name = some vol → vol path = some (.file contents) → contents.length < 2 ^ 64
  trees : ∀ tid name, a.mounted tid = some name → tid < 65536
  searches : ∀ tid sid l, a.searches tid sid = some l → l ≠ [] ∧ ∀ d ∈ l, EntryFits d

theorem first_speakable (tid : Nat) (pattern : Str) (sid : UInt16) (d : DirInfo) (hd : EntryFits d) (ended : Bool) :
    Speakable (.findFirst tid pattern) (.value (.first { sid := sid, done := ended, info := [d] })) := by
  obtain ⟨r, hr, rfl, hl⟩ := hd
  refine ⟨pageParams sid (if ended then [[r]] else [[r], []]) 0, C36_measured [r], ⟨?_, ?_, .inr (by simp)⟩, ?_⟩
  · have := pageParams_first sid (if ended then [[r]] else [[r], []]) [r] (by cases ended <;> rfl) (by simp)
    cases ended <;> exact this
  · exact listed_zero (measured_listed (C37_all [r] (by simpa using hr)))
  · have := record_length (64 + r.wide.length + r.pad.length) r
    rw [C36_measured, C36_measured, List.append_nil, this]
    have : (pageParams sid (if ended then [[r]] else [[r], []]) 0).length = 10 := rfl
    constructor <;> omega

theorem next_speakable (tid sid : Nat) (last : Str) (d : DirInfo) (hd : EntryFits d) (ended : Bool) :
    Speakable (.findNext tid sid last) (.value (.next { done := ended, info := [d] })) := by
  obtain ⟨r, hr, rfl, hl⟩ := hd
  refine ⟨pageParams 0 (if ended then [[], [r]] else [[], [r], []]) 1, C36_measured [r], ⟨?_, ?_, .inr (by simp)⟩, ?_⟩
  · have := pageParams_next 0 (if ended then [[], [r]] else [[], [r], []]) 1 (by omega) [r] (by cases ended <;> rfl) (by simp)
    cases ended <;> exact this
  · exact measured_listed (C37_all [r] (by simpa using hr))
  · have := record_length (64 + r.wide.length + r.pad.length) r
    rw [C36_measured, C36_measured, List.append_nil, this]
    have : (pageParams 0 (if ended then [[], [r]] else [[], [r], []]) 1).length = 8 := rfl
    constructor <;> omega

theorem sound_left {a : Store} (ha : a.Sound) {tid sid : Nat} {rest : List DirInfo} (h : ∀ d ∈ rest, EntryFits d) :
    ∀ t i l, entry2 a.searches tid sid (left rest) t i = some l → l ≠ [] ∧ ∀ d ∈ l, EntryFits d := by
  intro t i l hl
  unfold entry2 at hl
  split at hl
  · unfold left at hl
    split at hl
    · cases hl
    · cases hl; exact ⟨‹_›, h⟩
  · exact ha.searches _ _ _ hl

theorem sound_without {a : Store} (ha : a.Sound) (tid : Nat) (path : Str) : (a.without tid path).Sound := by
  refine ⟨fun name vol' path' contents' hd hp' => ?_, ha.trees, ha.searches⟩
  unfold Store.without at hd
  dsimp only at hd
  split at hd
  · obtain ⟨v, hv', rfl⟩ := Option.map_eq_some_iff.mp hd
    unfold Volume.without at hp'
    split at hp'
    · cases hp'
    · exact ha.files _ _ _ _ hv' hp'
  · exact ha.files _ _ _ _ hd hp'

/-- In a sound store, every call has an answer that fits a reply and leaves the store sound. -/
theorem sound_step (hl : ∀ vol pattern, ∀ d ∈ look vol pattern, EntryFits d) {a : Store} (ha : a.Sound) (c : Call) :
    ∃ r a', FileSystem look a c r a' ∧ Speakable c r ∧ a'.Sound := by
  have hx : (0xC0000008 : UInt32) ≠ 0 := by decide
  have room : ∀ f : Nat → Bool, (∀ i < 65536, f i = true) ∨ ∃ i : UInt16, f i.toNat = false := by
    intro f
    by_cases h : ∃ i, i < 65536 ∧ f i = false
    · obtain ⟨i, hi, h⟩ := h
      exact .inr ⟨UInt16.ofNat i, by rw [UInt16.toNat_ofNat_of_lt' hi]; exact h⟩
    · refine .inl fun i hi => ?_
      cases e : f i with
      | true => rfl
      | false => exact absurd ⟨i, hi, e⟩ h
  have trees : ∀ {f : Nat → Option Str} {i : Nat} {x : Option Str}, (∀ t n, f t = some n → t < 65536) → i < 65536 →
      ∀ t n, entry f i x t = some n → t < 65536 := by
    intro f i x hf hi t n h
    unfold entry at h
    split at h
    · omega
    · exact hf _ _ h
  cases c with
  | mount password name =>
    cases hd : a.disk name with
    | none => exact ⟨_, _, .unknown hd, (by decide : (0xC00000CC : UInt32) ≠ 0), ha⟩
    | some vol =>
      rcases room fun i => (a.mounted i).isSome with h | ⟨i, h⟩
      · exact ⟨_, _, .full (status := 0xC0000008) (fun i hi e => by have := h i hi; rw [e] at this; cases this), hx, ha⟩
      · exact ⟨_, _, .mount (share := { tid := i, accessRights := none, guestRights := none, service := ['A', ':'], filesystem := ['N'] }) hd (by simpa using h),
          ⟨by simp, by simp, fun _ => rfl, (by decide : '\x00' ∉ ['A', ':']), (by decide : '\x00' ∉ ['N']),
            (by decide +kernel : (utf8Bytes ['A', ':']).length + (encodeUtf16le ['N']).length < 65000)⟩, ha.files, trees ha.trees i.toNat_lt, ha.searches⟩
  | umount tid =>
    cases hm : a.mounted tid with
    | none => exact ⟨_, _, .invalid (status := 0xC0000008) hm, hx, ha⟩
    | some name => exact ⟨_, _, .umount hm, trivial, ha.files, fun t n h => by
        unfold entry at h; dsimp only at h; split at h
        · cases h
        · exact ha.trees _ _ h, ha.searches⟩
  | openfile tid path =>
    cases hv : a.volume tid with
    | none => exact ⟨_, _, .invalid (status := 0xC0000008) hv, hx, ha⟩
    | some vol =>
      cases hp : vol path with
      | none => exact ⟨_, _, .absent (.inl rfl) hv hp, (by decide : (0xC0000034 : UInt32) ≠ 0), ha⟩
      | some node =>
        cases node with
        | dir => exact ⟨_, _, .isDir (.inl rfl) hv hp, (by decide : (0xC00000BA : UInt32) ≠ 0), ha⟩
        | file contents =>
        rcases room fun i => (a.opened tid i).isSome with h | ⟨i, h⟩
        · exact ⟨_, _, .full (status := 0xC0000008) (fun i hi e => by have := h i hi; rw [e] at this; cases this), hx, ha⟩
        · have hlen : contents.length < 2 ^ 64 := by
            unfold Store.volume at hv
            split at hv
            · exact ha.files _ _ _ _ hv hp
            · cases hv
          have htid : tid < 65536 := by
            unfold Store.volume at hv
            split at hv
            · exact ha.trees _ _ ‹_›
            · cases hv
          exact ⟨_, _, .open (h := { handle with tid := UInt16.ofNat tid, fid := i, size := UInt64.ofNat contents.length }) hv hp
            (UInt64.toNat_ofNat_of_lt' hlen) (UInt16.toNat_ofNat_of_lt' htid) (by simpa using h),
            ⟨(by decide : handle.oplock.toNat < 4), (by decide : handle.disposition.toNat < 8),
              (by decide : handle.attributes.toNat &&& attrMask = handle.attributes.toNat), (by decide : handle.fileType.toNat < 8)⟩, ha.files, ha.trees, ha.searches⟩
  | opendir tid path =>
    cases hv : a.volume tid with
    | none => exact ⟨_, _, .invalid (status := 0xC0000008) hv, hx, ha⟩
    | some vol =>
      cases hp : vol path with
      | none => exact ⟨_, _, .absent (.inr (.inl rfl)) hv hp, (by decide : (0xC0000034 : UInt32) ≠ 0), ha⟩
      | some node =>
        cases node with
        | file contents => exact ⟨_, _, .isFile (.inl rfl) hv hp, (by decide : (0xC0000103 : UInt32) ≠ 0), ha⟩
        | dir =>
        rcases room fun i => (a.opened tid i).isSome with h | ⟨i, h⟩
        · exact ⟨_, _, .full (status := 0xC0000008) (fun i hi e => by have := h i hi; rw [e] at this; cases this), hx, ha⟩
        · have htid : tid < 65536 := by
            unfold Store.volume at hv
            split at hv
            · exact ha.trees _ _ ‹_›
            · cases hv
          exact ⟨_, _, .opendir (h := { handle with tid := UInt16.ofNat tid, fid := i }) hv hp (UInt16.toNat_ofNat_of_lt' htid) (by simpa using h),
            ⟨(by decide : handle.oplock.toNat < 4), (by decide : handle.disposition.toNat < 8),
              (by decide : handle.attributes.toNat &&& attrMask = handle.attributes.toNat), (by decide : handle.fileType.toNat < 8)⟩, ha.files, ha.trees, ha.searches⟩
  | close tid fid =>
    cases ho : a.opened tid fid with
    | none => exact ⟨_, _, .invalid (status := 0xC0000008) ho, hx, ha⟩
    | some contents => exact ⟨_, _, .close ho, trivial, ha.files, ha.trees, ha.searches⟩
  | read tid fid offset =>
    cases ho : a.opened tid fid with
    | none => exact ⟨_, _, .invalid (status := 0xC0000008) (fun _ h => by rw [ho] at h; cases h), hx, ha⟩
    | some node =>
      cases node with
      | dir => exact ⟨_, _, .invalid (status := 0xC0000008) (fun _ h => by rw [ho] at h; cases h), hx, ha⟩
      | file contents =>
      refine ⟨_, _, .read (chunk := (contents.drop offset).take 1000) ho (List.take_prefix _ _) (fun h e => ?_), ?_, ha⟩
      · have := congrArg List.length e
        simp at this
        omega
      · show ((contents.drop offset).take 1000).length < 65536
        rw [List.length_take]; omega
  | delete tid path =>
    cases hv : a.volume tid with
    | none => exact ⟨_, _, .invalid (status := 0xC0000008) hv, hx, ha⟩
    | some vol =>
      cases hp : vol path with
      | none => exact ⟨_, _, .absent (.inr (.inr (.inl rfl))) hv hp, (by decide : (0xC0000034 : UInt32) ≠ 0), ha⟩
      | some node =>
        cases node with
        | dir => exact ⟨_, _, .isDir (.inr rfl) hv hp, (by decide : (0xC00000BA : UInt32) ≠ 0), ha⟩
        | file contents => exact ⟨_, _, .delete hv hp, trivial, sound_without ha _ _⟩
  | rmdir tid path =>
    cases hv : a.volume tid with
    | none => exact ⟨_, _, .invalid (status := 0xC0000008) hv, hx, ha⟩
    | some vol =>
      cases hp : vol path with
      | none => exact ⟨_, _, .absent (.inr (.inr (.inr rfl))) hv hp, (by decide : (0xC0000034 : UInt32) ≠ 0), ha⟩
      | some node =>
        cases node with
        | file contents => exact ⟨_, _, .isFile (.inr rfl) hv hp, (by decide : (0xC0000103 : UInt32) ≠ 0), ha⟩
        | dir =>
          by_cases he : vol.Empty path
          · exact ⟨_, _, .rmdir hv hp he, trivial, sound_without ha _ _⟩
          · exact ⟨_, _, .notEmpty hv hp he, (by decide : (0xC0000101 : UInt32) ≠ 0), ha⟩
  | notify tid fid what =>
    by_cases ho : a.opened tid fid = some .dir
    · exact ⟨_, _, .notify (l := []) ho, ⟨[], .none, by decide⟩, ha⟩
    · exact ⟨_, _, .invalid (status := 0xC0000008) ho, hx, ha⟩
  | findFirst tid pattern =>
    cases hv : a.volume tid with
    | none => exact ⟨_, _, .invalid (status := 0xC0000008) hv, hx, ha⟩
    | some vol =>
      rcases room fun i => (a.searches tid i).isSome with h | ⟨i, h⟩
      · exact ⟨_, _, .full (status := 0xC0000008) (fun i hi e => by have := h i hi; rw [e] at this; cases this), hx, ha⟩
      · have hi : a.searches tid i.toNat = none := by simpa using h
        cases e : look vol pattern with
        | nil =>
          refine ⟨_, _, .first (r := { sid := i, done := true, info := [] }) (rest := []) hv e (by simp) (by simp) hi, ?_, ha.files, ha.trees, ?_⟩
          · exact ⟨pageParams i [[]] 0, [], ⟨pageParams_first i [[]] [] rfl (by simp), .none, .inl rfl⟩, by show 10 < 30000; decide, by show 0 < 65536; decide⟩
          · dsimp only
            rw [left, if_pos rfl, entry2_none _ _ _ hi]
            exact ha.searches
        | cons d rest =>
          have hall := hl vol pattern
          rw [e] at hall
          refine ⟨_, _, .first (r := { sid := i, done := rest.isEmpty, info := [d] }) (rest := rest) hv e (by simp) (by simp) hi,
            first_speakable _ _ _ _ (hall _ (by simp)) _, ha.files, ha.trees, sound_left ha (fun x hx => hall x (by simp [hx]))⟩
  | findNext tid sid last =>
    cases hs : a.searches tid sid with
    | none => exact ⟨_, _, .invalid (status := 0xC0000008) hs, hx, ha⟩
    | some l =>
      obtain ⟨hne, hall⟩ := ha.searches _ _ _ hs
      cases l with
      | nil => exact absurd rfl hne
      | cons d rest =>
        exact ⟨_, _, .next (r := { done := rest.isEmpty, info := [d] }) (rest := rest) hs (by simp) (by simp),
          next_speakable _ _ _ _ (hall _ (by simp)) _, ha.files, ha.trees, sound_left ha (fun x hx => hall x (by simp [hx]))⟩

/-- A way to serve a file system. -/
theorem serve_files (hl : ∀ vol pattern, ∀ d ∈ look vol pattern, EntryFits d) :
    ∃ step : Store → Call → Answer × Store, (∀ a c, Speakable c (step a c).1) ∧
      ∀ a c, a.Sound → FileSystem look a c (step a c).1 (step a c).2 ∧ (step a c).2.Sound := by
  classical
  refine ⟨fun a c => if h : ∃ x : Answer × Store, FileSystem look a c x.1 x.2 ∧ Speakable c x.1 ∧ x.2.Sound then h.choose else (.refused 1, a),
    fun a c => ?_, fun a c ha => ?_⟩
  · by_cases h : ∃ x : Answer × Store, FileSystem look a c x.1 x.2 ∧ Speakable c x.1 ∧ x.2.Sound
    · simp only [dif_pos h]; exact h.choose_spec.2.1
    · simp only [dif_neg h]; exact (by decide : (1 : UInt32) ≠ 0)
  · obtain ⟨r0, a0, h0⟩ := sound_step hl ha c
    have h : ∃ x : Answer × Store, FileSystem look a c x.1 x.2 ∧ Speakable c x.1 ∧ x.2.Sound := ⟨(r0, a0), h0⟩
    simp only [dif_pos h]
    exact ⟨h.choose_spec.1, h.choose_spec.2.2⟩

theorem serve_implements {V : Server σ} {own : Nat → Prop} {unicode : Bool} {uid : Nat} {step : Store → Call → Answer × Store} {rel : Store → σ → Prop}
    (hs : ∀ a c, a.Sound → FileSystem look a c (step a c).1 (step a c).2 ∧ (step a c).2.Sound)
    (hV : Implements V own unicode uid (fun a c r a' => step a c = (r, a')) rel) :
    Implements V own unicode uid (FileSystem look) (fun a v => rel a v ∧ a.Sound) := by
  intro a v req c hr hc hu
  obtain ⟨r, a', h1, h2, h3⟩ := hV a v req c hr.1 hc hu
  have h4 := hs a c hr.2
  rw [h1] at h4
  exact ⟨r, a', h4.1, h2, h3, h4.2⟩

/-- **C80** Every file system is offered by some server, as long as the entries of its directories fit replies and no file has 2^64 bytes. -/
theorem C80_services (own : Nat → Prop) (unicode : Bool) (hl : ∀ vol pattern, ∀ d ∈ look vol pattern, EntryFits d) :
    ∃ V : Server Store, ∀ uid, Implements V own unicode uid (FileSystem look) (fun a v => a = v ∧ a.Sound) := by
  obtain ⟨step, h1, h2⟩ := serve_files hl
  obtain ⟨V, hV⟩ := C66_services own unicode step h1
  exact ⟨V, fun uid => serve_implements h2 (hV uid)⟩

/-! ## What the operations bring, one by one -/

theorem expects_mount {a a' : Store} {path password : Str} {o : Out Error Val} (h : a.Expects look (.mount path password) o a') {vol : Volume}
    (hd : a.disk (backslashed path) = some vol) (hf : ∃ i, i < 65536 ∧ a.mounted i = none) :
    ∃ share : Share, o = .ok (.share share) ∧ a.mounted share.tid.toNat = none ∧
      a' = { a with mounted := entry a.mounted share.tid.toNat (some (backslashed path)) } := by
  obtain ⟨i, hi, hf⟩ := hf
  cases h with
  | single hc hr =>
    cases hc
    cases hr with
    | unknown h => rw [hd] at h; cases h
    | isDir hc => rcases hc with hc | hc <;> cases hc
    | isFile hc => rcases hc with hc | hc <;> cases hc
    | absent hc => rcases hc with hc | hc | hc | hc <;> cases hc
    | invalid h => exact h.elim
    | full h => exact absurd hf (h i hi)
    | mount _ hf => exact ⟨_, rfl, hf, rfl⟩

theorem expects_umount {a a' : Store} {share : Share} {o : Out Error Val} (h : a.Expects look (.umount share) o a') {name : Str}
    (hm : a.mounted share.tid.toNat = some name) : o = .ok .unit ∧ a' = { a with mounted := entry a.mounted share.tid.toNat none } := by
  cases h with
  | single hc hr =>
    cases hc
    cases hr with
    | umount => exact ⟨rfl, rfl⟩
    | isDir hc => rcases hc with hc | hc <;> cases hc
    | isFile hc => rcases hc with hc | hc <;> cases hc
    | absent hc => rcases hc with hc | hc | hc | hc <;> cases hc
    | invalid h => exact absurd (hm.symm.trans h) nofun
    | full h => exact h.elim

theorem expects_download {a a' : Store} {k : Nat} {share : Share} {path : Str} {o : Out Error Val} (h : a.Expects look (.download k share path) o a')
    {vol : Volume} (hv : a.volume share.tid.toNat = some vol) :
    a' = a ∧ o = match vol (backslashed path) with
      | some (.file contents) => .ok (.bytes contents)
      | some .dir => .err (.ServerError (.Known .FILE_IS_DIRECTORY))
      | none => .err (.ServerError (.Known .NAME_NOT_FOUND)) := by
  cases h with
  | single hc => cases hc
  | file hv' hp => cases hv.symm.trans hv'; rw [hp]; exact ⟨rfl, rfl⟩
  | isDir hv' hp => cases hv.symm.trans hv'; rw [hp]; exact ⟨rfl, rfl⟩
  | absent hv' hp => cases hv.symm.trans hv'; rw [hp]; exact ⟨rfl, rfl⟩

theorem expects_list {a a' : Store} {k : Nat} {share : Share} {pattern : Str} {o : Out Error Val} (h : a.Expects look (.list k share pattern) o a')
    {vol : Volume} (hv : a.volume share.tid.toNat = some vol) : a' = a ∧ o = .ok (.entries (look vol (backslashed pattern))) := by
  cases h with
  | single hc => cases hc
  | listed hv' => cases hv.symm.trans hv'; exact ⟨rfl, rfl⟩

theorem expects_delete {a a' : Store} {share : Share} {path : Str} {o : Out Error Val} (h : a.Expects look (.delete share path) o a')
    {vol : Volume} (hv : a.volume share.tid.toNat = some vol) {contents : Bytes} (hp : vol (backslashed path) = some (.file contents)) :
    a' = a.without share.tid.toNat (backslashed path) ∧ o = .ok .unit := by
  cases h with
  | single hc hr =>
    cases hc
    cases hr with
    | delete => exact ⟨rfl, rfl⟩
    | absent hc hv' hp' => rcases hc with hc | hc | hc | hc <;> cases hc; cases hv.symm.trans hv'; rw [hp] at hp'; cases hp'
    | isDir hc hv' hp' => rcases hc with hc | hc <;> cases hc; cases hv.symm.trans hv'; rw [hp] at hp'; cases hp'
    | isFile hc => rcases hc with hc | hc <;> cases hc
    | invalid h => exact absurd (hv.symm.trans h) nofun
    | full h => exact h.elim

theorem expects_opendir {a a' : Store} {share : Share} {path : Str} {o : Out Error Val} (h : a.Expects look (.opendir share path) o a')
    {vol : Volume} (hv : a.volume share.tid.toNat = some vol) (hp : vol (backslashed path) = some .dir)
    (hf : ∃ i, i < 65536 ∧ a.opened share.tid.toNat i = none) :
    ∃ h : Handle, o = .ok (.handle h) ∧ h.tid = share.tid ∧ a.opened h.tid.toNat h.fid.toNat = none ∧
      a' = { a with opened := entry2 a.opened h.tid.toNat h.fid.toNat (some .dir) } := by
  obtain ⟨i, hi, hf⟩ := hf
  cases h with
  | single hc hr =>
    cases hc
    cases hr with
    | opendir hv' hp' ht hf =>
      rw [← ht] at hf ⊢
      exact ⟨_, rfl, UInt16.toNat_inj.mp ht, hf, rfl⟩
    | absent hc hv' hp' => rcases hc with hc | hc | hc | hc <;> cases hc; cases hv.symm.trans hv'; rw [hp] at hp'; cases hp'
    | isFile hc hv' hp' => rcases hc with hc | hc <;> cases hc; cases hv.symm.trans hv'; rw [hp] at hp'; cases hp'
    | isDir hc => rcases hc with hc | hc <;> cases hc
    | invalid h => exact absurd (hv.symm.trans h) nofun
    | full h => exact absurd hf (h i hi)

theorem expects_nodir {a a' : Store} {share : Share} {path : Str} {o : Out Error Val} (h : a.Expects look (.opendir share path) o a')
    {vol : Volume} (hv : a.volume share.tid.toNat = some vol) (hp : vol (backslashed path) = none)
    (hf : ∃ i, i < 65536 ∧ a.opened share.tid.toNat i = none) : a' = a ∧ o = .err (.ServerError (.Known .NAME_NOT_FOUND)) := by
  obtain ⟨i, hi, hf⟩ := hf
  cases h with
  | single hc hr =>
    cases hc
    cases hr with
    | opendir hv' hp' => cases hv.symm.trans hv'; rw [hp] at hp'; cases hp'
    | absent hc hv' hp' => exact ⟨rfl, rfl⟩
    | isFile hc hv' hp' => rcases hc with hc | hc <;> cases hc; cases hv.symm.trans hv'; rw [hp] at hp'; cases hp'
    | isDir hc => rcases hc with hc | hc <;> cases hc
    | invalid h => exact absurd (hv.symm.trans h) nofun
    | full h => exact absurd hf (h i hi)

theorem expects_notify {a a' : Store} {h : Handle} {what : UInt32} {o : Out Error Val} (he : a.Expects look (.notify h what) o a')
    (ho : a.opened h.tid.toNat h.fid.toNat = some .dir) : a' = a ∧ ∃ l, o = .ok (.changes l) := by
  cases he with
  | single hc hr =>
    cases hc
    cases hr with
    | notify => exact ⟨rfl, _, rfl⟩
    | invalid h => exact absurd ho h
    | isDir hc => rcases hc with hc | hc <;> cases hc
    | isFile hc => rcases hc with hc | hc <;> cases hc
    | absent hc => rcases hc with hc | hc | hc | hc <;> cases hc
    | full h => exact h.elim

theorem expects_close {a a' : Store} {h : Handle} {o : Out Error Val} (he : a.Expects look (.close h) o a') {node : Node}
    (ho : a.opened h.tid.toNat h.fid.toNat = some node) :
    a' = { a with opened := entry2 a.opened h.tid.toNat h.fid.toNat none } ∧ o = .ok .unit := by
  cases he with
  | single hc hr =>
    cases hc
    cases hr with
    | close => exact ⟨rfl, rfl⟩
    | invalid h => exact absurd (ho.symm.trans h) nofun
    | isDir hc => rcases hc with hc | hc <;> cases hc
    | isFile hc => rcases hc with hc | hc <;> cases hc
    | absent hc => rcases hc with hc | hc | hc | hc <;> cases hc
    | full h => exact h.elim

theorem expects_rmdir {a a' : Store} {share : Share} {path : Str} {o : Out Error Val} (h : a.Expects look (.rmdir share path) o a')
    {vol : Volume} (hv : a.volume share.tid.toNat = some vol) (hp : vol (backslashed path) = some .dir) :
    vol.Empty (backslashed path) ∧ a' = a.without share.tid.toNat (backslashed path) ∧ o = .ok .unit ∨
      ¬ vol.Empty (backslashed path) ∧ a' = a ∧ o = .err (.ServerError (.Known .DIRECTORY_NOT_EMPTY)) := by
  cases h with
  | single hc hr =>
    cases hc
    cases hr with
    | rmdir hv' _ he => cases hv.symm.trans hv'; exact .inl ⟨he, rfl, rfl⟩
    | notEmpty hv' _ he => cases hv.symm.trans hv'; exact .inr ⟨he, rfl, rfl⟩
    | absent hc hv' hp' => rcases hc with hc | hc | hc | hc <;> cases hc; cases hv.symm.trans hv'; rw [hp] at hp'; cases hp'
    | isFile hc hv' hp' => rcases hc with hc | hc <;> cases hc; cases hv.symm.trans hv'; rw [hp] at hp'; cases hp'
    | isDir hc => rcases hc with hc | hc <;> cases hc
    | invalid h => exact absurd (hv.symm.trans h) nofun
    | full h => exact h.elim

/-- A deletion leaves the volume mounted, without the file. -/
theorem volume_without {a : Store} {tid : Nat} {path : Str} {vol : Volume} (hv : a.volume tid = some vol) :
    (a.without tid path).volume tid = some (vol.without path) := by
  unfold Store.volume at hv ⊢
  cases hm : a.mounted tid with
  | none => rw [hm] at hv; cases hv
  | some name =>
    rw [hm] at hv
    dsimp only at hv
    simp [Store.without, hm, hv]

/-- A mounted volume can be used. -/
theorem volume_mount {a : Store} {tid : Nat} {name : Str} {vol : Volume} (hd : a.disk name = some vol) :
    { a with mounted := entry a.mounted tid (some name) }.volume tid = some vol := by
  simp [Store.volume, entry, hd]

/-! ## An example -/

namespace Demo

/-- Mount a volume, download a file, delete it, try to download it again, list what is left, and unmount the volume. -/
def tour : Prog (List (Out Error Val)) :=
  .call (.mount ['/', 'v'] []) fun m =>
    match m with
    | .ok (.share share) =>
      .call (.download 9 share ['/', 'a']) fun x => .call (.delete share ['/', 'a']) fun y => .call (.download 9 share ['/', 'a']) fun z =>
        .call (.list 9 share ['/', '*']) fun l => .call (.umount share) fun u => .done [x, y, z, l, u]
    | o => .done [o]

/-- With every file system that has this volume, the file is seen until it is deleted; the volume has lost this file in the end, and nothing
is left mounted or open. -/
theorem tour_ensures {a : Store} {vol : Volume} {contents : Bytes} (hd : a.disk ['\\', 'v'] = some vol) (hp : vol ['\\', 'a'] = some (.file contents))
    (hc : contents.length < 9) (hm : ∀ i, a.mounted i = none) (ho : ∀ t i, a.opened t i = none) (hs : ∀ t i, a.searches t i = none)
    (hl : ∀ vol pattern, (look vol pattern).length ≤ 9 ∧ ∀ d ∈ look vol pattern, utf16Len d.filename ≤ 32725) (unicode : Bool) :
    tour.Ensures look unicode (fun x a' =>
      x = [.ok (.bytes contents), .ok .unit, .err (.ServerError (.Known .NAME_NOT_FOUND)), .ok (.entries (look (vol.without ['\\', 'a']) ['\\', '*'])), .ok .unit] ∧
        (∀ i, a'.mounted i = none) ∧ a'.opened = a.opened ∧ a'.searches = a.searches ∧ a'.disk ['\\', 'v'] = some (vol.without ['\\', 'a'])) a := by
  have bv : backslashed ['/', 'v'] = ['\\', 'v'] := by decide +kernel
  have ba : backslashed ['/', 'a'] = ['\\', 'a'] := by decide +kernel
  have bs : backslashed ['/', '*'] = ['\\', '*'] := by decide +kernel
  have fa : utf16Len ['/', 'a'] ≤ nameLimit := by decide +kernel
  refine ⟨⟨by cases unicode <;> show mountLength _ _ _ < 65536 <;> decide +kernel, trivial⟩, fun o a1 he => ?_⟩
  obtain ⟨share, rfl, -, rfl⟩ := expects_mount he (by rw [bv]; exact hd) ⟨0, by decide, hm 0⟩
  rw [bv]
  have hv : { a with mounted := entry a.mounted share.tid.toNat (some ['\\', 'v']) }.volume share.tid.toNat = some vol := volume_mount hd
  refine ⟨⟨fa, ⟨0, by decide, ho _ _⟩, vol, hv, by rw [ba]; intro c e; cases hp.symm.trans e; exact hc⟩, fun o a1 he => ?_⟩
  obtain ⟨rfl, rfl⟩ := expects_download he hv
  rw [ba, hp]
  refine ⟨⟨fa, trivial⟩, fun o a1 he => ?_⟩
  obtain ⟨rfl, rfl⟩ := expects_delete he hv (by rw [ba]; exact hp)
  have hv' := volume_without (path := backslashed ['/', 'a']) hv
  rw [ba] at hv' ⊢
  have hnone : vol.without ['\\', 'a'] ['\\', 'a'] = none := by simp [Volume.without]
  refine ⟨⟨fa, ⟨0, by decide, ho _ _⟩, _, hv', by rw [ba, hnone]; intro c e; cases e⟩, fun o a1 he => ?_⟩
  obtain ⟨rfl, rfl⟩ := expects_download he hv'
  rw [ba, hnone]
  refine ⟨⟨by show utf16Len ['/', '*'] ≤ 32725; decide +kernel, ⟨0, by decide, hs _ _⟩, _, hv', hl _ _⟩, fun o a1 he => ?_⟩
  obtain ⟨rfl, rfl⟩ := expects_list he hv'
  rw [bs]
  refine ⟨⟨trivial, trivial⟩, fun o a1 he => ?_⟩
  obtain ⟨rfl, rfl⟩ := expects_umount he (name := ['\\', 'v']) (by simp [Store.without, entry])
  refine ⟨rfl, fun i => ?_, rfl, rfl, ?_⟩
  · simp [Store.without, entry, hm]
  · simp [Store.without, entry, hd]

/-- Watch a directory for a while, and remove it; try to open it afterwards. -/
def prune (share : Share) : Prog (List (Out Error Val)) :=
  .call (.opendir share ['/', 'd']) fun d =>
    match d with
    | .ok (.handle h) =>
      .call (.notify h 1) fun _ => .call (.close h) fun x => .call (.rmdir share ['/', 'd']) fun y => .call (.opendir share ['/', 'd']) fun z => .done [x, y, z]
    | o => .done [o]

/-- With every file system, this removes an empty directory, and nothing else changes. -/
theorem prune_ensures {a : Store} {vol : Volume} {share : Share} (hv : a.volume share.tid.toNat = some vol) (hp : vol ['\\', 'd'] = some .dir)
    (he : vol.Empty ['\\', 'd']) (hf : ∃ i, i < 65536 ∧ a.opened share.tid.toNat i = none) (unicode : Bool) :
    (prune share).Ensures look unicode (fun x a' =>
      x = [.ok .unit, .ok .unit, .err (.ServerError (.Known .NAME_NOT_FOUND))] ∧ a' = a.without share.tid.toNat ['\\', 'd']) a := by
  have bd : backslashed ['/', 'd'] = ['\\', 'd'] := by decide +kernel
  have fd : utf16Len ['/', 'd'] ≤ nameLimit := by decide +kernel
  refine ⟨⟨fd, trivial⟩, fun o a1 ho => ?_⟩
  obtain ⟨h, rfl, ht, hfree, rfl⟩ := expects_opendir ho hv (by rw [bd]; exact hp) hf
  refine ⟨⟨trivial, trivial⟩, fun o a1 ho => ?_⟩
  obtain ⟨rfl, l, rfl⟩ := expects_notify ho (entry2_same _ _ _ _)
  refine ⟨⟨trivial, trivial⟩, fun o a1 ho => ?_⟩
  obtain ⟨rfl, rfl⟩ := expects_close ho (entry2_same _ _ _ _)
  dsimp only
  rw [entry2_back _ _ _ _ hfree]
  refine ⟨⟨fd, trivial⟩, fun o a1 ho => ?_⟩
  rcases expects_rmdir ho hv (by rw [bd]; exact hp) with ⟨-, rfl, rfl⟩ | ⟨hne, -⟩
  · rw [bd]
    refine ⟨⟨fd, trivial⟩, fun o a1 ho => ?_⟩
    obtain ⟨rfl, rfl⟩ := expects_nodir ho (volume_without hv) (by rw [bd]; simp [Volume.without]) hf
    exact ⟨rfl, rfl⟩
  · rw [bd] at hne
    exact absurd he hne

/-- A volume with one file, and nothing else. -/
def someStore : Store where
  disk := fun name => if name = ['\\', 'v'] then some fun path => if path = ['\\', 'a'] then some (.file [1, 2, 3]) else none else none
  mounted := fun _ => none
  opened := fun _ _ => none
  searches := fun _ _ => none

/-- A directory in which everything has this name. -/
def someRecord : C36_Record :=
  { index := 0, created := 0, accessed := 0, written := 0, changed := 0, size := 0, allocated := 0, attributes := 0, name := [], wide := [], pad := [] }

theorem someStore_sound : someStore.Sound := by
  refine ⟨fun name vol path contents hd hp => ?_, nofun, nofun⟩
  unfold someStore at hd
  dsimp only at hd
  split at hd
  · cases hd
    dsimp only at hp
    split at hp
    · cases hp; decide
    · cases hp
  · cases hd

theorem someLook_fits (vol : Volume) (pattern : Str) :
    ∀ d ∈ (fun _ _ => [someRecord.info] : Volume → Str → List DirInfo) vol pattern, EntryFits d := by
  intro d hd
  simp only [List.mem_singleton] at hd
  exact ⟨someRecord, ⟨by decide, by decide, by decide, by decide, by decide, by decide, .nil⟩, hd.symm, by decide⟩

theorem tour_within : tour.Within 33 := by
  refine ⟨by decide, fun o => ?_⟩
  dsimp only
  split
  · simp [Prog.Within, cost]
  · trivial

/-- What the tour brings with this store. -/
theorem tour_someStore (unicode : Bool) : tour.Ensures (fun _ _ => [someRecord.info]) unicode (fun x _ =>
    x = [.ok (.bytes [1, 2, 3]), .ok .unit, .err (.ServerError (.Known .NAME_NOT_FOUND)), .ok (.entries [someRecord.info]), .ok .unit]) someStore :=
  Ensures_mono (fun _ _ h => h.1) (tour_ensures (a := someStore) (look := fun _ _ => [someRecord.info]) (contents := [1, 2, 3]) rfl rfl (by decide) (fun _ => rfl) (fun _ _ => rfl) (fun _ _ => rfl)
    (fun _ _ => ⟨by decide, fun d hd => by simp only [List.mem_singleton] at hd; subst hd; decide +kernel⟩) unicode)

/-- There is a server that offers this store, and a session with it; the program runs as it should. -/
example : ∃ V : Server Store, ∃ s : St Store, s.w.srv = someStore ∧
    (tour.run { env true with V := V } s).1 = [.ok (.bytes [1, 2, 3]), .ok .unit, .err (.ServerError (.Known .NAME_NOT_FOUND)), .ok (.entries [someRecord.info]), .ok .unit] := by
  obtain ⟨V, hV⟩ := C80_services (fun _ => True) true someLook_fits
  refine ⟨V, { cli := cli, w := { inbox := [], wsched := [.accept 3, .accept 10], out := [], srv := someStore } }, rfl, ?_⟩
  obtain ⟨x, a', s', h1, h2, -⟩ := C80_program_partial (E := { env true with V := V }) (own := fun _ => True) (p := tour) (a := someStore)
    (s := { cli := cli, w := { inbox := [], wsched := [.accept 3, .accept 10], out := [], srv := someStore } }) (hV _) 33
    ⟨by intro ev he; simp at he; rcases he with rfl | rfl <;> exact ⟨_, rfl⟩, .nil, fun _ _ => trivial, fun _ => by decide⟩
    tour_within ⟨rfl, someStore_sound⟩ (tour_someStore _)
  rw [h1]
  exact h2

/-- non-vacuity of `C80_session_partial`: this store, behind a door, reached over a new connection, with the real hash functions; both kinds of login. -/
example (extended : Bool) : ∃ (V : Server (Site Store)) (s1 : St (Site Store)),
    openCifs { env true with V := V, C := Crypto.real } (fun _ => .ok { inbox := [], wsched := [.accept 9], out := [], srv := .fresh someStore })
      (some 445) (some (person "me".toList "secret".toList)) = { outcome := .ok (), state := some s1, ports := [445] } ∧
    (tour.run { env true with V := V, C := Crypto.real } s1).1 =
      [.ok (.bytes [1, 2, 3]), .ok .unit, .err (.ServerError (.Known .NAME_NOT_FOUND)), .ok (.entries [someRecord.info]), .ok .unit] := by
  obtain ⟨step, h1, h2⟩ := serve_files someLook_fits
  obtain ⟨V, hD, hi⟩ := C69_possible (fun _ => True) Crypto.real.hashes Crypto.real.des accounts extended [1, 2, 3, 4, 5, 6, 7, 8] 100 step rfl h1
  obtain ⟨s1, x, a', s', h3, h4, h5, -⟩ := C80_session_partial (E := { env true with V := V, C := Crypto.real }) (hD someStore)
    (dial := fun _ => .ok { inbox := [], wsched := [.accept 9], out := [], srv := .fresh someStore }) (port := 445) (auth := person "me".toList "secret".toList) rfl (n := 33)
    ⟨by intro ev he; simp at he; subst he; exact ⟨_, rfl⟩, .nil, fun _ _ => trivial, fun _ => by decide⟩ rfl
    (person_fits (by decide) (by decide +kernel) (by decide +kernel)) (show (0 : Int) ≤ 13370000000000000000 by decide)
    (show (10 : Int) * (13370000000000000000 / 1000) < 2 ^ 64 by decide) rfl (a := someStore) (rel := fun a v => v = .inside a ∧ a.Sound)
    (fun unicode uid v h => by
      obtain ⟨rfl, rfl, rfl⟩ := h
      exact ⟨serve_implements h2 hi, rfl, someStore_sound⟩) tour_within tour_someStore
  refine ⟨V, s1, h3, ?_⟩
  rw [h4]
  exact h5

/-- A volume with an empty directory, which is mounted already. -/
def dirStore : Store where
  disk := fun name => if name = ['\\', 'v'] then some fun path => if path = ['\\', 'd'] then some .dir else none else none
  mounted := fun tid => if tid = 5 then some ['\\', 'v'] else none
  opened := fun _ _ => none
  searches := fun _ _ => none

theorem dirStore_sound : dirStore.Sound := by
  refine ⟨fun name vol path contents hd hp => ?_, fun tid name h => ?_, nofun⟩
  · unfold dirStore at hd
    dsimp only at hd
    split at hd
    · cases hd
      dsimp only at hp
      split at hp <;> cases hp
    · cases hd
  · unfold dirStore at h
    dsimp only at h
    split at h
    · omega
    · cases h

/-- There is a server that offers this store, too; the directory is removed. -/
example : ∃ V : Server Store, ∃ s s' : St Store, s.w.srv = dirStore ∧
    (prune { share with tid := 5 }).run { env true with V := V } s = ([.ok .unit, .ok .unit, .err (.ServerError (.Known .NAME_NOT_FOUND))], s') ∧
      s'.w.srv.volume 5 = some fun _ => none := by
  obtain ⟨V, hV⟩ := C80_services (fun _ => True) true someLook_fits
  refine ⟨V, { cli := cli, w := { inbox := [], wsched := [], out := [], srv := dirStore } }, ?_⟩
  obtain ⟨x, a', s', h1, ⟨rfl, h2⟩, ⟨h3, -⟩, -⟩ := C80_program_partial (E := { env true with V := V }) (own := fun _ => True) (a := dirStore) (p := prune { share with tid := 5 })
    (s := { cli := cli, w := { inbox := [], wsched := [], out := [], srv := dirStore } }) (hV _) 33
    ⟨nofun, .nil, fun _ _ => trivial, fun _ => by decide⟩
    (by
      refine ⟨by decide, fun o => ?_⟩
      dsimp only
      split
      · simp [Prog.Within, cost]
      · trivial) ⟨rfl, dirStore_sound⟩ (prune_ensures rfl rfl (fun name => by simp [List.cons_append]) ⟨0, by decide, rfl⟩ true)
  refine ⟨s', rfl, h1, ?_⟩
  rw [← h3, h2]
  show (dirStore.without 5 ['\\', 'd']).volume 5 = _
  rw [volume_without (vol := fun path => if path = ['\\', 'd'] then some .dir else none) rfl]
  congr 1
  funext p
  unfold Volume.without
  split <;> simp_all

end Demo

end Cifs
