import Verif.Spec.Standard
import Verif.Props.Disk
/-!
# File systems whose servers end lists as the standard says (C80)

With such a server, every listing that needs more than one page fails.
-/

namespace Cifs
open Spec

variable {σ α : Type} {E : Env σ} {own : Nat → Prop} {look : Volume → Str → List DirInfo} {rel : Store → σ → Prop}

/-! ## What the client makes of the pages -/

theorem closed_entries {D : Bytes} {ds : List DirInfo} (h : Closed D ds) : Entries D ds ∧ ds ≠ [] := by
  induction h with
  | last h hd => exact ⟨.last h hd, nofun⟩
  | more h h0 hl hd _ ih => exact ⟨.more h h0 hl hd ih.1, nofun⟩

theorem standard_first {P D : Bytes} {sid : Nat} {ended : Bool} {ds : List DirInfo} (h : StandardFirst P D sid ended ds) : FirstPage P D sid ended ds := by
  obtain ⟨h1, ⟨rfl, rfl, rfl⟩ | h2⟩ := h
  · exact ⟨h1, .none, .inl rfl⟩
  · obtain ⟨h3, h4⟩ := closed_entries h2
    exact ⟨h1, entries_listed h3, .inr h4⟩

/-- A list that ends with a distance of 0 is none that `find_next` reads, and has no names of odd length before its end. -/
theorem closed_unread {D : Bytes} {ds : List DirInfo} (h : Closed D ds) : (∀ ds', ¬ Listed false D ds') ∧ ¬ OddEntries false D := by
  have conflict : ∀ {b : Bytes} {n m : Nat}, u32At b 0 = some n → u32At b 0 = some m → n = m := fun h h' => Option.some.inj (h.symm.trans h')
  induction h with
  | @last b d h hd =>
    have hlen := entry_length hd
    refine ⟨fun ds' h' => ?_, fun h' => ?_⟩
    · cases h' with
      | none => simp at hlen
      | stop h4 => exact absurd (conflict h h4) (by decide)
      | bare hz => cases hz
      | last hz => cases hz
      | more hn h0 => have := conflict h hn; omega
    · cases h' with
      | last hz => cases hz
      | here hn h0 => have := conflict h hn; omega
      | later hn h0 => have := conflict h hn; omega
  | @more b next d ds h h0 hl hd hs ih =>
    have hlen := entry_length hd
    rw [List.length_take] at hlen
    refine ⟨fun ds' h' => ?_, fun h' => ?_⟩
    · cases h' with
      | none => simp at hlen
      | stop h4 => have := conflict h h4; omega
      | bare hz => cases hz
      | last hz => cases hz
      | more hn _ _ _ hs' => have := conflict h hn; subst this; exact ih.1 _ hs'
    · cases h' with
      | last hz => cases hz
      | here hn _ _ ho => have := conflict h hn; subst this; exact absurd (((dirInfo_parse (by rw [List.length_take]; omega)).1 d).mpr hd) (by rw [(dirInfo_parse (by rw [List.length_take]; omega)).2.mpr ho]; nofun)
      | later hn _ _ _ hs' => have := conflict h hn; subst this; exact ih.2 hs'

theorem standard_next {P D : Bytes} {ended : Bool} {ds : List DirInfo} (h : StandardNext P D ended ds) : ∃ e, findNext2Parse P D = .err e := by
  obtain ⟨h1, h2⟩ := closed_unread h.2
  cases hp : findNext2Parse P D with
  | ok r => exact absurd (((findNext_parse P D).1 r).mp hp).2.1 (h1 _)
  | panic => exact absurd ((findNext_parse P D).2.mp hp).2 h2
  | err e => exact ⟨e, rfl⟩

/-- **C80** With a server that ends lists as the standard says: a listing that needs one page brings everything; one that needs more fails. -/
theorem C80_pages {Does : Store → Call → Answer → Store → Prop} (hD : ∀ a c r a', Does a c r a' → FileSystem look a c r a') {s : St σ}
    (hi : Conforms E.V own s.cli.useUnicode s.cli.uid.toNat Does rel) (k : Nat) (share : Share) (pattern : Str)
    (n : Nat) (a : Store) (hr : Ready E own (n + (k + 1)) s) (ha : rel a s.w.srv) (hc : a.Can look s.cli.useUnicode (.list k share pattern)) :
    ∃ r a1, Does a (.findFirst share.tid.toNat (backslashed pattern)) (.value (.first r)) a1 ∧ ∃ s' a',
      (r.done = true → runOp E (.list k share pattern) s = (.ok (.entries r.info), s') ∧ a.Expects look (.list k share pattern) (.ok (.entries r.info)) a') ∧
      (r.done = false → ∃ e, runOp E (.list k share pattern) s = (.err (.SMBError e), s')) ∧
      rel a' s'.w.srv ∧ SameUser s.cli s'.cli ∧ Ready E own n s' := by
  obtain ⟨hfit, ⟨i, hi65, hroom⟩, vol, hvol, hk, hnames⟩ := hc
  have hop : callOf (.findFirst share pattern) = some (.findFirst share.tid.toNat (backslashed pattern)) := rfl
  obtain ⟨fr, hf⟩ := first_fits s.cli (.findFirst share pattern) hfit
  obtain ⟨r, a1, h1, h2, h3⟩ := hi a s.w.srv (message fr) _ ha (isCall_first hop hf) (uid_first hop hf)
  have h0 := h1
  cases hD _ _ _ _ h1 with
  | isDir hc => rcases hc with hc | hc <;> cases hc
  | isFile hc => rcases hc with hc | hc <;> cases hc
  | absent hc => rcases hc with hc | hc | hc | hc <;> cases hc
  | invalid h => exact absurd (hvol.symm.trans h) nofun
  | full h => exact absurd hroom (h i hi65)
  | @first _ _ _ r rest hv hl hdone hn hfree =>
    cases hvol.symm.trans hv
    obtain ⟨P, D, h4, h5⟩ := h2
    have hans : Answers E.V own s.w.srv (message fr) (.findFirst share.tid.toNat (backslashed pattern)) (.value (.first r)) := ⟨P, D, h4, standard_first h5⟩
    obtain ⟨s1, k1, k2, k3, k4⟩ := answer_serves (n := n + k) hop hr hf hans
    obtain ⟨c, k5, k6⟩ := map'_ok_inv (show M.map' Val.first (findFirst E share pattern) s = _ from k1)
    cases k6
    refine ⟨r, _, h0, ?_⟩
    have step := (M.bind_ok (f := fun reply : FindFirst2 =>
      (if reply.done then pure reply.info else listLoop E share reply.sid k reply.info : CM σ _)) k5)
    cases hd : r.done with
    | true =>
      have hrest := hdone.mp hd
      subst hrest
      rw [if_pos hd] at step
      refine ⟨s1, a, fun _ => ⟨map'_ok step, ?_⟩, nofun, ?_, by rw [k2]; exact ⟨rfl, rfl⟩, k4.mono (by omega)⟩
      · rw [List.append_nil] at hl
        rw [← hl]
        exact .listed hv
      · rw [k3]
        rw [left, if_pos rfl, entry2_none _ _ _ hfree] at h3
        exact h3
    | false =>
      rw [if_neg (by simp [hd])] at step
      have hrest : rest ≠ [] := fun h => by rw [hdone.mpr h] at hd; cases hd
      have hpos := List.length_pos_iff.mpr hrest
      rw [hl] at hk hnames
      rw [List.length_append] at hk
      obtain ⟨k, rfl⟩ : ∃ k', k = k' + 1 := ⟨k - 1, by omega⟩
      obtain ⟨last, hlast⟩ : ∃ last, r.info.getLast? = some last := by rw [List.getLast?_eq_some_getLast (hn hd)]; exact ⟨_, rfl⟩
      have e : listLoop E share r.sid (k + 1) r.info = (findNext E share r.sid last.filename >>= fun reply =>
          if reply.done then pure (r.info ++ reply.info) else listLoop E share r.sid k (r.info ++ reply.info)) := by
        rw [listLoop, hlast]
      have hop' : callOf (.findNext share r.sid last.filename) = some (.findNext share.tid.toNat r.sid.toNat last.filename) := rfl
      obtain ⟨fr', hf'⟩ := first_fits s1.cli (.findNext share r.sid last.filename)
        (show utf16Len last.filename ≤ 32725 from hnames _ (List.mem_append_left _ (List.mem_of_getLast? hlast)))
      have ha1 := h3
      rw [← k3] at ha1
      obtain ⟨r2, a2, g1, g2, g3⟩ := hi _ s1.w.srv (message fr') _ ha1 (by rw [show s.cli.useUnicode = s1.cli.useUnicode by rw [k2]; rfl]; exact isCall_first hop' hf')
        (by rw [show s.cli.uid = s1.cli.uid by rw [k2]; rfl]; exact uid_first hop' hf')
      cases hD _ _ _ _ g1 with
      | isDir hc => rcases hc with hc | hc <;> cases hc
      | isFile hc => rcases hc with hc | hc <;> cases hc
      | absent hc => rcases hc with hc | hc | hc | hc <;> cases hc
      | invalid h =>
        have h : entry2 a.searches share.tid.toNat r.sid.toNat (left rest) share.tid.toNat r.sid.toNat = none := h
        rw [entry2_same, left, if_neg hrest] at h
        cases h
      | full h => exact h.elim
      | @next _ _ _ r2 rest2 hs2 hd2 hn2 =>
        obtain ⟨P', D', g4, g5⟩ := g2
        obtain ⟨er, g6⟩ := standard_next g5
        obtain ⟨s2, j1, j2, j3, j4⟩ := transact2_breaks findNext2Parse (n := n + k) k4 hf' g4 g6
        refine ⟨s2, _, nofun, fun _ => ⟨er, map'_err (step.trans ?_)⟩, by rw [j3]; exact g3, by rw [j2]; exact ⟨show s1.cli.useUnicode = _ by rw [k2]; rfl, show s1.cli.uid = _ by rw [k2]; rfl⟩, j4.mono (by omega)⟩
        rw [e]
        exact M.bind_err j1

/-! ## Such servers exist -/

open Demo

/-- The answer can be told in a reply to any request for the call. -/
def SayableStd (own : Nat → Prop) (unicode : Bool) (c : Call) (r : Answer) : Prop :=
  ∀ req, IsCall unicode req c → ∃ segs, AnswersStd (mute segs) own () req c r

theorem answersStd_answers {V : Server σ} {v : σ} {req : Bytes} {c : Call} {r : Answer} (h1 : ∀ x, r ≠ .value (.first x)) (h2 : ∀ x, r ≠ .value (.next x)) :
    AnswersStd V own v req c r ↔ Answers V own v req c r := by
  cases r with
  | refused status => cases c <;> exact Iff.rfl
  | value x => cases c <;> cases x <;> first | exact Iff.rfl | exact absurd rfl (h1 _) | exact absurd rfl (h2 _)

theorem answersStd_congr {A : Type} {V : Server σ} {W : Server A} {v : σ} {w : A} {req : Bytes} {c : Call} {r : Answer}
    (e : (W.react w req).2 = (V.react v req).2) (h : AnswersStd V own v req c r) : AnswersStd W own w req c r := by
  have p : ∀ P D, ServesPage V own v req P D → ServesPage W own w req P D := fun P D ⟨m, l, h1, h2, h3⟩ => ⟨m, l, h1, by rw [e]; exact h2, h3⟩
  have other : (∀ x, r ≠ .value (.first x)) → (∀ x, r ≠ .value (.next x)) → AnswersStd W own w req c r := fun h1 h2 =>
    (answersStd_answers h1 h2).mpr (answers_congr e ((answersStd_answers h1 h2).mp h))
  cases r with
  | refused status => exact other nofun nofun
  | value x =>
    cases x <;> first | (refine other ?_ ?_ <;> (intro x e; cases e; done)) | skip
    · cases c <;> first
        | (obtain ⟨P, D, h1, h2⟩ := h; exact ⟨P, D, p P D h1, h2⟩)
        | (obtain ⟨f, _, h2⟩ := h; exact h2.elim)
    · cases c <;> first
        | (obtain ⟨P, D, h1, h2⟩ := h; exact ⟨P, D, p P D h1, h2⟩)
        | (obtain ⟨f, _, h2⟩ := h; exact h2.elim)

open Classical in
/-- The server that offers the service `step`. -/
noncomputable def standardOf {A : Type} (own : Nat → Prop) (unicode : Bool) (step : A → Call → Answer × A) : Server A where
  react := fun a req =>
    if h : ∃ c, IsCall unicode req c then
      ((step a h.choose).2,
        if k : ∃ segs, AnswersStd (mute segs) own () req h.choose (step a h.choose).1 then k.choose else [])
    else (a, [])
  tail := fun _ => .eof

theorem standardOf_conforms {A : Type} (own : Nat → Prop) (unicode : Bool) (step : A → Call → Answer × A) (h : ∀ a c, SayableStd own unicode c (step a c).1)
    (uid : Nat) : Conforms (standardOf own unicode step) own unicode uid (fun a c r a' => step a c = (r, a')) (fun a v => a = v) := by
  rintro a _ req c rfl hc _
  have he : ∃ c, IsCall unicode req c := ⟨c, hc⟩
  have hch : he.choose = c := C66_unambiguous he.choose_spec hc
  have ht : ∃ segs, AnswersStd (mute segs) own () req he.choose (step a he.choose).1 := by rw [hch]; exact h a c req hc
  have hr : (standardOf own unicode step).react a req = ((step a he.choose).2, ht.choose) := by
    unfold standardOf
    simp only [dif_pos he, dif_pos ht]
  refine ⟨(step a c).1, (step a c).2, rfl, ?_, ?_⟩
  · have hs := ht.choose_spec
    have := answersStd_congr (W := standardOf own unicode step) (w := a) (by rw [hr]; rfl) hs
    rw [hch] at this
    exact this
  · rw [hr]; show _ = (step a he.choose).2; rw [hch]

theorem speakable_sayable (own : Nat → Prop) (unicode : Bool) {c : Call} {r : Answer} (h : Speakable c r) (h1 : ∀ x, r ≠ .value (.first x))
    (h2 : ∀ x, r ≠ .value (.next x)) : SayableStd own unicode c r := by
  intro req hc
  obtain ⟨segs, hs⟩ := speakable_tellable own unicode h req hc
  exact ⟨segs, (answersStd_answers h1 h2).mpr hs⟩

theorem closed_record (r : C36_Record) (h : r.Fits) : Closed (putLE 4 0 ++ r.body) [r.info] := .last (u32At_putLE 0 _) (record_entry 0 r h)

theorem first_sayable (own : Nat → Prop) (unicode : Bool) (tid : Nat) (pattern : Str) (sid : UInt16) (d : DirInfo) (hd : EntryFits d) (ended : Bool) :
    SayableStd own unicode (.findFirst tid pattern) (.value (.first { sid := sid, done := ended, info := [d] })) := by
  obtain ⟨r, hr, rfl, hl⟩ := hd
  intro req hc
  refine ⟨_, pageParams sid (if ended then [[r]] else [[r], []]) 0, putLE 4 0 ++ r.body, page_serves own (call_mid hc) ?_, ?_, .inr (closed_record r hr)⟩
  · rw [record_length]
    have : (pageParams sid (if ended then [[r]] else [[r], []]) 0).length = 10 := rfl
    omega
  · have := pageParams_first sid (if ended then [[r]] else [[r], []]) [r] (by cases ended <;> rfl) (by simp)
    cases ended <;> exact this

theorem next_sayable (own : Nat → Prop) (unicode : Bool) (tid sid : Nat) (last : Str) (d : DirInfo) (hd : EntryFits d) (ended : Bool) :
    SayableStd own unicode (.findNext tid sid last) (.value (.next { done := ended, info := [d] })) := by
  obtain ⟨r, hr, rfl, hl⟩ := hd
  intro req hc
  refine ⟨_, pageParams 0 (if ended then [[], [r]] else [[], [r], []]) 1, putLE 4 0 ++ r.body, page_serves own (call_mid hc) ?_, ?_, closed_record r hr⟩
  · rw [record_length]
    have : (pageParams 0 (if ended then [[], [r]] else [[], [r], []]) 1).length = 8 := rfl
    omega
  · have := pageParams_next 0 (if ended then [[], [r]] else [[], [r], []]) 1 (by omega) [r] (by cases ended <;> rfl) (by simp)
    cases ended <;> exact this

/-- In a sound store, every call has an answer that can be told, with at most one entry on a first page. -/
theorem sound_standard (own : Nat → Prop) (unicode : Bool) (hl : ∀ vol pattern, ∀ d ∈ look vol pattern, EntryFits d) {a : Store} (ha : a.Sound) (c : Call) :
    ∃ r a', FileSystem look a c r a' ∧ SayableStd own unicode c r ∧ a'.Sound ∧ ∀ x, r = .value (.first x) → x.info.length ≤ 1 := by
  have hx : ∀ c, SayableStd own unicode c (.refused 0xC0000008) := fun c =>
    speakable_sayable own unicode (by cases c <;> exact (by decide : (0xC0000008 : UInt32) ≠ 0)) nofun nofun
  have other : (∀ x, ¬ Speakable c (.value (.first x))) → (∀ x, ¬ Speakable c (.value (.next x))) →
      ∃ r a', FileSystem look a c r a' ∧ SayableStd own unicode c r ∧ a'.Sound ∧ ∀ x, r = .value (.first x) → x.info.length ≤ 1 := by
    intro n1 n2
    obtain ⟨r, a', h1, h2, h3⟩ := sound_step hl ha c
    exact ⟨r, a', h1, speakable_sayable own unicode h2 (fun x e => n1 x (e ▸ h2)) (fun x e => n2 x (e ▸ h2)), h3, fun x e => absurd (e ▸ h2) (n1 x)⟩
  cases c <;> first | exact other (fun x h => h) (fun x h => h) | skip
  case findFirst tid pattern =>
    cases hv : a.volume tid with
    | none => exact ⟨_, _, .invalid (status := 0xC0000008) hv, hx _, ha, nofun⟩
    | some vol =>
      by_cases h : ∃ i, i < 65536 ∧ a.searches tid i = none
      · obtain ⟨i, h65, h⟩ := h
        have hi : a.searches tid (UInt16.ofNat i).toNat = none := by rw [UInt16.toNat_ofNat_of_lt' h65]; exact h
        cases e : look vol pattern with
        | nil =>
          refine ⟨_, _, .first (r := { sid := UInt16.ofNat i, done := true, info := [] }) (rest := []) hv e (by simp) (by simp) hi, ?_,
            ⟨ha.files, ha.trees, ?_⟩, fun x e => by cases e; exact Nat.zero_le 1⟩
          · intro req hc
            exact ⟨_, pageParams (UInt16.ofNat i) [[]] 0, [], page_serves own (call_mid hc) (by show 10 + 0 < 60000; decide),
              pageParams_first _ [[]] [] rfl (by simp), .inl ⟨rfl, rfl, rfl⟩⟩
          · dsimp only
            rw [left, if_pos rfl, entry2_none _ _ _ hi]
            exact ha.searches
        | cons d rest =>
          have hall := hl vol pattern
          rw [e] at hall
          exact ⟨_, _, .first (r := { sid := UInt16.ofNat i, done := rest.isEmpty, info := [d] }) (rest := rest) hv e (by simp) (by simp) hi,
            first_sayable own unicode _ _ _ _ (hall _ (by simp)) _, ⟨ha.files, ha.trees, sound_left ha (fun x hx => hall x (by simp [hx]))⟩,
            fun x e => by cases e; exact Nat.le_refl 1⟩
      · exact ⟨_, _, .full (status := 0xC0000008) (fun i hi e => h ⟨i, hi, e⟩), hx _, ha, nofun⟩
  case findNext tid sid last =>
    cases hs : a.searches tid sid with
    | none => exact ⟨_, _, .invalid (status := 0xC0000008) hs, hx _, ha, nofun⟩
    | some l =>
      obtain ⟨hne, hall⟩ := ha.searches _ _ _ hs
      cases l with
      | nil => exact absurd rfl hne
      | cons d rest =>
        exact ⟨_, _, .next (r := { done := rest.isEmpty, info := [d] }) (rest := rest) hs (by simp) (by simp),
          next_sayable own unicode _ _ _ _ (hall _ (by simp)) _, ⟨ha.files, ha.trees, sound_left ha (fun x hx => hall x (by simp [hx]))⟩, nofun⟩

/-- **C80** Every file system is offered by a server that ends lists as the standard says; it may send as few entries at a time as it likes. -/
theorem C80_standard (own : Nat → Prop) (unicode : Bool) (hl : ∀ vol pattern, ∀ d ∈ look vol pattern, EntryFits d) :
    ∃ V : Server Store, ∀ uid, Conforms V own unicode uid
      (fun a c r a' => FileSystem look a c r a' ∧ ∀ x, r = .value (.first x) → x.info.length ≤ 1) (fun a v => a = v ∧ a.Sound) := by
  classical
  have key : ∃ step : Store → Call → Answer × Store, (∀ a c, SayableStd own unicode c (step a c).1) ∧
      ∀ a c, a.Sound → FileSystem look a c (step a c).1 (step a c).2 ∧ (step a c).2.Sound ∧ ∀ x, (step a c).1 = .value (.first x) → x.info.length ≤ 1 := by
    let Good : Store → Call → Answer × Store → Prop := fun a c x =>
      FileSystem look a c x.1 x.2 ∧ SayableStd own unicode c x.1 ∧ x.2.Sound ∧ ∀ y, x.1 = .value (.first y) → y.info.length ≤ 1
    refine ⟨fun a c => if h : ∃ x, Good a c x then h.choose else (.refused 1, a), fun a c => ?_, fun a c ha => ?_⟩
    · by_cases h : ∃ x, Good a c x
      · simp only [dif_pos h]; exact h.choose_spec.2.1
      · simp only [dif_neg h]
        exact speakable_sayable own unicode (by cases c <;> exact (by decide : (1 : UInt32) ≠ 0)) nofun nofun
    · obtain ⟨r0, a0, h0⟩ := sound_standard own unicode hl ha c
      have h : ∃ x, Good a c x := ⟨(r0, a0), h0⟩
      simp only [dif_pos h]
      exact ⟨h.choose_spec.1, h.choose_spec.2.2⟩
  obtain ⟨step, h1, h2⟩ := key
  refine ⟨standardOf own unicode step, fun uid a v req c hr hc hu => ?_⟩
  obtain ⟨r, a', k1, k2, k3⟩ := standardOf_conforms own unicode step h1 uid a v req c hr.1 hc hu
  have h4 := h2 a c hr.2
  rw [k1] at h4
  exact ⟨r, a', ⟨h4.1, h4.2.2⟩, k2, k3, h4.2.1⟩

theorem Spec.Conforms.mono {A : Type} {V : Server σ} {unicode : Bool} {uid : Nat} {Does Does' : A → Call → Answer → A → Prop} {rel : A → σ → Prop}
    (h : Conforms V own unicode uid Does rel) (hd : ∀ a c r a', Does a c r a' → Does' a c r a') : Conforms V own unicode uid Does' rel := by
  intro a v req c hr hc hu
  obtain ⟨r, a', h1, h2⟩ := h a v req c hr hc hu
  exact ⟨r, a', hd _ _ _ _ h1, h2⟩

namespace Demo

/-- A directory with two entries. -/
def twoLook : Volume → Str → List DirInfo := fun _ _ => [someRecord.info, someRecord.info]

theorem twoLook_fits (vol : Volume) (pattern : Str) : ∀ d ∈ twoLook vol pattern, EntryFits d := by
  intro d hd
  refine someLook_fits vol pattern d ?_
  simpa [twoLook] using hd

def twoShare : Share := { share with tid := 5 }

/-- A session with a server in which the directory is mounted. -/
def twoState : St Store := { cli := cli, w := { inbox := [], wsched := [], out := [], srv := dirStore } }

theorem two_ready (V : Server Store) : Ready { env true with V := V } (fun _ => True) (100 + 11) twoState :=
  ⟨nofun, .nil, fun _ _ => trivial, fun _ => by decide⟩

theorem two_can : dirStore.Can twoLook true (.list 10 twoShare ['*']) :=
  ⟨(by decide +kernel : utf16Len ['*'] ≤ 32725), ⟨0, by decide, rfl⟩, _, rfl, (by decide : (2 : Nat) ≤ 10), fun d hd => by
    have : d = someRecord.info := by simpa [twoLook] using hd
    subst this; decide⟩

end Demo

/-- **C80** is violated: with a server that ends lists as the standard says, the listing of a directory with two entries fails, although everything
is as `C80_operation_partial` requires it, and the only thing to expect is the two entries. -/
theorem C80_violated : ∃ (look : Volume → Str → List DirInfo) (E : Env Store) (s : St Store) (op : Op) (rel : Store → Store → Prop),
    Conforms E.V (fun _ => True) s.cli.useUnicode s.cli.uid.toNat (FileSystem look) rel ∧ Ready E (fun _ => True) (100 + cost op) s ∧
      rel dirStore s.w.srv ∧ dirStore.Can look s.cli.useUnicode op ∧
      (∀ o a', dirStore.Expects look op o a' → o = .ok (.entries [someRecord.info, someRecord.info])) ∧
      ∃ e, (runOp E op s).1 = .err (.SMBError e) := by
  obtain ⟨V, hV⟩ := C80_standard (look := twoLook) (fun _ => True) true twoLook_fits
  refine ⟨twoLook, { env true with V := V }, twoState, .list 10 twoShare ['*'], fun a v => a = v ∧ a.Sound, (hV _).mono fun _ _ _ _ h => h.1,
    two_ready V, ⟨rfl, dirStore_sound⟩, two_can, fun o a' ho => ?_, ?_⟩
  · cases ho with
    | single hc => cases hc
    | listed => rfl
  · obtain ⟨r, a1, ⟨h1, h2⟩, s', a', _, h3, _⟩ := C80_pages (fun _ _ _ _ h => h.1) (E := { env true with V := V }) (hV _) 10 twoShare ['*'] 100 dirStore
      (two_ready V) ⟨rfl, dirStore_sound⟩ two_can
    have hd : r.done = false := by
      cases hd : r.done with
      | false => rfl
      | true =>
        cases h1 with
        | first hv hl hdone hn hf =>
          have := hdone.mp hd
          subst this
          have h4 := congrArg List.length hl
          have h5 := h2 r rfl
          simp [twoLook] at h4
          omega
    obtain ⟨e, he⟩ := h3 hd
    exact ⟨e, by rw [he]⟩

end Cifs
