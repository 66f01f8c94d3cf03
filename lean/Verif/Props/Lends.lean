import Verif.Props.Store
import Verif.Spec.Lends
/-!
# What a handle denotes (C89)
-/

namespace Cifs
open Spec

variable {σ ι α : Type}

section
variable {h : Handle} {f : ι}

/-- The handle denotes this file. -/
def Spec.Desk.Means (a : Desk ι) (h : Handle) (f : ι) : Prop := a.denotes h.tid.toNat h.fid.toNat = some f

theorem lends_means {a a' : Desk ι} {op : Op} {c : Call} {r : Answer} (hc : callOf op = some c) (hs : Spares h op) (hl : Lends a c r a')
    (hm : a.Means h f) : a'.Means h f := by
  cases hl with
  | mounted _ _ hd => rw [Desk.Means, hd]; exact hm
  | umounted _ hd =>
    cases op <;> cases hc
    rw [Desk.Means, hd]
    dsimp only
    rw [if_neg (fun e => hs (UInt16.toNat_inj.mp e.symm))]
    exact hm
  | opened hc' _ _ hf _ hd =>
    rw [Desk.Means, hd]
    unfold entry2
    rw [if_neg]
    · exact hm
    · rintro ⟨e1, e2⟩
      rw [← e1, ← e2] at hf
      rw [Desk.Means, hf] at hm
      cases hm
  | closed _ hd =>
    cases op <;> cases hc
    rw [Desk.Means, hd]
    unfold entry2
    rw [if_neg (fun e => hs ⟨UInt16.toNat_inj.mp e.1.symm, UInt16.toNat_inj.mp e.2.symm⟩)]
    exact hm
  | read _ _ hs' => rw [Desk.Means, hs'.2]; exact hm
  | refused hs' => rw [Desk.Means, hs'.2]; exact hm
  | other _ _ hs' => rw [Desk.Means, hs'.2]; exact hm

theorem read_means {a a' : Desk ι} {tid fid offset : Nat} {r : Answer} (hl : Lends a (.read tid fid offset) r a') (hm : a.Means h f) : a'.Means h f := by
  cases hl with
  | opened hc => rcases hc with hc | hc <;> cases hc
  | read _ _ hs => rw [Desk.Means, hs.2]; exact hm
  | refused hs => rw [Desk.Means, hs.2]; exact hm
  | other _ hr _ => exact absurd rfl (hr _ _ _)

theorem fetches_means {g : Handle} {k : Nat} {data : Bytes} {a a' : Desk ι} {o : Out Error Val} (hs : Spares h (.close g))
    (hf : Fetches Lends g k data a o a') (hm : a.Means h f) : a'.Means h f := by
  induction hf with
  | budget => exact hm
  | refused hl hr => exact read_means hr hm
  | chunk hl hr _ ih => exact ih (read_means hr hm)
  | closed hl hr => exact lends_means (op := .close g) rfl hs hr hm
  | unclosed hl hr => exact lends_means (op := .close g) rfl hs hr hm

theorem continues_means {unicode : Bool} {share : Share} {sid : UInt16} {k : Nat} {got : List DirInfo} {a a' : Desk ι} {o : Out Error Val}
    (hf : Continues Lends unicode share sid k got a o a') (hm : a.Means h f) : a'.Means h f := by
  induction hf with
  | budget => exact hm
  | long => exact hm
  | refused hl hr => exact lends_means (op := .findNext share sid _) rfl trivial hr hm
  | ended hl hr => exact lends_means (op := .findNext share sid _) rfl trivial hr hm
  | more hl hr _ _ ih => exact ih (lends_means (op := .findNext share sid _) rfl trivial hr hm)

theorem behaves_means {unicode : Bool} {a a' : Desk ι} {op : Op} {o : Out Error Val} (hb : Behaves Lends unicode a op o a') (hs : Spares h op)
    (hm : a.Means h f) : a'.Means h f := by
  cases hb with
  | long => exact hm
  | single hc hr => exact lends_means hc hs hr hm
  | unopened hr => exact lends_means (op := .openfile _ _) rfl trivial hr hm
  | opened hr hf =>
    refine fetches_means ?_ hf (lends_means (op := .openfile _ _) rfl trivial hr hm)
    rintro ⟨e1, e2⟩
    cases hr with
    | opened hc _ ht hf _ _ =>
      rcases hc with hc | hc <;> cases hc
      rw [← ht, e1, e2] at hf
      rw [Desk.Means, hf] at hm
      cases hm
    | other hn _ _ => exact hn trivial
  | unlisted hr => exact lends_means (op := .findFirst _ _) rfl trivial hr hm
  | listed _ hr => exact lends_means (op := .findFirst _ _) rfl trivial hr hm
  | listing _ hr hf => exact continues_means hf (lends_means (op := .findFirst _ _) rfl trivial hr hm)

theorem runs_means {unicode : Bool} {p : Prog α} {a a' : Desk ι} {x : α} (hr : p.Runs Lends unicode a x a') (hs : p.Spares h)
    (hm : a.Means h f) : a'.Means h f := by
  induction hr with
  | done => exact hm
  | call hb _ ih => exact ih (hs.2 _) (behaves_means hb hs.1 hm)

end

section
variable {E : Env σ} {own : Nat → Prop} {rel : Desk ι → σ → Prop}

/-- What the user expects of a handle that was got for the file `f`: whatever the program `p` does, a read through the handle that succeeds afterwards
brings bytes of this file. -/
def C89_Faithful (E : Env σ) (rel : Desk ι → σ → Prop) (s : St σ) (h : Handle) (f : ι) (p : Prog α) : Prop :=
  ∀ offset v s', runOp E (.read h offset) (p.run E s).2 = (.ok v, s') →
    ∃ a chunk, rel a (p.run E s).2.w.srv ∧ v = .bytes chunk ∧ chunk <+: (a.contents f).drop offset.toNat

theorem program_ready {Does : Desk ι → Call → Answer → Desk ι → Prop} (p : Prog α) : ∀ {s : St σ} (_ : Implements E.V own s.cli.useUnicode s.cli.uid.toNat Does rel) (n m : Nat)
    (a : Desk ι) (_ : Ready E own (n + m) s) (_ : p.Within n) (_ : rel a s.w.srv),
    ∃ x a' s', p.Runs Does s.cli.useUnicode a x a' ∧ p.run E s = (x, s') ∧ rel a' s'.w.srv ∧ SameUser s.cli s'.cli ∧ Ready E own m s' := by
  induction p with
  | done x =>
    intro s hi n m a hr _ ha
    exact ⟨x, a, s, .done _ _, rfl, ha, ⟨rfl, rfl⟩, ⟨hr.writes, hr.unread, fun k hk => hr.ids k (by omega), fun hc => by have := hr.enough hc; omega⟩⟩
  | call op next ih =>
    intro s hi n m a hr hw ha
    have e : n + m = (n - cost op + m) + cost op := by have := hw.1; omega
    rw [e] at hr
    obtain ⟨o, a1, s1, h1, h2, h3, h4, h5⟩ := C66_operation hi op _ a hr ha
    obtain ⟨x, a', s', h6, h7, h8, h9, h10⟩ := ih o (s := s1) (by rw [h4.1, h4.2]; exact hi) (n - cost op) m a1 h5 (hw.2 o) h3
    rw [h4.1] at h6
    refine ⟨x, a', s', .call h1 h6, ?_, h8, h9.trans h4, h10⟩
    show (next (runOp E op s).1).run E (runOp E op s).2 = _
    rw [h2]; exact h7

/-- **C89** A handle that was got by opening a file denotes this file as long as the program neither closes it nor unmounts the tree that it belongs to,
whatever else it opens, closes, mounts, unmounts, downloads and so on. Missing: handles of a tree that was unmounted, or that were closed by reference. -/
theorem C89_partial {s s1 : St σ} (hi : Implements E.V own s.cli.useUnicode s.cli.uid.toNat Lends rel) (share : Share) (path : Str) (n : Nat)
    (a : Desk ι) (hr : Ready E own (n + 2) s) (ha : rel a s.w.srv) {h : Handle} (ho : runOp E (.openfile share path) s = (.ok (.handle h), s1))
    (p : Prog α) (hp : p.Within n) (hs : p.Spares h) :
    ∃ f, a.place share.tid.toNat (backslashed path) = some f ∧ C89_Faithful E rel s1 h f p := by
  obtain ⟨o, a1, t, h1, h2, h3, h4, h5⟩ := C66_operation hi (.openfile share path) (n + 1) a hr ha
  rw [ho] at h2
  obtain ⟨rfl, rfl⟩ := Prod.mk.inj h2
  obtain ⟨f, hf, hm⟩ : ∃ f, a.place share.tid.toNat (backslashed path) = some f ∧ a1.Means h f := by
    generalize ho : Out.ok (Val.handle h) = o at h1
    cases h1 with
    | long hl => subst ho; rcases hl.2 with ⟨_, h⟩ | ⟨_, _, h⟩ <;> cases h
    | single hc hd =>
      cases hc
      cases hd with
      | opened hc hp ht hf hm hd =>
        cases ho
        rcases hc with hc | hc <;> cases hc
        refine ⟨_, hp, ?_⟩
        rw [Desk.Means, hd, ht]
        exact if_pos ⟨rfl, rfl⟩
      | refused => cases ho
      | other hn _ _ => exact absurd trivial hn
  refine ⟨f, hf, ?_⟩
  intro offset v s' hread
  obtain ⟨x, a2, s2, h6, h7, h8, h9, h10⟩ := program_ready p (s := s1) (by rw [h4.1, h4.2]; exact hi) n 1 a1 h5 hp h3
  have hm2 := runs_means h6 hs hm
  rw [h7] at hread ⊢
  obtain ⟨o, a3, s3, h11, h12, _⟩ := C66_operation (s := s2) (by rw [h9.1, h9.2, h4.1, h4.2]; exact hi) (.read h offset) 0 a2 h10 h8
  rw [hread] at h12
  obtain ⟨rfl, rfl⟩ := Prod.mk.inj h12
  generalize ho : Out.ok v = o at h11
  cases h11 with
  | long hl => subst ho; rcases hl.2 with ⟨_, h⟩ | ⟨_, _, h⟩ <;> cases h
  | single hc hd =>
    cases hc
    cases hd with
    | read ho' hc' hs' =>
      cases ho
      rw [Desk.Means] at hm2
      rw [hm2] at ho'
      cases ho'
      exact ⟨a2, _, h8, rfl, hc'⟩
    | opened hc => rcases hc with hc | hc <;> cases hc
    | refused => cases ho
    | other _ hr _ => exact absurd rfl (hr _ _ _)

end

/-! ## Violation -/

/-- A service with files at the top of one share, that has one tree at a time, with one open file at a time, and therefore needs only one number for each.
The state: whether the tree is mounted, and if so, whether a file is open, and which. -/
def C89_step (files : Str → Option Bytes) (a : Option (Option Str)) : Call → Answer × Option (Option Str)
  | .mount _ _ => if a = none then (.value (.share Demo.share), some none) else (.refused 0xC00000CE, a)
  | .umount tid => if a ≠ none ∧ tid = 0x0801 then (.value .unit, none) else (.refused 0xC00000C9, a)
  | .openfile tid path =>
    if a = some none ∧ tid = 0x0801 ∧ files path ≠ none then (.value (.handle Demo.handle), some (some path)) else (.refused 0xC0000034, a)
  | .close tid fid => if a.join ≠ none ∧ tid = 0x0801 ∧ fid = 0x4002 then (.value .unit, some none) else (.refused 0xC0000008, a)
  | .read tid fid offset =>
    match a with
    | some (some path) => if tid = 0x0801 ∧ fid = 0x4002 then (.value (.bytes ((((files path).getD []).drop offset).take 1000)), a) else (.refused 0xC0000008, a)
    | _ => (.refused 0xC0000008, a)
  | _ => (.refused 0xC00000BB, a)

theorem desk_speakable (files : Str → Option Bytes) (a : Option (Option Str)) (c : Call) : Speakable c (C89_step files a c).1 := by
  have hb : ∀ l : Bytes, (l.take 1000).length < 65536 := fun l => by rw [List.length_take]; omega
  have hs : ShareFits Demo.share := by
    refine ⟨?_, ?_, fun _ => rfl, by decide, by decide, by decide⟩ <;> (intro r hr; cases hr)
  have hh : HandleFits Demo.handle := by simp [HandleFits, Demo.handle]
  cases c <;> simp only [C89_step] <;> (repeat' split) <;> first
    | exact hs
    | exact hh
    | exact hb _
    | simp [Speakable]

/-- The state of the service, with the files. -/
def C89_desk (files : Str → Option Bytes) (a : Option (Option Str)) : Desk Str where
  place t p := if a ≠ none ∧ t = 0x0801 ∧ files p ≠ none then some p else none
  contents p := (files p).getD []
  mounted t := t = 0x0801 ∧ a ≠ none
  denotes t i := if t = 0x0801 ∧ i = 0x4002 then a.join else none

theorem step_lends {files : Str → Option Bytes} {a a' : Option (Option Str)} {c : Call} {r : Answer} (h : C89_step files a c = (r, a')) :
    Lends (C89_desk files a) c r (C89_desk files a') := by
  have hs : ∀ a : Option (Option Str), (C89_desk files a).Same (C89_desk files a) := fun _ => ⟨rfl, rfl⟩
  cases c <;> simp only [C89_step] at h
  case mount =>
    split at h
    · rename_i e
      subst e
      cases h
      exact .mounted (fun h => h.2 rfl) (by funext t; simp [C89_desk, Demo.share]) rfl
    · cases h; exact .refused (hs _)
  case umount =>
    split at h
    · rename_i e
      obtain ⟨_, rfl⟩ := e
      cases h
      refine .umounted (by funext t; simp only [C89_desk]; simp; omega) ?_
      funext t i
      by_cases ht : t = 0x0801 <;> simp [C89_desk, ht]
    · cases h; exact .refused (hs _)
  case openfile =>
    split at h
    · rename_i e
      obtain ⟨rfl, rfl, hf⟩ := e
      cases h
      refine .opened (.inl rfl) (if_pos ⟨by simp, rfl, hf⟩) rfl (by simp [C89_desk]) (by simp [C89_desk]) ?_
      funext t i
      simp only [C89_desk, entry2, show Demo.handle.fid.toNat = 0x4002 from rfl]
      by_cases ht : t = 0x0801 ∧ i = 0x4002
      · rw [if_pos ht, if_pos ht]; rfl
      · rw [if_neg ht, if_neg ht, if_neg ht]
    · cases h; exact .refused (hs _)
  case close =>
    split at h
    · rename_i e
      obtain ⟨hj, rfl, rfl⟩ := e
      cases h
      have ha : a ≠ none := by rintro rfl; exact hj rfl
      refine .closed (by simp [C89_desk, ha]) ?_
      funext t i
      simp only [C89_desk, entry2]
      by_cases ht : t = 0x0801 ∧ i = 0x4002
      · rw [if_pos ht, if_pos ht]; rfl
      · rw [if_neg ht, if_neg ht, if_neg ht]
    · cases h; exact .refused (hs _)
  case read =>
    split at h
    · split at h
      · rename_i e
        cases h
        exact .read (if_pos e) (List.take_prefix _ _) (hs _)
      · cases h; exact .refused (hs _)
    · cases h; exact .refused (hs _)
  all_goals (cases h; exact .refused (hs _))

/-- **C89** There are such servers, whatever the files. -/
theorem C89_possible (files : Str → Option Bytes) (own : Nat → Prop) (unicode : Bool) :
    ∃ V : Server (Option (Option Str)), ∀ uid, Implements V own unicode uid (fun a c r a' => C89_step files a c = (r, a')) (fun a v => a = v) :=
  C66_services own unicode (C89_step files) (desk_speakable files)

/-- They give numbers that are free, and keep to what the numbers denote until these are freed. -/
theorem C89_lends {files : Str → Option Bytes} {V : Server (Option (Option Str))} {own : Nat → Prop} {unicode : Bool} {uid : Nat}
    (hi : Implements V own unicode uid (fun a c r a' => C89_step files a c = (r, a')) (fun a v => a = v)) :
    Implements V own unicode uid Lends (fun a v => a = C89_desk files v) := by
  intro a v req c ha hc hu
  subst ha
  obtain ⟨r, a', h1, h2, h3⟩ := hi v v req c rfl hc hu
  exact ⟨r, C89_desk files a', step_lends h1, h2, congrArg _ h3⟩

/-- One operation that is a single call, with a service that leaves no choice. -/
theorem step_call {A : Type} {step : A → Call → Answer × A} {E : Env A} {own : Nat → Prop} {s : St A} {op : Op} {c : Call} {n : Nat} {r : Answer} {a' : A}
    (hi : Implements E.V own s.cli.useUnicode s.cli.uid.toNat (fun a c r a' => step a c = (r, a')) (fun a v => a = v))
    (hr : Ready E own (n + 1) s) (hc : callOf op = some c) (hf : Fits s.cli.useUnicode op) (hs : step s.w.srv c = (r, a')) :
    ∃ s', runOp E op s = (r.outcome, s') ∧ s'.w.srv = a' ∧ SameUser s.cli s'.cli ∧ Ready E own n s' := by
  have hcost : cost op = 1 := by cases op <;> first | rfl | cases hc
  obtain ⟨o, a1, s', h1, h2, h3, h4, h5⟩ := C66_operation hi op n s.w.srv (by rw [hcost]; exact hr) rfl
  cases h1 with
  | long ho => exact absurd hf ho.1
  | single hc' hd =>
    rw [hc] at hc'
    cases hc'
    have hd := hs.symm.trans hd
    cases hd
    exact ⟨s', h2, h3.symm, h4, h5⟩
  | _ => cases hc

/-- Unmount the share, mount it again, and open a file. -/
def C89_remount (share : Share) (name path : Str) : Prog Unit :=
  .call (.umount share) fun _ => .call (.mount name []) fun
    | .ok (.share share') => .call (.openfile share' path) fun _ => .done ()
    | _ => .done ()

/-- Close a file, by reference, and open another one. -/
def C89_reopen (share : Share) (h : Handle) (path : Str) : Prog Unit := .call (.close h) fun _ => .call (.openfile share path) fun _ => .done ()

/-- **C89 violated.** The handle of the file `first` can be used after its share was unmounted, or after it was closed by reference: with such a server, a
read through it then succeeds, and brings what is in the file `second`. -/
theorem C89_violated {files : Str → Option Bytes} {E : Env (Option (Option Str))} {own : Nat → Prop} {s : St (Option (Option Str))}
    (hi : Implements E.V own s.cli.useUnicode s.cli.uid.toNat (fun a c r a' => C89_step files a c = (r, a')) (fun a v => a = v))
    (hr : Ready E own 5 s) (h0 : s.w.srv = some none) (name first second : Str) (hn : mountLength s.cli.useUnicode name [] < 65536)
    (h1 : utf16Len first ≤ nameLimit) (h2 : utf16Len second ≤ nameLimit) {A B : Bytes} (hA : files (backslashed first) = some A)
    (hB : files (backslashed second) = some B) (hAB : ¬ B.take 1000 <+: A) :
    ∃ h s1, runOp E (.openfile Demo.share first) s = (.ok (.handle h), s1) ∧ ∀ p ∈ [C89_remount Demo.share name second, C89_reopen Demo.share h second],
      (∃ s2, runOp E (.read h 0) (p.run E s1).2 = (.ok (.bytes (B.take 1000)), s2)) ∧
        ¬ C89_Faithful E (fun a v => a = C89_desk files v) s1 h (backslashed first) p := by
  obtain ⟨s1, r1, v1, u1, y1⟩ := step_call (step := C89_step files) (op := .openfile Demo.share first) (r := .value (.handle Demo.handle)) (a' := some (some (backslashed first))) (n := 4) hi hr rfl h1
    (by rw [h0]; exact if_pos ⟨rfl, rfl, by rw [hA]; simp⟩)
  refine ⟨Demo.handle, s1, r1, ?_⟩
  have last : ∀ (p : Prog Unit) (t : St (Option (Option Str))), (p.run E s1).2 = t → t.w.srv = some (some (backslashed second)) → SameUser s1.cli t.cli →
      Ready E own 1 t → (∃ s2, runOp E (.read Demo.handle 0) (p.run E s1).2 = (.ok (.bytes (B.take 1000)), s2)) ∧
        ¬ C89_Faithful E (fun a v => a = C89_desk files v) s1 Demo.handle (backslashed first) p := by
    rintro p t rfl v u y
    obtain ⟨s2, r2, -⟩ := step_call (step := C89_step files) (op := .read Demo.handle 0) (r := .value (.bytes (B.take 1000))) (a' := some (some (backslashed second))) (n := 0) (by rw [u.1, u.2, u1.1, u1.2]; exact hi) y rfl trivial
      (by rw [v]; simp [C89_step, Demo.handle, hB])
    refine ⟨⟨s2, r2⟩, fun hf => ?_⟩
    obtain ⟨a, chunk, rfl, hv, hc⟩ := hf _ _ _ r2
    cases hv
    apply hAB
    have e : (C89_desk files (p.run E s1).2.w.srv).contents (backslashed first) = A := by simp [C89_desk, hA]
    rw [e] at hc
    exact hc
  intro p hp
  rcases List.mem_cons.mp hp with rfl | hp
  · obtain ⟨s2, r2, v2, u2, y2⟩ := step_call (step := C89_step files) (op := .umount Demo.share) (r := .value .unit) (a' := none) (n := 3) (s := s1) (by rw [u1.1, u1.2]; exact hi) y1 rfl trivial
      (by rw [v1]; simp [C89_step, Demo.share])
    obtain ⟨s3, r3, v3, u3, y3⟩ := step_call (step := C89_step files) (op := .mount name []) (r := .value (.share Demo.share)) (a' := some none) (n := 2) (s := s2) (by rw [u2.1, u2.2, u1.1, u1.2]; exact hi) y2 rfl
      (by show _ < _; rw [u2.1, u1.1]; exact hn) (by rw [v2]; simp [C89_step])
    obtain ⟨s4, r4, v4, u4, y4⟩ := step_call (step := C89_step files) (op := .openfile Demo.share second) (r := .value (.handle Demo.handle)) (a' := some (some (backslashed second))) (n := 1) (s := s3)
      (by rw [u3.1, u3.2, u2.1, u2.2, u1.1, u1.2]; exact hi) y3 rfl h2 (by rw [v3]; exact if_pos ⟨rfl, rfl, by rw [hB]; simp⟩)
    refine last _ s4 ?_ v4 (u4.trans (u3.trans u2)) y4
    simp only [C89_remount, Prog.run, r2, r3, r4, Answer.outcome]
  · rw [List.mem_singleton.mp hp]
    obtain ⟨s2, r2, v2, u2, y2⟩ := step_call (step := C89_step files) (op := .close Demo.handle) (r := .value .unit) (a' := some none) (n := 3) (s := s1) (by rw [u1.1, u1.2]; exact hi) y1 rfl trivial
      (by rw [v1]; simp [C89_step, Demo.handle])
    obtain ⟨s3, r3, v3, u3, y3⟩ := step_call (step := C89_step files) (op := .openfile Demo.share second) (r := .value (.handle Demo.handle)) (a' := some (some (backslashed second))) (n := 2) (s := s2)
      (by rw [u2.1, u2.2, u1.1, u1.2]; exact hi) y2 rfl h2 (by rw [v2]; exact if_pos ⟨rfl, rfl, by rw [hB]; simp⟩)
    refine last _ s3 ?_ v3 (u3.trans u2) (y3.mono (by omega))
    simp only [C89_reopen, Prog.run, r2, r3]

namespace Demo

/-- Two files. -/
def drawer (path : Str) : Option Bytes := if path = ['a'] then some [1, 1] else if path = ['b'] then some [2, 2, 2] else none

/-- A session that was just given the tree. -/
def atDesk : St (Option (Option Str)) := { cli := cli, w := { inbox := [], wsched := [.accept 3, .accept 10], out := [], srv := some none } }

theorem atDesk_ready (V : Server (Option (Option Str))) (n : Nat) (hn : n ≤ 100) : Ready { env true with V := V } (fun _ => True) n atDesk :=
  ⟨by intro ev he; simp [atDesk] at he; rcases he with rfl | rfl <;> exact ⟨_, rfl⟩, .nil, fun _ _ => trivial, fun _ => by show 7 + n ≤ _; omega⟩

/-- non-vacuity of `C89_violated` and `C89_possible`: what is read through the handle of `a` is in `b`. -/
example : ∃ (E : Env (Option (Option Str))) (h : Handle) (s1 s2 : St (Option (Option Str))), runOp E (.openfile share ['a']) atDesk = (.ok (.handle h), s1) ∧
    runOp E (.read h 0) ((C89_remount share ['s'] ['b']).run E s1).2 = (.ok (.bytes [2, 2, 2]), s2) := by
  obtain ⟨V, hV⟩ := C89_possible drawer (fun _ => True) true
  obtain ⟨h, s1, r1, hp⟩ := C89_violated (E := { env true with V := V }) (own := fun _ => True) (s := atDesk) (hV _) (atDesk_ready V 5 (by decide)) rfl
    ['s'] ['a'] ['b'] (by decide +kernel) (by decide +kernel) (by decide +kernel) (A := [1, 1]) (B := [2, 2, 2]) rfl rfl (by decide)
  obtain ⟨⟨s2, r2⟩, -⟩ := hp _ List.mem_cons_self
  exact ⟨_, h, s1, s2, r1, r2⟩

/-- non-vacuity of `C89_partial` and `C89_lends`: a program that tries other things in between, and then a read that succeeds. -/
example : ∃ (E : Env (Option (Option Str))) (h : Handle) (s1 s2 : St (Option (Option Str))) (p : Prog Unit),
    runOp E (.openfile share ['a']) atDesk = (.ok (.handle h), s1) ∧ p.Spares h ∧ p.Within 2 ∧
    runOp E (.read h 0) (p.run E s1).2 = (.ok (.bytes [1, 1]), s2) ∧ C89_Faithful E (fun a v => a = C89_desk drawer v) s1 h ['a'] p := by
  obtain ⟨V, hV⟩ := C89_possible drawer (fun _ => True) true
  have hr : Ready { env true with V := V } (fun _ => True) 4 atDesk := atDesk_ready V 4 (by decide)
  obtain ⟨s1, r1, v1, u1, y1⟩ := step_call (step := C89_step drawer) (E := { env true with V := V }) (op := .openfile share ['a']) (n := 3) (hV _) hr rfl
    (show _ ≤ _ by decide +kernel) rfl
  let p : Prog Unit := .call (.openfile share ['b']) fun _ => .call (.close { handle with fid := 7 }) fun _ => .done ()
  have hp : p.Spares handle := ⟨trivial, fun _ => ⟨by show ¬ _; decide, fun _ => trivial⟩⟩
  have hw : p.Within 2 := ⟨by decide, fun _ => ⟨by decide, fun _ => trivial⟩⟩
  obtain ⟨s2, r2, v2, u2, y2⟩ := step_call (step := C89_step drawer) (E := { env true with V := V }) (op := .openfile share ['b']) (n := 2) (s := s1)
    (by rw [u1.1, u1.2]; exact hV _) y1 rfl (show _ ≤ _ by decide +kernel) (by rw [v1])
  obtain ⟨s3, r3, v3, u3, y3⟩ := step_call (step := C89_step drawer) (E := { env true with V := V }) (op := .close { handle with fid := 7 }) (n := 1) (s := s2)
    (by rw [u2.1, u2.2, u1.1, u1.2]; exact hV _) y2 rfl trivial (by rw [v2])
  obtain ⟨s4, r4, -⟩ := step_call (step := C89_step drawer) (E := { env true with V := V }) (op := .read handle 0) (n := 0) (s := s3)
    (by rw [u3.1, u3.2, u2.1, u2.2, u1.1, u1.2]; exact hV _) y3 rfl trivial (by rw [v3])
  obtain ⟨f, hf, hF⟩ := C89_partial (E := { env true with V := V }) (own := fun _ => True) (s := atDesk) (C89_lends (hV _)) share ['a'] 2
    (C89_desk drawer (some none)) hr rfl r1 p hw hp
  have e : f = ['a'] := by
    have : (C89_desk drawer (some none)).place share.tid.toNat (backslashed ['a']) = some ['a'] := by decide
    rw [this] at hf
    cases hf; rfl
  subst e
  refine ⟨_, handle, s1, s4, p, r1, hp, hw, ?_, hF⟩
  simp only [p, Prog.run, r2, r3]
  exact r4

end Demo

end Cifs
