import Verif.Spec.Numbers
import Verif.Props.Store
/-!
# The numbers that a server gives out mean nothing to the client (C96)

Two servers that offer the same service with other numbers for trees, open files and searches are the same to every program; and so are two
sessions with other user ids, multiplex ids and cuts of the stream.
-/

namespace Cifs
open Spec

variable {σ σ' A B α : Type}

theorem renumber_toNat (f : UInt16 → UInt16) (x : UInt16) : renumber f x.toNat = (f x).toNat := by
  rw [renumber, if_pos x.toNat_lt, UInt16.ofNat_toNat]

section
variable {ρ : Renaming}

theorem rename_fits (u : Bool) (op : Op) : Fits u (ρ.op op) ↔ Fits u op := by cases op <;> exact Iff.rfl

theorem rename_panics (op : Op) : Panics (ρ.op op) ↔ Panics op := by cases op <;> exact Iff.rfl

theorem rename_callOf (op : Op) : callOf (ρ.op op) = (callOf op).map ρ.call := by
  cases op <;> simp only [Renaming.op, callOf, Option.map, Renaming.call, Renaming.share, Renaming.handle, renumber_toNat]

theorem long_agree {u : Bool} {op : Op} {o o' : Out Error Val} (h : TooLong u op o) (h' : TooLong u (ρ.op op) o') : ρ.Agree o o' := by
  rcases h.2 with ⟨hp, rfl⟩ | ⟨hp, e, rfl⟩ <;> rcases h'.2 with ⟨hp', rfl⟩ | ⟨hp', e', rfl⟩
  · exact .panic
  · exact absurd ((rename_panics op).mpr hp) hp'
  · exact absurd ((rename_panics op).mp hp') hp
  · exact .unmade e e'

variable {same : A → B → Prop} {step : A → Call → Answer × A} {step' : B → Call → Answer × B}

theorem answer_agree (r : Answer) : ρ.Agree r.outcome (ρ.answer r).outcome := by
  cases r
  · exact .ok _
  · exact .err _

/-- One call. -/
theorem call_agree (hs : SameService ρ same step step') {a a1 : A} {b b1 : B} {c c' : Call} {r r' : Answer} (hab : same a b) (hc : c' = ρ.call c)
    (h : step a c = (r, a1)) (h' : step' b c' = (r', b1)) : r' = ρ.answer r ∧ same a1 b1 := by
  subst hc
  have := hs a b c hab
  rw [h, h'] at this
  exact this

theorem rename_read (h : Handle) (n : Nat) : Call.read (ρ.handle h).tid.toNat (ρ.handle h).fid.toNat n = ρ.call (.read h.tid.toNat h.fid.toNat n) := by
  simp only [Renaming.call, Renaming.handle, renumber_toNat]

theorem rename_close (h : Handle) : Call.close (ρ.handle h).tid.toNat (ρ.handle h).fid.toNat = ρ.call (.close h.tid.toNat h.fid.toNat) := by
  simp only [Renaming.call, Renaming.handle, renumber_toNat]

theorem rename_next (share : Share) (sid : UInt16) (last : Str) :
    Call.findNext (ρ.share share).tid.toNat (ρ.sid sid).toNat last = ρ.call (.findNext share.tid.toNat sid.toNat last) := by
  simp only [Renaming.call, Renaming.share, renumber_toNat]

theorem fetches_agree (hs : SameService ρ same step step') {h : Handle} {k : Nat} {data : Bytes} {a a1 : A} {o : Out Error Val}
    (hf : Fetches (fun a c r a' => step a c = (r, a')) h k data a o a1) : ∀ {b b1 : B} {o' : Out Error Val}, same a b →
    Fetches (fun a c r a' => step' a c = (r, a')) (ρ.handle h) k data b o' b1 → ρ.Agree o o' ∧ same a1 b1 := by
  induction hf with
  | budget data a => intro b b1 o' hab hf'; cases hf'; exact ⟨.running, hab⟩
  | refused hl hr =>
    intro b b1 o' hab hf'
    cases hf' with
    | refused hl' hr' =>
      obtain ⟨h1, h2⟩ := call_agree hs hab (rename_read h _) hr hr'
      cases h1
      exact ⟨.err _, h2⟩
    | chunk hl' hr' => cases (call_agree hs hab (rename_read h _) hr hr').1
    | closed hl' => exact absurd hl (Nat.not_lt.mpr hl')
    | unclosed hl' => exact absurd hl (Nat.not_lt.mpr hl')
  | chunk hl hr _ ih =>
    intro b b1 o' hab hf'
    cases hf' with
    | refused hl' hr' => cases (call_agree hs hab (rename_read h _) hr hr').1
    | chunk hl' hr' hs' =>
      obtain ⟨h1, h2⟩ := call_agree hs hab (rename_read h _) hr hr'
      cases h1
      exact ih h2 hs'
    | closed hl' => exact absurd hl (Nat.not_lt.mpr hl')
    | unclosed hl' => exact absurd hl (Nat.not_lt.mpr hl')
  | closed hl hr =>
    intro b b1 o' hab hf'
    cases hf' with
    | refused hl' => exact absurd hl' (Nat.not_lt.mpr hl)
    | chunk hl' => exact absurd hl' (Nat.not_lt.mpr hl)
    | closed hl' hr' => exact ⟨.ok (.bytes _), (call_agree hs hab (rename_close h) hr hr').2⟩
    | unclosed hl' hr' => cases (call_agree hs hab (rename_close h) hr hr').1
  | unclosed hl hr =>
    intro b b1 o' hab hf'
    cases hf' with
    | refused hl' => exact absurd hl' (Nat.not_lt.mpr hl)
    | chunk hl' => exact absurd hl' (Nat.not_lt.mpr hl)
    | closed hl' hr' => cases (call_agree hs hab (rename_close h) hr hr').1
    | unclosed hl' hr' =>
      obtain ⟨h1, h2⟩ := call_agree hs hab (rename_close h) hr hr'
      cases h1
      exact ⟨.err _, h2⟩

theorem continues_agree (hs : SameService ρ same step step') {u : Bool} {share : Share} {sid : UInt16} {k : Nat} {got : List DirInfo} {a a1 : A} {o : Out Error Val}
    (hf : Continues (fun a c r a' => step a c = (r, a')) u share sid k got a o a1) : ∀ {b b1 : B} {o' : Out Error Val}, same a b →
    Continues (fun a c r a' => step' a c = (r, a')) u (ρ.share share) (ρ.sid sid) k got b o' b1 → ρ.Agree o o' ∧ same a1 b1 := by
  have fit : ∀ {last : DirInfo}, Fits u (.findNext (ρ.share share) (ρ.sid sid) last.filename) ↔ Fits u (.findNext share sid last.filename) := Iff.rfl
  induction hf with
  | budget got a => intro b b1 o' hab hf'; cases hf'; exact ⟨.running, hab⟩
  | long hl ho =>
    intro b b1 o' hab hf'
    cases hf' with
    | long hl' ho' => cases hl.symm.trans hl'; exact ⟨long_agree ho ho', hab⟩
    | refused hl' _ hf | ended hl' _ hf | more hl' _ _ hf => cases hl.symm.trans hl'; exact absurd (fit.mp hf) ho.1
  | refused hl hr hf =>
    intro b b1 o' hab hf'
    cases hf' with
    | long hl' ho' => cases hl.symm.trans hl'; exact absurd (fit.mpr hf) ho'.1
    | refused hl' hr' =>
      cases hl.symm.trans hl'
      obtain ⟨h1, h2⟩ := call_agree hs hab (rename_next share sid _) hr hr'
      cases h1
      exact ⟨.err _, h2⟩
    | ended hl' hr' | more hl' hr' => cases hl.symm.trans hl'; cases (call_agree hs hab (rename_next share sid _) hr hr').1
  | ended hl hr hf =>
    intro b b1 o' hab hf'
    cases hf' with
    | long hl' ho' => cases hl.symm.trans hl'; exact absurd (fit.mpr hf) ho'.1
    | ended hl' hr' =>
      cases hl.symm.trans hl'
      obtain ⟨h1, h2⟩ := call_agree hs hab (rename_next share sid _) hr hr'
      cases h1
      exact ⟨.ok (.entries _), h2⟩
    | refused hl' hr' | more hl' hr' => cases hl.symm.trans hl'; cases (call_agree hs hab (rename_next share sid _) hr hr').1
  | more hl hr _ hf ih =>
    intro b b1 o' hab hf'
    cases hf' with
    | long hl' ho' => cases hl.symm.trans hl'; exact absurd (fit.mpr hf) ho'.1
    | more hl' hr' hs' =>
      cases hl.symm.trans hl'
      obtain ⟨h1, h2⟩ := call_agree hs hab (rename_next share sid _) hr hr'
      cases h1
      exact ih h2 hs'
    | refused hl' hr' | ended hl' hr' => cases hl.symm.trans hl'; cases (call_agree hs hab (rename_next share sid _) hr hr').1

/-- The same operation on the two services. -/
theorem behaves_agree (hs : SameService ρ same step step') {u : Bool} {op : Op} {a a1 : A} {b b1 : B} {o o' : Out Error Val} (hab : same a b)
    (hb : Behaves (fun a c r a' => step a c = (r, a')) u a op o a1) (hb' : Behaves (fun a c r a' => step' a c = (r, a')) u b (ρ.op op) o' b1) :
    ρ.Agree o o' ∧ same a1 b1 := by
  generalize hop : ρ.op op = op' at hb'
  have fit : Fits u op' ↔ Fits u op := by rw [← hop]; exact rename_fits u op
  have hcall : callOf op' = (callOf op).map ρ.call := by rw [← hop]; exact rename_callOf op
  cases hb' with
  | long ho' =>
    cases hb with
    | long ho => subst hop; exact ⟨long_agree ho ho', hab⟩
    | single _ _ hf | unopened _ hf | opened _ _ hf | unlisted _ hf | listed _ _ hf | listing _ _ _ hf => exact absurd (fit.mpr hf) ho'.1
  | single hc' hr' hf' =>
    cases hb with
    | long ho => exact absurd (fit.mp hf') ho.1
    | single hc hr =>
      rw [hc', hc] at hcall
      cases hcall
      obtain ⟨rfl, h2⟩ := call_agree hs hab rfl hr hr'
      exact ⟨answer_agree _, h2⟩
    | _ => rw [hc'] at hcall; cases hcall
  | unopened hr' hf' =>
    cases hb with
    | long ho => exact absurd (fit.mp hf') ho.1
    | single hc hr => rw [hc] at hcall; cases hcall
    | unopened hr =>
      cases hop
      obtain ⟨h1, h2⟩ := call_agree hs hab (by simp only [Renaming.call, Renaming.share, renumber_toNat]) hr hr'
      cases h1
      exact ⟨.err _, h2⟩
    | opened hr =>
      cases hop
      cases (call_agree hs hab (by simp only [Renaming.call, Renaming.share, renumber_toNat]) hr hr').1
    | _ => cases hop
  | opened hr' hs' hf' =>
    cases hb with
    | long ho => exact absurd (fit.mp hf') ho.1
    | single hc hr => rw [hc] at hcall; cases hcall
    | unopened hr =>
      cases hop
      cases (call_agree hs hab (by simp only [Renaming.call, Renaming.share, renumber_toNat]) hr hr').1
    | opened hr hs1 =>
      cases hop
      obtain ⟨h1, h2⟩ := call_agree hs hab (by simp only [Renaming.call, Renaming.share, renumber_toNat]) hr hr'
      cases h1
      exact fetches_agree hs hs1 h2 hs'
    | _ => cases hop
  | unlisted hr' hf' =>
    cases hb with
    | long ho => exact absurd (fit.mp hf') ho.1
    | single hc hr => rw [hc] at hcall; cases hcall
    | unlisted hr =>
      cases hop
      obtain ⟨h1, h2⟩ := call_agree hs hab (by simp only [Renaming.call, Renaming.share, renumber_toNat]) hr hr'
      cases h1
      exact ⟨.err _, h2⟩
    | listed _ hr | listing _ hr =>
      cases hop
      cases (call_agree hs hab (by simp only [Renaming.call, Renaming.share, renumber_toNat]) hr hr').1
    | _ => cases hop
  | listed hd' hr' hf' =>
    cases hb with
    | long ho => exact absurd (fit.mp hf') ho.1
    | single hc hr => rw [hc] at hcall; cases hcall
    | unlisted hr =>
      cases hop
      cases (call_agree hs hab (by simp only [Renaming.call, Renaming.share, renumber_toNat]) hr hr').1
    | listed hd hr =>
      cases hop
      obtain ⟨h1, h2⟩ := call_agree hs hab (by simp only [Renaming.call, Renaming.share, renumber_toNat]) hr hr'
      cases h1
      exact ⟨.ok (.entries _), h2⟩
    | listing hd hr =>
      cases hop
      obtain ⟨h1, h2⟩ := call_agree hs hab (by simp only [Renaming.call, Renaming.share, renumber_toNat]) hr hr'
      cases h1
      exact absurd (hd.symm.trans hd') nofun
    | _ => cases hop
  | listing hd' hr' hs' hf' =>
    cases hb with
    | long ho => exact absurd (fit.mp hf') ho.1
    | single hc hr => rw [hc] at hcall; cases hcall
    | unlisted hr =>
      cases hop
      cases (call_agree hs hab (by simp only [Renaming.call, Renaming.share, renumber_toNat]) hr hr').1
    | listed hd hr =>
      cases hop
      obtain ⟨h1, h2⟩ := call_agree hs hab (by simp only [Renaming.call, Renaming.share, renumber_toNat]) hr hr'
      cases h1
      exact absurd (hd'.symm.trans hd) nofun
    | listing hd hr hs1 =>
      cases hop
      obtain ⟨h1, h2⟩ := call_agree hs hab (by simp only [Renaming.call, Renaming.share, renumber_toNat]) hr hr'
      cases h1
      exact continues_agree hs hs1 h2 hs'
    | _ => cases hop

/-! ## The client -/

variable {E : Env σ} {E' : Env σ'} {own own' : Nat → Prop} {rel : A → σ → Prop} {rel' : B → σ' → Prop}

/-- **C96** Two servers that offer the same service, with other numbers for trees, open files and searches, to two clients, with other user ids and
multiplex ids, over connections with other cuts, in builds with or without checks: the same operation has the same outcome, up to the
numbers, and the services are left in the same state, up to the numbers. -/
theorem C96_operation {s : St σ} {s' : St σ'} (hs : SameService ρ same step step')
    (hi : Implements E.V own s.cli.useUnicode s.cli.uid.toNat (fun a c r a' => step a c = (r, a')) rel)
    (hi' : Implements E'.V own' s'.cli.useUnicode s'.cli.uid.toNat (fun a c r a' => step' a c = (r, a')) rel') (hu : s'.cli.useUnicode = s.cli.useUnicode)
    (op : Op) {n n' : Nat} {a : A} {b : B} (hr : Ready E own (n + cost op) s) (hr' : Ready E' own' (n' + cost op) s') (ha : rel a s.w.srv) (hb : rel' b s'.w.srv)
    (hab : same a b) :
    ρ.Agree (runOp E op s).1 (runOp E' (ρ.op op) s').1 ∧ ∃ a1 b1, same a1 b1 ∧ rel a1 (runOp E op s).2.w.srv ∧ rel' b1 (runOp E' (ρ.op op) s').2.w.srv ∧
      SameUser s.cli (runOp E op s).2.cli ∧ SameUser s'.cli (runOp E' (ρ.op op) s').2.cli ∧ Ready E own n (runOp E op s).2 ∧
      Ready E' own' n' (runOp E' (ρ.op op) s').2 := by
  have hcost : cost (ρ.op op) = cost op := by cases op <;> rfl
  obtain ⟨o, a1, s1, h1, h2, h3, h4, h5⟩ := C66_operation hi op n a hr ha
  obtain ⟨o', b1, s1', k1, k2, k3, k4, k5⟩ := C66_operation hi' (ρ.op op) n' b (by rw [hcost]; exact hr') hb
  rw [hu] at k1
  obtain ⟨m1, m2⟩ := behaves_agree hs hab h1 k1
  rw [h2, k2]
  exact ⟨m1, a1, b1, m2, h3, k3, h4, k4, h5, k5⟩

/-- **C96** And every program has the same result, if it uses the numbers only to make calls with them. -/
theorem C96_program (hs : SameService ρ same step step') {p p' : Prog α} (hp : ρ.Alike p p') : ∀ {s : St σ} {s' : St σ'}
    (_ : Implements E.V own s.cli.useUnicode s.cli.uid.toNat (fun a c r a' => step a c = (r, a')) rel)
    (_ : Implements E'.V own' s'.cli.useUnicode s'.cli.uid.toNat (fun a c r a' => step' a c = (r, a')) rel') (_ : s'.cli.useUnicode = s.cli.useUnicode)
    {n n' : Nat} {a : A} {b : B} (_ : Ready E own n s) (_ : Ready E' own' n' s') (_ : p.Within n) (_ : p'.Within n') (_ : rel a s.w.srv)
    (_ : rel' b s'.w.srv) (_ : same a b),
    (p.run E s).1 = (p'.run E' s').1 ∧ ∃ a1 b1, same a1 b1 ∧ rel a1 (p.run E s).2.w.srv ∧ rel' b1 (p'.run E' s').2.w.srv := by
  induction hp with
  | done x => intro s s' _ _ _ n n' a b _ _ _ _ ha hb hab; exact ⟨rfl, a, b, hab, ha, hb⟩
  | call op next next' _ ih =>
    intro s s' hi hi' hu n n' a b hr hr' hw hw' ha hb hab
    have hcost : cost (ρ.op op) = cost op := by cases op <;> rfl
    obtain ⟨h1, a1, b1, h2, h3, h4, h5, h6, h7, h8⟩ := C96_operation (n := n - cost op) (n' := n' - cost op) hs hi hi' hu op
      (by rw [Nat.sub_add_cancel hw.1]; exact hr) (by rw [Nat.sub_add_cancel (hcost ▸ hw'.1)]; exact hr') ha hb hab
    have hw2 := hw'.2 (runOp E' (ρ.op op) s').1
    rw [hcost] at hw2
    exact ih _ _ h1 (by rw [h5.1, h5.2]; exact hi) (by rw [h6.1, h6.2]; exact hi') (by rw [h5.1, h6.1, hu]) h7 h8 (hw.2 _) hw2 h3 h4 h2

end

/-! ## There are such servers -/

/-- The renaming `back` undoes `ρ`. -/
def TakesBack (back ρ : Renaming) : Prop := (∀ x, back.tid (ρ.tid x) = x) ∧ (∀ x, back.fid (ρ.fid x) = x) ∧ ∀ x, back.sid (ρ.sid x) = x

theorem renumber_back {f g : UInt16 → UInt16} (h : ∀ x, g (f x) = x) (n : Nat) : renumber g (renumber f n) = n := by
  by_cases hn : n < 65536
  · have : n = (UInt16.ofNat n).toNat := (UInt16.toNat_ofNat_of_lt' (by exact hn)).symm
    rw [this, renumber_toNat, renumber_toNat, h]
  · rw [show renumber f n = n from if_neg hn, show renumber g n = n from if_neg hn]

theorem renumbered_same {ρ back : Renaming} (h : TakesBack back ρ) (step : A → Call → Answer × A) : SameService ρ Eq step (renumbered ρ back step) := by
  rintro a _ c rfl
  have : back.call (ρ.call c) = c := by
    cases c <;> simp only [Renaming.call, renumber_back h.1, renumber_back h.2.1, renumber_back h.2.2]
  rw [renumbered, this]
  exact ⟨rfl, rfl⟩

theorem firstPage_sid {P D : Bytes} {sid : Nat} {ended : Bool} {ds : List DirInfo} (h : FirstPage P D sid ended ds) (x : UInt16) :
    ∃ P', FirstPage P' D x.toNat ended ds ∧ P'.length = P.length := by
  obtain ⟨⟨h1, h2, h3, e, h4, h5⟩, h6⟩ := h
  obtain ⟨y, r, rfl, _⟩ := u16At_zero h2
  have hl : ∀ y : UInt16, (putU16 y).length = 2 := fun y => by simp [putU16, putLE]
  rw [u16At_append_right _ _ _ (by rw [hl]; decide), hl] at h3 h4
  refine ⟨putU16 x ++ r, ⟨⟨by rw [List.length_append, hl] at h1 ⊢; exact h1, u16At_put x r, ?_, e, ?_, h5⟩, h6⟩, by rw [List.length_append, List.length_append, hl, hl]⟩
  · rw [u16At_append_right _ _ _ (by rw [hl]; decide), hl]; exact h3
  · rw [u16At_append_right _ _ _ (by rw [hl]; decide), hl]; exact h4

theorem renumbered_speakable {ρ back : Renaming} {step : A → Call → Answer × A} (h : ∀ a c, Speakable c (step a c).1) (a : A) (c : Call) :
    Speakable c (renumbered ρ back step a c).1 := by
  have := h a (back.call c)
  show Speakable c (ρ.answer (step a (back.call c)).1)
  generalize (step a (back.call c)).1 = r at this ⊢
  cases r with
  | refused status => cases c <;> exact this
  | value v =>
    cases c <;> cases v <;> first
      | exact this
      | (obtain ⟨P, D, h1, h2, h3⟩ := this
         obtain ⟨P', h4, h5⟩ := firstPage_sid h1 _
         exact ⟨P', D, h4, by omega, h3⟩)

/-- **C96** There are such pairs of servers for any service and any renaming that can be undone. -/
theorem C96_possible (own : Nat → Prop) (unicode : Bool) {ρ back : Renaming} (hb : TakesBack back ρ) (step : A → Call → Answer × A)
    (h : ∀ a c, Speakable c (step a c).1) : ∃ (V V' : Server A) (step' : A → Call → Answer × A), SameService ρ Eq step step' ∧
      (∀ uid, Implements V own unicode uid (fun a c r a' => step a c = (r, a')) (fun a v => a = v)) ∧
      ∀ uid, Implements V' own unicode uid (fun a c r a' => step' a c = (r, a')) (fun a v => a = v) :=
  ⟨_, _, renumbered ρ back step, renumbered_same hb step, serverOf_implements own unicode step fun a c => speakable_tellable own unicode (h a c),
    serverOf_implements own unicode _ fun a c => speakable_tellable own unicode (renumbered_speakable h a c)⟩

/-! ## Examples -/

namespace Demo

/-- Other numbers for everything. -/
def mirror : Renaming := ⟨fun x => x ^^^ 0xffff, fun x => x ^^^ 0x1234, fun x => x ^^^ 7⟩

theorem mirror_back : TakesBack mirror mirror := by
  refine ⟨fun x => ?_, fun x => ?_, fun x => ?_⟩ <;> simp [mirror, UInt16.xor_assoc]

/-- What a program tells about the outcome of a read: the bytes, if any. -/
def told : Out Error Val → Option Bytes
  | .ok (.bytes b) => some b
  | _ => none

theorem told_agree {ρ : Renaming} {o o' : Out Error Val} (h : ρ.Agree o o') : told o = told o' := by
  cases h with
  | ok v => cases v <;> rfl
  | _ => rfl

/-- A program that opens a file, reads from it, and closes it: it uses the handle only to make calls. -/
def look (share : Share) : Prog (Option Bytes) :=
  .call (.openfile share ['/', 'a']) fun o => match o with
    | .ok (.handle h) => .call (.read h 0) fun x => .call (.close h) fun _ => .done (told x)
    | _ => .done none

theorem look_alike (ρ : Renaming) (share : Share) : ρ.Alike (look share) (look (ρ.share share)) := by
  refine .call (.openfile share ['/', 'a']) _ _ fun o o' h => ?_
  cases h with
  | ok v =>
    cases v with
    | handle h =>
      refine .call (.read h 0) _ _ fun x x' hx => .call (.close h) _ _ fun _ _ _ => ?_
      rw [told_agree hx]
      exact .done _
    | _ => exact .done _
  | _ => exact .done _

/-- A session at a shop. -/
def atShop (uid mid : UInt16) (ws : List WriteEv) : St (Option Bytes) :=
  { cli := { cli with uid, mid }, w := { inbox := [], wsched := ws, out := [], srv := some [1, 2] } }

/-- The environment of a client of a shop. -/
def shopEnv (checked : Bool) (V : Server (Option Bytes)) : Env (Option Bytes) := { env checked with V := V }

theorem look_within (share : Share) : (look share).Within 5 := by
  refine ⟨show 1 ≤ 5 by decide, fun o => ?_⟩
  dsimp only
  split
  · exact ⟨show 1 ≤ 5 - 1 by decide, fun _ => ⟨show 1 ≤ 5 - 1 - 1 by decide, fun _ => trivial⟩⟩
  · trivial

/-- non-vacuity of `C96_operation` and `C96_program`: two shops with other numbers, a session at each of them, with other user ids and multiplex ids, in
different builds; the program sees the same bytes. -/
example (share : Share) : ∃ V V' : Server (Option Bytes),
    ((look share).run (shopEnv true V) (atShop 5 100 [])).1 = ((look (mirror.share share)).run (shopEnv false V') (atShop 77 9 [.accept 3])).1 := by
  obtain ⟨V, V', step', hs, hi, hi'⟩ := C96_possible (fun _ => True) true mirror_back shop shop_speakable
  have r : Ready (shopEnv true V) (fun _ => True) 5 (atShop 5 100 []) :=
    ⟨nofun, .nil, fun _ _ => trivial, fun _ => show 100 + 5 ≤ 65535 by decide⟩
  have r' : Ready (shopEnv false V') (fun _ => True) 5 (atShop 77 9 [.accept 3]) :=
    ⟨by intro ev he; simp [atShop] at he; subst he; exact ⟨_, rfl⟩, .nil, fun _ _ => trivial, fun h => by cases h⟩
  have h := C96_program (E := shopEnv true V) (E' := shopEnv false V') (rel := fun a v => a = v) (rel' := fun a v => a = v) (s := atShop 5 100 [])
    (s' := atShop 77 9 [.accept 3]) hs (look_alike mirror share) (hi 5) (hi' 77) rfl r r' (look_within _) (look_within _) (a := some [1, 2]) (b := some [1, 2]) rfl rfl rfl
  exact ⟨V, V', h.1⟩

end Demo

end Cifs
