import Verif.Props.Lends
import Verif.Props.Disk
import Verif.Spec.Names
/-!
# Names in listings and notifications (C91)
-/

namespace Cifs
open Spec

variable {σ A : Type} {E : Env σ} {own : Nat → Prop} {rel : A → σ → Prop} {Does : A → Call → Answer → A → Prop} {P : Str → Prop}

/-- **C91**, what it says of one operation: all the names that it brings are names. -/
def C91_Names (E : Env σ) (op : Op) (s : St σ) : Prop := ∀ v s', runOp E op s = (.ok v, s') → ∀ name ∈ namesIn v, IsName name

theorem fetches_names {h : Handle} {k : Nat} {data : Bytes} {a a' : A} {o : Out Error Val} (hf : Fetches Does h k data a o a') :
    ∀ v, o = .ok v → namesIn v = [] := by
  induction hf with
  | budget | refused | unclosed => intro v e; cases e
  | chunk _ _ _ ih => exact ih
  | closed => intro v e; cases e; rfl

theorem continues_names (hD : ∀ a c v a', Does a c (.value v) a' → ∀ n ∈ namesIn v, P n) {unicode : Bool} {share : Share} {sid : UInt16} {k : Nat}
    {got : List DirInfo} {a a' : A} {o : Out Error Val} (hc : Continues Does unicode share sid k got a o a') (hg : ∀ d ∈ got, P d.filename) :
    ∀ v, o = .ok v → ∀ n ∈ namesIn v, P n := by
  have page : ∀ {l : List DirInfo}, (∀ n ∈ l.map (·.filename), P n) → ∀ d ∈ l, P d.filename := fun h d hd => h _ (List.mem_map.mpr ⟨d, hd, rfl⟩)
  induction hc with
  | budget | refused => intro v e; cases e
  | long _ ho =>
    intro v e
    rcases ho.2 with ⟨_, h⟩ | ⟨_, _, h⟩ <;> rw [e] at h <;> cases h
  | ended _ hr =>
    intro v e n hn
    cases e
    obtain ⟨d, hd, rfl⟩ := List.mem_map.mp hn
    rcases List.mem_append.mp hd with hd | hd
    · exact hg _ hd
    · exact page (hD _ _ _ _ hr) _ hd
  | more _ hr _ _ ih =>
    refine ih fun d hd => ?_
    rcases List.mem_append.mp hd with hd | hd
    · exact hg _ hd
    · exact page (hD _ _ _ _ hr) _ hd

theorem behaves_names (hD : ∀ a c v a', Does a c (.value v) a' → ∀ n ∈ namesIn v, P n) {unicode : Bool} {a a' : A} {op : Op} {o : Out Error Val}
    (hb : Behaves Does unicode a op o a') : ∀ v, o = .ok v → ∀ n ∈ namesIn v, P n := by
  cases hb with
  | long ho =>
    intro v e
    rcases ho.2 with ⟨_, h⟩ | ⟨_, _, h⟩ <;> rw [e] at h <;> cases h
  | @single _ _ _ r hc hr =>
    intro v e
    cases r with
    | refused => cases e
    | value x => cases e; exact hD _ _ _ _ hr
  | unopened | unlisted => intro v e; cases e
  | opened _ hs =>
    intro v e n hn
    rw [fetches_names hs v e] at hn
    cases hn
  | listed _ hr => intro v e; cases e; exact hD _ _ (.first _) _ hr
  | listing _ hr hs => exact continues_names hD hs fun d hd => hD _ _ _ _ hr _ (List.mem_map.mpr ⟨d, hd, rfl⟩)

/-- **C91**, as far as it holds (`_partial`: names are taken from the server as they are): with a service that tells names only, an operation brings names
only. The same holds for any other quality of names. -/
theorem C91_service_partial {s : St σ} (hi : Implements E.V own s.cli.useUnicode s.cli.uid.toNat Does rel)
    (hD : ∀ a c v a', Does a c (.value v) a' → ∀ name ∈ namesIn v, P name) (op : Op) (n : Nat) (a : A) (hr : Ready E own (n + cost op) s)
    (ha : rel a s.w.srv) {v : Val} {s' : St σ} (hrun : runOp E op s = (.ok v, s')) : ∀ name ∈ namesIn v, P name := by
  obtain ⟨o, a', t, h1, h2, -⟩ := C66_operation hi op n a hr ha
  rw [hrun] at h2
  obtain ⟨rfl, rfl⟩ := Prod.mk.inj h2
  exact behaves_names hD h1 v rfl

/-- **C91** So, with the file systems in which all the names are names, an operation brings names only. -/
theorem C91_files_partial {look : Volume → Str → List DirInfo} {rel : Store → σ → Prop} {s : St σ}
    (hi : Implements E.V own s.cli.useUnicode s.cli.uid.toNat (FileSystem look) rel) (hl : ∀ vol pattern, ∀ d ∈ look vol pattern, IsName d.filename)
    (k : Nat) (share : Share) (pattern : Str) (n : Nat) (a : Store) (hr : Ready E own (n + cost (.list k share pattern)) s) (ha : rel a s.w.srv)
    (hc : a.Can look s.cli.useUnicode (.list k share pattern)) : C91_Names E (.list k share pattern) s := by
  intro v s' hrun
  obtain ⟨o, a', t, h1, h2, -⟩ := C80_operation_partial hi (.list k share pattern) n a hr ha hc
  rw [hrun] at h2
  obtain ⟨rfl, rfl⟩ := Prod.mk.inj h2
  generalize ho : Out.ok v = o at h1
  cases h1 with
  | single hc => cases hc
  | listed hv =>
    cases ho
    intro name hn
    obtain ⟨d, hd, rfl⟩ := List.mem_map.mp hn
    exact hl _ _ d hd

/-! ## The violation -/

/-- An entry with this name. -/
def C91_record (name : Str) : C36_Record := ⟨0, 0, 0, 0, 0, 0, 0, 0, name, encodeUtf16le name, []⟩

/-- A service that finds one file of this name everywhere, and tells that one was added. -/
def C91_step (name : Str) : Unit → Call → Answer × Unit
  | _, .findFirst .. => (.value (.first { sid := 1, done := true, info := [(C91_record name).info] }), ())
  | _, .notify .. => (.value (.changes [(name, .ADDED)]), ())
  | _, _ => (.refused 0xC00000BB, ())

theorem speakable_named {name : Str} (h : 2 * utf16Len name < 59000) (a : Unit) (c : Call) : Speakable c (C91_step name a c).1 := by
  have hw : (encodeUtf16le name).length = 2 * utf16Len name := by simp
  cases c
  case findFirst tid pattern =>
    refine first_speakable tid pattern 1 _ ⟨C91_record name, ⟨Nat.two_pow_pos _, Nat.two_pow_pos _, Nat.two_pow_pos _, Nat.two_pow_pos _, Nat.two_pow_pos _, ?_, utf16le_encode name⟩, rfl, ?_⟩ true
    · show 64 + (encodeUtf16le name).length + 0 < 2 ^ 32; omega
    · show (encodeUtf16le name).length + 0 < 59000; omega
  case notify =>
    refine ⟨_, C33_all [⟨name, encodeUtf16le name, .ADDED, []⟩] ?_ ?_, ?_⟩
    · intro r hr; cases List.mem_singleton.mp hr; exact utf16le_encode name
    · intro r hr; cases List.mem_singleton.mp hr; show 12 + (encodeUtf16le name).length + 0 < 2 ^ 32; omega
    · simp [C33_records, putLE]; omega
  all_goals (show (0xC00000BB : UInt32) ≠ 0; decide)

/-- **C91 violated.** Whatever is not a name, as long as it fits a reply, there is a server from which the client takes it for the name of a file: in every
listing, and in every notification. -/
theorem C91_violated (own : Nat → Prop) (unicode : Bool) {name : Str} (hn : ¬ IsName name) (hl : 2 * utf16Len name < 59000) :
    ∃ V : Server Unit, ∀ (E : Env Unit) (s : St Unit), E.V = V → s.cli.useUnicode = unicode → ∀ op,
      ((∃ k share pattern, op = .list k share pattern) ∨ ∃ handle what, op = .notify handle what) → Fits unicode op → Ready E own (cost op) s →
        (∃ v s', runOp E op s = (.ok v, s') ∧ namesIn v = [name]) ∧ ¬ C91_Names E op s := by
  obtain ⟨V, hV⟩ := C66_services own unicode (C91_step name) (speakable_named hl)
  refine ⟨V, fun E s hE hu op hop hf hr => ?_⟩
  have main : ∃ v s', runOp E op s = (.ok v, s') ∧ namesIn v = [name] := by
    obtain ⟨o, a', s', h1, h2, -⟩ := C66_operation (E := E) (s := s) (by rw [hE, hu]; exact hV _) op 0 () (by rw [Nat.zero_add]; exact hr) rfl
    rw [hu] at h1
    generalize ho : o = o' at h1
    cases h1 with
    | long hl => exact absurd hf hl.1
    | single hc hd =>
      rcases hop with ⟨k, share, pattern, rfl⟩ | ⟨handle, what, rfl⟩ <;> cases hc
      cases hd
      exact ⟨_, s', by rw [h2, ho]; rfl, rfl⟩
    | unopened | opened => rcases hop with ⟨_, _, _, h⟩ | ⟨_, _, h⟩ <;> cases h
    | unlisted he => cases he
    | listed hd he => cases he; exact ⟨_, s', by rw [h2, ho], rfl⟩
    | listing hd he =>
      have e := Answer.value.inj (Prod.mk.inj he).1
      rw [← Val.first.inj e] at hd
      cases hd
  obtain ⟨v, s', h1, h2⟩ := main
  exact ⟨⟨v, s', h1, h2⟩, fun h => hn (h v s' h1 name (by rw [h2]; simp))⟩

namespace Demo

/-- non-vacuity of `C91_violated`: a directory in which there seems to be a file of the name `..\x`, and one that is watched. -/
example : ∃ (E : Env Unit) (s : St Unit), (∃ v s', runOp E (.list 3 share ['*']) s = (.ok v, s') ∧ namesIn v = [['.', '.', '\\', 'x']]) ∧
    ∃ v s', runOp E (.notify handle 1) s = (.ok v, s') ∧ namesIn v = [['.', '.', '\\', 'x']] := by
  obtain ⟨V, hV⟩ := C91_violated (fun _ => True) true (name := ['.', '.', '\\', 'x']) (by decide) (by decide +kernel)
  have hr : ∀ n, n < 100 → Ready { env true with V := V } (fun _ => True) n
      { cli := cli, w := { inbox := [], wsched := [.accept 3, .accept 10], out := [], srv := () } } := fun n hn =>
    ⟨by intro ev he; simp at he; rcases he with rfl | rfl <;> exact ⟨_, rfl⟩, .nil, fun _ _ => trivial, fun _ => by
      show 7 + n ≤ _; omega⟩
  exact ⟨_, _, (hV _ _ rfl rfl (.list 3 share ['*']) (.inl ⟨_, _, _, rfl⟩) (show _ ≤ _ by decide +kernel) (hr 4 (by decide))).1,
    (hV _ _ rfl rfl (.notify handle 1) (.inr ⟨_, _, rfl⟩) trivial (hr 1 (by decide))).1⟩

/-- non-vacuity of `C91_service_partial`: a service that tells the name `x` only, and a notification that brings it. -/
example : ∃ (E : Env Unit) (s : St Unit), (∃ v s', runOp E (.notify handle 1) s = (.ok v, s') ∧ namesIn v = [['x']]) ∧
    C91_Names E (.notify handle 1) s := by
  obtain ⟨V, hV⟩ := C66_services (fun _ => True) true (C91_step ['x']) (speakable_named (by decide +kernel))
  have hr : Ready { env true with V := V } (fun _ => True) (0 + cost (.notify handle 1))
      { cli := cli, w := { inbox := [], wsched := [.accept 3, .accept 10], out := [], srv := () } } :=
    ⟨by intro ev he; simp at he; rcases he with rfl | rfl <;> exact ⟨_, rfl⟩, .nil, fun _ _ => trivial, fun _ => by decide⟩
  refine ⟨_, _, ?_, fun v s' h => C91_service_partial (hV _) (P := IsName) (fun a c v a' hd name hn => ?_) _ 0 () hr rfl h⟩
  · obtain ⟨o, a', s', h1, h2, -⟩ := C66_operation (hV _) (.notify handle 1) 0 () hr rfl
    generalize ho : o = o' at h1
    cases h1 with
    | long hl => exact absurd trivial hl.1
    | single hc hd => cases hc; cases hd; exact ⟨_, s', by rw [h2, ho]; rfl, rfl⟩
  · cases c <;> cases hd <;> cases List.mem_singleton.mp hn <;> decide

/-- non-vacuity of `C91_files_partial`: a volume that shows the name `x`, and a listing that brings it. -/
example : ∃ (E : Env Store) (s : St Store), (∃ v s', runOp E (.list 3 { share with tid := 5 } ['*']) s = (.ok v, s') ∧ namesIn v = [['x']]) ∧
    C91_Names E (.list 3 { share with tid := 5 } ['*']) s := by
  have hl : ∀ vol pattern, ∀ d ∈ (fun _ _ => [(C91_record ['x']).info] : Volume → Str → List DirInfo) vol pattern, EntryFits d := by
    intro vol pattern d hd
    cases List.mem_singleton.mp hd
    exact ⟨C91_record ['x'], ⟨by decide, by decide, by decide, by decide, by decide, by decide +kernel, utf16le_encode _⟩, rfl, by decide +kernel⟩
  obtain ⟨V, hV⟩ := C80_services (fun _ => True) true hl
  have hr : Ready { env true with V := V } (fun _ => True) (0 + cost (.list 3 { share with tid := 5 } ['*']))
      { cli := cli, w := { inbox := [], wsched := [.accept 3, .accept 10], out := [], srv := dirStore } } :=
    ⟨by intro ev he; simp at he; rcases he with rfl | rfl <;> exact ⟨_, rfl⟩, .nil, fun _ _ => trivial, fun _ => by decide⟩
  have hc : dirStore.Can (fun _ _ => [(C91_record ['x']).info]) true (.list 3 { share with tid := 5 } ['*']) :=
    ⟨by show utf16Len ['*'] ≤ 32725; decide +kernel, ⟨0, by decide, rfl⟩, _, rfl, by show 1 ≤ 3; decide, fun d hd => by
      cases List.mem_singleton.mp hd; decide +kernel⟩
  refine ⟨_, _, ?_, C91_files_partial (hV _) (fun _ _ d hd => by cases List.mem_singleton.mp hd; decide) 3 { share with tid := 5 } ['*'] 0 dirStore hr ⟨rfl, dirStore_sound⟩ hc⟩
  obtain ⟨o, a', t, h1, h2, -⟩ := C80_operation_partial (hV _) (.list 3 { share with tid := 5 } ['*']) 0 dirStore hr ⟨rfl, dirStore_sound⟩ hc
  obtain ⟨-, ho⟩ := expects_list h1 rfl
  rw [ho] at h2
  exact ⟨_, _, h2, rfl⟩

end Demo

end Cifs
