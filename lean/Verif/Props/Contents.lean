import Verif.Lemmas.Contents
/-! # C97: what files contain has no influence on what the client does -/

namespace Cifs
open Spec

variable {σ σ' α : Type} {R : UInt8 → UInt8 → Prop}

/-- **C97** Two servers that differ in the contents of files only: the login has the same outcome, the client has written the same bytes and is in the
same state. -/
theorem C97_login (E : Env σ) {V' : Server σ'} {rel : σ → σ' → Prop} (hV : OtherContents R E.V V' rel) {s : St σ} {s' : St σ'} (hc : s.cli = s'.cli)
    (hw : OtherWire R rel s.w s'.w) :
    (setupConnection E s).1 = (setupConnection (E.withV V') s').1 ∧ (setupConnection E s).2.cli = (setupConnection (E.withV V') s').2.cli ∧
      OtherWire R rel (setupConnection E s).2.w (setupConnection (E.withV V') s').2.w := by
  obtain ⟨h1, h2, h3⟩ := Par.setupConnection hV s s' ⟨hc, hw⟩
  exact ⟨h1.eq, h2, h3⟩

/-- **C97** One call: the outcome is the same (the same error as well), except that the bytes which `read` and `download` return are related one by one.
The same requests are written and the client is in the same state. -/
theorem C97_call (E : Env σ) {V' : Server σ'} {rel : σ → σ' → Prop} (hV : OtherContents R E.V V' rel) (op : Op) {s : St σ} {s' : St σ'} (hc : s.cli = s'.cli)
    (hw : OtherWire R rel s.w s'.w) :
    SameOutcome R (runOp E op s).1 (runOp (E.withV V') op s').1 ∧ (givesBytes op = false → (runOp E op s).1 = (runOp (E.withV V') op s').1) ∧
      (∀ b, (runOp E op s).1 = .ok (.bytes b) → ∃ b', (runOp (E.withV V') op s').1 = .ok (.bytes b') ∧ Each R b b') ∧
      (runOp E op s).2.cli = (runOp (E.withV V') op s').2.cli ∧ OtherWire R rel (runOp E op s).2.w (runOp (E.withV V') op s').2.w := by
  obtain ⟨h1, h2, h3⟩ := Par.runOp hV op s s' ⟨hc, hw⟩
  generalize (runOp E op s).1 = o at *
  generalize (runOp (E.withV V') op s').1 = o' at *
  refine ⟨?_, ?_, ?_, h2, h3⟩
  · cases h1 with
    | ok h =>
      cases h with
      | same h v => exact .same _
      | bytes h he => exact .bytes he
    | _ => exact .same _
  · intro hg
    cases h1 with
    | ok h =>
      cases h with
      | same h v => rfl
      | bytes h he => rw [h] at hg; cases hg
    | _ => rfl
  · rintro b rfl
    cases h1 with
    | ok h =>
      cases h with
      | same h v hv => exact absurd rfl (hv b)
      | bytes h he => exact ⟨_, rfl, he⟩

/-- **C97** If the second server sends every byte `x` of a file as `g x`, then the client returns exactly the contents with every byte replaced. -/
theorem C97_mapped (E : Env σ) {V' : Server σ'} {rel : σ → σ' → Prop} (g : UInt8 → UInt8) (hV : OtherContents (fun x y => y = g x) E.V V' rel) (op : Op)
    {s : St σ} {s' : St σ'} (hc : s.cli = s'.cli) (hw : OtherWire (fun x y => y = g x) rel s.w s'.w) (b : Bytes) (h : (runOp E op s).1 = .ok (.bytes b)) :
    (runOp (E.withV V') op s').1 = .ok (.bytes (b.map g)) := by
  obtain ⟨b', h1, h2⟩ := (C97_call E hV op hc hw).2.2.1 b h
  rw [h1]
  have : b' = b.map g := by
    clear h1 h
    induction h2 with
    | nil => rfl
    | cons h _ ih => rw [List.map_cons, h, ih]
  rw [this]

/-- **C97** Histories of calls. -/
theorem C97_history (E : Env σ) {V' : Server σ'} {rel : σ → σ' → Prop} (hV : OtherContents R E.V V' rel) (ops : List Op) :
    ∀ {s : St σ} {s' : St σ'} (_ : s.cli = s'.cli) (_ : OtherWire R rel s.w s'.w),
      (runOps E ops s).1.length = (runOps (E.withV V') ops s').1.length ∧
      (∀ (i : Nat) o o', (runOps E ops s).1[i]? = some o → (runOps (E.withV V') ops s').1[i]? = some o' → SameOutcome R o o') ∧
      (runOps E ops s).2.cli = (runOps (E.withV V') ops s').2.cli ∧ OtherWire R rel (runOps E ops s).2.w (runOps (E.withV V') ops s').2.w := by
  induction ops with
  | nil =>
    intro s s' hc hw
    simp only [runOps]
    exact ⟨trivial, (fun i o o' ho => by rw [List.getElem?_nil] at ho; cases ho), hc, hw⟩
  | cons op ops ih =>
    intro s s' hc hw
    obtain ⟨h1, _, _, h2, h3⟩ := C97_call E hV op hc hw
    obtain ⟨i1, i2, i3, i4⟩ := ih h2 h3
    simp only [runOps, List.length_cons]
    refine ⟨by rw [i1], fun i o o' ho ho' => ?_, i3, i4⟩
    cases i with
    | zero =>
      rw [List.getElem?_cons_zero] at ho ho'
      rw [← Option.some.inj ho, ← Option.some.inj ho']; exact h1
    | succ i =>
      rw [List.getElem?_cons_succ] at ho ho'
      exact i2 i o o' ho ho'

/-- **C97** Programs that do not look into files: the same result, and the same bytes on the wire. -/
theorem C97_program (E : Env σ) {V' : Server σ'} {rel : σ → σ' → Prop} (hV : OtherContents R E.V V' rel) {p p' : Prog α} (hp : Heedless R p p') :
    ∀ {s : St σ} {s' : St σ'} (_ : s.cli = s'.cli) (_ : OtherWire R rel s.w s'.w),
      (p.run E s).1 = (p'.run (E.withV V') s').1 ∧ (p.run E s).2.cli = (p'.run (E.withV V') s').2.cli ∧
        OtherWire R rel (p.run E s).2.w (p'.run (E.withV V') s').2.w := by
  induction hp with
  | done x => intro s s' hc hw; exact ⟨rfl, hc, hw⟩
  | call op next next' _ ih =>
    intro s s' hc hw
    obtain ⟨h1, _, _, h2, h3⟩ := C97_call E hV op hc hw
    exact ih _ _ h1 h2 h3

/-! ## Examples -/

namespace Demo

theorem others (R : UInt8 → UInt8 → Prop) : OtherContents R (logged script) script (fun a b => Alike (SamePackets R) a.1 b) where
  state := fun _ _ _ h => h.tail
  bytes := fun _ _ _ h => h.head
  tail := fun _ _ _ => rfl

/-- The words of a reply with three bytes. -/
def threeWords : Bytes := [0xff, 0, 0, 0, 0, 0, 0, 0, 0, 0, 3, 0] ++ zeros 12

/-- The replies to one download, with these three bytes as the contents of the file. -/
def threeBytes (b : Bytes) : List (List Bytes) :=
  [[message (reply .Create 7 ([0xff, 0, 0, 0, 0] ++ putU16 5 ++ zeros 4 ++ zeros 32 ++ zeros 4 ++ zeros 8 ++ putU64 3 ++ zeros 5) [])],
   [keepAlive ++ message (reply .Read 8 threeWords b)], [message (reply .Close 9 [] [])]]

theorem three_same {R : UInt8 → UInt8 → Prop} {x y z x' y' z' : UInt8} (h : Each R [x, y, z] [x', y', z']) :
    Alike (SamePackets R) (threeBytes [x, y, z]) (threeBytes [x', y', z']) := by
  have f : ∀ d : Bytes, d.length = 3 → reply .Read 8 threeWords d =
      ({ Info.default .Read with flags1 := 0x98, mid := 8 } : Info).write ++ ((12 : UInt8) :: threeWords ++ putU16 3 ++ d) := by
    intro d hd; simp only [reply, hd, List.append_assoc, List.cons_append]; rfl
  intro i
  match i with
  | 0 => exact .same 0 _ (by decide) (.inr (.inr (.inl (by decide +kernel)))) .done
  | 1 =>
    show SamePackets R ((keepAlive ++ message (reply .Read 8 threeWords [x, y, z])) ++ []) ((keepAlive ++ message (reply .Read 8 threeWords [x', y', z'])) ++ [])
    rw [List.append_assoc, List.append_assoc]
    refine .same 0x85 [] (by decide) (.inr (.inl (by decide))) (.read _ _ ?_ ⟨rfl, _, threeWords, putU16 3, [x, y, z], [x', y', z'], 12, f _ rfl, f _ rfl, rfl, rfl, rfl, h⟩ .done)
    exact show 62 ≤ 131071 by decide
  | 2 => exact .same 0 _ (by decide) (.inr (.inr (.inl (by decide +kernel)))) .done
  | i + 3 => exact .done

/-- non-vacuity of `C97_call` and `C97_mapped` (`C97_login` and `C97_history` have the same hypotheses): a file that contains 1, 2, 3, and the same file in the other world, with 11, 12, 13. -/
example : (runOp ((env true).withV script) (.download 9 share ['a']) { cli := cli, w := { (st []).w with srv := threeBytes [11, 12, 13] } }).1 =
    .ok (.bytes [11, 12, 13]) :=
  C97_mapped (env true) (V' := script) (rel := fun a b => Alike (SamePackets fun x y => y = x + 10) a.1 b) (fun x => x + 10) (others _) (.download 9 share ['a'])
    (s := st (threeBytes [1, 2, 3])) (s' := { cli := cli, w := { (st []).w with srv := threeBytes [11, 12, 13] } }) rfl
    ⟨rfl, rfl, three_same (x := 1) (y := 2) (z := 3) (R := fun x y => y = x + 10) (.cons rfl (.cons rfl (.cons rfl .nil))), .done⟩ [1, 2, 3] (by decide +kernel)

/-- non-vacuity of `C97_program`: a program that downloads a file, looks at how long it is and goes on, whatever is in it. -/
def heedless : Prog Bool :=
  .call (.download 9 share ['a']) fun o => .call (.umount share) fun _ => .done (match o with | .ok (.bytes b) => b.length == 3 | _ => false)

theorem heedless_self (R : UInt8 → UInt8 → Prop) : Heedless R heedless heedless := by
  refine .call _ _ _ fun o o' h => .call _ _ _ fun _ _ _ => ?_
  cases h with
  | same o => exact .done _
  | bytes h => dsimp only; rw [h.length]; exact .done _

example (x y z : UInt8) : (heedless.run ((env true).withV script) { cli := cli, w := { (st []).w with srv := threeBytes [x, y, z] } }).1 = true := by
  have h := C97_program (env true) (V' := script) (rel := fun a b => Alike (SamePackets fun _ _ => True) a.1 b) (others _) (heedless_self _)
    (s := st (threeBytes [1, 2, 3])) (s' := { cli := cli, w := { (st []).w with srv := threeBytes [x, y, z] } }) rfl
    ⟨rfl, rfl, three_same (.cons trivial (.cons trivial (.cons trivial .nil))), .done⟩
  rw [← h.1]
  decide +kernel

end Demo

end Cifs
