import Verif.Model.Logged
import Verif.Props.Display
import Verif.Lemmas.Masks
/-! # C64: the lines of the log tell apart what they report -/

namespace Cifs

/-- The names of flags are separated in a way that they can be told apart. -/
theorem names_join {bar : Char} {sep : Str} {l m : List Str} (hl : ∀ s ∈ l, bar ∉ s) (hm : ∀ s ∈ m, bar ∉ s) :
    (l.flatMap fun s => (bar :: sep) ++ s) = (m.flatMap fun s => (bar :: sep) ++ s) → l = m := by
  intro h
  induction l generalizing m with
  | nil => cases m with
    | nil => rfl
    | cons a m => simp at h
  | cons a l ih =>
    cases m with
    | nil => simp at h
    | cons b m =>
      simp only [List.flatMap_cons, List.cons_append, List.cons.injEq, true_and, List.append_assoc] at h
      have h := List.append_cancel_left h
      have tail : ∀ (k : List Str), (k.flatMap fun s => bar :: (sep ++ s)) = [] ∨ ∃ r, (k.flatMap fun s => bar :: (sep ++ s)) = bar :: r := by
        intro k; cases k with
        | nil => exact .inl rfl
        | cons c k => exact .inr ⟨_, rfl⟩
      have ha : bar ∉ a := hl a List.mem_cons_self
      have hb : bar ∉ b := hm b List.mem_cons_self
      have key : a = b ∧ (l.flatMap fun s => bar :: (sep ++ s)) = (m.flatMap fun s => bar :: (sep ++ s)) := by
        rcases tail l with el | ⟨r, el⟩ <;> rcases tail m with em | ⟨r', em⟩ <;> rw [el, em] at h ⊢
        · exact ⟨by simpa using h, rfl⟩
        · exfalso
          rw [List.append_nil] at h
          exact ha (h ▸ List.mem_append_right _ List.mem_cons_self)
        · exfalso
          rw [List.append_nil] at h
          exact hb (h ▸ List.mem_append_right _ List.mem_cons_self)
        · obtain ⟨h1, h2⟩ := sep_inj ha hb h
          exact ⟨h1, by rw [h2]⟩
      rw [key.1, ih (fun s hs => hl s (List.mem_cons_of_mem _ hs)) (fun s hs => hm s (List.mem_cons_of_mem _ hs)) key.2]

/-- The names that are listed. -/
def flagList (m : UInt32) : List String := (NotifyMode.names.filter fun f => m &&& f.1 == f.1).map Prod.snd

theorem flag_listed (m : UInt32) {f : UInt32 × String} (hf : f ∈ NotifyMode.names) : f.2 ∈ flagList m ↔ (m &&& f.1) = f.1 := by
  have uniq : ∀ f ∈ NotifyMode.names, ∀ g ∈ NotifyMode.names, f.2 = g.2 → f = g := by decide +kernel
  rw [flagList, List.mem_map]
  constructor
  · rintro ⟨g, hg, e⟩
    rw [List.mem_filter] at hg
    rw [← uniq g hg.1 f hf e]
    exact eq_of_beq hg.2
  · intro h
    exact ⟨f, List.mem_filter.mpr ⟨hf, by rw [h]; exact beq_self_eq_true _⟩, rfl⟩

theorem flagList_inj {m m' : UInt32} (h : m.toNat < 4096) (h' : m'.toNat < 4096) (e : flagList m = flagList m') : m = m' := by
  have bit : ∀ k, k < 12 → (m.toNat / 2 ^ k % 2 = 1 ↔ m'.toNat / 2 ^ k % 2 = 1) := by
    intro k hk
    have hmem : ∃ f ∈ NotifyMode.names, f.1.toNat = 2 ^ k := by
      have all : ∀ k < 12, ∃ f ∈ NotifyMode.names, f.1.toNat = 2 ^ k := by decide +kernel
      exact all k hk
    obtain ⟨f, hf, hx⟩ := hmem
    have c1 := contains32 m f.1 k hx
    have c2 := contains32 m' f.1 k hx
    have t := flag_listed m hf
    rw [e, flag_listed m' hf] at t
    have u : Capabilities.contains m f.1 = Capabilities.contains m' f.1 := by
      rw [Capabilities.contains, Capabilities.contains, Bool.eq_iff_iff, beq_iff_eq, beq_iff_eq]; exact t.symm
    rw [c1, c2] at u
    simpa using u
  apply UInt32.toNat_inj.mp
  apply Nat.eq_of_testBit_eq
  intro k
  by_cases hk : k < 12
  · rw [Nat.testBit_eq_decide_div_mod_eq, Nat.testBit_eq_decide_div_mod_eq]
    exact decide_eq_decide.mpr (bit k hk)
  · have hp : (4096 : Nat) ≤ 2 ^ k := by
      have : (2 : Nat) ^ 12 ≤ 2 ^ k := Nat.pow_le_pow_right (by decide) (by omega)
      exact this
    rw [Nat.testBit_lt_two_pow (by omega), Nat.testBit_lt_two_pow (by omega)]

theorem flag_text (m : UInt32) : ∀ s ∈ flagList m, ' ' ∉ s.toList ∧ s.toList.head? ≠ some '(' := by
  have all : ∀ f ∈ NotifyMode.names, ' ' ∉ f.2.toList ∧ f.2.toList.head? ≠ some '(' ∧ f.2.toList ≠ [] := by decide +kernel
  intro s hs
  rw [flagList, List.mem_map] at hs
  obtain ⟨f, hf, rfl⟩ := hs
  obtain ⟨h1, h2, _⟩ := all f (List.mem_filter.mp hf).1
  exact ⟨h1, h2⟩

theorem flag_nonempty (m : UInt32) : ∀ s ∈ flagList m, s.toList ≠ [] := by
  have all : ∀ f ∈ NotifyMode.names, f.2.toList ≠ [] := by decide +kernel
  intro s hs
  rw [flagList, List.mem_map] at hs
  obtain ⟨f, hf, rfl⟩ := hs
  exact all f (List.mem_filter.mp hf).1

theorem notify_debug_inj {m m' : UInt32} (h : m.toNat < 4096) (h' : m'.toNat < 4096) (e : NotifyMode.debug m = NotifyMode.debug m') : m = m' := by
  apply flagList_inj h h'
  have d : ∀ m, NotifyMode.debug m = match flagList m with
    | [] => "(empty)".toList
    | n :: more => n.toList ++ more.flatMap fun n => " | ".toList ++ n.toList := fun _ => rfl
  rw [d, d] at e
  have t := flag_text m
  have t' := flag_text m'
  have ne := flag_nonempty m
  have ne' := flag_nonempty m'
  generalize flagList m = l at *
  generalize flagList m' = l' at *
  cases l with
  | nil =>
    cases l' with
    | nil => rfl
    | cons a l' =>
      exfalso
      have h1 := (t' a List.mem_cons_self).2
      have h2 := ne' a List.mem_cons_self
      obtain ⟨c, x, hx⟩ := List.exists_cons_of_ne_nil h2
      rw [hx] at h1
      have e1 : '(' :: "empty)".toList = a.toList ++ _ := e
      rw [hx, List.cons_append] at e1
      exact h1 (by rw [← (List.cons.inj e1).1]; rfl)
  | cons a l =>
    cases l' with
    | nil =>
      exfalso
      have h1 := (t a List.mem_cons_self).2
      have h2 := ne a List.mem_cons_self
      obtain ⟨c, x, hx⟩ := List.exists_cons_of_ne_nil h2
      rw [hx] at h1
      have e1 : a.toList ++ _ = '(' :: "empty)".toList := e
      rw [hx, List.cons_append] at e1
      exact h1 (by rw [(List.cons.inj e1).1]; rfl)
    | cons b l' =>
      have e2 : ((a :: l).map String.toList).flatMap (fun s => (' ' :: "| ".toList) ++ s) =
          ((b :: l').map String.toList).flatMap (fun s => (' ' :: "| ".toList) ++ s) := by
        have e3 : ∀ (k : List String), (k.map String.toList).flatMap (fun s => (' ' :: "| ".toList) ++ s) = k.flatMap (fun n => " | ".toList ++ n.toList) := by
          intro k; rw [List.flatMap_map]; rfl
        rw [e3, e3, List.flatMap_cons, List.flatMap_cons, List.append_assoc, List.append_assoc]
        exact congrArg (" | ".toList ++ ·) e
      have e5 := names_join (bar := ' ') (sep := "| ".toList) (l := (a :: l).map String.toList) (m := (b :: l').map String.toList)
        (by intro s hs; obtain ⟨n, hn, rfl⟩ := List.mem_map.mp hs; exact (t n hn).1)
        (by intro s hs; obtain ⟨n, hn, rfl⟩ := List.mem_map.mp hs; exact (t' n hn).1) e2
      exact (List.map_inj_right fun _ _ hxy => toList_inj hxy).mp e5

/-- The beginnings of the lines. -/
def Event.leads : List String :=
  ["create NetBios connection to ", "expecting NetBios msg type: ", "expecting NetBios msg of length ", "reading ", "writting ", "waiting for "]

/-- Which one it is. -/
def Event.lead : Event → Nat
  | .connecting _ _ => 0
  | .msgType _ => 1
  | .msgLength _ => 2
  | .reading _ => 3
  | .writing _ => 4
  | .waiting _ => 5

/-- The rest of the line. -/
def Event.rest : Event → Str
  | .connecting host port => host ++ ":".toList ++ showDecimal port.toNat
  | .msgType t => showDecimal t.toNat
  | .msgLength n => showDecimal n
  | .reading n => showDecimal n ++ " bytes...".toList
  | .writing n => showDecimal n ++ " bytes...".toList
  | .waiting what => NotifyMode.debug what ++ " notification".toList

/-- Only flags that there are. -/
def Event.Valid : Event → Prop
  | .waiting what => what.toNat < 4096
  | _ => True

/-- **C64** Two lines of the log with the same text report the same. -/
theorem C64_lines {a b : Event} (ha : a.Valid) (hb : b.Valid) (h : a.text = b.text) : a = b := by
  obtain ⟨h1, h2⟩ := lit_inj Event.leads Event.lead Event.rest (by
    intro a; cases a <;> exact ⟨by dsimp only [Event.lead]; decide, rfl⟩) (by decide +kernel) h
  cases a <;> cases b <;> first | (dsimp only [Event.lead] at h1; omega) | skip
  · rename_i host port host' port'
    have hd : ∀ n, ':' ∉ (showDecimal n).reverse := fun n hc => absurd (showDecimal_digit (List.mem_reverse.mp hc)) (by decide)
    have h3 := congrArg List.reverse h2
    simp only [Event.rest, List.reverse_append] at h3
    obtain ⟨e1, e2⟩ := sep_inj (c := ':') (x := host.reverse) (y := host'.reverse) (hd port.toNat) (hd port'.toNat) h3
    rw [List.reverse_inj.mp e2, UInt16.toNat_inj.mp (showDecimal_inj (List.reverse_inj.mp e1))]
  · rw [UInt8.toNat_inj.mp (showDecimal_inj h2)]
  · rw [showDecimal_inj h2]
  · rw [showDecimal_inj (List.append_cancel_right h2)]
  · rw [showDecimal_inj (List.append_cancel_right h2)]
  · rw [notify_debug_inj ha hb (List.append_cancel_right h2)]

/-- **C64** What the lines say, word for word. -/
theorem C64_line_texts (host : Str) (port : UInt16) (t : UInt8) (n : Nat) :
    (Event.connecting host port).text = "create NetBios connection to ".toList ++ (host ++ ":".toList ++ Nat.toDigits 10 port.toNat) ∧
    (Event.msgType t).text = "expecting NetBios msg type: ".toList ++ Nat.toDigits 10 t.toNat ∧
    (Event.msgLength n).text = "expecting NetBios msg of length ".toList ++ Nat.toDigits 10 n ∧
    (Event.reading n).text = "reading ".toList ++ (Nat.toDigits 10 n ++ " bytes...".toList) ∧
    (Event.writing n).text = "writting ".toList ++ (Nat.toDigits 10 n ++ " bytes...".toList) ∧
    (Event.waiting 0).text = "waiting for (empty) notification".toList ∧
    (Event.waiting 0xFFF).text = "waiting for FILENAME | DIRNAME | NAME | ATTR | SIZE | LAST_WRITE | LAST_ACCESS | CREATION | EA | SECURITY | ".toList ++
      "STREAM_NAME | STREAM_SIZE | STREAM_WRITE notification".toList := by
  exact ⟨rfl, rfl, rfl, rfl, rfl, by decide +kernel, by decide +kernel⟩

/-- Lines of each kind. -/
example : (Event.connecting "nas".toList 445).text = "create NetBios connection to nas:445".toList ∧
    (Event.waiting 0x11).text = "waiting for FILENAME | LAST_WRITE notification".toList ∧ (Event.waiting 0x11).Valid := by
  refine ⟨by decide +kernel, by decide +kernel, by show (0x11 : UInt32).toNat < 4096; decide⟩

end Cifs
