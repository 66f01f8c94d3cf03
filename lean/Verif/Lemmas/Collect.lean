import Verif.Spec.Reassembly
import Verif.Lemmas.Drop
/-! # What the collectors hold -/

namespace Cifs
open Spec

/-- A collector that was given these fragments. -/
def colOf (l : List (Nat × Bytes)) (total : Option Nat) : Collector := { fragments := (fragments l).reverse, total }

theorem fragments_append (l l' : List (Nat × Bytes)) : fragments (l ++ l') = fragments l ++ fragments l' := List.filter_append ..

theorem fragments_single (o : Nat) (d : Bytes) : fragments [(o, d)] = if d = [] then [] else [(o, d)] := by
  cases d <;> simp [fragments]

theorem colOf_len (l : List (Nat × Bytes)) (t : Option Nat) : (colOf l t).len = (l.map fun x => x.2.length).sum := by
  unfold Collector.len colOf
  simp only [List.map_reverse]
  rw [List.sum_reverse]
  induction l with
  | nil => rfl
  | cons x l ih =>
    obtain ⟨o, d⟩ := x
    rw [show (o, d) :: l = [(o, d)] ++ l from rfl, fragments_append, List.map_append, List.map_append, List.sum_append, List.sum_append, ih,
      fragments_single]
    cases d <;> simp

/-- What is needed to take a further fragment. -/
def FitsIn (l : List (Nat × Bytes)) (total : Option Nat) (o : Nat) (d : Bytes) (t : Nat) : Prop :=
  (∀ t', total = some t' → t' = t) ∧ (d = [] ∨ o ∉ (fragments l).map (·.1))

theorem add_cases (l : List (Nat × Bytes)) (total : Option Nat) (d : Bytes) (o t : Nat) :
    (FitsIn l total o d t ∧ (colOf l total).add d o t = .ok (colOf (l ++ [(o, d)]) (some t))) ∨
      (¬ FitsIn l total o d t ∧ ∃ r, (colOf l total).add d o t = .err (.Reassemble r)) := by
  have key : ((d = [] ∨ o ∉ (fragments l).map (·.1)) ∧ (colOf l (some t)).insert d o = .ok (colOf (l ++ [(o, d)]) (some t))) ∨
      (¬ (d = [] ∨ o ∉ (fragments l).map (·.1)) ∧ ∃ r, (colOf l (some t)).insert d o = .err (.Reassemble r)) := by
    unfold Collector.insert
    by_cases hd : d = []
    · refine .inl ⟨.inl hd, ?_⟩
      rw [if_pos (by simp [hd])]
      simp [colOf, fragments_append, fragments_single, hd]
    · rw [if_neg (by simpa using hd)]
      have hany : (colOf l (some t)).fragments.any (fun p => p.1 == o) = true ↔ o ∈ (fragments l).map (·.1) := by
        simp [colOf, List.any_eq_true]
      by_cases ho : o ∈ (fragments l).map (·.1)
      · refine .inr ⟨by simp only [hd, false_or]; exact fun h => h ho, ?_⟩
        rw [if_pos (hany.mpr ho)]; exact ⟨_, rfl⟩
      · refine .inl ⟨.inr ho, ?_⟩
        rw [if_neg (fun h => ho (hany.mp h))]
        simp [colOf, fragments_append, fragments_single, hd]
  unfold Collector.add FitsIn
  cases total with
  | none =>
    show (_ ∧ (colOf l (some t)).insert d o = _) ∨ (_ ∧ ∃ r, (colOf l (some t)).insert d o = _)
    rcases key with ⟨h1, h2⟩ | ⟨h1, h2⟩
    · exact .inl ⟨⟨by simp, h1⟩, h2⟩
    · exact .inr ⟨fun h => h1 h.2, h2⟩
  | some t' =>
    show (_ ∧ (if t' ≠ t then _ else (colOf l (some t')).insert d o) = _) ∨ (_ ∧ ∃ r, (if t' ≠ t then _ else (colOf l (some t')).insert d o) = _)
    by_cases ht : t' = t
    · subst ht
      rw [if_neg (by simp)]
      rcases key with ⟨h1, h2⟩ | ⟨h1, h2⟩
      · exact .inl ⟨⟨by simp, h1⟩, h2⟩
      · exact .inr ⟨fun h => h1 h.2, h2⟩
    · rw [if_pos ht]
      exact .inr ⟨fun h => ht (h.1 t' rfl), _, rfl⟩

/-! ## Joining -/

theorem join_iff (l : List (Nat × Bytes)) (buf b : Bytes) : joinFragments buf l = .ok b ↔ ∃ r, Tiling buf.length l r ∧ b = buf ++ r := by
  induction l generalizing buf with
  | nil =>
    constructor
    · intro h; cases h; exact ⟨[], .nil _, by simp⟩
    · rintro ⟨r, h, rfl⟩; cases h; simp [joinFragments]
  | cons x l ih =>
    obtain ⟨o, d⟩ := x
    unfold joinFragments
    by_cases ho : buf.length = o
    · rw [if_neg (by simpa using ho), ih]
      subst ho
      rw [List.length_append]
      constructor
      · rintro ⟨r, h, rfl⟩; exact ⟨d ++ r, .cons h, by simp⟩
      · rintro ⟨r, h, rfl⟩
        cases h with
        | cons h => exact ⟨_, h, by simp⟩
    · rw [if_pos ho]
      constructor
      · intro h; cases h
      · rintro ⟨r, h, rfl⟩; cases h; exact absurd rfl ho

theorem join_err (l : List (Nat × Bytes)) (buf : Bytes) : (∃ b, joinFragments buf l = .ok b) ∨ ∃ r, joinFragments buf l = .err (.Reassemble r) := by
  induction l generalizing buf with
  | nil => exact .inl ⟨_, rfl⟩
  | cons x l ih =>
    obtain ⟨o, d⟩ := x
    unfold joinFragments
    split
    · exact .inr ⟨_, rfl⟩
    · exact ih _

theorem tiling_le {o : Nat} {l : List (Nat × Bytes)} {b : Bytes} (h : Tiling o l b) : ∀ x ∈ l, o ≤ x.1 := by
  induction h with
  | nil => simp
  | cons h ih =>
    intro x hx
    rcases List.mem_cons.mp hx with rfl | hx
    · exact Nat.le_refl _
    · have := ih x hx; omega

theorem tiling_sorted {o : Nat} {l : List (Nat × Bytes)} {b : Bytes} (h : Tiling o l b) (hne : ∀ x ∈ l, x.2 ≠ []) : l.Pairwise (fun a b => a.1 < b.1) := by
  induction h with
  | nil => exact .nil
  | cons h ih =>
    rename_i o d b l
    refine List.pairwise_cons.mpr ⟨fun x hx => ?_, ih fun x hx => hne x (by simp [hx])⟩
    have := tiling_le h x hx
    have hd : 0 < d.length := List.length_pos_iff.mpr (hne (o, d) (by simp))
    dsimp only; omega

theorem tiling_length {o : Nat} {l : List (Nat × Bytes)} {b : Bytes} (h : Tiling o l b) : b.length = (l.map fun x => x.2.length).sum := by
  induction h with
  | nil => rfl
  | cons h ih => simp [ih]

theorem fragments_ne (l : List (Nat × Bytes)) : ∀ x ∈ fragments l, x.2 ≠ [] := by
  intro x hx
  have := (List.mem_filter.mp hx).2
  simpa using this

theorem sort_eq {l l' : List (Nat × Bytes)} (hp : (fragments l).Perm l') (hs : l'.Pairwise (fun a b => a.1 < b.1)) :
    sortFragments (fragments l).reverse = l' := by
  have h1 : (sortFragments (fragments l).reverse).Perm l' := (List.mergeSort_perm _ _).trans ((List.reverse_perm _).trans hp)
  have h2 : (sortFragments (fragments l).reverse).Pairwise (fun a b => decide (a.1 ≤ b.1) = true) :=
    List.pairwise_mergeSort (fun a b c h h' => by simp at *; omega) (fun a b => by simp; omega) _
  refine List.Perm.eq_of_pairwise (le := fun a b => decide (a.1 ≤ b.1) = true) ?_ h2 (hs.imp fun h => by simp; omega) h1
  intro a b ha hb hab hba
  have ha := h1.subset ha
  have he : a.1 = b.1 := by simp at hab hba; omega
  have hlt : l'.Pairwise (fun a b => a.1 = b.1 → a = b) := hs.imp fun h h' => by omega
  apply Classical.byContradiction
  intro hne
  rcases List.mem_iff_getElem.mp ha with ⟨i, hi, rfl⟩
  rcases List.mem_iff_getElem.mp hb with ⟨j, hj, rfl⟩
  rcases Nat.lt_trichotomy i j with h | h | h
  · have := List.pairwise_iff_getElem.mp hs i j hi hj h; omega
  · subst h; exact hne rfl
  · have := List.pairwise_iff_getElem.mp hs j i hj hi h; omega

theorem get_iff (l : List (Nat × Bytes)) (t : Nat) (b : Bytes) : (colOf l (some t)).get = .ok b ↔ Cut l b ∧ t = b.length := by
  show (if (colOf l (some t)).len ≠ t then _ else joinFragments [] (sortFragments (fragments l).reverse)) = _ ↔ _
  have hsum : (colOf l (some t)).len = ((fragments l).map fun x => x.2.length).sum := by
    unfold Collector.len colOf
    simp only [List.map_reverse, List.sum_reverse]
  constructor
  · intro h
    by_cases hl : (colOf l (some t)).len = t
    · rw [if_neg (by simpa using hl)] at h
      obtain ⟨r, ht, rfl⟩ := (join_iff _ _ _).mp h
      have hp : (fragments l).Perm (sortFragments (fragments l).reverse) :=
        ((List.mergeSort_perm _ _).trans (List.reverse_perm _)).symm
      refine ⟨⟨_, hp, by simpa using ht⟩, ?_⟩
      rw [tiling_length ht, ← hl, hsum]
      exact (hp.map _).sum_nat
    · rw [if_pos hl] at h; cases h
  · rintro ⟨⟨l', hp, ht⟩, rfl⟩
    have hne : ∀ x ∈ l', x.2 ≠ [] := fun x hx => fragments_ne l x (hp.symm.subset hx)
    rw [sort_eq hp (tiling_sorted ht hne), if_neg, (join_iff l' [] b).mpr ⟨b, by simpa using ht, by simp⟩]
    rw [hsum, tiling_length ht]
    simpa using (hp.map _).sum_nat

theorem get_err (l : List (Nat × Bytes)) (t : Nat) : (∃ b, (colOf l (some t)).get = .ok b) ∨ ∃ r, (colOf l (some t)).get = .err (.Reassemble r) := by
  show (∃ b, (if (colOf l (some t)).len ≠ t then _ else joinFragments [] (sortFragments (fragments l).reverse)) = .ok b) ∨
    ∃ r, (if (colOf l (some t)).len ≠ t then _ else joinFragments [] (sortFragments (fragments l).reverse)) = .err (.Reassemble r)
  split
  · exact .inr ⟨_, rfl⟩
  · exact join_err _ _

/-! ## Both blocks -/

/-- What a message brings, in the client's terms. -/
def Spec.Piece.reply (p : Piece) : Trans2Reply :=
  { parameter := p.params, parameterTotal := p.paramsTotal, parameterOffset := p.paramsAt, data := p.data, dataTotal := p.dataTotal
    dataOffset := p.dataAt }

abbrev paramsOfPieces (l : List Piece) : List (Nat × Bytes) := l.map fun p => (p.paramsAt, p.params)
abbrev dataOfPieces (l : List Piece) : List (Nat × Bytes) := l.map fun p => (p.dataAt, p.data)

/-- The state of the collection after these pieces. -/
def ctxOf (l : List Piece) : CollectTrans2 :=
  { parameter := colOf (paramsOfPieces l) (l.head?.map (·.paramsTotal)), data := colOf (dataOfPieces l) (l.head?.map (·.dataTotal)) }

theorem ctxOf_nil : ctxOf [] = .new := rfl

theorem head_append (l : List Piece) (p : Piece) (g : Piece → Nat) (h : ∀ t, l.head?.map g = some t → t = g p) :
    (l ++ [p]).head?.map g = some (g p) := by
  cases l with
  | nil => rfl
  | cons q l => simp at h ⊢; exact h

theorem agree_prefix {l l' : List Piece} (h : Agree (l ++ l')) : Agree l := by
  obtain ⟨h1, h2, h3⟩ := h
  refine ⟨fun p hp q hq => h1 p (by simp [hp]) q (by simp [hq]), ?_, ?_⟩
  · rw [List.map_append, fragments_append, List.map_append] at h2; exact (List.nodup_append.mp h2).1
  · rw [List.map_append, fragments_append, List.map_append] at h3; exact (List.nodup_append.mp h3).1

theorem agree_nil : Agree [] := ⟨by simp, .nil, .nil⟩

theorem fits_nodup (l : List (Nat × Bytes)) (o : Nat) (d : Bytes) :
    ((fragments (l ++ [(o, d)])).map (·.1)).Nodup ↔ ((fragments l).map (·.1)).Nodup ∧ (d = [] ∨ o ∉ (fragments l).map (·.1)) := by
  rw [fragments_append, fragments_single]
  by_cases hd : d = []
  · simp [hd]
  · rw [if_neg hd, List.map_append, List.nodup_append]
    simp only [hd, false_or]
    constructor
    · rintro ⟨h1, _, h3⟩; exact ⟨h1, fun h => h3 o h o (by simp) rfl⟩
    · rintro ⟨h1, h2⟩
      refine ⟨h1, by simp, ?_⟩
      intro a ha b hb hab
      simp at hb; subst hb; subst hab; exact h2 ha

/-- The pieces after `l` and `p` agree exactly if both collectors take the fragments of `p`. -/
theorem agree_iff {l : List Piece} (h : Agree l) (p : Piece) : Agree (l ++ [p]) ↔
    FitsIn (paramsOfPieces l) (l.head?.map (·.paramsTotal)) p.paramsAt p.params p.paramsTotal ∧
      FitsIn (dataOfPieces l) (l.head?.map (·.dataTotal)) p.dataAt p.data p.dataTotal := by
  obtain ⟨h1, h2, h3⟩ := h
  unfold Agree FitsIn
  rw [List.map_append, List.map_append]
  simp only [List.map_cons, List.map_nil]
  rw [fits_nodup, fits_nodup]
  constructor
  · rintro ⟨a, ⟨_, b⟩, ⟨_, c⟩⟩
    refine ⟨⟨?_, b⟩, ⟨?_, c⟩⟩
    · cases l with
      | nil => simp
      | cons q l => have := (a q (by simp) p (by simp)).1; simpa using this
    · cases l with
      | nil => simp
      | cons q l => have := (a q (by simp) p (by simp)).2; simpa using this
  · rintro ⟨⟨a, b⟩, ⟨c, d⟩⟩
    refine ⟨?_, ⟨h2, b⟩, ⟨h3, d⟩⟩
    have hp : ∀ q ∈ l, q.paramsTotal = p.paramsTotal ∧ q.dataTotal = p.dataTotal := by
      intro q hq
      cases l with
      | nil => cases hq
      | cons r l =>
        have e := h1 q hq r (by simp)
        have a := a _ rfl
        have c := c _ rfl
        exact ⟨e.1.trans a, e.2.trans c⟩
    intro x hx y hy
    rcases List.mem_append.mp hx with hx' | hx <;> rcases List.mem_append.mp hy with hy' | hy
    · exact h1 x hx' y hy'
    · cases List.mem_singleton.mp hy; exact hp x ‹_›
    · cases List.mem_singleton.mp hx; exact ⟨(hp y ‹_›).1.symm, (hp y ‹_›).2.symm⟩
    · cases List.mem_singleton.mp hx; cases List.mem_singleton.mp hy; exact ⟨rfl, rfl⟩

theorem enough_iff (l : List Piece) (p : Piece) (h : Agree (l ++ [p])) : Enough (l ++ [p]) ↔
    p.paramsTotal ≤ ((paramsOfPieces (l ++ [p])).map fun x => x.2.length).sum ∧ p.dataTotal ≤ ((dataOfPieces (l ++ [p])).map fun x => x.2.length).sum := by
  rw [List.map_map, List.map_map]
  cases l with
  | nil => exact Iff.rfl
  | cons q l =>
    have := h.1 p (by simp) q (by simp)
    rw [this.1, this.2]
    exact Iff.rfl

/-- One step of the collection. -/
theorem ctx_add {l : List Piece} (h : Agree l) (p : Piece) :
    (Agree (l ++ [p]) ∧ ∃ rd : Bool, (rd = true ↔ Enough (l ++ [p])) ∧ (ctxOf l).add p.reply = .ok (ctxOf (l ++ [p]), rd)) ∨
      (¬ Agree (l ++ [p]) ∧ ∃ r, (ctxOf l).add p.reply = .err (.Reassemble r)) := by
  rw [agree_iff h]
  unfold CollectTrans2.add
  rcases add_cases (paramsOfPieces l) (l.head?.map (·.paramsTotal)) p.params p.paramsAt p.paramsTotal with ⟨f1, e1⟩ | ⟨f1, r, e1⟩
  · rcases add_cases (dataOfPieces l) (l.head?.map (·.dataTotal)) p.data p.dataAt p.dataTotal with ⟨f2, e2⟩ | ⟨f2, r, e2⟩
    · refine .inl ⟨⟨f1, f2⟩, ?_⟩
      have ha := (agree_iff h p).mpr ⟨f1, f2⟩
      have hc : ctxOf (l ++ [p]) = { parameter := colOf (paramsOfPieces l ++ [(p.paramsAt, p.params)]) (some p.paramsTotal)
                                     data := colOf (dataOfPieces l ++ [(p.dataAt, p.data)]) (some p.dataTotal) } := by
        unfold ctxOf
        rw [head_append l p (·.paramsTotal) f1.1, head_append l p (·.dataTotal) f2.1]
        simp
      refine ⟨(colOf (paramsOfPieces l ++ [(p.paramsAt, p.params)]) (some p.paramsTotal)).isReady &&
        (colOf (dataOfPieces l ++ [(p.dataAt, p.data)]) (some p.dataTotal)).isReady, ?_, ?_⟩
      rotate_left
      · rw [hc]
        show Res.bind _ _ = _
        rw [show (ctxOf l).parameter.add p.reply.parameter p.reply.parameterOffset p.reply.parameterTotal = _ from e1]
        show Res.bind _ _ = _
        rw [show (ctxOf l).data.add p.reply.data p.reply.dataOffset p.reply.dataTotal = _ from e2]
        rfl
      · rw [enough_iff l p ha]
        simp only [Bool.and_eq_true, Collector.isReady, colOf, ge_iff_le, decide_eq_true_eq]
        have l1 := colOf_len (paramsOfPieces l ++ [(p.paramsAt, p.params)]) (some p.paramsTotal)
        have l2 := colOf_len (dataOfPieces l ++ [(p.dataAt, p.data)]) (some p.dataTotal)
        unfold colOf at l1 l2
        rw [l1, l2, show paramsOfPieces (l ++ [p]) = paramsOfPieces l ++ [(p.paramsAt, p.params)] from List.map_append,
          show dataOfPieces (l ++ [p]) = dataOfPieces l ++ [(p.dataAt, p.data)] from List.map_append]
    · refine .inr ⟨fun h => f2 h.2, r, ?_⟩
      show Res.bind _ _ = _
      rw [show (ctxOf l).parameter.add p.reply.parameter p.reply.parameterOffset p.reply.parameterTotal = _ from e1]
      show Res.bind _ _ = _
      rw [show (ctxOf l).data.add p.reply.data p.reply.dataOffset p.reply.dataTotal = _ from e2]
      rfl
  · refine .inr ⟨fun h => f1 h.1, r, ?_⟩
    show Res.bind _ _ = _
    rw [show (ctxOf l).parameter.add p.reply.parameter p.reply.parameterOffset p.reply.parameterTotal = _ from e1]
    rfl

/-! ## The loop on a list of pieces -/

/-- Take pieces until complete; nothing if more are needed. -/
def takePieces (c : CollectTrans2) : List Piece → Option (Res SmbError CollectTrans2)
  | [] => none
  | p :: l =>
    match c.add p.reply with
    | .ok (c', rd) => if rd then some (.ok c') else takePieces c' l
    | .err e => some (.err e)
    | .panic => some .panic

theorem take_cases (l : List Piece) : ∀ (done : List Piece), Agree done →
    (∃ pre post, l = pre ++ post ∧ pre ≠ [] ∧ Agree (done ++ pre) ∧ Enough (done ++ pre) ∧ takePieces (ctxOf done) l = some (.ok (ctxOf (done ++ pre)))) ∨
    (∃ r, takePieces (ctxOf done) l = some (.err (.Reassemble r)) ∧ ¬ Agree (done ++ l)) ∨
    (takePieces (ctxOf done) l = none ∧ Agree (done ++ l) ∧ (l ≠ [] → ¬ Enough (done ++ l))) := by
  induction l with
  | nil => intro done h; exact .inr (.inr ⟨rfl, by simpa using h, fun h => absurd rfl h⟩)
  | cons p l ih =>
    intro done h
    rcases ctx_add h p with ⟨ha, rd, hrd, e⟩ | ⟨ha, r, e⟩
    · cases rd with
      | true =>
        refine .inl ⟨[p], l, rfl, by simp, ha, hrd.mp rfl, ?_⟩
        simp only [takePieces, e]
        rfl
      | false =>
        have hn : ¬ Enough (done ++ [p]) := fun h => by have := hrd.mpr h; cases this
        have hstep : takePieces (ctxOf done) (p :: l) = takePieces (ctxOf (done ++ [p])) l := by
          simp only [takePieces, e]; rfl
        rw [hstep]
        have happ : done ++ [p] ++ l = done ++ p :: l := by simp
        rcases ih (done ++ [p]) ha with ⟨pre, post, rfl, h1, h2, h3, h4⟩ | ⟨r, h1, h2⟩ | ⟨h1, h2, h3⟩
        · refine .inl ⟨p :: pre, post, rfl, by simp, ?_, ?_, ?_⟩
          · simpa using h2
          · simpa using h3
          · rw [h4]; simp
        · exact .inr (.inl ⟨r, h1, by rw [← happ]; exact h2⟩)
        · refine .inr (.inr ⟨h1, by rw [← happ]; exact h2, fun _ => ?_⟩)
          rw [← happ]
          cases l with
          | nil => simpa using hn
          | cons q l => exact h3 (by simp)
    · refine .inr (.inl ⟨r, ?_, fun h' => ha (agree_prefix (l' := l) (by simpa using h'))⟩)
      simp only [takePieces, e]

/-- Pieces that are a cut of two blocks agree and are enough. -/
theorem cuts_agree {l : List Piece} {P D : Bytes} (h : Cuts l P D) : Agree l ∧ Enough l := by
  obtain ⟨h0, h1, ⟨lp, p1, p2⟩, ⟨ld, d1, d2⟩⟩ := h
  have nd : ∀ {l : List (Nat × Bytes)} {l' : List (Nat × Bytes)} {b : Bytes}, (fragments l).Perm l' → Tiling 0 l' b → ((fragments l).map (·.1)).Nodup := by
    intro l l' b hp ht
    refine (hp.map _).nodup_iff.mpr ?_
    have hs := tiling_sorted ht fun x hx => fragments_ne l x (hp.symm.subset hx)
    exact List.pairwise_map.mpr (hs.imp fun h => Nat.ne_of_lt h)
  refine ⟨⟨fun p hp q hq => ?_, nd p1 p2, nd d1 d2⟩, ?_⟩
  · have := h1 p hp; have := h1 q hq; omega
  · have sum : ∀ {l : List (Nat × Bytes)} {l' : List (Nat × Bytes)} {b : Bytes}, (fragments l).Perm l' → Tiling 0 l' b →
        b.length = (l.map fun x => x.2.length).sum := by
      intro l l' b hp ht
      rw [tiling_length ht, ← (hp.map _).sum_nat, ← colOf_len l none]
      unfold Collector.len colOf
      simp only [List.map_reverse, List.sum_reverse]
    cases l with
    | nil => exact absurd rfl h0
    | cons p l =>
      have := h1 p (by simp)
      show p.paramsTotal ≤ _ ∧ p.dataTotal ≤ _
      rw [this.1, this.2, sum p1 p2, sum d1 d2, List.map_map, List.map_map]
      exact ⟨Nat.le_refl _, Nat.le_refl _⟩

theorem sub_zero {l l' : List (Nat × Bytes)} (h : ((l ++ l').map fun x => x.2.length).sum ≤ (l.map fun x => x.2.length).sum) :
    fragments (l ++ l') = fragments l := by
  rw [fragments_append]
  suffices fragments l' = [] by rw [this, List.append_nil]
  rw [List.map_append, List.sum_append] at h
  have h0 : (l'.map fun x => x.2.length).sum = 0 := by omega
  clear h
  induction l' with
  | nil => rfl
  | cons x l' ih =>
    rw [List.map_cons, List.sum_cons] at h0
    have hx : x.2 = [] := List.length_eq_zero_iff.mp (by omega)
    unfold fragments
    rw [List.filter_cons_of_neg (by simp [hx])]
    exact ih (by omega)

theorem cuts_prefix {pre post : List Piece} {P D : Bytes} (h : Cuts (pre ++ post) P D) (hne : pre ≠ []) (he : Enough pre) : Cuts pre P D := by
  obtain ⟨hag, _⟩ := cuts_agree h
  obtain ⟨h0, h1, hp, hd⟩ := h
  have tot : ∀ {l : List (Nat × Bytes)} {b : Bytes}, Cut l b → b.length = (l.map fun x => x.2.length).sum := by
    rintro l b ⟨l', hp, ht⟩
    rw [tiling_length ht, ← (hp.map _).sum_nat, ← colOf_len l none]
    unfold Collector.len colOf
    simp only [List.map_reverse, List.sum_reverse]
  have key : P.length ≤ ((paramsOfPieces pre).map fun x => x.2.length).sum ∧ D.length ≤ ((dataOfPieces pre).map fun x => x.2.length).sum := by
    rw [List.map_map, List.map_map]
    cases pre with
    | nil => exact absurd rfl hne
    | cons p pre =>
      have := h1 p (by simp)
      rw [← this.1, ← this.2]
      exact he
  refine ⟨hne, fun p hp => h1 p (by simp [hp]), ?_, ?_⟩
  · have t := tot hp
    rw [List.map_append] at t hp
    unfold Cut at hp ⊢
    rw [sub_zero (by rw [← t]; exact key.1)] at hp
    exact hp
  · have t := tot hd
    rw [List.map_append] at t hd
    unfold Cut at hd ⊢
    rw [sub_zero (by rw [← t]; exact key.2)] at hd
    exact hd

theorem ctx_get {l : List Piece} (hne : l ≠ []) (ha : Agree l) (P D : Bytes) :
    ((ctxOf l).parameter.get = .ok P ∧ (ctxOf l).data.get = .ok D) ↔ Cuts l P D := by
  cases l with
  | nil => exact absurd rfl hne
  | cons p l =>
    have e1 : (ctxOf (p :: l)).parameter = colOf (paramsOfPieces (p :: l)) (some p.paramsTotal) := rfl
    have e2 : (ctxOf (p :: l)).data = colOf (dataOfPieces (p :: l)) (some p.dataTotal) := rfl
    rw [e1, e2, get_iff, get_iff]
    constructor
    · rintro ⟨⟨h1, h2⟩, ⟨h3, h4⟩⟩
      refine ⟨hne, fun q hq => ?_, h1, h3⟩
      have := ha.1 q hq p (by simp)
      omega
    · rintro ⟨_, h1, h2, h3⟩
      have := h1 p (by simp)
      exact ⟨⟨h2, this.1⟩, ⟨h3, this.2⟩⟩

/-- What is made of the collected pieces. -/
theorem sub_cases {α : Type} (sub : SubReply2 α) {l : List Piece} (hne : l ≠ []) (ha : Agree l) :
    (∃ P D, Cuts l P D ∧ (ctxOf l).getSubreply sub = sub P D) ∨
      ((∀ P D, ¬ Cuts l P D) ∧ ∃ r, (ctxOf l).getSubreply sub = .err (.Reassemble r)) := by
  have hg := ctx_get hne ha
  cases l with
  | nil => exact absurd rfl hne
  | cons p l =>
    have e1 : (ctxOf (p :: l)).parameter = colOf (paramsOfPieces (p :: l)) (some p.paramsTotal) := rfl
    have e2 : (ctxOf (p :: l)).data = colOf (dataOfPieces (p :: l)) (some p.dataTotal) := rfl
    unfold CollectTrans2.getSubreply
    rcases get_err (paramsOfPieces (p :: l)) p.paramsTotal with ⟨P, hP⟩ | ⟨r, hP⟩
    · rcases get_err (dataOfPieces (p :: l)) p.dataTotal with ⟨D, hD⟩ | ⟨r, hD⟩
      · refine .inl ⟨P, D, (hg P D).mp ⟨e1 ▸ hP, e2 ▸ hD⟩, ?_⟩
        rw [e1, e2, hP, hD]; rfl
      · refine .inr ⟨fun P D h => ?_, r, by rw [e1, e2, hP, hD]; rfl⟩
        have := ((hg P D).mpr h).2
        rw [e2, hD] at this; cases this
    · refine .inr ⟨fun P D h => ?_, r, by rw [e1, e2, hP]; rfl⟩
      have := ((hg P D).mpr h).1
      rw [e1, hP] at this; cases this

theorem cut_det {l : List (Nat × Bytes)} {b b' : Bytes} (h : Cut l b) (h' : Cut l b') : b = b' := by
  have e := (get_iff l b.length b).mpr ⟨h, rfl⟩
  have e' := (get_iff l b'.length b').mpr ⟨h', rfl⟩
  have : b.length = b'.length := by
    obtain ⟨l1, p1, t1⟩ := h
    obtain ⟨l2, p2, t2⟩ := h'
    rw [tiling_length t1, tiling_length t2, ← (p1.map _).sum_nat, ← (p2.map _).sum_nat]
  rw [this, e'] at e
  cases e; rfl

theorem cuts_det {l : List Piece} {P D P' D' : Bytes} (h : Cuts l P D) (h' : Cuts l P' D') : P = P' ∧ D = D' :=
  ⟨cut_det h.2.2.1 h'.2.2.1, cut_det h.2.2.2 h'.2.2.2⟩

/-- The outcome for pieces that are a cut of two blocks. -/
theorem take_cuts {l : List Piece} {P D : Bytes} (h : Cuts l P D) : ∃ c, takePieces .new l = some (.ok c) ∧
    ∀ {α : Type} (sub : SubReply2 α), c.getSubreply sub = sub P D := by
  obtain ⟨ha, he⟩ := cuts_agree h
  rcases take_cases l [] agree_nil with ⟨pre, post, rfl, h1, h2, h3, h4⟩ | ⟨r, h1, h2⟩ | ⟨h1, h2, h3⟩
  · refine ⟨_, h4, fun sub => ?_⟩
    have hc := cuts_prefix h h1 h3
    rcases sub_cases sub h1 h2 with ⟨P', D', hc', e⟩ | ⟨hn, _⟩
    · rw [List.nil_append, e]
      obtain ⟨rfl, rfl⟩ := cuts_det hc hc'
      rfl
    · exact absurd hc (hn P D)
  · exact absurd ha h2
  · exact absurd he (h3 h.1)

end Cifs
