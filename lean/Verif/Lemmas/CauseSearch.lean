import Verif.Lemmas.CauseBody
/-!
# What the replies to a search do to the client
-/

namespace Cifs
open Spec

variable {σ α : Type}

/-! ## Fragments that do not go together -/

theorem clash_add {l : List (Nat × Bytes)} {total : Option Nat} {o : Nat} {d : Bytes} {t : Nat} {r : ReassembleErr} (h : Clash l total o d t r) :
    (colOf l total).add d o t = .err (.Reassemble r) := by
  cases h with
  | @size n h hne => subst h; exact if_pos hne
  | twice h hd ho =>
    have key : ∀ x, (colOf l x).insert d o = .err (.Reassemble (.duplicate o)) := by
      intro x
      unfold Collector.insert
      rw [if_neg (by simpa using hd), if_pos (by simpa [colOf, List.any_eq_true] using ho)]
    cases total with
    | none => exact key (some t)
    | some n =>
      show (if n ≠ t then _ else (colOf l (some n)).insert d o) = _
      rw [if_neg (by simp [h n rfl]), key]

theorem clash_or (l : List (Nat × Bytes)) (total : Option Nat) (o : Nat) (d : Bytes) (t : Nat) :
    FitsIn l total o d t ∨ ∃ r, Clash l total o d t r := by
  by_cases h : ∀ n, total = some n → n = t
  · by_cases hd : d = []
    · exact .inl ⟨h, .inl hd⟩
    · by_cases ho : o ∈ (fragments l).map (·.1)
      · exact .inr ⟨_, .twice h hd ho⟩
      · exact .inl ⟨h, .inr ho⟩
  · obtain ⟨n, h⟩ := Classical.not_forall.mp h
    obtain ⟨h1, h2⟩ := Classical.not_imp.mp h
    exact .inr ⟨_, .size h1 h2⟩

theorem clashes_add {l : List Piece} {p : Piece} {r : ReassembleErr} (h : Clashes l p r) : (ctxOf l).add p.reply = .err (.Reassemble r) := by
  cases h with
  | params h =>
    show Res.bind ((colOf (paramsOfPieces l) _).add p.params p.paramsAt p.paramsTotal) _ = _
    rw [clash_add h]; rfl
  | data hp h =>
    show Res.bind ((colOf (paramsOfPieces l) (l.head?.map (·.paramsTotal))).add p.params p.paramsAt p.paramsTotal) _ = _
    rcases add_cases (paramsOfPieces l) (l.head?.map (·.paramsTotal)) p.params p.paramsAt p.paramsTotal with ⟨_, e⟩ | ⟨hn, _⟩
    · rw [e]
      show Res.bind ((colOf (dataOfPieces l) (l.head?.map (·.dataTotal))).add p.data p.dataAt p.dataTotal) _ = _
      rw [clash_add h]; rfl
    · rcases clash_or (paramsOfPieces l) (l.head?.map (·.paramsTotal)) p.paramsAt p.params p.paramsTotal with h1 | ⟨r, h1⟩
      · exact absurd h1 hn
      · exact absurd h1 (hp r)

theorem clashes_or {l : List Piece} (ha : Agree l) (p : Piece) : Agree (l ++ [p]) ∨ ∃ r, Clashes l p r := by
  rw [agree_iff ha p]
  rcases clash_or (paramsOfPieces l) (l.head?.map (·.paramsTotal)) p.paramsAt p.params p.paramsTotal with h1 | ⟨r, h1⟩
  · rcases clash_or (dataOfPieces l) (l.head?.map (·.dataTotal)) p.dataAt p.data p.dataTotal with h2 | ⟨r, h2⟩
    · exact .inl ⟨h1, h2⟩
    · refine .inr ⟨r, .data (fun r h => ?_) h2⟩
      rcases add_cases (paramsOfPieces l) (l.head?.map (·.paramsTotal)) p.params p.paramsAt p.paramsTotal with ⟨_, e⟩ | ⟨hn, _⟩
      · rw [clash_add h] at e; cases e
      · exact hn h1
  · exact .inr ⟨r, .params h1⟩

/-! ## Fragments that are not a cut -/

theorem join_gap {pre post : List (Nat × Bytes)} {o : Nat} {d : Bytes} : ∀ {buf b : Bytes}, Tiling buf.length pre b → buf.length + b.length ≠ o →
    joinFragments buf (pre ++ (o, d) :: post) = .err (.Reassemble (.offsetMismatch o (buf.length + b.length))) := by
  induction pre with
  | nil =>
    intro buf b h hne
    cases h
    rw [List.nil_append, joinFragments, if_pos (by simpa using hne)]
    rfl
  | cons x pre ih =>
    intro buf b h hne
    cases h with
    | @cons _ d' b' _ h =>
      rw [List.cons_append, joinFragments, if_neg (by simp)]
      have := ih (buf := buf ++ d') (b := b') (by rw [List.length_append]; exact h) (by rw [List.length_append]; rw [List.length_append] at hne; omega)
      rw [this, List.length_append, List.length_append, Nat.add_assoc]

theorem join_or (l : List (Nat × Bytes)) : ∀ n, (∃ r, Tiling n l r) ∨ ∃ pre o d post b, l = pre ++ (o, d) :: post ∧ Tiling n pre b ∧ n + b.length ≠ o := by
  induction l with
  | nil => intro n; exact .inl ⟨_, .nil n⟩
  | cons x l ih =>
    intro n
    obtain ⟨o, d⟩ := x
    by_cases h : n = o
    · subst h
      rcases ih (n + d.length) with ⟨r, hr⟩ | ⟨pre, o, d', post, b, rfl, h1, h2⟩
      · exact .inl ⟨_, .cons hr⟩
      · exact .inr ⟨(n, d) :: pre, o, d', post, _, rfl, .cons h1, by rw [List.length_append]; omega⟩
    · exact .inr ⟨[], o, d, l, [], rfl, .nil n, by simpa using h⟩

theorem gap_get {l : List (Nat × Bytes)} {t : Nat} {r : ReassembleErr} (h : Gap l t r) : (colOf l (some t)).get = .err (.Reassemble r) := by
  show (if (colOf l (some t)).len ≠ t then Res.err (.Reassemble (.lengthMismatch t (colOf l (some t)).len))
    else joinFragments [] (sortFragments (fragments l).reverse)) = _
  rw [colOf_len]
  cases h with
  | length h hne => subst h; rw [if_pos hne]
  | @place l' pre post o d b h hp hs hl ht hne =>
    rw [if_neg (by simpa using h), sort_eq hp hs, hl]
    have := join_gap (post := post) (o := o) (d := d) (buf := []) (b := b) ht (by simpa using hne)
    simpa using this

theorem gap_or (l : List (Nat × Bytes)) (t : Nat) (hn : ((fragments l).map (·.1)).Nodup) : (∃ b, Cut l b ∧ t = b.length) ∨ ∃ r, Gap l t r := by
  by_cases h : (l.map fun x => x.2.length).sum = t
  · have hp : (fragments l).Perm (sortFragments (fragments l).reverse) := ((List.mergeSort_perm _ _).trans (List.reverse_perm _)).symm
    rcases join_or (sortFragments (fragments l).reverse) 0 with ⟨r, hr⟩ | ⟨pre, o, d, post, b, h1, h2, h3⟩
    · refine .inl ⟨r, ⟨_, hp, hr⟩, ?_⟩
      rw [tiling_length hr, ← h, ← colOf_len l none, Collector.len, colOf]
      have := (hp.map fun x => x.2.length).sum_nat
      rw [← this]
      simp only [List.map_reverse, List.sum_reverse]
    · refine .inr ⟨_, .place h hp ?_ h1 h2 (by simpa using h3)⟩
      have h2 : (sortFragments (fragments l).reverse).Pairwise (fun a b => decide (a.1 ≤ b.1) = true) :=
        List.pairwise_mergeSort (fun a b c h h' => by simp at *; omega) (fun a b => by simp; omega) _
      have h4 : (sortFragments (fragments l).reverse).Pairwise (fun a b => a.1 ≠ b.1) := List.pairwise_map.mp ((hp.map Prod.fst).nodup_iff.mp hn)
      exact (h2.and h4).imp fun ⟨h, h'⟩ => by simp at h; omega
  · exact .inr ⟨_, .length rfl h⟩

theorem gaps_get {l : List Piece} {r : ReassembleErr} (h : Gaps l r) (sub : SubReply2 α) : (ctxOf l).getSubreply sub = .err (.Reassemble r) := by
  cases h with
  | @params p l _ h =>
    show Res.bind (colOf (paramsOfPieces (p :: l)) (some p.paramsTotal)).get _ = _
    rw [gap_get h]; rfl
  | @data p l P _ hp hl h =>
    show Res.bind (colOf (paramsOfPieces (p :: l)) (some p.paramsTotal)).get _ = _
    rw [(get_iff _ _ P).mpr ⟨hp, hl⟩]
    show Res.bind (colOf (dataOfPieces (p :: l)) (some p.dataTotal)).get _ = _
    rw [gap_get h]; rfl

theorem gaps_or {l : List Piece} (hne : l ≠ []) (ha : Agree l) : (∃ P D, Cuts l P D) ∨ ∃ r, Gaps l r := by
  cases l with
  | nil => exact absurd rfl hne
  | cons p l =>
    rcases gap_or (paramsOfPieces (p :: l)) p.paramsTotal ha.2.1 with ⟨P, h1, h2⟩ | ⟨r, h⟩
    · rcases gap_or (dataOfPieces (p :: l)) p.dataTotal ha.2.2 with ⟨D, h3, h4⟩ | ⟨r, h⟩
      · refine .inl ⟨P, D, hne, fun q hq => ?_, h1, h3⟩
        have := ha.1 q hq p (List.mem_cons_self ..)
        omega
      · exact .inr ⟨r, .data h1 h2 h⟩
    · exact .inr ⟨r, .params h⟩

/-! ## Pages -/

theorem page_iff {op : Op} (ho : op.isFind = true) (P D : Bytes) (v : Val) : op.page P D = .ok v ↔ IsPage op P D v := by
  cases op <;> first | (simp [Op.isFind] at ho; done) | skip
  case findFirst =>
    constructor
    · intro h
      obtain ⟨r, h1, rfl⟩ := mapOk_ok h
      exact ((findFirst_parse P D).1 r).mp h1
    · intro h
      cases v <;> first | exact h.elim | skip
      show Res.mapOk Val.first (findFirst2Parse P D) = _
      rw [((findFirst_parse P D).1 _).mpr h]; rfl
  case findNext =>
    constructor
    · intro h
      obtain ⟨r, h1, rfl⟩ := mapOk_ok h
      exact ((findNext_parse P D).1 r).mp h1
    · intro h
      cases v <;> first | exact h.elim | skip
      show Res.mapOk Val.next (findNext2Parse P D) = _
      rw [((findNext_parse P D).1 _).mpr h]; rfl

/-! ## The whole search -/

theorem collecting_gather {mid : UInt16} {b b' : Bytes} {l : List Piece} (h : Collecting mid.toNat b l b') (t : Tail) :
    flatGather t mid .new b = flatGather t mid (ctxOf l) b' := by
  obtain ⟨h1, h2, h3⟩ := h
  have := gather_none t mid h1 [] agree_nil
  rw [ctxOf_nil, List.nil_append] at this
  refine this ?_
  rcases take_cases l [] agree_nil with ⟨pre, post, e, hne, _, he, _⟩ | ⟨r, _, hn⟩ | ⟨h, _⟩
  · subst e
    rw [List.nil_append] at he
    exact absurd (enough_append he) (h3 (by simp [hne]))
  · exact absurd h2 hn
  · exact h

theorem finds_search {op : Op} (ho : op.isFind = true) {t : Tail} {mid : UInt16} {b : Bytes} {o : Out Error Val} (h : Finds op t mid.toNat b o) :
    (op.search mid t b).1 = o := by
  rw [search_gather op ho]
  have last : ∀ {l : List Piece} {b' f rest : Bytes} {p : Piece}, Collecting mid.toNat b l b' → Awaits mid.toNat b' f rest → Brings f p →
      Agree (l ++ [p]) → Enough (l ++ [p]) → (flatGather t mid .new b).1 = .ok (ctxOf (l ++ [p])) := by
    intro l b' f rest p hl hf hp ha he
    rw [collecting_gather hl t, flatGather_eq, reply_brings t mid hf hp]
    dsimp only
    rcases ctx_add hl.2.1 p with ⟨_, rd, hrd, e⟩ | ⟨hn, _⟩
    · rw [e]
      dsimp only
      rw [if_pos (hrd.mpr he)]
    · exact absurd ha hn
  have cuts : ∀ {l : List Piece} {P D : Bytes}, Cuts l P D → op.finish (ctxOf l) = op.page P D := by
    intro l P D hc
    have ha := (cuts_agree hc).1
    obtain ⟨h1, h2⟩ := (ctx_get hc.1 ha P D).mpr hc
    show Res.bind _ _ = _
    rw [h1]
    show Res.bind _ _ = _
    rw [h2]
    rfl
  cases h with
  | @silent l b' x hl h =>
    have h := noReply_flat h
    have : (flatGather t mid (ctxOf l) b').1 = stopped x := by
      rw [flatGather_eq, flatReply_eq]
      rcases hn : flatNext t mid b' with ⟨o, r⟩
      rw [hn] at h
      dsimp only at h
      subst h
      cases x with
      | none => rw [show ((_ : M Error Bytes (Info × Bytes)) >>= _) b' = _ from M.bind_pending hn]; rfl
      | some e => rw [show ((_ : M Error Bytes (Info × Bytes)) >>= _) b' = _ from M.bind_err hn]; rfl
    rw [collecting_gather hl t, this]
    cases x <;> rfl
  | declined hl hf h =>
    obtain ⟨i, hi, e⟩ := reply_awaits trans2Reply t mid hf
    rcases accept_declined (R := trans2Reply) (by decide) hi with ⟨h1, _⟩ | ⟨e', h1, h2⟩
    · exact absurd h1 (declined_not h)
    · rw [collecting_gather hl t, flatGather_eq, e, h2, declined_det h h1]
      rfl
  | @bad l b' f rest hl hf h =>
    have h := (piece_panic t mid b').mpr ⟨f, rest, hf, h⟩
    rw [collecting_gather hl t, flatGather_eq]
    rcases hr : flatReply trans2Reply mid t b' with ⟨o, r⟩
    rw [hr] at h
    dsimp only at h
    subst h
    rfl
  | @outside l b' f rest ps ds hl hf ha hb hn hv =>
    obtain ⟨i, hi, e⟩ := reply_awaits trans2Reply t mid hf
    have hg := (C13_accepted_iff f).mp ⟨_, _, hi⟩
    rw [collecting_gather hl t, flatGather_eq, e, accept_body trans2Reply hi ha.1 ha.2, parse_body trans2Reply i hg.1 hb, make_plain trans2Reply rfl i]
    rcases trans2_create i ps ds with ⟨p', h1, _, e⟩ | ⟨h1, _⟩ | ⟨_, h1, e⟩
    · exact absurd h1 (hv _)
    · exact absurd h1 hn
    · rw [show trans2Reply.create _ = _ from e]; rfl
  | clash hl hf hp h =>
    rw [collecting_gather hl t, flatGather_eq, reply_brings t mid hf hp]
    dsimp only
    rw [clashes_add h]
  | gap hl hf hp ha he h =>
    rw [last hl hf hp ha he]
    dsimp only
    rw [Op.finish, gaps_get h]
    rfl
  | badPage hl hf hp hc h =>
    rw [last hl hf hp (cuts_agree hc).1 (cuts_agree hc).2]
    dsimp only
    rw [cuts hc, (page_panic ho _ _).mpr h]
    rfl
  | @unread l b' f rest P D p hl hf hp hc hn hv =>
    rw [last hl hf hp (cuts_agree hc).1 (cuts_agree hc).2]
    dsimp only
    rw [cuts hc]
    cases hpg : op.page P D with
    | ok v => exact absurd ((page_iff ho P D v).mp hpg) (hv v)
    | panic => exact absurd ((page_panic ho P D).mp hpg) hn
    | err e => rw [page_errIs P D e hpg]; rfl
  | value hl hf hp hc h =>
    rw [last hl hf hp (cuts_agree hc).1 (cuts_agree hc).2]
    dsimp only
    rw [cuts hc, (page_iff ho _ _ _).mpr h]
    rfl

theorem pieces_snoc {B : Bytes → Piece → Prop} {mid : Nat} {b b' f rest : Bytes} {l : List Piece} {p : Piece} (h : Pieces B mid b l b') (hf : Awaits mid b' f rest)
    (hp : B f p) : Pieces B mid b (l ++ [p]) rest := by
  induction h with
  | nil => exact .cons hf hp (.nil _)
  | cons h1 h2 _ ih => exact .cons h1 h2 (ih hf)

theorem awaits_shorter {mid : UInt16} {b f rest : Bytes} (h : Awaits mid.toNat b f rest) : rest.length < b.length := by
  obtain ⟨i, _, e⟩ := flatNext_awaits .eof mid h
  have := (flatNext_cases .eof mid b).2.2 (i, f.drop 32) (by rw [e])
  rw [e] at this
  dsimp only at this
  omega

/-- Every search has an outcome. -/
theorem finds_total {op : Op} (ho : op.isFind = true) (t : Tail) (mid : UInt16) (b : Bytes) (n : Nat) : ∀ b' l, b'.length < n →
    Collecting mid.toNat b l b' → ∃ o, Finds op t mid.toNat b o := by
  induction n with
  | zero => intro b' l h; omega
  | succ n ih =>
    intro b' l hn hl
    rcases reply_cases t mid.toNat _ b' (Nat.lt_succ_self _) with ⟨f, rest, hf⟩ | ⟨x, hx⟩
    · obtain ⟨i, hi, e⟩ := reply_awaits trans2Reply t mid hf
      rcases accept_declined (R := trans2Reply) (by decide) hi with ⟨h1, _⟩ | ⟨e', h1, h2⟩
      · by_cases hb : ∃ ps ds, ReplyBody (message f) ps ds
        · obtain ⟨ps, ds, hb⟩ := hb
          rcases trans2_create i ps ds with ⟨p, h2, _, _⟩ | ⟨h2, _⟩ | ⟨h2, h3, _⟩
          · have hp : Brings f p := ⟨h1.1, h1.2, ps, ds, hb, h2⟩
            rcases clashes_or hl.2.1 p with ha | ⟨r, hr⟩
            · by_cases he : Enough (l ++ [p])
              · rcases gaps_or (by simp) ha with ⟨P, D, hc⟩ | ⟨r, hr⟩
                · cases hpg : op.page P D with
                  | ok v => exact ⟨_, .value hl hf hp hc ((page_iff ho P D v).mp hpg)⟩
                  | panic => exact ⟨_, .badPage hl hf hp hc ((page_panic ho P D).mp hpg)⟩
                  | err e =>
                    refine ⟨_, .unread hl hf hp hc (fun h => ?_) fun v h => ?_⟩
                    · rw [(page_panic ho P D).mpr h] at hpg; cases hpg
                    · rw [(page_iff ho P D v).mpr h] at hpg; cases hpg
                · exact ⟨_, .gap hl hf hp ha he hr⟩
              · have hlt := awaits_shorter hf
                exact ih rest (l ++ [p]) (by omega) ⟨pieces_snoc hl.1 hf hp, ha, fun _ => he⟩
            · exact ⟨_, .clash hl hf hp hr⟩
          · exact ⟨_, .bad hl hf ⟨h1.1, h1.2, .inr ⟨ps, ds, hb, h2⟩⟩⟩
          · exact ⟨_, .outside hl hf h1 hb h2 h3⟩
        · exact ⟨_, .bad hl hf ⟨h1.1, h1.2, .inl hb⟩⟩
      · exact ⟨_, .declined hl hf h1⟩
    · exact ⟨_, .silent hl hx⟩

/-- The outcome of a search is what the replies give. -/
theorem finds_iff {op : Op} (ho : op.isFind = true) (t : Tail) (mid : UInt16) (b : Bytes) (o : Out Error Val) :
    Finds op t mid.toNat b o ↔ o = (op.search mid t b).1 := by
  refine ⟨fun h => (finds_search ho h).symm, ?_⟩
  rintro rfl
  obtain ⟨o, h⟩ := finds_total ho t mid b _ b [] (Nat.lt_succ_self _) ⟨.nil b, agree_nil, fun h => absurd rfl h⟩
  rw [finds_search ho h]
  exact h

end Cifs
