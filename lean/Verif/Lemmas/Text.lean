import Verif.Lemmas.Codec
/-! # UTF-16, UTF-8 and NUL-terminated strings -/

namespace Cifs

theorem char_valid (c : Char) : c.toNat < 0xD800 ∨ (0xDFFF < c.toNat ∧ c.toNat < 0x110000) := by
  have := c.valid
  simp only [UInt32.isValidChar, Nat.isValidChar] at this
  exact this

theorem ofNat_toNat (c : Char) : Char.ofNat c.toNat = c := Char.ofNat_toNat c

theorem toNat_ofNat {n : Nat} (h : n < 0xD800 ∨ (0xDFFF < n ∧ n < 0x110000)) : (Char.ofNat n).toNat = n := by
  have hv : n.isValidChar := h
  rw [Char.ofNat, dif_pos hv]
  show (Char.ofNatAux n hv).val.toNat = n
  simp only [Char.ofNatAux]
  rfl

/-! ## UTF-16 -/

@[simp] theorem encodeUtf16le_nil : encodeUtf16le [] = [] := rfl
theorem encodeUtf16le_cons (c : Char) (s : Str) : encodeUtf16le (c :: s) = (utf16Units c).flatMap (putLE 2) ++ encodeUtf16le s := by
  simp [encodeUtf16le, encodeUtf16]
theorem encodeUtf16le_append (s t : Str) : encodeUtf16le (s ++ t) = encodeUtf16le s ++ encodeUtf16le t := by
  simp [encodeUtf16le, encodeUtf16]

theorem units_small {c : Char} (h : c.toNat < 0x10000) : utf16Units c = [c.toNat] := by simp [utf16Units, h]
theorem units_big {c : Char} (h : ¬ c.toNat < 0x10000) :
    utf16Units c = [0xD800 + (c.toNat - 0x10000) / 0x400, 0xDC00 + (c.toNat - 0x10000) % 0x400] := by simp [utf16Units, h]

theorem leVal2 (n : Nat) : leVal [UInt8.ofNat n, UInt8.ofNat (n / 256)] = n % 65536 := leVal_putLE 2 n
theorem putLE2 (n : Nat) : putLE 2 n = [UInt8.ofNat n, UInt8.ofNat (n / 256)] := rfl

theorem putLE2_leVal (a b : UInt8) : putLE 2 (leVal [a, b]) = [a, b] := putLE_leVal [a, b]

theorem length_encodeUtf16le (s : Str) : (encodeUtf16le s).length = 2 * (encodeUtf16 s).length := by
  simp only [encodeUtf16le]
  induction encodeUtf16 s with
  | nil => rfl
  | cons u us ih => simp only [List.flatMap_cons, List.length_append, List.length_cons, length_putLE, ih]; omega

theorem decodeUtf16le_cons {ε : Type} (e : ε) (a b : UInt8) (r : Bytes) : decodeUtf16le e (a :: b :: r) =
    if leVal [a, b] < 0xD800 ∨ 0xDFFF < leVal [a, b] then (decodeUtf16le e r).bind (fun s => .ok (Char.ofNat (leVal [a, b]) :: s))
    else if 0xDC00 ≤ leVal [a, b] then .err e
    else match r with
      | [] => .err e
      | [_] => .panic
      | a2 :: b2 :: r' =>
        if leVal [a2, b2] < 0xDC00 ∨ 0xDFFF < leVal [a2, b2] then .err e
        else (decodeUtf16le e r').bind
          (fun s => .ok (Char.ofNat ((leVal [a, b] - 0xD800) * 0x400 + (leVal [a2, b2] - 0xDC00) + 0x10000) :: s)) := by
  rw [decodeUtf16le.eq_def]; rfl

theorem decodeUtf16_cons (u : Nat) (us : List Nat) : decodeUtf16 (u :: us) =
    if u < 0xD800 ∨ 0xDFFF < u then (decodeUtf16 us).map (Char.ofNat u :: ·)
    else if 0xDC00 ≤ u then none
    else match us with
      | [] => none
      | u2 :: us' =>
        if u2 < 0xDC00 ∨ 0xDFFF < u2 then none
        else (decodeUtf16 us').map (Char.ofNat ((u - 0xD800) * 0x400 + (u2 - 0xDC00) + 0x10000) :: ·) := by
  rw [decodeUtf16.eq_def]; rfl

theorem decodeUtf16le_encode {ε : Type} (e : ε) (s : Str) : decodeUtf16le e (encodeUtf16le s) = .ok s := by
  induction s with
  | nil => rfl
  | cons c s ih =>
    rw [encodeUtf16le_cons]
    have hv := char_valid c
    by_cases h : c.toNat < 0x10000
    · rw [units_small h]
      simp only [List.flatMap_cons, List.flatMap_nil, List.append_nil, putLE2, List.cons_append, List.nil_append, decodeUtf16le_cons, leVal2]
      rw [show c.toNat % 65536 = c.toNat by omega, if_pos (by omega), ih]
      simp
    · rw [units_big h]
      simp only [List.flatMap_cons, List.flatMap_nil, List.append_nil, putLE2, List.cons_append, List.nil_append, decodeUtf16le_cons, leVal2]
      rw [if_neg (by omega), if_neg (by omega), if_neg (by omega), ih]
      simp only [Res.bind_ok, Res.ok.injEq, List.cons.injEq, and_true]
      rw [show ((55296 + (c.toNat - 65536) / 1024) % 65536 - 55296) * 1024 + ((56320 + (c.toNat - 65536) % 1024) % 65536 - 56320) + 65536
        = c.toNat by omega, ofNat_toNat]

theorem encode_decodeUtf16le {ε : Type} (e : ε) (b : Bytes) (s : Str) (h : decodeUtf16le e b = .ok s) : encodeUtf16le s = b := by
  induction hn : b.length using Nat.strongRecOn generalizing b s with
  | _ n ih =>
    match b, h with
    | [], h => simp [decodeUtf16le] at h; subst h; rfl
    | [_], h => simp [decodeUtf16le] at h
    | x :: y :: r, h =>
      have hx := leVal_lt [x, y]
      simp only [List.length_cons, List.length_nil] at hx hn
      have hp := putLE2_leVal x y
      generalize hu : leVal [x, y] = u at hx hp
      rw [decodeUtf16le_cons] at h
      simp only [hu] at h
      by_cases h1 : u < 0xD800 ∨ 0xDFFF < u
      · rw [if_pos h1, Res.bind_eq_ok] at h
        obtain ⟨t, ht, e2⟩ := h
        simp at e2; subst e2
        have := ih r.length (by omega) r t ht rfl
        have hc : (Char.ofNat u).toNat = u := toNat_ofNat (by omega)
        rw [encodeUtf16le_cons, units_small (by omega), hc, this]
        simp [hp]
      · rw [if_neg h1] at h
        by_cases h2 : 0xDC00 ≤ u
        · rw [if_pos h2] at h; simp at h
        · rw [if_neg h2] at h
          match r, h with
          | [], h => simp at h
          | [_], h => simp at h
          | x2 :: y2 :: r', h =>
            have hx2 := leVal_lt [x2, y2]
            simp only [List.length_cons, List.length_nil] at hx2 hn
            have hp2 := putLE2_leVal x2 y2
            generalize hu2 : leVal [x2, y2] = u2 at hx2 hp2
            simp only [hu2] at h
            by_cases h3 : u2 < 0xDC00 ∨ 0xDFFF < u2
            · rw [if_pos h3] at h; simp at h
            · rw [if_neg h3, Res.bind_eq_ok] at h
              obtain ⟨t, ht, e2⟩ := h
              simp at e2; subst e2
              have := ih r'.length (by omega) r' t ht rfl
              have hc : (Char.ofNat ((u - 0xD800) * 0x400 + (u2 - 0xDC00) + 0x10000)).toNat = (u - 0xD800) * 0x400 + (u2 - 0xDC00) + 0x10000 :=
                toNat_ofNat (by omega)
              rw [encodeUtf16le_cons, units_big (by omega), hc, this]
              rw [show 0xD800 + ((u - 0xD800) * 0x400 + (u2 - 0xDC00) + 0x10000 - 0x10000) / 0x400 = u by omega,
                show 0xDC00 + ((u - 0xD800) * 0x400 + (u2 - 0xDC00) + 0x10000 - 0x10000) % 0x400 = u2 by omega]
              simp [hp, hp2]

/-- Decoding an even number of bytes never panics. -/
theorem decodeUtf16le_even {ε : Type} (e : ε) (b : Bytes) (h : b.length % 2 = 0) : decodeUtf16le e b ≠ .panic := by
  induction hn : b.length using Nat.strongRecOn generalizing b with
  | _ n ih =>
    match b, h with
    | [], _ => simp [decodeUtf16le]
    | [_], h => simp at h
    | x :: y :: r, h =>
      simp only [List.length_cons] at h hn
      rw [decodeUtf16le_cons]
      have bind_ne : ∀ (x : Res ε Str) (f : Str → Str), x ≠ .panic → x.bind (fun s => .ok (f s)) ≠ .panic := by
        intro x f; cases x <;> simp
      split
      · exact bind_ne _ (List.cons _) (ih r.length (by omega) r (by omega) rfl)
      · split
        · simp
        · match r, h with
          | [], _ => simp
          | [_], h => simp at h
          | x2 :: y2 :: r', h =>
            simp only [List.length_cons] at h hn
            dsimp only
            split
            · simp
            · exact bind_ne _ (List.cons _) (ih r'.length (by omega) r' (by omega) rfl)

theorem decodeUtf16le_err {ε : Type} (e : ε) (b : Bytes) (e' : ε) (h : decodeUtf16le e b = .err e') : e' = e := by
  induction hn : b.length using Nat.strongRecOn generalizing b with
  | _ n ih =>
    match b, h with
    | [], h => simp [decodeUtf16le] at h
    | [_], h => simp [decodeUtf16le] at h
    | x :: y :: r, h =>
      simp only [List.length_cons] at hn
      rw [decodeUtf16le_cons] at h
      have bind_err : ∀ (x : Res ε Str) (f : Str → Str), x.bind (fun s => .ok (f s)) = .err e' → x = .err e' := by
        intro x f; cases x <;> simp
      split at h
      · exact ih r.length (by omega) r (bind_err _ (List.cons _) h) rfl
      · split at h
        · simpa using h.symm
        · match r, h with
          | [], h => simpa using h.symm
          | [_], h => simp at h
          | x2 :: y2 :: r', h =>
            simp only [List.length_cons] at hn
            dsimp only at h
            split at h
            · simpa using h.symm
            · exact ih r'.length (by omega) r' (bind_err _ (List.cons _) h) rfl

theorem decodeUtf16_units (s : Str) : decodeUtf16 (encodeUtf16 s) = some s := by
  induction s with
  | nil => rfl
  | cons c s ih =>
    have e : encodeUtf16 (c :: s) = utf16Units c ++ encodeUtf16 s := by simp [encodeUtf16]
    rw [e]
    have hv := char_valid c
    by_cases h : c.toNat < 0x10000
    · rw [units_small h]
      simp only [List.cons_append, List.nil_append, decodeUtf16_cons]
      rw [if_pos (by omega), ih]; simp
    · rw [units_big h]
      simp only [List.cons_append, List.nil_append, decodeUtf16_cons]
      rw [if_neg (by omega), if_neg (by omega), if_neg (by omega), ih]
      simp only [Option.map_some, Option.some.injEq, List.cons.injEq, and_true]
      rw [show (55296 + (c.toNat - 65536) / 1024 - 55296) * 1024 + (56320 + (c.toNat - 65536) % 1024 - 56320) + 65536
        = c.toNat by omega, ofNat_toNat]

theorem units_decodeUtf16 (us : List Nat) (s : Str) (hb : ∀ u ∈ us, u < 65536) (h : decodeUtf16 us = some s) : encodeUtf16 s = us := by
  induction hn : us.length using Nat.strongRecOn generalizing us s with
  | _ n ih =>
    have e : ∀ c s, encodeUtf16 (c :: s) = utf16Units c ++ encodeUtf16 s := by intro c s; simp [encodeUtf16]
    match us, h with
    | [], h => simp [decodeUtf16] at h; subst h; rfl
    | u :: r, h =>
      have hx := hb u (by simp)
      simp only [List.length_cons] at hn
      rw [decodeUtf16_cons] at h
      by_cases h1 : u < 0xD800 ∨ 0xDFFF < u
      · rw [if_pos h1] at h
        simp only [Option.map_eq_some_iff] at h
        obtain ⟨t, ht, rfl⟩ := h
        have := ih r.length (by omega) r t (fun u hu => hb u (by simp [hu])) ht rfl
        have hc : (Char.ofNat u).toNat = u := toNat_ofNat (by omega)
        rw [e, units_small (by omega), hc, this]; rfl
      · rw [if_neg h1] at h
        by_cases h2 : 0xDC00 ≤ u
        · rw [if_pos h2] at h; simp at h
        · rw [if_neg h2] at h
          match r, h with
          | [], h => simp at h
          | u2 :: r', h =>
            have hx2 := hb u2 (by simp)
            simp only [List.length_cons] at hn
            dsimp only at h
            by_cases h3 : u2 < 0xDC00 ∨ 0xDFFF < u2
            · rw [if_pos h3] at h; simp at h
            · rw [if_neg h3] at h
              simp only [Option.map_eq_some_iff] at h
              obtain ⟨t, ht, rfl⟩ := h
              have := ih r'.length (by omega) r' t (fun u hu => hb u (by simp [hu])) ht rfl
              have hc : (Char.ofNat ((u - 0xD800) * 0x400 + (u2 - 0xDC00) + 0x10000)).toNat = (u - 0xD800) * 0x400 + (u2 - 0xDC00) + 0x10000 :=
                toNat_ofNat (by omega)
              rw [e, units_big (by omega), hc, this]
              rw [show 0xD800 + ((u - 0xD800) * 0x400 + (u2 - 0xDC00) + 0x10000 - 0x10000) / 0x400 = u by omega,
                show 0xDC00 + ((u - 0xD800) * 0x400 + (u2 - 0xDC00) + 0x10000 - 0x10000) % 0x400 = u2 by omega]
              rfl

/-! ## UTF-8 -/

/-- The model's UTF-8 encoder is the one of Lean's standard library. -/
theorem utf8Char_eq (c : Char) : utf8Char c = String.utf8EncodeChar c := by
  have hv := char_valid c
  have e : c.val.toNat = c.toNat := rfl
  simp only [utf8Char, String.utf8EncodeChar, e]
  have l : ∀ a b : Nat, a % 256 = b % 256 → UInt8.ofNat a = UInt8.ofNat b := by
    intro a b h; apply UInt8.toNat_inj.mp; simpa using h
  by_cases h1 : c.toNat < 0x80
  · rw [if_pos h1, if_pos (show c.toNat ≤ 0x7f by omega)]
  · rw [if_neg h1, if_neg (show ¬ c.toNat ≤ 0x7f by omega)]
    by_cases h2 : c.toNat < 0x800
    · rw [if_pos h2, if_pos (show c.toNat ≤ 0x7ff by omega)]
      simp only [List.cons.injEq, and_true]
      exact ⟨l _ _ (by omega), l _ _ (by omega)⟩
    · rw [if_neg h2, if_neg (show ¬ c.toNat ≤ 0x7ff by omega)]
      by_cases h3 : c.toNat < 0x10000
      · rw [if_pos h3, if_pos (show c.toNat ≤ 0xffff by omega)]
        simp only [List.cons.injEq, and_true]
        exact ⟨l _ _ (by omega), l _ _ (by omega), l _ _ (by omega)⟩
      · rw [if_neg h3, if_neg (show ¬ c.toNat ≤ 0xffff by omega)]
        simp only [List.cons.injEq, and_true]
        exact ⟨l _ _ (by omega), l _ _ (by omega), l _ _ (by omega), l _ _ (by omega)⟩

theorem utf8_nil : utf8 [] = [] := rfl
theorem utf8_cons (c : Char) (s : Str) : utf8 (c :: s) = utf8Char c ++ utf8 s := by simp [utf8]
theorem utf8_append (s t : Str) : utf8 (s ++ t) = utf8 s ++ utf8 t := by simp [utf8]

theorem isCont_iff (b : UInt8) : isCont b = true ↔ 0x80 ≤ b.toNat ∧ b.toNat < 0xC0 := by simp [isCont]

theorem fromUtf8_cons (a : UInt8) (r : Bytes) : fromUtf8 (a :: r) =
    (if a.toNat < 0x80 then (fromUtf8 r).map (Char.ofNat a.toNat :: ·)
    else if a.toNat < 0xC2 then none
    else if a.toNat < 0xE0 then
      match r with
      | b :: r' =>
        if isCont b then (fromUtf8 r').map (Char.ofNat ((a.toNat - 0xC0) * 0x40 + (b.toNat - 0x80)) :: ·) else none
      | _ => none
    else if a.toNat < 0xF0 then
      match r with
      | b :: c :: r' =>
        if isCont b && isCont c && 0x800 ≤ (a.toNat - 0xE0) * 0x1000 + (b.toNat - 0x80) * 0x40 + (c.toNat - 0x80)
          && !(0xD800 ≤ (a.toNat - 0xE0) * 0x1000 + (b.toNat - 0x80) * 0x40 + (c.toNat - 0x80)
            && (a.toNat - 0xE0) * 0x1000 + (b.toNat - 0x80) * 0x40 + (c.toNat - 0x80) ≤ 0xDFFF) then
          (fromUtf8 r').map (Char.ofNat ((a.toNat - 0xE0) * 0x1000 + (b.toNat - 0x80) * 0x40 + (c.toNat - 0x80)) :: ·)
        else none
      | _ => none
    else if a.toNat < 0xF5 then
      match r with
      | b :: c :: d :: r' =>
        if isCont b && isCont c && isCont d
          && 0x10000 ≤ (a.toNat - 0xF0) * 0x40000 + (b.toNat - 0x80) * 0x1000 + (c.toNat - 0x80) * 0x40 + (d.toNat - 0x80)
          && (a.toNat - 0xF0) * 0x40000 + (b.toNat - 0x80) * 0x1000 + (c.toNat - 0x80) * 0x40 + (d.toNat - 0x80) ≤ 0x10FFFF then
          (fromUtf8 r').map (Char.ofNat ((a.toNat - 0xF0) * 0x40000 + (b.toNat - 0x80) * 0x1000 + (c.toNat - 0x80) * 0x40
            + (d.toNat - 0x80)) :: ·)
        else none
      | _ => none
    else none) := by
  rw [fromUtf8.eq_def]; rfl

theorem fromUtf8_char (c : Char) (r : Bytes) : fromUtf8 (utf8Char c ++ r) = (fromUtf8 r).map (c :: ·) := by
  have hv := char_valid c
  have key : ∀ n, n = c.toNat → Char.ofNat n = c := by intro n h; rw [h, ofNat_toNat]
  unfold utf8Char
  dsimp only
  by_cases h1 : c.toNat < 0x80
  · rw [if_pos h1]
    have ha : (UInt8.ofNat c.toNat).toNat = c.toNat := by simp; omega
    simp only [List.cons_append, List.nil_append, fromUtf8_cons, ha]
    rw [if_pos h1, ofNat_toNat]
  · rw [if_neg h1]
    by_cases h2 : c.toNat < 0x800
    · rw [if_pos h2]
      have ha : (UInt8.ofNat (0xC0 + c.toNat / 0x40)).toNat = 0xC0 + c.toNat / 0x40 := by simp; omega
      have hb : (UInt8.ofNat (0x80 + c.toNat % 0x40)).toNat = 0x80 + c.toNat % 0x40 := by simp; omega
      simp only [List.cons_append, List.nil_append, fromUtf8_cons, ha, hb]
      rw [if_neg (show ¬ 0xC0 + c.toNat / 0x40 < 0x80 by omega), if_neg (show ¬ 0xC0 + c.toNat / 0x40 < 0xC2 by omega),
        if_pos (show 0xC0 + c.toNat / 0x40 < 0xE0 by omega), if_pos ((isCont_iff _).mpr (by omega)), key _ (by omega)]
    · rw [if_neg h2]
      by_cases h3 : c.toNat < 0x10000
      · rw [if_pos h3]
        have ha : (UInt8.ofNat (0xE0 + c.toNat / 0x1000)).toNat = 0xE0 + c.toNat / 0x1000 := by simp; omega
        have hb : (UInt8.ofNat (0x80 + c.toNat / 0x40 % 0x40)).toNat = 0x80 + c.toNat / 0x40 % 0x40 := by simp; omega
        have hc : (UInt8.ofNat (0x80 + c.toNat % 0x40)).toNat = 0x80 + c.toNat % 0x40 := by simp; omega
        have e : (0xE0 + c.toNat / 0x1000 - 0xE0) * 0x1000 + (0x80 + c.toNat / 0x40 % 0x40 - 0x80) * 0x40
          + (0x80 + c.toNat % 0x40 - 0x80) = c.toNat := by omega
        simp only [List.cons_append, List.nil_append, fromUtf8_cons, ha, hb, hc, e]
        rw [if_neg (show ¬ 0xE0 + c.toNat / 0x1000 < 0x80 by omega), if_neg (show ¬ 0xE0 + c.toNat / 0x1000 < 0xC2 by omega),
          if_neg (show ¬ 0xE0 + c.toNat / 0x1000 < 0xE0 by omega), if_pos (show 0xE0 + c.toNat / 0x1000 < 0xF0 by omega),
          (isCont_iff _).mpr (by omega), (isCont_iff _).mpr (by omega), ofNat_toNat, if_pos]
        simp; omega
      · rw [if_neg h3]
        have ha : (UInt8.ofNat (0xF0 + c.toNat / 0x40000)).toNat = 0xF0 + c.toNat / 0x40000 := by simp; omega
        have hb : (UInt8.ofNat (0x80 + c.toNat / 0x1000 % 0x40)).toNat = 0x80 + c.toNat / 0x1000 % 0x40 := by simp; omega
        have hc : (UInt8.ofNat (0x80 + c.toNat / 0x40 % 0x40)).toNat = 0x80 + c.toNat / 0x40 % 0x40 := by simp; omega
        have hd : (UInt8.ofNat (0x80 + c.toNat % 0x40)).toNat = 0x80 + c.toNat % 0x40 := by simp; omega
        have e : (0xF0 + c.toNat / 0x40000 - 0xF0) * 0x40000 + (0x80 + c.toNat / 0x1000 % 0x40 - 0x80) * 0x1000
          + (0x80 + c.toNat / 0x40 % 0x40 - 0x80) * 0x40 + (0x80 + c.toNat % 0x40 - 0x80) = c.toNat := by omega
        simp only [List.cons_append, List.nil_append, fromUtf8_cons, ha, hb, hc, hd, e]
        rw [if_neg (show ¬ 0xF0 + c.toNat / 0x40000 < 0x80 by omega), if_neg (show ¬ 0xF0 + c.toNat / 0x40000 < 0xC2 by omega),
          if_neg (show ¬ 0xF0 + c.toNat / 0x40000 < 0xE0 by omega), if_neg (show ¬ 0xF0 + c.toNat / 0x40000 < 0xF0 by omega),
          if_pos (show 0xF0 + c.toNat / 0x40000 < 0xF5 by omega),
          (isCont_iff _).mpr (by omega), (isCont_iff _).mpr (by omega), (isCont_iff _).mpr (by omega), ofNat_toNat, if_pos]
        simp; omega

theorem fromUtf8_utf8 (s : Str) : fromUtf8 (utf8 s) = some s := by
  induction s with
  | nil => rfl
  | cons c s ih => rw [utf8_cons, fromUtf8_char, ih]; rfl

theorem utf8_fromUtf8 (b : Bytes) (s : Str) (h : fromUtf8 b = some s) : utf8 s = b := by
  induction hn : b.length using Nat.strongRecOn generalizing b s with
  | _ n ih =>
    have back : ∀ (x : UInt8) (k : Nat), k = x.toNat → UInt8.ofNat k = x := by
      intro x k hk; rw [hk]; simp
    match b, h with
    | [], h => simp [fromUtf8] at h; subst h; rfl
    | a :: r, h =>
      have hx := a.toNat_lt
      simp only [List.length_cons] at hn
      rw [fromUtf8_cons] at h
      by_cases h1 : a.toNat < 0x80
      · rw [if_pos h1, Option.map_eq_some_iff] at h
        obtain ⟨t, ht, rfl⟩ := h
        have hc : (Char.ofNat a.toNat).toNat = a.toNat := toNat_ofNat (by omega)
        rw [utf8_cons, ih r.length (by omega) r t ht rfl]
        simp only [utf8Char, hc]
        rw [if_pos h1, back a _ rfl]; rfl
      · rw [if_neg h1] at h
        by_cases h2 : a.toNat < 0xC2
        · rw [if_pos h2] at h; cases h
        · rw [if_neg h2] at h
          by_cases h3 : a.toNat < 0xE0
          · rw [if_pos h3] at h
            match r, h with
            | [], h => simp at h
            | b :: r', h =>
              dsimp only at h
              by_cases hb : isCont b = true
              · rw [if_pos hb, Option.map_eq_some_iff] at h
                obtain ⟨t, ht, rfl⟩ := h
                rw [isCont_iff] at hb
                have hc : (Char.ofNat ((a.toNat - 0xC0) * 0x40 + (b.toNat - 0x80))).toNat
                  = (a.toNat - 0xC0) * 0x40 + (b.toNat - 0x80) := toNat_ofNat (by omega)
                simp only [List.length_cons] at hn
                rw [utf8_cons, ih r'.length (by omega) r' t ht rfl]
                simp only [utf8Char, hc]
                rw [if_neg (by omega), if_pos (by omega), back a _ (by omega), back b _ (by omega)]; rfl
              · rw [if_neg hb] at h; cases h
          · rw [if_neg h3] at h
            by_cases h4 : a.toNat < 0xF0
            · rw [if_pos h4] at h
              match r, h with
              | [], h => simp at h
              | [_], h => simp at h
              | b :: c :: r', h =>
                dsimp only at h
                split at h
                · rename_i hcond
                  simp only [Bool.and_eq_true, isCont_iff, decide_eq_true_eq, Bool.not_eq_true', Bool.and_eq_false_iff,
                    decide_eq_false_iff_not] at hcond
                  rw [Option.map_eq_some_iff] at h
                  obtain ⟨t, ht, rfl⟩ := h
                  have hc : (Char.ofNat ((a.toNat - 0xE0) * 0x1000 + (b.toNat - 0x80) * 0x40 + (c.toNat - 0x80))).toNat
                    = (a.toNat - 0xE0) * 0x1000 + (b.toNat - 0x80) * 0x40 + (c.toNat - 0x80) := toNat_ofNat (by omega)
                  simp only [List.length_cons] at hn
                  rw [utf8_cons, ih r'.length (by omega) r' t ht rfl]
                  simp only [utf8Char, hc]
                  rw [if_neg (by omega), if_neg (by omega), if_pos (by omega), back a _ (by omega), back b _ (by omega),
                    back c _ (by omega)]; rfl
                · cases h
            · rw [if_neg h4] at h
              by_cases h5 : a.toNat < 0xF5
              · rw [if_pos h5] at h
                match r, h with
                | [], h => simp at h
                | [_], h => simp at h
                | [_, _], h => simp at h
                | b :: c :: d :: r', h =>
                  dsimp only at h
                  split at h
                  · rename_i hcond
                    simp only [Bool.and_eq_true, isCont_iff, decide_eq_true_eq] at hcond
                    rw [Option.map_eq_some_iff] at h
                    obtain ⟨t, ht, rfl⟩ := h
                    have hc : (Char.ofNat ((a.toNat - 0xF0) * 0x40000 + (b.toNat - 0x80) * 0x1000 + (c.toNat - 0x80) * 0x40
                      + (d.toNat - 0x80))).toNat
                      = (a.toNat - 0xF0) * 0x40000 + (b.toNat - 0x80) * 0x1000 + (c.toNat - 0x80) * 0x40 + (d.toNat - 0x80) :=
                      toNat_ofNat (by omega)
                    simp only [List.length_cons] at hn
                    rw [utf8_cons, ih r'.length (by omega) r' t ht rfl]
                    simp only [utf8Char, hc]
                    rw [if_neg (by omega), if_neg (by omega), if_neg (by omega), back a _ (by omega), back b _ (by omega),
                      back c _ (by omega), back d _ (by omega)]; rfl
                  · cases h
              · rw [if_neg h5] at h; cases h

/-! ## NUL-terminated strings -/

theorem parseStr0Loop_clean {ε : Type} (e : ε) (acc b r : Bytes) (hb : (0 : UInt8) ∉ b) :
    parseStr0Loop e acc (b ++ 0 :: r) = match fromUtf8 (acc ++ b) with | some s => .ok (s, r) | none => .err e := by
  induction b generalizing acc with
  | nil => simp only [List.nil_append, List.append_nil, parseStr0Loop, if_true]; rfl
  | cons x b ih =>
    simp only [List.mem_cons, not_or] at hb
    rw [List.cons_append, parseStr0Loop, if_neg (Ne.symm hb.1), ih _ hb.2]
    simp

theorem parseStr0Loop_open {ε : Type} (e : ε) (acc b : Bytes) (hb : (0 : UInt8) ∉ b) :
    parseStr0Loop e acc b = .err e := by
  induction b generalizing acc with
  | nil => rfl
  | cons x b ih =>
    simp only [List.mem_cons, not_or] at hb
    rw [parseStr0Loop, if_neg (Ne.symm hb.1), ih _ hb.2]

theorem parseUtf16le0Loop_clean {ε : Type} (e : ε) (acc us : List Nat) (r : Bytes) (hb : ∀ u ∈ us, u ≠ 0 ∧ u < 65536) :
    parseUtf16le0Loop e acc (us.flatMap (putLE 2) ++ 0 :: 0 :: r)
      = match decodeUtf16 (acc ++ us) with | some s => .ok (s, r) | none => .err e := by
  induction us generalizing acc with
  | nil => simp only [List.flatMap_nil, List.nil_append, List.append_nil, parseUtf16le0Loop]; rfl
  | cons u us ih =>
    have ⟨h0, h1⟩ := hb u (by simp)
    have hl : leVal [UInt8.ofNat u, UInt8.ofNat (u / 256)] = u := by
      have := leVal_putLE 2 u; simp only [putLE] at this; rw [this]; omega
    rw [List.flatMap_cons, show putLE 2 u = [UInt8.ofNat u, UInt8.ofNat (u / 256)] from rfl]
    simp only [List.cons_append, List.nil_append]
    rw [parseUtf16le0Loop, hl, if_neg h0]
    have := ih (acc ++ [u]) (fun v hv => hb v (by simp [hv]))
    rw [this]; simp

theorem mem_utf8_zero (s : Str) : (0 : UInt8) ∈ utf8 s ↔ '\x00' ∈ s := by
  induction s with
  | nil => simp [utf8]
  | cons c s ih =>
    rw [utf8_cons, List.mem_append, ih, List.mem_cons]
    have : (0 : UInt8) ∈ utf8Char c ↔ '\x00' = c := by
      have hv := char_valid c
      have z : ∀ n : Nat, (0 : UInt8) = UInt8.ofNat n ↔ n % 256 = 0 := by
        intro n; rw [← UInt8.toNat_inj]; simp; omega
      have zc : '\x00' = c ↔ c.toNat = 0 := by
        constructor
        · rintro rfl; rfl
        · intro h; rw [← ofNat_toNat c, h]
      rw [zc]
      simp only [utf8Char]
      split
      · simp only [List.mem_singleton, z]; omega
      · split
        · simp only [List.mem_cons, List.not_mem_nil, z, or_false]; omega
        · split
          · simp only [List.mem_cons, List.not_mem_nil, z, or_false]; omega
          · simp only [List.mem_cons, List.not_mem_nil, z, or_false]; omega
    rw [this]

theorem units_nonzero (s : Str) (h : '\x00' ∉ s) : ∀ u ∈ encodeUtf16 s, u ≠ 0 ∧ u < 65536 := by
  intro u hu
  simp only [encodeUtf16, List.mem_flatMap] at hu
  obtain ⟨c, hc, hu⟩ := hu
  have hv := char_valid c
  have : c.toNat ≠ 0 := by
    intro h0; apply h; rw [show '\x00' = c by rw [← ofNat_toNat c, h0]]; exact hc
  by_cases h1 : c.toNat < 0x10000
  · rw [units_small h1] at hu; simp at hu; omega
  · rw [units_big h1] at hu; simp at hu; omega

theorem parseStr0_utf8 {ε : Type} (e : ε) (s : Str) (r : Bytes) (h : '\x00' ∉ s) :
    parseStr0 e (utf8 s ++ 0 :: r) = .ok (s, r) := by
  rw [parseStr0, parseStr0Loop_clean _ _ _ _ (by rwa [mem_utf8_zero]), List.nil_append, fromUtf8_utf8]

theorem parseUtf16le0_encode {ε : Type} (e : ε) (s : Str) (r : Bytes) (h : '\x00' ∉ s) :
    parseUtf16le0 e (encodeUtf16le s ++ 0 :: 0 :: r) = .ok (s, r) := by
  rw [parseUtf16le0, encodeUtf16le, parseUtf16le0Loop_clean _ _ _ _ (units_nonzero s h), List.nil_append, decodeUtf16_units]

end Cifs
