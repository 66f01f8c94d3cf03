import Verif.Model.Crypto
/-!
# The cipher can be undone

DES encryption as modelled has an inverse, the one of FIPS 46-3: the same rounds with the keys in reverse order. So no two blocks have the
same cipher text under one key.
-/

namespace Cifs

/-! ## Bits and bytes -/

theorem byteBits_length (b : UInt8) : (byteBits b).length = 8 := rfl

theorem bitsByte_byteBits (b : UInt8) : bitsByte (byteBits b) = b := by
  have h : ∀ n : Fin 256, bitsByte (byteBits (UInt8.ofNat n)) = UInt8.ofNat n := by decide +kernel
  have := h ⟨b.toNat, b.toNat_lt⟩
  simpa using this

theorem byteBits_bitsByte {l : List Bool} (h : l.length = 8) : byteBits (bitsByte l) = l := by
  match l, h with
  | [a, b, c, d, e, f, g, i], _ => revert a b c d e f g i; decide +kernel

theorem bitsBytes_flatMap : ∀ b : Bytes, bitsBytes b.length (b.flatMap byteBits) = b
  | [] => rfl
  | x :: b => by
    have e : (x :: b).flatMap byteBits = byteBits x ++ b.flatMap byteBits := by simp
    rw [e, List.length_cons, bitsBytes, ← byteBits_length x, List.take_left, List.drop_left, bitsByte_byteBits, bitsBytes_flatMap b]

theorem flatMap_bitsBytes : ∀ (n : Nat) {l : List Bool}, l.length = 8 * n → (bitsBytes n l).flatMap byteBits = l
  | 0, l, h => by rw [List.length_eq_zero_iff.mp (by omega : l.length = 0)]; rfl
  | n + 1, l, h => by
    rw [bitsBytes, List.flatMap_cons, byteBits_bitsByte (by rw [List.length_take]; omega), flatMap_bitsBytes n (by rw [List.length_drop]; omega),
      List.take_append_drop]

theorem length_flatMap_byteBits : ∀ b : Bytes, (b.flatMap byteBits).length = 8 * b.length
  | [] => rfl
  | x :: b => by rw [List.flatMap_cons, List.length_append, length_flatMap_byteBits b, byteBits_length, List.length_cons]; omega

/-! ## Permutations -/

theorem desPick_length (t : List Nat) (l : List Bool) : (desPick t l).length = t.length := by simp [desPick]

/-- Two tables, the second of which undoes the first. -/
def Undoes (n : Nat) (t t' : List Nat) : Prop := t'.length = n ∧ t.length = n ∧ ∀ i < n, t'.getD i 0 - 1 < n ∧ t.getD (t'.getD i 0 - 1) 0 - 1 = i

theorem getD_at {α : Type} {l : List α} {i : Nat} (d : α) (h : i < l.length) : l.getD i d = l[i] := by simp [List.getD, h]

theorem desPick_getD (t : List Nat) (l : List Bool) {j : Nat} (h : j < t.length) : (desPick t l).getD j false = l.getD (t.getD j 0 - 1) false := by
  rw [getD_at _ (by rw [desPick_length]; exact h), getD_at 0 h]
  exact List.getElem_map ..

theorem desPick_undo {n : Nat} {t t' : List Nat} (h : Undoes n t t') {l : List Bool} (hl : l.length = n) : desPick t' (desPick t l) = l := by
  obtain ⟨h1, h2, h3⟩ := h
  refine List.ext_getElem (by rw [desPick_length, h1, hl]) fun i hi hi' => ?_
  obtain ⟨a, b⟩ := h3 i (by omega)
  rw [← getD_at false hi, ← getD_at false hi', desPick_getD _ _ (by omega), desPick_getD _ _ (by omega), b]

theorem undoes_ip : Undoes 64 desIP desFP := ⟨rfl, rfl, by decide +kernel⟩
theorem undoes_fp : Undoes 64 desFP desIP := ⟨rfl, rfl, by decide +kernel⟩

/-! ## Rounds -/

theorem desF_length (r k : List Bool) : (desF r k).length = 32 := by rw [desF, desPick_length]; rfl

theorem xor_undo : ∀ {l m : List Bool}, l.length = m.length → List.zipWith xor (List.zipWith xor l m) m = l
  | [], [], _ => rfl
  | a :: l, b :: m, h => by
    simp only [List.zipWith_cons_cons, List.cons.injEq]
    exact ⟨by cases a <;> cases b <;> rfl, xor_undo (by simpa using h)⟩

theorem desRounds_length : ∀ (ks : List (List Bool)) {l r : List Bool}, l.length = 32 → r.length = 32 → (desRounds ks l r).length = 64
  | [], l, r, hl, hr => by rw [desRounds, List.length_append, hl, hr]
  | k :: ks, l, r, hl, hr => by rw [desRounds]; exact desRounds_length ks hr (by rw [List.length_zipWith, desF_length, hl]; rfl)

/-- The last round. -/
theorem desRounds_snoc : ∀ (ks : List (List Bool)) (k : List Bool) {l r : List Bool}, l.length = 32 → r.length = 32 →
    ∃ l' r', desRounds ks l r = r' ++ l' ∧ l'.length = 32 ∧ r'.length = 32 ∧ desRounds (ks ++ [k]) l r = List.zipWith xor l' (desF r' k) ++ r'
  | [], k, l, r, hl, hr => ⟨l, r, rfl, hl, hr, rfl⟩
  | a :: ks, k, l, r, hl, hr => by
    obtain ⟨l', r', h1, h2, h3, h4⟩ := desRounds_snoc ks k hr (by rw [List.length_zipWith, desF_length, hl]; rfl : (List.zipWith xor l (desF r a)).length = 32)
    exact ⟨l', r', h1, h2, h3, h4⟩

/-- The rounds with the keys in reverse order undo the rounds. -/
theorem desRounds_undo : ∀ (ks : List (List Bool)) {l r : List Bool}, l.length = 32 → r.length = 32 →
    desRounds ks.reverse ((desRounds ks l r).take 32) ((desRounds ks l r).drop 32) = l ++ r
  | [], l, r, hl, hr => by
    show _ = l ++ r
    rw [desRounds, ← hr, List.take_left, List.drop_left]
    rfl
  | k :: ks, l, r, hl, hr => by
    have hx : (List.zipWith xor l (desF r k)).length = 32 := by rw [List.length_zipWith, desF_length, hl]; rfl
    have ih := desRounds_undo ks hr hx
    rw [desRounds, List.reverse_cons]
    have hn := desRounds_length ks hr hx
    obtain ⟨l', r', h1, h2, h3, h4⟩ := desRounds_snoc ks.reverse k (l := (desRounds ks r (List.zipWith xor l (desF r k))).take 32)
      (r := (desRounds ks r (List.zipWith xor l (desF r k))).drop 32) (by rw [List.length_take]; omega) (by rw [List.length_drop]; omega)
    rw [h4]
    obtain ⟨rfl, rfl⟩ := List.append_inj (h1.symm.trans ih) (by rw [h3, hr])
    rw [xor_undo (by rw [hl, desF_length])]

/-! ## The cipher -/

/-- DES decryption, FIPS 46-3: the keys in reverse order. -/
def desDecrypt (key block : Bytes) : Bytes :=
  let k := desPick desPC1 (key.flatMap byteBits)
  let keys := desKeys [1, 1, 2, 2, 2, 2, 2, 2, 1, 2, 2, 2, 2, 2, 2, 1] (k.take 28) (k.drop 28)
  let b := desPick desIP (block.flatMap byteBits)
  bitsBytes 8 (desPick desFP (desRounds keys.reverse (b.take 32) (b.drop 32)))

theorem desDecrypt_encrypt (key : Bytes) {b : Bytes} (h : b.length = 8) : desDecrypt key (desEncrypt key b) = b := by
  unfold desDecrypt desEncrypt
  simp only
  generalize desKeys _ _ _ = ks
  have hb := length_flatMap_byteBits b
  generalize hB : b.flatMap byteBits = B at hb
  have h1 := desPick_length desIP B
  have h2 : desIP.length = 64 := rfl
  generalize hP : desPick desIP B = P at h1
  have h3 := desRounds_length ks (l := P.take 32) (r := P.drop 32) (by rw [List.length_take]; omega) (by rw [List.length_drop]; omega)
  rw [flatMap_bitsBytes 8 (by rw [desPick_length]; rfl), desPick_undo undoes_fp h3, desRounds_undo ks (by rw [List.length_take]; omega) (by rw [List.length_drop]; omega),
    List.take_append_drop, ← hP, desPick_undo undoes_ip (by omega), ← hB, ← h, bitsBytes_flatMap]

theorem desEncrypt_inj (key : Bytes) {b c : Bytes} (hb : b.length = 8) (hc : c.length = 8) (h : desEncrypt key b = desEncrypt key c) : b = c := by
  rw [← desDecrypt_encrypt key hb, h, desDecrypt_encrypt key hc]

end Cifs
