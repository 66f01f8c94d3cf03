import Verif.Lemmas.Collect
import Verif.Lemmas.Answer
/-! # Decoding of secondary transaction replies -/

namespace Cifs
open Spec

variable {σ : Type}

theorem u16At_none {b : Bytes} {o : Nat} (h : b.length < o + 2) : u16At b o = none := by
  cases hx : u16At b o with
  | none => rfl
  | some n => have := u16At_length hx; omega

theorem trySub_none {a b : Nat} (h : a < b) : trySub a b = none := by rw [trySub, if_pos h]
theorem trySub_some {a b : Nat} (h : b ≤ a) : trySub a b = some (a - b) := by rw [trySub, if_neg (by omega)]

theorem sliceAt_none {b : Bytes} {o n : Nat} : sliceAt b o n = none ↔ b.length < o + n := by
  unfold sliceAt; split <;> simp <;> omega

/-- The exact outcome of decoding a secondary transaction reply. -/
theorem trans2_create (i : Info) (ps ds : Bytes) :
    (∃ p : Piece, IsPiece ps ds p ∧ ¬ ShortPiece ps ds ∧
      trans2Create { info := i, parameter := ps, data := ds, dataOffset := 35 + ps.length } = .ok p.reply) ∨
    (ShortPiece ps ds ∧ (∀ p, ¬ IsPiece ps ds p) ∧ trans2Create { info := i, parameter := ps, data := ds, dataOffset := 35 + ps.length } = .panic) ∨
    (¬ ShortPiece ps ds ∧ (∀ p, ¬ IsPiece ps ds p) ∧
      trans2Create { info := i, parameter := ps, data := ds, dataOffset := 35 + ps.length } = .err .InvalidData) := by
  have hlen : ∀ p, IsPiece ps ds p → 18 ≤ ps.length := by
    rintro p ⟨_, _, _, _, _, _, _, _, _, _, _, h, _⟩
    have := u16At_length h; omega
  unfold trans2Create
  dsimp only
  by_cases h10 : ps.length < 10
  · refine .inr (.inl ⟨.inl h10, fun p hp => by have := hlen p hp; omega, ?_⟩)
    by_cases h0 : ps.length < 2
    · rw [Rd.getU16_short h0]; rfl
    obtain ⟨_, _, e0⟩ := Rd.getU16_at (ε := SmbError) ps 0 (by omega)
    by_cases h2 : ps.length < 4
    · simp only [Nat.reduceAdd, List.drop_zero] at e0
      rw [e0]
      simp only [Res.ok_bind]
      rw [Rd.getU16_short (by simp; omega)]; rfl
    obtain ⟨_, _, e1⟩ := Rd.getU16_at (ε := SmbError) ps 2 (by omega)
    by_cases h3 : ps.length < 6
    · simp only [Nat.reduceAdd, List.drop_zero] at e0 e1
      rw [e0]
      simp only [Res.ok_bind, e1]
      rw [Rd.advance, if_pos (by simp; omega)]; rfl
    have e2 := Rd.advance_at (ε := SmbError) ps 4 2 (by omega)
    by_cases h4 : ps.length < 8
    · simp only [Nat.reduceAdd, List.drop_zero] at e0 e1 e2
      rw [e0]
      simp only [Res.ok_bind, e1, e2]
      rw [Rd.getU16_short (by simp; omega)]; rfl
    obtain ⟨_, _, e3⟩ := Rd.getU16_at (ε := SmbError) ps 6 (by omega)
    simp only [Nat.reduceAdd, List.drop_zero] at e0 e1 e2 e3
    rw [e0]
    simp only [Res.ok_bind, e1, e2, e3]
    rw [Rd.getU16_short (by simp; omega)]; rfl
  obtain ⟨tp, k0, e0⟩ := Rd.getU16_at (ε := SmbError) ps 0 (by omega)
  obtain ⟨td, k1, e1⟩ := Rd.getU16_at (ε := SmbError) ps 2 (by omega)
  have e2 := Rd.advance_at (ε := SmbError) ps 4 2 (by omega)
  obtain ⟨cp, k3, e3⟩ := Rd.getU16_at (ε := SmbError) ps 6 (by omega)
  obtain ⟨op, k4, e4⟩ := Rd.getU16_at (ε := SmbError) ps 8 (by omega)
  simp only [Nat.reduceAdd, List.drop_zero] at e0 e1 e2 e3 e4
  simp only [e0, Res.ok_bind, e1, e2, e3, e4]
  by_cases hop : op.toNat < 35 + ps.length
  · rw [trySub_none hop]
    refine .inr (.inr ⟨?_, ?_, rfl⟩)
    · rintro (h | ⟨o, h, h', _⟩)
      · exact h10 h
      · rw [k4] at h; cases h; omega
    · rintro p ⟨_, o, _, _, _, _, _, h, _, _, _, _, ⟨h', _⟩, _⟩
      rw [k4] at h; cases h; omega
  rw [trySub_some (by omega)]
  simp only [Res.ofOption, Res.ok_bind]
  have sh : ShortPiece ps ds ↔ (ps.length < 16 ∨ ∃ offsetD, u16At ps 14 = some offsetD ∧ 35 + ps.length ≤ offsetD ∧ (ps.length < 18 ∨
      ∃ countP countD, u16At ps 6 = some countP ∧ u16At ps 12 = some countD ∧
        (ds.length < op.toNat - (35 + ps.length) + countP ∨ ds.length < offsetD - (35 + ps.length) + countD))) := by
    constructor
    · rintro (h | ⟨o, h, _, h'⟩)
      · exact absurd h h10
      · rw [k4] at h; cases h; exact h'
    · exact fun h => .inr ⟨_, k4, by omega, h⟩
  rw [sh]
  by_cases h16 : ps.length < 16
  · refine .inr (.inl ⟨.inl h16, fun p hp => by have := hlen p hp; omega, ?_⟩)
    by_cases h5 : ps.length < 12
    · rw [Rd.getU16_short (by simp; omega)]; rfl
    obtain ⟨_, _, e5⟩ := Rd.getU16_at (ε := SmbError) ps 10 (by omega)
    simp only [Nat.reduceAdd] at e5
    simp only [e5, Res.ok_bind]
    by_cases h6 : ps.length < 14
    · rw [Rd.getU16_short (by simp; omega)]; rfl
    obtain ⟨_, _, e6⟩ := Rd.getU16_at (ε := SmbError) ps 12 (by omega)
    simp only [Nat.reduceAdd] at e6
    simp only [e6, Res.ok_bind]
    rw [Rd.getU16_short (by simp; omega)]; rfl
  obtain ⟨dp, k5, e5⟩ := Rd.getU16_at (ε := SmbError) ps 10 (by omega)
  obtain ⟨cd, k6, e6⟩ := Rd.getU16_at (ε := SmbError) ps 12 (by omega)
  obtain ⟨od, k7, e7⟩ := Rd.getU16_at (ε := SmbError) ps 14 (by omega)
  simp only [Nat.reduceAdd] at e5 e6 e7
  simp only [e5, e6, e7, Res.ok_bind]
  by_cases hod : od.toNat < 35 + ps.length
  · rw [trySub_none hod]
    refine .inr (.inr ⟨?_, ?_, rfl⟩)
    · rintro (h | ⟨o, h, h', _⟩)
      · exact h16 h
      · rw [k7] at h; cases h; omega
    · rintro p ⟨_, _, _, o, _, _, _, _, _, _, h, _, _, ⟨h', _⟩⟩
      rw [k7] at h; cases h; omega
  rw [trySub_some (by omega)]
  simp only [Res.ok_bind]
  by_cases h18 : ps.length < 18
  · refine .inr (.inl ⟨.inr ⟨_, k7, by omega, .inl h18⟩, fun p hp => by have := hlen p hp; omega, ?_⟩)
    rw [Rd.getU16_short (by simp; omega)]; rfl
  obtain ⟨dd, k8, e8⟩ := Rd.getU16_at (ε := SmbError) ps 16 (by omega)
  simp only [Nat.reduceAdd] at e8
  simp only [e8, Res.ok_bind]
  rw [sliceRange_eq, sliceRange_eq]
  cases hsp : sliceAt ds (op.toNat - (35 + ps.length)) cp.toNat with
  | none =>
    refine .inr (.inl ⟨.inr ⟨_, k7, by omega, .inr ⟨_, _, k3, k6, .inl (sliceAt_none.mp hsp)⟩⟩, ?_, rfl⟩)
    rintro p ⟨_, _, _, _, _, _, h, h', _, _, _, _, ⟨_, h''⟩, _⟩
    rw [k3] at h; cases h; rw [k4] at h'; cases h'; rw [hsp] at h''; cases h''
  | some pb =>
    simp only [Res.ok_bind]
    cases hsd : sliceAt ds (od.toNat - (35 + ps.length)) cd.toNat with
    | none =>
      refine .inr (.inl ⟨.inr ⟨_, k7, by omega, .inr ⟨_, _, k3, k6, .inr (sliceAt_none.mp hsd)⟩⟩, ?_, rfl⟩)
      rintro p ⟨_, _, _, _, _, _, _, _, _, h, h', _, _, ⟨_, h''⟩⟩
      rw [k6] at h; cases h; rw [k7] at h'; cases h'; rw [hsd] at h''; cases h''
    | some db =>
      refine .inl ⟨⟨pb, dp.toNat, tp.toNat, db, dd.toNat, td.toNat⟩, ?_, ?_, rfl⟩
      · exact ⟨_, _, _, _, k0, k1, k3, k4, k5, k6, k7, k8, ⟨by omega, hsp⟩, ⟨by omega, hsd⟩⟩
      · rintro (h | ⟨o, h, _, h' | ⟨c, c', h1, h2, h3⟩⟩)
        · omega
        · omega
        · rw [k7] at h; cases h; rw [k3] at h1; cases h1; rw [k6] at h2; cases h2
          have := (sliceAt_length hsp).1
          have := (sliceAt_length hsd).1
          omega

theorem piece_det {ps ds : Bytes} {p p' : Piece} (h : IsPiece ps ds p) (h' : IsPiece ps ds p') : p = p' := by
  obtain ⟨a, b, c, d, h1, h2, h3, h4, h5, h6, h7, h8, ⟨_, h9⟩, ⟨_, h10⟩⟩ := h
  obtain ⟨a', b', c', d', k1, k2, k3, k4, k5, k6, k7, k8, ⟨_, k9⟩, ⟨_, k10⟩⟩ := h'
  rw [h3] at k3; cases k3; rw [h4] at k4; cases k4; rw [h6] at k6; cases k6; rw [h7] at k7; cases k7
  rw [h9] at k9; rw [h10] at k10; rw [h1] at k1; rw [h2] at k2; rw [h5] at k5; rw [h8] at k8
  cases p; cases p'
  simp only [Option.some.injEq] at k1 k2 k5 k8 k9 k10
  subst k1; subst k2; subst k5; subst k8; subst k9; subst k10
  rfl

end Cifs
