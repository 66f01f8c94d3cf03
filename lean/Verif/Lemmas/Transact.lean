import Verif.Lemmas.Notify
/-! # Decoding of NT transaction replies -/

namespace Cifs
open Spec

theorem transBlock_iff (ps ds : Bytes) (offset count : Nat) :
    (∀ b, transBlock ds (35 + ps.length) offset count = .ok b ↔ Block ps ds count offset b) ∧
      (transBlock ds (35 + ps.length) offset count = .panic ↔ BlockOutside ps ds count offset) := by
  unfold transBlock trySub Block BlockOutside
  by_cases h0 : count > 0
  · rw [if_pos h0]
    by_cases h1 : 35 + ps.length ≤ offset
    · rw [if_neg (by omega)]
      dsimp only
      rw [sliceRange_eq]
      cases hs : sliceAt ds (offset - (35 + ps.length)) count with
      | none =>
        have : ¬ offset - (35 + ps.length) + count ≤ ds.length := by
          intro h; rw [sliceAt, if_pos h] at hs; cases hs
        refine ⟨fun b => ⟨fun h => (by cases h), ?_⟩, ⟨fun _ => ⟨h0, h1, by omega⟩, fun _ => rfl⟩⟩
        rintro (⟨h, _⟩ | ⟨_, _, h⟩)
        · omega
        · cases h
      | some a =>
        have := (sliceAt_length hs).1
        refine ⟨fun b => ⟨fun h => by cases h; exact .inr ⟨h0, h1, rfl⟩, ?_⟩, ⟨fun h => (by cases h), fun h => by omega⟩⟩
        rintro (⟨h, _⟩ | ⟨_, _, h⟩)
        · omega
        · cases h; rfl
    · rw [if_pos (by omega)]
      refine ⟨fun b => ⟨fun h => (by cases h), fun h => by omega⟩, ⟨fun h => (by cases h), fun h => by omega⟩⟩
  · rw [if_neg h0]
    refine ⟨fun b => ⟨fun h => by cases h; exact .inl ⟨by omega, rfl⟩, ?_⟩, ⟨fun h => (by cases h), fun h => by omega⟩⟩
    rintro (⟨_, h⟩ | ⟨h, _⟩)
    · rw [h]
    · omega

theorem transactCreate_eq {α : Type} (sub : SubReply α) (i : Info) {ps : Bytes} (ds : Bytes) (o : Nat) (h : 36 ≤ ps.length) :
    ∃ totalP totalD countP offsetP countD offsetD : UInt32, ∃ setup : UInt8,
      u32At ps 3 = some totalP.toNat ∧ u32At ps 7 = some totalD.toNat ∧ u32At ps 11 = some countP.toNat ∧ u32At ps 15 = some offsetP.toNat ∧
      u32At ps 23 = some countD.toNat ∧ u32At ps 27 = some offsetD.toNat ∧ u8At ps 35 = some setup.toNat ∧
      transactCreate sub { info := i, parameter := ps, data := ds, dataOffset := o } =
        if ps.length < 36 + 2 * setup.toNat then .panic
        else if countP.toNat < totalP.toNat ∨ countD.toNat < totalD.toNat then .err (.Unsupported "transaction message split to multiple packets")
        else (transBlock ds o offsetP.toNat countP.toNat).bind fun pb => (transBlock ds o offsetD.toNat countD.toNat).bind fun db =>
          sub ((ps.drop 36).take (2 * setup.toNat)) pb db := by
  obtain ⟨tp, h1, e1⟩ := Rd.getU32_at (ε := SmbError) ps 3 (by omega)
  obtain ⟨td, h2, e2⟩ := Rd.getU32_at (ε := SmbError) ps 7 (by omega)
  obtain ⟨cp, h3, e3⟩ := Rd.getU32_at (ε := SmbError) ps 11 (by omega)
  obtain ⟨op, h4, e4⟩ := Rd.getU32_at (ε := SmbError) ps 15 (by omega)
  obtain ⟨_, _, e5⟩ := Rd.getU32_at (ε := SmbError) ps 19 (by omega)
  obtain ⟨cd, h6, e6⟩ := Rd.getU32_at (ε := SmbError) ps 23 (by omega)
  obtain ⟨od, h7, e7⟩ := Rd.getU32_at (ε := SmbError) ps 27 (by omega)
  obtain ⟨_, _, e8⟩ := Rd.getU32_at (ε := SmbError) ps 31 (by omega)
  obtain ⟨sc, h9, e9⟩ := Rd.getU8_at (ε := SmbError) ps 35 (by omega)
  have e0 := Rd.advance_at (ε := SmbError) ps 0 3 (by omega)
  simp only [Nat.reduceAdd, List.drop_zero] at e0 e1 e2 e3 e4 e5 e6 e7 e8 e9
  refine ⟨tp, td, cp, op, cd, od, sc, h1, h2, h3, h4, h6, h7, h9, ?_⟩
  unfold transactCreate
  simp only [e0, e1, e2, e3, e4, e5, e6, e7, e8, e9, Res.ok_bind]
  by_cases hs : ps.length < 36 + 2 * sc.toNat
  · rw [if_pos hs, Rd.copyToBytes, if_pos (by simp; omega)]; rfl
  · rw [if_neg hs, Rd.copyToBytes, if_neg (by simp; omega)]; rfl

theorem transactCreate_short {α : Type} (sub : SubReply α) (i : Info) {ps : Bytes} (ds : Bytes) (o : Nat) (h : ps.length < 36) :
    transactCreate sub { info := i, parameter := ps, data := ds, dataOffset := o } = .panic := by
  unfold transactCreate
  dsimp only
  rdskip 3 ps h
  rd32 ps h
  rd32 ps h
  rd32 ps h
  rd32 ps h
  rd32 ps h
  rd32 ps h
  rd32 ps h
  rd32 ps h
  rd8 ps h
  omega

theorem bind_eq_panic {ε α β : Type} (r : Res ε α) (g : α → Res ε β) : r.bind g = .panic ↔ r = .panic ∨ ∃ a, r = .ok a ∧ g a = .panic := by
  cases r <;> simp [Res.bind]

/-- The exact outcome of decoding a reply to a notification request. -/
theorem notify_create (i : Info) (ps ds : Bytes) :
    (∀ l, transactCreate notificationParse { info := i, parameter := ps, data := ds, dataOffset := 35 + ps.length } = .ok l ↔
      ∃ pb db, IsNtReply ps ds pb db ∧ Changes pb l) ∧
    (transactCreate notificationParse { info := i, parameter := ps, data := ds, dataOffset := 35 + ps.length } = .panic ↔
      ShortNtReply ps ds ∨ ∃ pb db, IsNtReply ps ds pb db ∧ BrokenChanges pb) := by
  by_cases h : ps.length < 36
  · rw [transactCreate_short _ i ds _ h]
    refine ⟨fun l => ⟨fun h => (by cases h), ?_⟩, ⟨fun _ => .inl (.inl h), fun _ => rfl⟩⟩
    rintro ⟨pb, db, ⟨_, _, _, _, _, _, _, _, _, _, _, _, _, h8, _⟩, _⟩
    have := u8At_lt h8; omega
  · obtain ⟨tp, td, cp, op, cd, od, sc, h1, h2, h3, h4, h5, h6, h7, e⟩ := transactCreate_eq notificationParse i ds (35 + ps.length)
      (show 36 ≤ ps.length by omega)
    rw [e]
    obtain ⟨p1, p2⟩ := transBlock_iff ps ds op.toNat cp.toNat
    obtain ⟨d1, d2⟩ := transBlock_iff ps ds od.toNat cd.toNat
    by_cases hs : ps.length < 36 + 2 * sc.toNat
    · rw [if_pos hs]
      refine ⟨fun l => ⟨fun h => (by cases h), ?_⟩, ⟨fun _ => .inl (.inr (.inl ⟨_, h7, hs⟩)), fun _ => rfl⟩⟩
      rintro ⟨pb, db, ⟨_, _, _, _, _, _, _, _, _, _, _, _, _, h8, h9, _⟩, _⟩
      rw [h7] at h8; cases h8; omega
    · rw [if_neg hs]
      by_cases hc : cp.toNat < tp.toNat ∨ cd.toNat < td.toNat
      · rw [if_pos hc]
        refine ⟨fun l => ⟨fun h => (by cases h), ?_⟩, ⟨fun h => (by cases h), ?_⟩⟩
        · rintro ⟨pb, db, ⟨_, _, _, _, _, _, _, k1, k2, k3, k4, k5, k6, k7, k8, k9, k10, _⟩, _⟩
          rw [h1] at k1; cases k1; rw [h2] at k2; cases k2; rw [h3] at k3; cases k3; rw [h5] at k5; cases k5
          omega
        · rintro ((h | ⟨_, k, h⟩ | ⟨_, _, _, _, _, _, k1, k2, k3, k4, k5, k6, k7, k8, _⟩) |
            ⟨pb, db, ⟨_, _, _, _, _, _, _, k1, k2, k3, k4, k5, k6, k7, k8, k9, k10, _⟩, _⟩)
          · omega
          · rw [h7] at k; cases k; omega
          · rw [h1] at k1; cases k1; rw [h2] at k2; cases k2; rw [h3] at k3; cases k3; rw [h5] at k5; cases k5
            omega
          · rw [h1] at k1; cases k1; rw [h2] at k2; cases k2; rw [h3] at k3; cases k3; rw [h5] at k5; cases k5
            omega
      · rw [if_neg hc]
        constructor
        · intro l
          rw [Res.bind_eq_ok]
          constructor
          · rintro ⟨pb, hp, h⟩
            obtain ⟨db, hd, h⟩ := Res.bind_eq_ok.mp h
            exact ⟨pb, db, ⟨_, _, _, _, _, _, _, h1, h2, h3, h4, h5, h6, h7, by omega, by omega, by omega, (p1 pb).mp hp, (d1 db).mp hd⟩,
              (notificationParse_ok _ _ _ _).mp h⟩
          · rintro ⟨pb, db, ⟨_, _, _, _, _, _, _, k1, k2, k3, k4, k5, k6, k7, k8, k9, k10, k11, k12⟩, hl⟩
            rw [h3] at k3; cases k3; rw [h4] at k4; cases k4; rw [h5] at k5; cases k5; rw [h6] at k6; cases k6
            exact ⟨pb, (p1 pb).mpr k11, Res.bind_eq_ok.mpr ⟨db, (d1 db).mpr k12, (notificationParse_ok _ _ _ _).mpr hl⟩⟩
        · rw [bind_eq_panic]
          constructor
          · rintro (h | ⟨pb, hp, h⟩)
            · exact .inl (.inr (.inr ⟨_, _, _, _, _, _, h1, h2, h3, h4, h5, h6, by omega, by omega, .inl (p2.mp h)⟩))
            · rcases (bind_eq_panic _ _).mp h with h | ⟨db, hd, h⟩
              · exact .inl (.inr (.inr ⟨_, _, _, _, _, _, h1, h2, h3, h4, h5, h6, by omega, by omega, .inr ⟨⟨pb, (p1 pb).mp hp⟩, d2.mp h⟩⟩))
              · exact .inr ⟨pb, db, ⟨_, _, _, _, _, _, _, h1, h2, h3, h4, h5, h6, h7, by omega, by omega, by omega, (p1 pb).mp hp, (d1 db).mp hd⟩,
                  (notificationParse_panic _ _ _).mp h⟩
          · rintro ((h | ⟨_, k, h⟩ | ⟨_, _, _, _, _, _, k1, k2, k3, k4, k5, k6, k7, k8, k9⟩) |
              ⟨pb, db, ⟨_, _, _, _, _, _, _, k1, k2, k3, k4, k5, k6, k7, k8, k9, k10, k11, k12⟩, hb⟩)
            · omega
            · rw [h7] at k; cases k; omega
            · rw [h3] at k3; cases k3; rw [h4] at k4; cases k4; rw [h5] at k5; cases k5; rw [h6] at k6; cases k6
              rcases k9 with k9 | ⟨⟨pb, hp⟩, k9⟩
              · exact .inl (p2.mpr k9)
              · exact .inr ⟨pb, (p1 pb).mpr hp, (bind_eq_panic _ _).mpr (.inl (d2.mpr k9))⟩
            · rw [h3] at k3; cases k3; rw [h4] at k4; cases k4; rw [h5] at k5; cases k5; rw [h6] at k6; cases k6
              exact .inr ⟨pb, (p1 pb).mpr k11, (bind_eq_panic _ _).mpr (.inr ⟨db, (d1 db).mpr k12, (notificationParse_panic _ _ _).mpr hb⟩)⟩

end Cifs
