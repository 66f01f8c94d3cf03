import Verif.Spec.Entries
import Verif.Lemmas.Notify
import Verif.Lemmas.Masks
import Verif.Lemmas.Collect
import Verif.Props.Setup
/-! # Decoding of directory entries -/

namespace Cifs
open Spec

theorem time_eq (t : UInt64) : (decodeWindowsTime t : Res SmbError Instant) = .ok (timeOf t.toNat) := decodeTime_eq t

theorem entry_length {b : Bytes} {d : DirInfo} (h : IsEntry b d) : 64 ≤ b.length := by
  obtain ⟨n, nm, h, _⟩ := h.name
  have := u32At_length h; omega

theorem oddEntry_length {b : Bytes} (h : OddEntry b) : 64 ≤ b.length := by
  obtain ⟨n, nm, h, _⟩ := h
  have := u32At_length h; omega

theorem dirInfo_parse {b : Bytes} (h4 : 4 ≤ b.length) :
    (∀ d, DirInfo.parse (b.drop 4) = .ok d ↔ IsEntry b d) ∧ (DirInfo.parse (b.drop 4) = .panic ↔ OddEntry b) := by
  unfold DirInfo.parse
  by_cases h : (b.drop 4).length < 60
  · simp only [if_pos h]
    simp only [List.length_drop] at h
    refine ⟨fun d => ⟨fun h => (by cases h), fun hd => ?_⟩, ⟨fun h => (by cases h), fun hd => ?_⟩⟩
    · have := entry_length hd; omega
    · have := oddEntry_length hd; omega
  · simp only [if_neg h]
    simp only [List.length_drop] at h
    have e0 := Rd.advance_at (ε := SmbError) b 4 4 (by omega)
    obtain ⟨t1, k1, e1⟩ := Rd.getU64_at (ε := SmbError) b 8 (by omega)
    obtain ⟨t2, k2, e2⟩ := Rd.getU64_at (ε := SmbError) b 16 (by omega)
    obtain ⟨t3, k3, e3⟩ := Rd.getU64_at (ε := SmbError) b 24 (by omega)
    obtain ⟨t4, k4, e4⟩ := Rd.getU64_at (ε := SmbError) b 32 (by omega)
    obtain ⟨sz, k5, e5⟩ := Rd.getU64_at (ε := SmbError) b 40 (by omega)
    have e6 := Rd.advance_at (ε := SmbError) b 48 8 (by omega)
    obtain ⟨at', k7, e7⟩ := Rd.getU32_at (ε := SmbError) b 56 (by omega)
    obtain ⟨n, k8, e8⟩ := Rd.getU32_at (ε := SmbError) b 60 (by omega)
    simp only [Nat.reduceAdd] at e0 e1 e2 e3 e4 e5 e6 e7 e8
    simp only [Rd.bind_apply, e0, e1, e2, e3, e4, e5, e6, e7, e8, Rd.lift, time_eq, Res.bind, Rd.remaining]
    by_cases hl : (b.drop 64).length < n.toNat
    · rw [if_pos hl]
      simp only [List.length_drop] at hl
      refine ⟨fun d => ⟨fun h => (by cases h), fun hd => ?_⟩, ⟨fun h => (by cases h), fun hd => ?_⟩⟩
      · obtain ⟨n', nm, h1, h2, _⟩ := hd.name
        rw [k8] at h1; cases h1
        have := (sliceAt_length h2).1; omega
      · obtain ⟨n', nm, h1, h2, _⟩ := hd
        rw [k8] at h1; cases h1
        have := (sliceAt_length h2).1; omega
    · rw [if_neg hl]
      simp only [List.length_drop] at hl
      obtain ⟨nm, hnm, e9⟩ := Rd.copyToBytes_at (ε := SmbError) b 64 n.toNat (by omega)
      simp only [Rd.bind_apply, e9, Res.bind, Rd.lift]
      cases hdec : decodeUtf16le SmbError.InvalidData nm with
      | ok s =>
        refine ⟨fun d => ?_, ⟨fun h => (by cases h), ?_⟩⟩
        · have hs := (decode_ok_iff SmbError.InvalidData nm s).mp hdec
          show Res.ok _ = Res.ok d ↔ _
          constructor
          · intro h; cases h
            exact ⟨⟨_, k1, rfl⟩, ⟨_, k2, rfl⟩, ⟨_, k3, rfl⟩, ⟨_, k4, rfl⟩, k5, ⟨_, k7, mask_attr _⟩, ⟨_, _, k8, hnm, hs⟩⟩
          · rintro ⟨⟨_, a1, b1⟩, ⟨_, a2, b2⟩, ⟨_, a3, b3⟩, ⟨_, a4, b4⟩, a5, ⟨_, a6, b6⟩, ⟨_, _, a7, a8, b8⟩⟩
            rw [k1] at a1; cases a1; rw [k2] at a2; cases a2; rw [k3] at a3; cases a3; rw [k4] at a4; cases a4; rw [k7] at a6; cases a6
            rw [k8] at a7; cases a7; rw [hnm] at a8; cases a8
            have hsz := UInt64.toNat_inj.mp (Option.some.inj (k5.symm.trans a5))
            have hat : ExtFileAttr.truncate at' = d.attributes := UInt32.toNat_inj.mp (by rw [mask_attr, b6])
            have hname : s = d.filename := by
              have := (decode_ok_iff SmbError.InvalidData nm d.filename).mpr b8
              rw [hdec] at this; cases this; rfl
            rw [← b1, ← b2, ← b3, ← b4, hsz, hat, hname]
        · rintro ⟨n', nm', h1, h2, h3⟩
          rw [k8] at h1; cases h1; rw [hnm] at h2; cases h2
          rw [(decodeUtf16le_panic_iff SmbError.InvalidData nm).mpr h3] at hdec; cases hdec
      | err e =>
        refine ⟨fun d => ⟨fun h => (by cases h), fun hd => ?_⟩, ⟨fun h => (by cases h), ?_⟩⟩
        · obtain ⟨n', nm', h1, h2, h3⟩ := hd.name
          rw [k8] at h1; cases h1; rw [hnm] at h2; cases h2
          rw [(decode_ok_iff SmbError.InvalidData nm _).mpr h3] at hdec; cases hdec
        · rintro ⟨n', nm', h1, h2, h3⟩
          rw [k8] at h1; cases h1; rw [hnm] at h2; cases h2
          rw [(decodeUtf16le_panic_iff SmbError.InvalidData nm).mpr h3] at hdec; cases hdec
      | panic =>
        refine ⟨fun d => ⟨fun h => (by cases h), fun hd => ?_⟩, ⟨fun _ => ⟨_, nm, k8, hnm, (decodeUtf16le_panic_iff _ _).mp hdec⟩, fun _ => rfl⟩⟩
        obtain ⟨n', nm', h1, h2, h3⟩ := hd.name
        rw [k8] at h1; cases h1; rw [hnm] at h2; cases h2
        rw [(decode_ok_iff SmbError.InvalidData nm _).mpr h3] at hdec; cases hdec

theorem entry_det {b : Bytes} {d d' : DirInfo} (h : IsEntry b d) (h' : IsEntry b d') : d = d' := by
  have h4 : 4 ≤ b.length := by have := entry_length h; omega
  have e := ((dirInfo_parse h4).1 d).mpr h
  rw [((dirInfo_parse h4).1 d').mpr h'] at e
  cases e; rfl

/-! ## The two loops in one -/

/-- The loop over the entries; `zero` tells whether a distance of 0 marks the last one. -/
def entryLoop (zero : Bool) (data : Bytes) (info : List DirInfo) : Res SmbError (List DirInfo) :=
  if data.length = 0 then .ok info
  else if _h : data.length < 4 then .err .InvalidData
  else
    let next := leVal (data.take 4)
    if (next ≠ 0 ∨ zero = false) ∧ next < 4 then .err .InvalidData
    else
      let size := if next = 0 then data.length - 4 else next - 4
      if size = 0 then .ok info
      else if data.length - 4 < size then .err .InvalidData
      else match DirInfo.parse ((data.take (4 + size)).drop 4) with
        | .panic => .panic
        | .err e => .err e
        | .ok d => entryLoop zero (data.drop (4 + size)) (info ++ [d])
termination_by data.length
decreasing_by simp only [List.length_drop]; omega

theorem take_drop_take (data : Bytes) (size : Nat) : (data.take (4 + size)).drop 4 = (data.drop 4).take size := by
  rw [List.drop_take]; congr 1; omega

theorem findFirstLoop_eq (data : Bytes) (info : List DirInfo) : findFirstLoop data info = entryLoop true data info := by
  induction hn : data.length using Nat.strongRecOn generalizing data info with
  | _ n ih =>
    rw [findFirstLoop, entryLoop]
    by_cases h0 : data.length = 0
    · rw [if_pos h0, if_pos h0]
    · rw [if_neg h0, if_neg h0]
      by_cases h4 : data.length < 4
      · rw [dif_pos h4, dif_pos h4]
      · rw [dif_neg h4, dif_neg h4]
        simp only [take_drop_take, List.length_drop, Bool.true_eq_false, or_false]
        generalize leVal (data.take 4) = next
        by_cases hz : next ≠ 0 ∧ next < 4
        · rw [if_pos hz, if_pos hz]
        · rw [if_neg hz, if_neg hz]
          generalize (if next = 0 then data.length - 4 else next - 4) = size
          by_cases hs : size = 0
          · rw [if_pos hs, if_pos hs]
          · rw [if_neg hs, if_neg hs]
            by_cases hl : data.length - 4 < size
            · rw [if_pos hl, if_pos hl]
            · rw [if_neg hl, if_neg hl]
              cases DirInfo.parse ((data.drop 4).take size) with
              | ok d =>
                dsimp only
                rw [ih (data.length - 4 - size) (by omega) _ _ (by simp; omega), List.drop_drop]
              | err e => rfl
              | panic => rfl

theorem findNextLoop_eq (data : Bytes) (info : List DirInfo) : findNextLoop data info = entryLoop false data info := by
  induction hn : data.length using Nat.strongRecOn generalizing data info with
  | _ n ih =>
    rw [findNextLoop, entryLoop]
    by_cases h0 : data.length = 0
    · rw [if_pos h0, if_pos h0]
    · rw [if_neg h0, if_neg h0]
      by_cases h4 : data.length < 4
      · rw [dif_pos h4, dif_pos h4]
      · rw [dif_neg h4, dif_neg h4]
        simp only [take_drop_take, List.length_drop, or_true, true_and]
        generalize leVal (data.take 4) = next
        by_cases hz : next < 4
        · rw [if_pos hz, if_pos hz]
        · rw [if_neg hz, if_neg hz, if_neg (show ¬ next = 0 by omega)]
          generalize next - 4 = size
          by_cases hs : size = 0
          · rw [if_pos hs, if_pos hs]
          · rw [if_neg hs, if_neg hs]
            by_cases hl : data.length - 4 < size
            · rw [if_pos hl, if_pos hl]
            · rw [if_neg hl, if_neg hl]
              cases DirInfo.parse ((data.drop 4).take size) with
              | ok d =>
                dsimp only
                rw [ih (data.length - 4 - size) (by omega) _ _ (by simp; omega), List.drop_drop]
              | err e => rfl
              | panic => rfl

/-- Case analysis on a list that is read: what its first bytes mean. -/
theorem entryLoop_iff (zero : Bool) (b : Bytes) (acc : List DirInfo) :
    (∀ l, entryLoop zero b acc = .ok l ↔ ∃ ds, l = acc ++ ds ∧ Listed zero b ds) ∧ (entryLoop zero b acc = .panic ↔ OddEntries zero b) := by
  induction hn : b.length using Nat.strongRecOn generalizing b acc with
  | _ n ih =>
    rw [entryLoop]
    by_cases h0 : b.length = 0
    · rw [if_pos h0]
      have : b = [] := List.eq_nil_of_length_eq_zero h0
      subst this
      refine ⟨fun l => ⟨fun h => by cases h; exact ⟨[], by simp, .none⟩, ?_⟩, ⟨fun h => (by cases h), ?_⟩⟩
      · rintro ⟨ds, rfl, hd⟩
        cases hd with
        | none => simp
        | stop h => have := u32At_length h; simp at this
        | bare _ h => have := u32At_length h; simp at this
        | last _ h => have := u32At_length h; simp at this
        | more h => have := u32At_length h; simp at this
      · intro h
        cases h with
        | last _ h => have := u32At_length h; simp at this
        | here h => have := u32At_length h; simp at this
        | later h => have := u32At_length h; simp at this
    rw [if_neg h0]
    by_cases h4 : b.length < 4
    · rw [dif_pos h4]
      refine ⟨fun l => ⟨fun h => (by cases h), ?_⟩, ⟨fun h => (by cases h), ?_⟩⟩
      · rintro ⟨ds, rfl, hd⟩
        cases hd with
        | none => simp at h0
        | stop h => have := u32At_length h; omega
        | bare _ h => have := u32At_length h; omega
        | last _ h => have := u32At_length h; omega
        | more h => have := u32At_length h; omega
      · intro h
        cases h with
        | last _ h => have := u32At_length h; omega
        | here h => have := u32At_length h; omega
        | later h => have := u32At_length h; omega
    rw [dif_neg h4]
    have hnext := leVal_u32At b (by omega)
    dsimp only
    generalize leVal (b.take 4) = next at hnext ⊢
    have eqn : ∀ m, u32At b 0 = some m → m = next := fun m h => Option.some.inj (h.symm.trans hnext)
    by_cases hbad : (next ≠ 0 ∨ zero = false) ∧ next < 4
    · rw [if_pos hbad]
      refine ⟨fun l => ⟨fun h => (by cases h), ?_⟩, ⟨fun h => (by cases h), ?_⟩⟩
      · rintro ⟨ds, rfl, hd⟩
        cases hd with
        | none => simp at h0
        | stop h => have := eqn _ h; omega
        | bare hz h => have := eqn _ h; simp [hz] at hbad; omega
        | last hz h => have := eqn _ h; simp [hz] at hbad; omega
        | more h => have := eqn _ h; omega
      · intro h
        cases h with
        | last hz h => have := eqn _ h; simp [hz] at hbad; omega
        | here h => have := eqn _ h; omega
        | later h => have := eqn _ h; omega
    rw [if_neg hbad]
    by_cases hz0 : next = 0
    · -- the last entry, which takes the remaining bytes
      subst hz0
      have hz : zero = true := by cases zero with | true => rfl | false => exact absurd ⟨.inr rfl, by omega⟩ hbad
      rw [if_pos rfl]
      by_cases hs : b.length - 4 = 0
      · rw [if_pos hs]
        refine ⟨fun l => ⟨fun h => by cases h; exact ⟨[], by simp, .bare hz hnext (by omega)⟩, ?_⟩, ⟨fun h => (by cases h), ?_⟩⟩
        · rintro ⟨ds, rfl, hd⟩
          cases hd with
          | none => simp
          | stop h => simp
          | bare _ h => simp
          | last _ h hd => have := entry_length hd; omega
          | more h => have := eqn _ h; omega
        · intro h
          cases h with
          | last _ h hd => have := oddEntry_length hd; omega
          | here h => have := eqn _ h; omega
          | later h => have := eqn _ h; omega
      rw [if_neg hs, if_neg (by omega), show 4 + (b.length - 4) = b.length by omega, List.take_length]
      obtain ⟨i1, i2⟩ := dirInfo_parse (b := b) (by omega)
      cases hp : DirInfo.parse (b.drop 4) with
      | ok d =>
        have hd := (i1 d).mp hp
        dsimp only
        rw [List.drop_length, entryLoop, if_pos List.length_nil]
        refine ⟨fun l => ⟨fun h => by cases h; exact ⟨[d], rfl, .last hz hnext hd⟩, ?_⟩, ⟨fun h => (by cases h), ?_⟩⟩
        · rintro ⟨ds, rfl, hds⟩
          cases hds with
          | none => simp at h0
          | stop h => have := eqn _ h; omega
          | bare _ h => omega
          | last _ h hd' => rw [entry_det hd hd']
          | more h => have := eqn _ h; omega
        · intro h
          cases h with
          | last _ h ho => rw [i2.mpr ho] at hp; cases hp
          | here h => have := eqn _ h; omega
          | later h => have := eqn _ h; omega
      | err e =>
        refine ⟨fun l => ⟨fun h => (by cases h), ?_⟩, ⟨fun h => (by cases h), ?_⟩⟩
        · rintro ⟨ds, rfl, hds⟩
          cases hds with
          | none => simp at h0
          | stop h => have := eqn _ h; omega
          | bare _ h => omega
          | last _ h hd' => rw [(i1 _).mpr hd'] at hp; cases hp
          | more h => have := eqn _ h; omega
        · intro h
          cases h with
          | last _ h ho => rw [i2.mpr ho] at hp; cases hp
          | here h => have := eqn _ h; omega
          | later h => have := eqn _ h; omega
      | panic =>
        refine ⟨fun l => ⟨fun h => (by cases h), ?_⟩, ⟨fun _ => .last hz hnext (i2.mp hp), fun _ => rfl⟩⟩
        rintro ⟨ds, rfl, hds⟩
        cases hds with
        | none => simp at h0
        | stop h => have := eqn _ h; omega
        | bare _ h => omega
        | last _ h hd' => rw [(i1 _).mpr hd'] at hp; cases hp
        | more h => have := eqn _ h; omega
    · rw [if_neg hz0]
      by_cases hs : next - 4 = 0
      · have he : next = 4 := by omega
        subst he
        rw [if_pos hs]
        refine ⟨fun l => ⟨fun h => by cases h; exact ⟨[], by simp, .stop hnext⟩, ?_⟩, ⟨fun h => (by cases h), ?_⟩⟩
        · rintro ⟨ds, rfl, hd⟩
          cases hd with
          | none => simp
          | stop h => simp
          | bare _ h => simp
          | last _ h hd => have := eqn _ h; omega
          | more h => have := eqn _ h; omega
        · intro h
          cases h with
          | last _ h hd => have := eqn _ h; omega
          | here h => have := eqn _ h; omega
          | later h => have := eqn _ h; omega
      rw [if_neg hs]
      by_cases hl : b.length - 4 < next - 4
      · rw [if_pos hl]
        refine ⟨fun l => ⟨fun h => (by cases h), ?_⟩, ⟨fun h => (by cases h), ?_⟩⟩
        · rintro ⟨ds, rfl, hd⟩
          cases hd with
          | none => simp at h0
          | stop h => have := eqn _ h; omega
          | bare _ h => have := eqn _ h; omega
          | last _ h hd => have := eqn _ h; omega
          | more h _ _ => have := eqn _ h; omega
        · intro h
          cases h with
          | last _ h hd => have := eqn _ h; omega
          | here h => have := eqn _ h; omega
          | later h => have := eqn _ h; omega
      rw [if_neg hl, show 4 + (next - 4) = next by omega]
      have h4n : 4 ≤ (b.take next).length := by rw [List.length_take]; omega
      obtain ⟨i1, i2⟩ := dirInfo_parse h4n
      cases hp : DirInfo.parse ((b.take next).drop 4) with
      | ok d =>
        have hd := (i1 d).mp hp
        dsimp only
        obtain ⟨j1, j2⟩ := ih (b.length - next) (by omega) (b.drop next) (acc ++ [d]) (by simp)
        constructor
        · intro l
          rw [j1 l]
          constructor
          · rintro ⟨ds, rfl, hds⟩
            exact ⟨d :: ds, by simp, .more hnext (by omega) (by omega) hd hds⟩
          · rintro ⟨ds, rfl, hds⟩
            cases hds with
            | none => simp at h0
            | stop h => have := eqn _ h; omega
            | bare _ h => have := eqn _ h; omega
            | last _ h => have := eqn _ h; omega
            | more h _ _ hd' hs' =>
              have := eqn _ h
              subst this
              rw [entry_det hd' hd]
              exact ⟨_, by simp, hs'⟩
        · rw [j2]
          constructor
          · intro h; exact .later hnext (by omega) (by omega) hd h
          · intro h
            cases h with
            | last _ h => have := eqn _ h; omega
            | here h _ _ ho => have := eqn _ h; subst this; rw [i2.mpr ho] at hp; cases hp
            | later h _ _ _ hs' => have := eqn _ h; subst this; exact hs'
      | err e =>
        refine ⟨fun l => ⟨fun h => (by cases h), ?_⟩, ⟨fun h => (by cases h), ?_⟩⟩
        · rintro ⟨ds, rfl, hds⟩
          cases hds with
          | none => simp at h0
          | stop h => have := eqn _ h; omega
          | bare _ h => have := eqn _ h; omega
          | last _ h => have := eqn _ h; omega
          | more h _ _ hd' hs' => have := eqn _ h; subst this; rw [(i1 _).mpr hd'] at hp; cases hp
        · intro h
          cases h with
          | last _ h => have := eqn _ h; omega
          | here h _ _ ho => have := eqn _ h; subst this; rw [i2.mpr ho] at hp; cases hp
          | later h _ _ hd' => have := eqn _ h; subst this; rw [(i1 _).mpr hd'] at hp; cases hp
      | panic =>
        refine ⟨fun l => ⟨fun h => (by cases h), ?_⟩, ⟨fun _ => .here hnext (by omega) (by omega) (i2.mp hp), fun _ => rfl⟩⟩
        rintro ⟨ds, rfl, hds⟩
        cases hds with
        | none => simp at h0
        | stop h => have := eqn _ h; omega
        | bare _ h => have := eqn _ h; omega
        | last _ h => have := eqn _ h; omega
        | more h _ _ hd' hs' => have := eqn _ h; subst this; rw [(i1 _).mpr hd'] at hp; cases hp

theorem entries_listed {b : Bytes} {ds : List DirInfo} (h : Entries b ds) : Listed true b ds := by
  induction h with
  | none => exact .none
  | last h hd => exact .last rfl h hd
  | more h h0 hl hd hs ih =>
    have := entry_length hd
    rw [List.length_take] at this
    exact .more h (by omega) hl hd ih

theorem measured_listed {b : Bytes} {ds : List DirInfo} (h : Measured b ds) : Listed false b ds := by
  induction h with
  | none => exact .none
  | more h h0 hl hd hs ih =>
    have := entry_length hd
    rw [List.length_take] at this
    exact .more h (by omega) hl hd ih

theorem listed_det {zero : Bool} {b : Bytes} {ds ds' : List DirInfo} (h : Listed zero b ds) (h' : Listed zero b ds') : ds = ds' := by
  have e := ((entryLoop_iff zero b []).1 ds).mpr ⟨ds, by simp, h⟩
  rw [((entryLoop_iff zero b []).1 ds').mpr ⟨ds', by simp, h'⟩] at e
  cases e; rfl

/-! ## The two responses -/

theorem findFirst_parse (P D : Bytes) :
    (∀ r, findFirst2Parse P D = .ok r ↔ IsFirstParams P r.sid.toNat r.info.length r.done ∧ Listed true D r.info ∧ (r.done = true ∨ r.info ≠ [])) ∧
    (findFirst2Parse P D = .panic ↔ 10 ≤ P.length ∧ OddEntries true D) := by
  unfold findFirst2Parse
  by_cases h : P.length < 10
  · rw [if_pos h]
    refine ⟨fun r => ⟨fun h => (by cases h), ?_⟩, ⟨fun h => (by cases h), fun h' => by omega⟩⟩
    rintro ⟨⟨h', _⟩, _⟩; omega
  rw [if_neg h]
  obtain ⟨sid, k0, e0⟩ := Rd.getU16_at (ε := SmbError) P 0 (by omega)
  obtain ⟨count, k1, e1⟩ := Rd.getU16_at (ε := SmbError) P 2 (by omega)
  obtain ⟨fin, k2, e2⟩ := Rd.getU16_at (ε := SmbError) P 4 (by omega)
  have e3 := Rd.advance_at (ε := SmbError) P 6 2 (by omega)
  simp only [Nat.reduceAdd, List.drop_zero] at e0 e1 e2 e3
  simp only [e0, e1, e2, e3, Res.ok_bind, findFirstLoop_eq]
  obtain ⟨i1, i2⟩ := entryLoop_iff true D []
  have hdone : (fin != 0) = true ↔ fin.toNat ≠ 0 := by
    rw [bne_iff_ne, ne_eq, ne_eq, ← UInt16.toNat_inj]; rfl
  cases hl : entryLoop true D [] with
  | ok info =>
    have hli := (i1 info).mp hl
    simp only [List.nil_append] at hli
    obtain ⟨ds, rfl, hli⟩ := hli
    simp only [Res.ok_bind]
    have hno : ¬ OddEntries true D := fun h => by rw [i2.mpr h] at hl; cases hl
    by_cases hc : info.length = count.toNat
    · rw [if_neg (by simpa using hc)]
      by_cases hz : (fin != 0) = false ∧ count.toNat = 0
      · rw [if_pos hz]
        refine ⟨fun r => ⟨fun h => (by cases h), ?_⟩, ⟨fun h => (by cases h), fun h => absurd h.2 hno⟩⟩
        rintro ⟨⟨_, a, b, e, c, d⟩, hr, hne⟩
        rw [k2] at c; cases c
        rw [k1] at b; have b := Option.some.inj b
        rcases hne with hne | hne
        · have := d.mp hne
          rw [hdone.mpr this] at hz; exact absurd hz.1 (by simp)
        · have : r.info.length = 0 := by omega
          exact absurd (List.eq_nil_of_length_eq_zero this) hne
      · rw [if_neg hz]
        refine ⟨fun r => ?_, ⟨fun h => (by cases h), fun h => absurd h.2 hno⟩⟩
        constructor
        · intro h; cases h
          refine ⟨⟨by omega, k0, by rw [k1, hc], _, k2, hdone⟩, hli, ?_⟩
          dsimp only
          cases hf : (fin != 0) with
          | true => exact .inl rfl
          | false => refine .inr fun h => hz ⟨hf, ?_⟩; rw [← hc, h]; rfl
        · rintro ⟨⟨_, a, b, e, c, d⟩, hr, hne⟩
          rw [k2] at c; cases c
          rw [k0] at a
          have a := UInt16.toNat_inj.mp (Option.some.inj a)
          have hdn : (fin != 0) = r.done := by
            rw [Bool.eq_iff_iff, hdone, d]
          rw [hdn, a, listed_det hli hr]
    · rw [if_pos hc]
      refine ⟨fun r => ⟨fun h => (by cases h), ?_⟩, ⟨fun h => (by cases h), fun h => absurd h.2 hno⟩⟩
      rintro ⟨⟨_, a, b, e, c, d⟩, hr, hne⟩
      rw [k1] at b; have b := Option.some.inj b
      rw [listed_det hr hli] at b; exact absurd b.symm hc
  | err e =>
    refine ⟨fun r => ⟨fun h => (by cases h), ?_⟩, ⟨fun h => (by cases h), fun h => by rw [i2.mpr h.2] at hl; cases hl⟩⟩
    rintro ⟨_, hr, _⟩
    rw [(i1 r.info).mpr ⟨_, by simp, hr⟩] at hl; cases hl
  | panic =>
    refine ⟨fun r => ⟨fun h => (by cases h), ?_⟩, ⟨fun _ => ⟨by omega, i2.mp hl⟩, fun _ => rfl⟩⟩
    rintro ⟨_, hr, _⟩
    rw [(i1 r.info).mpr ⟨_, by simp, hr⟩] at hl; cases hl

theorem findNext_parse (P D : Bytes) :
    (∀ r, findNext2Parse P D = .ok r ↔ IsNextParams P r.info.length r.done ∧ Listed false D r.info ∧ (r.done = true ∨ r.info ≠ [])) ∧
    (findNext2Parse P D = .panic ↔ 4 ≤ P.length ∧ OddEntries false D) := by
  unfold findNext2Parse
  by_cases h : P.length < 4
  · rw [if_pos h]
    refine ⟨fun r => ⟨fun h => (by cases h), ?_⟩, ⟨fun h => (by cases h), fun h' => by omega⟩⟩
    rintro ⟨⟨_, _, h', _⟩, _⟩; have := u16At_length h'; omega
  rw [if_neg h]
  obtain ⟨count, k1, e1⟩ := Rd.getU16_at (ε := SmbError) P 0 (by omega)
  obtain ⟨fin, k2, e2⟩ := Rd.getU16_at (ε := SmbError) P 2 (by omega)
  simp only [Nat.reduceAdd, List.drop_zero] at e1 e2
  simp only [e1, e2, Res.ok_bind, findNextLoop_eq]
  obtain ⟨i1, i2⟩ := entryLoop_iff false D []
  have hdone : (fin != 0) = true ↔ fin.toNat ≠ 0 := by
    rw [bne_iff_ne, ne_eq, ne_eq, ← UInt16.toNat_inj]; rfl
  cases hl : entryLoop false D [] with
  | ok info =>
    have hli := (i1 info).mp hl
    simp only [List.nil_append] at hli
    obtain ⟨ds, rfl, hli⟩ := hli
    simp only [Res.ok_bind]
    have hno : ¬ OddEntries false D := fun h => by rw [i2.mpr h] at hl; cases hl
    by_cases hc : info.length = count.toNat
    · rw [if_neg (by simpa using hc)]
      by_cases hz : (fin != 0) = false ∧ count.toNat = 0
      · rw [if_pos hz]
        refine ⟨fun r => ⟨fun h => (by cases h), ?_⟩, ⟨fun h => (by cases h), fun h => absurd h.2 hno⟩⟩
        rintro ⟨⟨b, e, c, d⟩, hr, hne⟩
        rw [k2] at c; cases c
        rw [k1] at b; have b := Option.some.inj b
        rcases hne with hne | hne
        · have := d.mp hne
          rw [hdone.mpr this] at hz; exact absurd hz.1 (by simp)
        · have : r.info.length = 0 := by omega
          exact absurd (List.eq_nil_of_length_eq_zero this) hne
      · rw [if_neg hz]
        refine ⟨fun r => ?_, ⟨fun h => (by cases h), fun h => absurd h.2 hno⟩⟩
        constructor
        · intro h; cases h
          refine ⟨⟨by rw [k1, hc], _, k2, hdone⟩, hli, ?_⟩
          dsimp only
          cases hf : (fin != 0) with
          | true => exact .inl rfl
          | false => refine .inr fun h => hz ⟨hf, ?_⟩; rw [← hc, h]; rfl
        · rintro ⟨⟨b, e, c, d⟩, hr, hne⟩
          rw [k2] at c; cases c
          have hdn : (fin != 0) = r.done := by
            rw [Bool.eq_iff_iff, hdone, d]
          rw [hdn, listed_det hli hr]
    · rw [if_pos hc]
      refine ⟨fun r => ⟨fun h => (by cases h), ?_⟩, ⟨fun h => (by cases h), fun h => absurd h.2 hno⟩⟩
      rintro ⟨⟨b, e, c, d⟩, hr, hne⟩
      rw [k1] at b; have b := Option.some.inj b
      rw [listed_det hr hli] at b; exact absurd b.symm hc
  | err e =>
    refine ⟨fun r => ⟨fun h => (by cases h), ?_⟩, ⟨fun h => (by cases h), fun h => by rw [i2.mpr h.2] at hl; cases hl⟩⟩
    rintro ⟨_, hr, _⟩
    rw [(i1 r.info).mpr ⟨_, by simp, hr⟩] at hl; cases hl
  | panic =>
    refine ⟨fun r => ⟨fun h => (by cases h), ?_⟩, ⟨fun _ => ⟨by omega, i2.mp hl⟩, fun _ => rfl⟩⟩
    rintro ⟨_, hr, _⟩
    rw [(i1 r.info).mpr ⟨_, by simp, hr⟩] at hl; cases hl

end Cifs
