import Verif.Lemmas.Drop
import Verif.Lemmas.OddText
/-! # Decoding of change notifications -/

namespace Cifs
open Spec

theorem actionOf_eq (x : UInt32) : NotifyAction.tryFrom x = actionOf x.toNat := by
  have key : ∀ n : Nat, n < 12 → NotifyAction.tryFrom (UInt32.ofNat n) = actionOf n := by decide +kernel
  by_cases h : x.toNat < 12
  · have := key x.toNat h
    rw [UInt32.ofNat_toNat] at this
    exact this
  · have h1 : actionOf x.toNat = none := by
      unfold actionOf
      split <;> first | omega | rfl
    rw [h1]
    unfold NotifyAction.tryFrom
    rw [List.find?_eq_none]
    intro a _ hc
    have : a.code = x := by simpa using hc
    subst this
    cases a <;> exact absurd h (by decide)

theorem decode_ok_iff {ε : Type} (e : ε) (b : Bytes) (s : Str) : decodeUtf16le e b = .ok s ↔ Utf16le s b := by
  rw [utf16le_iff]
  exact ⟨fun h => (encode_decodeUtf16le e b s h).symm, fun h => by rw [h, decodeUtf16le_encode]⟩

theorem parseNotifyInfo_iff {b : Bytes} (h4 : 4 ≤ b.length) :
    (∀ c, parseNotifyInfo (b.drop 4) = .ok c ↔ Change b c) ∧ (parseNotifyInfo (b.drop 4) = .panic ↔ OddChange b) := by
  have no : b.length < 12 → (∀ c, ¬ Change b c) ∧ ¬ OddChange b := by
    intro h
    constructor
    · rintro c ⟨a, n, nm, _, _, h8, _⟩
      have := u32At_length h8; omega
    · rintro ⟨a, n, nm, _, _, _, h8, _⟩
      have := u32At_length h8; omega
  unfold parseNotifyInfo
  by_cases h : (b.drop 4).length < 8
  · simp only [if_pos h]
    simp only [List.length_drop] at h
    obtain ⟨n1, n2⟩ := no (by omega)
    exact ⟨fun c => ⟨fun h => (by cases h), fun h => absurd h (n1 c)⟩, ⟨fun h => (by cases h), fun h => absurd h n2⟩⟩
  · simp only [if_neg h]
    simp only [List.length_drop] at h
    obtain ⟨a, ha, e⟩ := Rd.getU32_at (ε := SmbError) b 4 (by omega)
    simp only [e, Res.ok_bind, actionOf_eq]
    cases hact : actionOf a.toNat with
    | none =>
      refine ⟨fun c => ⟨fun h => (by cases h), ?_⟩, ⟨fun h => (by cases h), ?_⟩⟩
      · rintro ⟨a', n, nm, h1, h2, _⟩
        rw [ha] at h1; cases h1
        rw [hact] at h2; cases h2
      · rintro ⟨a', n, nm, _, h1, h2, _⟩
        rw [ha] at h1; cases h1
        rw [hact] at h2; cases h2
    | some action =>
      obtain ⟨n, hn, e⟩ := Rd.getU32_at (ε := SmbError) b 8 (by omega)
      simp only [Nat.reduceAdd, e, Res.ok_bind]
      by_cases hl : (b.drop 12).length < n.toNat
      · rw [if_pos hl]
        simp only [List.length_drop] at hl
        refine ⟨fun c => ⟨fun h => (by cases h), ?_⟩, ⟨fun h => (by cases h), ?_⟩⟩
        · rintro ⟨a', n', nm, h1, h2, h3, h4, _⟩
          rw [hn] at h3; cases h3
          have := (sliceAt_length h4).1; omega
        · rintro ⟨a', n', nm, _, h1, h2, h3, h4, _⟩
          rw [hn] at h3; cases h3
          have := (sliceAt_length h4).1; omega
      · rw [if_neg hl]
        simp only [List.length_drop] at hl
        obtain ⟨nm, hnm, e⟩ := Rd.copyToBytes_at (ε := SmbError) b 12 n.toNat (by omega)
        simp only [e, Res.ok_bind]
        constructor
        · intro c
          constructor
          · intro hc
            obtain ⟨s, hs, hc⟩ := Res.bind_eq_ok.mp (show (decodeUtf16le SmbError.InvalidData nm).bind (fun s => Res.ok (s, action)) = .ok c from hc)
            cases hc
            exact ⟨_, _, nm, ha, hact, hn, hnm, (decode_ok_iff _ _ _).mp hs⟩
          · rintro ⟨a', n', nm', h1, h2, h3, h4, h5⟩
            rw [ha] at h1; cases h1
            rw [hn] at h3; cases h3
            rw [hnm] at h4; cases h4
            rw [hact] at h2; cases h2
            rw [(decode_ok_iff SmbError.InvalidData _ _).mpr h5]; rfl
        · rw [show (do let filename ← decodeUtf16le SmbError.InvalidData nm; Res.ok (filename, action)) =
            (decodeUtf16le SmbError.InvalidData nm).bind (fun s => Res.ok (s, action)) from rfl, bind_ok_panic, decodeUtf16le_panic_iff]
          constructor
          · intro ho; exact ⟨_, _, nm, action, ha, hact, hn, hnm, ho⟩
          · rintro ⟨a', n', nm', _, h1, h2, h3, h4, h5⟩
            rw [hn] at h3; cases h3
            rw [hnm] at h4; cases h4
            exact h5

theorem change_length {b : Bytes} {c : Str × NotifyAction} (h : Change b c) : 12 ≤ b.length := by
  obtain ⟨a, n, nm, _, _, h8, _⟩ := h
  exact u32At_length h8

theorem oddChange_length {b : Bytes} (h : OddChange b) : 12 ≤ b.length := by
  obtain ⟨a, n, nm, _, _, _, h8, _⟩ := h
  exact u32At_length h8

theorem leVal_u32At (b : Bytes) (h : 4 ≤ b.length) : u32At b 0 = some (leVal (b.take 4)) := by
  obtain ⟨x, r, rfl⟩ := split_u32 b h
  rw [u32At_put, List.take_left' (by simp), leVal_putU32]

theorem change_det {b : Bytes} {c c' : Str × NotifyAction} (h : Change b c) (h' : Change b c') : c = c' := by
  have h4 : 4 ≤ b.length := by have := change_length h; omega
  have e := ((parseNotifyInfo_iff h4).1 c).mpr h
  rw [((parseNotifyInfo_iff h4).1 c').mpr h'] at e
  cases e; rfl

theorem notifyLoop_iff (p : Bytes) (start : Nat) (acc : List (Str × NotifyAction)) (hs : start ≤ p.length) :
    (∀ l, notifyLoop p start acc = .ok l ↔ ∃ cs, l = acc ++ cs ∧ Changes (p.drop start) cs) ∧
      (notifyLoop p start acc = .panic ↔ BrokenChanges (p.drop start)) := by
  induction hn : p.length - start using Nat.strongRecOn generalizing start acc with
  | _ n ih =>
    generalize hb : p.drop start = b
    have hbl : b.length = p.length - start := by rw [← hb, List.length_drop]
    rw [notifyLoop]
    simp only [dif_neg (show ¬ p.length < start by omega), hb]
    by_cases h0 : b.length = 0
    · rw [if_pos h0]
      have : b = [] := List.eq_nil_of_length_eq_zero h0
      subst this
      refine ⟨fun l => ⟨fun h => by cases h; exact ⟨[], by simp, .none⟩, ?_⟩, ⟨fun h => (by cases h), ?_⟩⟩
      · rintro ⟨cs, rfl, hc⟩
        cases hc with
        | none => simp
        | last h => have := u32At_length h; simp at this
        | more h => have := u32At_length h; simp at this
      · intro h
        cases h with
        | odd h => have := oddChange_length h; simp at this
        | outside h => have := u32At_length h; simp at this
        | later h => have := u32At_length h; simp at this
    · rw [if_neg h0]
      by_cases h4 : b.length < 4
      · rw [if_pos h4]
        refine ⟨fun l => ⟨fun h => (by cases h), ?_⟩, ⟨fun h => (by cases h), ?_⟩⟩
        · rintro ⟨cs, rfl, hc⟩
          cases hc with
          | none => simp at h0
          | last h => have := u32At_length h; omega
          | more h => have := u32At_length h; omega
        · intro h
          cases h with
          | odd h => have := oddChange_length h; omega
          | outside h => have := u32At_length h; omega
          | later h => have := u32At_length h; omega
      · rw [if_neg h4]
        have hnext := leVal_u32At b (by omega)
        generalize leVal (b.take 4) = next at hnext ⊢
        obtain ⟨i1, i2⟩ := parseNotifyInfo_iff (b := b) (by omega)
        cases hc : parseNotifyInfo (b.drop 4) with
        | panic =>
          have ho := i2.mp hc
          refine ⟨fun l => ⟨fun h => (by cases h), ?_⟩, ⟨fun _ => .odd ho, fun _ => rfl⟩⟩
          rintro ⟨cs, rfl, hcs⟩
          cases hcs with
          | none => simp at h0
          | last h hch => rw [(i1 _).mpr hch] at hc; cases hc
          | more h _ _ hch => rw [(i1 _).mpr hch] at hc; cases hc
        | err e =>
          refine ⟨fun l => ⟨fun h => (by cases h), ?_⟩, ⟨fun h => (by cases h), ?_⟩⟩
          · rintro ⟨cs, rfl, hcs⟩
            cases hcs with
            | none => simp at h0
            | last h hch => rw [(i1 _).mpr hch] at hc; cases hc
            | more h _ _ hch => rw [(i1 _).mpr hch] at hc; cases hc
          · intro h
            cases h with
            | odd h => rw [i2.mpr h] at hc; cases hc
            | outside h _ hch => rw [(i1 _).mpr hch] at hc; cases hc
            | later h _ _ hch => rw [(i1 _).mpr hch] at hc; cases hc
        | ok c =>
          have hch := (i1 c).mp hc
          have nodd : ¬ OddChange b := fun h => by rw [i2.mpr h] at hc; cases hc
          dsimp only
          by_cases hz : next = 0
          · rw [dif_pos hz]
            subst hz
            refine ⟨fun l => ⟨fun h => by cases h; exact ⟨[c], rfl, .last hnext hch⟩, ?_⟩, ⟨fun h => (by cases h), ?_⟩⟩
            · rintro ⟨cs, rfl, hcs⟩
              cases hcs with
              | none => simp at h0
              | last h hch' => rw [change_det hch hch']
              | more h hp => rw [hnext] at h; cases h; omega
            · intro h
              cases h with
              | odd h => exact absurd h nodd
              | outside h hl => rw [hnext] at h; cases h; omega
              | later h hp => rw [hnext] at h; cases h; omega
          · rw [dif_neg hz]
            by_cases hout : p.length < start + next
            · rw [notifyLoop, dif_pos hout]
              refine ⟨fun l => ⟨fun h => (by cases h), ?_⟩, ⟨fun _ => .outside hnext (by omega) hch, fun _ => rfl⟩⟩
              rintro ⟨cs, rfl, hcs⟩
              cases hcs with
              | none => simp at h0
              | last h => rw [hnext] at h; cases h; omega
              | more h _ hl => rw [hnext] at h; cases h; omega
            · obtain ⟨j1, j2⟩ := ih (p.length - (start + next)) (by omega) (start + next) (acc ++ [c]) (by omega) rfl
              have hd : p.drop (start + next) = b.drop next := by rw [← hb, List.drop_drop]
              rw [hd] at j1 j2
              constructor
              · intro l
                rw [j1]
                constructor
                · rintro ⟨cs, rfl, hcs⟩
                  exact ⟨c :: cs, by simp, .more hnext (by omega) (by omega) hch hcs⟩
                · rintro ⟨cs, rfl, hcs⟩
                  cases hcs with
                  | none => simp at h0
                  | last h => rw [hnext] at h; cases h; omega
                  | more h _ _ hch' hcs' =>
                    rw [hnext] at h; cases h
                    rw [change_det hch hch']
                    exact ⟨_, by simp, hcs'⟩
              · rw [j2]
                constructor
                · intro h; exact .later hnext (by omega) (by omega) hch h
                · intro h
                  cases h with
                  | odd h => exact absurd h nodd
                  | outside h hl => rw [hnext] at h; cases h; omega
                  | later h _ _ _ hb' => rw [hnext] at h; cases h; exact hb'

/-- The exact outcome of `Notification::parse`. -/
theorem notificationParse_ok (setup p d : Bytes) (l : List (Str × NotifyAction)) : notificationParse setup p d = .ok l ↔ Changes p l := by
  rw [notificationParse, (notifyLoop_iff p 0 [] (by omega)).1 l]
  simp

theorem notificationParse_panic (setup p d : Bytes) : notificationParse setup p d = .panic ↔ BrokenChanges p := by
  rw [notificationParse, (notifyLoop_iff p 0 [] (by omega)).2]
  simp

end Cifs
