import Verif.Props.Setup
/-! # Which negotiate and session setup replies can be decoded -/

namespace Cifs
open Spec

variable {σ : Type}

namespace Rd
variable {ε : Type}

theorem getU8_cases (b : Bytes) : (b.length < 1 ∧ (getU8 b : Res ε _) = .panic) ∨ ∃ x r, b = x :: r ∧ (getU8 b : Res ε _) = .ok (x, r) := by
  by_cases h : b.length < 1
  · exact .inl ⟨h, getU8_short h⟩
  · obtain ⟨x, r, rfl⟩ := split_u8 b (by omega)
    exact .inr ⟨x, r, rfl, getU8_cons x r⟩
theorem getU16_cases (b : Bytes) : (b.length < 2 ∧ (getU16 b : Res ε _) = .panic) ∨ ∃ x r, b = putU16 x ++ r ∧ (getU16 b : Res ε _) = .ok (x, r) := by
  by_cases h : b.length < 2
  · exact .inl ⟨h, getU16_short h⟩
  · obtain ⟨x, r, rfl⟩ := split_u16 b (by omega)
    exact .inr ⟨x, r, rfl, getU16_put x r⟩
theorem getU32_cases (b : Bytes) : (b.length < 4 ∧ (getU32 b : Res ε _) = .panic) ∨ ∃ x r, b = putU32 x ++ r ∧ (getU32 b : Res ε _) = .ok (x, r) := by
  by_cases h : b.length < 4
  · exact .inl ⟨h, getU32_short h⟩
  · obtain ⟨x, r, rfl⟩ := split_u32 b (by omega)
    exact .inr ⟨x, r, rfl, getU32_put x r⟩
theorem getU64_cases (b : Bytes) : (b.length < 8 ∧ (getU64 b : Res ε _) = .panic) ∨ ∃ x r, b = putU64 x ++ r ∧ (getU64 b : Res ε _) = .ok (x, r) := by
  by_cases h : b.length < 8
  · exact .inl ⟨h, getU64_short h⟩
  · obtain ⟨x, r, rfl⟩ := split_u64 b (by omega)
    exact .inr ⟨x, r, rfl, getU64_put x r⟩
theorem copyToBytes_cases (n : Nat) (b : Bytes) : (b.length < n ∧ (copyToBytes n b : Res ε _) = .panic) ∨
    ∃ a r, a.length = n ∧ b = a ++ r ∧ (copyToBytes n b : Res ε _) = .ok (a, r) := by
  by_cases h : b.length < n
  · exact .inl ⟨h, copyToBytes_short h⟩
  · obtain ⟨a, r, ha, rfl⟩ := split_n n b (by omega)
    exact .inr ⟨a, r, ha, rfl, copyToBytes_append _ _ _ ha⟩
end Rd

theorem u16At_some {b : Bytes} (h : 2 ≤ b.length) : ∃ n, u16At b 0 = some n := by
  obtain ⟨x, r, rfl⟩ := split_u16 b h
  exact ⟨_, u16At_put x r⟩

/-- A negotiate reply with the offered dialect, long enough to pass the length check, but shorter than its 17 words. -/
theorem ServerSetup.create_short {ps : Bytes} (i : Info) (ds : Bytes) (o : Nat) (h : 17 ≤ ps.length) (h' : ps.length < 34) (hd : u16At ps 0 = some 0) :
    ServerSetup.create { info := i, parameter := ps, data := ds, dataOffset := o } = .panic := by
  obtain ⟨d, r, rfl, h0⟩ := u16At_zero hd
  have hf : ¬ d.toNat = 0xffff := by omega
  have hk : ¬ SMB_SUPPORTED_DIALECTS[d.toNat]?.isNone = true := by rw [dialect_known]; omega
  unfold ServerSetup.create
  dsimp only
  simp only [if_neg (show ¬ (putU16 d ++ r).length < 17 by omega), Rd.getU16_put, Res.ok_bind, if_neg hf, if_neg hk]
  rw [List.length_append, length_putU16] at h'
  rcases Rd.getU8_cases (ε := SmbError) r with ⟨_, e⟩ | ⟨x, r, rfl, e⟩
  · rw [e]; rfl
  simp only [e, Res.ok_bind]
  rw [List.length_cons] at h'
  rcases Rd.getU16_cases (ε := SmbError) r with ⟨_, e⟩ | ⟨x, r, rfl, e⟩
  · rw [e]; rfl
  simp only [e, Res.ok_bind]
  rw [List.length_append, length_putU16] at h'
  rcases Rd.getU16_cases (ε := SmbError) r with ⟨_, e⟩ | ⟨x, r, rfl, e⟩
  · rw [e]; rfl
  simp only [e, Res.ok_bind]
  rw [List.length_append, length_putU16] at h'
  rcases Rd.getU32_cases (ε := SmbError) r with ⟨_, e⟩ | ⟨x, r, rfl, e⟩
  · rw [e]; rfl
  simp only [e, Res.ok_bind]
  rw [List.length_append, length_putU32] at h'
  rcases Rd.getU32_cases (ε := SmbError) r with ⟨_, e⟩ | ⟨x, r, rfl, e⟩
  · rw [e]; rfl
  simp only [e, Res.ok_bind]
  rw [List.length_append, length_putU32] at h'
  rcases Rd.getU32_cases (ε := SmbError) r with ⟨_, e⟩ | ⟨x, r, rfl, e⟩
  · rw [e]; rfl
  simp only [e, Res.ok_bind]
  rw [List.length_append, length_putU32] at h'
  rcases Rd.getU32_cases (ε := SmbError) r with ⟨_, e⟩ | ⟨x, r, rfl, e⟩
  · rw [e]; rfl
  simp only [e, Res.ok_bind]
  rw [List.length_append, length_putU32] at h'
  rcases Rd.getU64_cases (ε := SmbError) r with ⟨_, e⟩ | ⟨x, r, rfl, e⟩
  · rw [e]; rfl
  simp only [e, Res.ok_bind, decodeTime_eq]
  rw [List.length_append, length_putU64] at h'
  rcases Rd.getU16_cases (ε := SmbError) r with ⟨_, e⟩ | ⟨x, r, rfl, e⟩
  · rw [e]; rfl
  simp only [e, Res.ok_bind]
  rw [List.length_append, length_putU16] at h'
  rcases Rd.getU8_cases (ε := SmbError) r with ⟨_, e⟩ | ⟨x, r, rfl, e⟩
  · rw [e]; rfl
  simp at h'
  omega

theorem u8At_some {b : Bytes} {o : Nat} (h : o < b.length) : ∃ n, u8At b o = some n := by
  rw [u8At, List.getElem?_eq_getElem h]; exact ⟨_, rfl⟩

/-- All outcomes of decoding a negotiate reply. -/
theorem ServerSetup.create_cases (i : Info) (ps ds : Bytes) (o : Nat) :
    (34 ≤ ps.length ∧ u16At ps 0 = some 0 ∧
        ∃ v, ServerSetup.create { info := i, parameter := ps, data := ds, dataOffset := o } = .ok v ∧ IsNegotiateReply ps ds v) ∨
      (∃ e, ServerSetup.create { info := i, parameter := ps, data := ds, dataOffset := o } = .err e) ∨
      (17 ≤ ps.length ∧ ps.length < 34 ∧ u16At ps 0 = some 0 ∧
        ServerSetup.create { info := i, parameter := ps, data := ds, dataOffset := o } = .panic) := by
  by_cases h17 : ps.length < 17
  · refine .inr (.inl ⟨.Unsupported "negotiate header with too few parameter", ?_⟩)
    unfold ServerSetup.create
    rw [if_pos h17]
  obtain ⟨d, hd⟩ := u16At_some (b := ps) (by omega)
  by_cases h0 : d = 0
  · subst h0
    by_cases h34 : ps.length < 34
    · exact .inr (.inr ⟨by omega, h34, hd, ServerSetup.create_short i ds o (by omega) h34 hd⟩)
    · obtain ⟨n, hn⟩ := u8At_some (b := ps) (o := 33) (by omega)
      have := ServerSetup.create_eq i ds o (by omega) hd n hn
      split at this
      · exact .inl ⟨by omega, hd, this⟩
      · exact .inr (.inl ⟨_, this⟩)
  · exact .inr (.inl ⟨_, ServerSetup.create_dialect i ds o (by omega) d hd h0⟩)

/-- All outcomes of decoding a session setup reply. -/
theorem SessionSetupReply.create_cases (i : Info) (ps ds : Bytes) (o : Nat) :
    (6 ≤ ps.length ∧ (∀ n, u16At ps 6 = some n → n ≤ ds.length) ∧
        ∃ v, SessionSetupReply.create { info := i, parameter := ps.drop 4, data := ds, dataOffset := o } = .ok v ∧ IsSessionReply ps ds i.uid.toNat v) ∨
      ((ps.length < 6 ∨ ∃ n, u16At ps 6 = some n ∧ ds.length < n) ∧
        SessionSetupReply.create { info := i, parameter := ps.drop 4, data := ds, dataOffset := o } = .panic) := by
  by_cases h6 : ps.length < 6
  · refine .inr ⟨.inl h6, ?_⟩
    unfold SessionSetupReply.create
    dsimp only
    rw [Rd.getU16_short (by rw [List.length_drop]; omega)]; rfl
  by_cases hb : ∀ n, u16At ps 6 = some n → n ≤ ds.length
  · exact .inl ⟨by omega, hb, SessionSetupReply.create_eq i ds o (by omega) hb⟩
  · have hb : ∃ n, u16At ps 6 = some n ∧ ds.length < n := by
      simp only [Classical.not_forall, Nat.not_le] at hb
      obtain ⟨n, h1, h2⟩ := hb
      exact ⟨n, h1, h2⟩
    refine .inr ⟨.inr hb, ?_⟩
    obtain ⟨n, hn, hl⟩ := hb
    obtain ⟨a, p, ha, rfl⟩ := split_n 4 ps (by omega)
    rw [List.drop_left' ha]
    rw [List.length_append, ha] at h6
    obtain ⟨x, p, rfl⟩ := split_u16 p (by omega)
    rw [u16At_append_right _ _ _ (by omega), ha, u16At_append_right _ _ _ (by simp)] at hn
    obtain ⟨y, p, rfl, rfl⟩ := u16At_zero hn
    unfold SessionSetupReply.create
    dsimp only
    simp only [Rd.getU16_put, Res.ok_bind]
    rw [if_pos (by simp)]
    simp only [Res.ok_bind]
    rw [Rd.copyToBytes_short hl]; rfl

/-- A command that succeeded, its request and its reply. -/
theorem command_reply {α : Type} {E : Env σ} {m : Msg} (hk : KeepsMid m) (R : Reply α) {s s' : St σ} {a : α} (h : command E m R s = (.ok a, s')) :
    ∃ fr f i ps ds, requestFrame s.cli m = .ok fr ∧ Round E.V s.w.srv s.w.inbox.flatten (message fr) f s'.w.srv s'.w.inbox.flatten ∧
      Info.parse f = .ok (i, f.drop 32) ∧ cmdOf (message f) = some R.cmd.code.toNat ∧
      (statusOf (message f) = some 0 ∨ (statusOf (message f) = some moreProcessing ∧ R.cmd = .SessionSetup)) ∧
      ReplyBody (message f) ps ds ∧ R.make i ps ds = .ok a ∧ s'.cli = s.bump.cli := by
  obtain ⟨fr, f, i, h1, _, h3, h4, h5, h6⟩ := command_ok hk R h
  obtain ⟨hc, hs, hp⟩ := accept_ok h5
  have hr := C17_read f i _ h4
  have hg := (C13_accepted_iff f).mp ⟨_, _, h4⟩
  by_cases hb : ∃ ps ds, ReplyBody (message f) ps ds
  · obtain ⟨ps, ds, hb⟩ := hb
    rw [parse_body R i hg.1 hb] at hp
    refine ⟨fr, f, i, ps, ds, h1, h3, h4, by rw [hr.2.1, hc], ?_, hb, ?_, h6⟩
    · rw [hr.2.2.1]
      rcases hs with hs | ⟨hs, hR⟩
      · left; rw [hs]; rfl
      · right; rw [hs]; exact ⟨rfl, hR⟩
    · cases hm : R.make i ps ds with
      | err e => rw [hm] at hp; cases hp
      | panic => rw [hm] at hp; cases hp
      | ok b => rw [hm] at hp; cases hp; rfl
  · rw [parse_short R i hg.1 hb] at hp; cases hp

end Cifs
