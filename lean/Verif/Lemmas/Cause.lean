import Verif.Lemmas.Answer
import Verif.Spec.Cause
/-!
# What a stream without a reply does to the client
-/

namespace Cifs
open Spec

/-- The outcome of reading a packet that is not there. -/
def stoppedNb {α : Type} : Option NbError → Out NbError α
  | some e => .err e
  | none => .pending

theorem tail_out {α : Type} (t : Tail) (eof : NbError) : (t.out eof : Out NbError α) = stoppedNb (ranDry eof t) := by cases t <;> rfl

theorem u24beAt_len (ty : UInt8) {len : Bytes} (rest : Bytes) (h : len.length = 3) : u24beAt (ty :: (len ++ rest)) 1 = some (beVal len) := by
  match len, h with
  | [a, b, c], _ =>
    simp [u24beAt, u8At, beVal]
    omega

theorem M.bind_stopped {α β : Type} {m : M NbError Bytes α} {f : α → M NbError Bytes β} {s s' : Bytes} {x : Option NbError} (h : m s = (stoppedNb x, s')) :
    (m >>= f) s = (stoppedNb x, s') := by
  cases x with
  | none => exact M.bind_pending h
  | some e => exact M.bind_err h

theorem controlSize_none {ty : UInt8} (h0 : ty ≠ 0x00) (h : controlSize ty = none) (d : Bytes) : Frame.new ty d = .err (.InvalidFrameType ty) := by
  unfold controlSize at h
  split at h <;> first | (cases h; done) | skip
  rename_i h1 h2 h3 h4 h5
  simp only [Frame.new, if_neg h0, if_neg (show ¬ ty = 0x81 from h1), if_neg (show ¬ ty = 0x82 from h2), if_neg (show ¬ ty = 0x83 from h3),
    if_neg (show ¬ ty = 0x84 from h4), if_neg (show ¬ ty = 0x85 from h5)]

theorem controlSize_some {ty : UInt8} {P : Nat → Prop} (h : controlSize ty = some P) (d : Bytes) :
    (¬ P d.length → Frame.new ty d = .err .InvalidFrame) ∧
      (P d.length → ty ≠ 0x85 → ∃ fr, Frame.new ty d = .ok fr ∧ (∀ m, fr ≠ .Message m) ∧ fr ≠ .Keepalive) := by
  unfold controlSize at h
  split at h <;> cases h
  · exact ⟨fun h => absurd trivial h, fun _ _ => ⟨_, rfl, by simp, by simp⟩⟩
  · refine ⟨fun h => by simp [Frame.new, show d ≠ [] from fun e => h (by subst e; rfl)], fun h _ => ?_⟩
    have h : d.length = 0 := h
    rw [List.length_eq_zero_iff] at h
    subst h
    exact ⟨_, rfl, by simp, by simp⟩
  · refine ⟨fun h => ?_, fun h _ => ?_⟩
    · match d, h with
      | [], _ => rfl
      | _ :: _ :: _, _ => rfl
    · match d, h with
      | [c], _ => exact ⟨_, rfl, by simp, by simp⟩
  · exact ⟨fun h => by simp [Frame.new, h], fun h _ => ⟨.Retarget, by simp [Frame.new, h], by simp, by simp⟩⟩
  · exact ⟨fun h => by simp [Frame.new, show d ≠ [] from fun e => h (by subst e; rfl)], fun _ h => absurd rfl h⟩

/-- What a stream that brings no message does. -/
theorem noMessage_flat {t : Tail} {b : Bytes} {x : Option NbError} (h : NoMessage t b x) : (flatRecvMessage t b).1 = stoppedNb x := by
  induction h with
  | keepAlive _ ih => rw [← ih]; exact congrArg Prod.fst (flatRecvMessage_keepalive t _)
  | @header b hl =>
    have := flatRecv_short4 t b hl
    rw [tail_out] at this
    rw [flatRecvMessage_eq, M.bind_stopped this]
  | @payload b n hn hm hl =>
    by_cases h4 : b.length < 4
    · match b, h4 with
      | [], _ => simp [u24beAt, u8At] at hn
      | [_], _ => simp [u24beAt, u8At] at hn
      | [_, _], _ => simp [u24beAt, u8At] at hn
      | [_, _, _], _ => simp [u24beAt, u8At] at hn
    · obtain ⟨ty, len, r, h3, rfl⟩ := split4 b (by omega)
      rw [u24beAt_len ty r h3] at hn
      cases hn
      have hp := flatRecv_cons t ty len r h3
      rw [if_neg (by simp only [maxPayload, MAX_FRAME_LENGTH] at *; omega), if_pos (by simp [h3] at hl; omega), tail_out] at hp
      rw [flatRecvMessage_eq, M.bind_stopped hp]
  | @big b n hn hm =>
    by_cases h4 : b.length < 4
    · match b, h4 with
      | [], _ => simp [u24beAt, u8At] at hn
      | [_], _ => simp [u24beAt, u8At] at hn
      | [_, _], _ => simp [u24beAt, u8At] at hn
      | [_, _, _], _ => simp [u24beAt, u8At] at hn
    · obtain ⟨ty, len, r, h3, rfl⟩ := split4 b (by omega)
      rw [u24beAt_len ty r h3] at hn
      cases hn
      have hp := flatRecv_cons t ty len r h3
      rw [if_pos (by simp only [maxPayload, MAX_FRAME_LENGTH] at *; omega)] at hp
      rw [flatRecvMessage_eq, M.bind_err hp]
      rfl
  | @unknown ty d rest hl h0 hc =>
    have hp := flatRecv_packet t ty d rest hl
    rw [controlSize_none h0 hc] at hp
    rw [flatRecvMessage_eq, M.bind_err hp]
    rfl
  | @size ty d rest P hl hc hs =>
    have hp := flatRecv_packet t ty d rest hl
    rw [(controlSize_some hc d).1 hs] at hp
    rw [flatRecvMessage_eq, M.bind_err hp]
    rfl
  | @control ty d rest P hl hc hs hk =>
    have hp := flatRecv_packet t ty d rest hl
    obtain ⟨fr, h1, h2, h3⟩ := (controlSize_some hc d).2 hs hk
    rw [h1] at hp
    rw [flatRecvMessage_eq, M.bind_ok hp]
    cases fr <;> first | rfl | exact absurd rfl (h2 _) | exact absurd rfl h3

/-- There is nothing else. -/
theorem stream_cases (t : Tail) (n : Nat) : ∀ b : Bytes, b.length < n → (∃ m rest, Delivers b m rest) ∨ ∃ x, NoMessage t b x := by
  induction n with
  | zero => intro b h; omega
  | succ n ih =>
    intro b hn
    by_cases h4 : b.length < 4
    · exact .inr ⟨_, .header h4⟩
    · obtain ⟨ty, len, r, h3, rfl⟩ := split4 b (by omega)
      have hu := u24beAt_len ty r h3
      by_cases hm : maxPayload < beVal len
      · exact .inr ⟨_, .big hu hm⟩
      · by_cases hl : r.length < beVal len
        · exact .inr ⟨_, .payload hu (by omega) (by simp [h3]; omega)⟩
        · have hd : (r.take (beVal len)).length = beVal len := by simp; omega
          have e : ty :: (len ++ r) = packet ty (r.take (beVal len)) ++ r.drop (beVal len) := by
            rw [← packet_of_len ty len _ h3 hd]
            simp
          rw [e]
          have hd' : (r.take (beVal len)).length ≤ maxPayload := by omega
          have hr : (r.drop (beVal len)).length < n := by
            simp only [List.length_cons, List.length_append, h3] at hn
            simp only [List.length_drop]
            omega
          generalize r.take (beVal len) = d at *
          generalize r.drop (beVal len) = rest at *
          by_cases h0 : ty = 0x00
          · subst h0; exact .inl ⟨d, rest, .message d rest hd'⟩
          · cases hc : controlSize ty with
            | none => exact .inr ⟨_, .unknown hd' h0 hc⟩
            | some P =>
              by_cases hP : P d.length
              · by_cases hk : ty = 0x85
                · subst hk
                  simp only [controlSize, Option.some.injEq] at hc
                  subst hc
                  rw [List.length_eq_zero_iff] at hP
                  subst hP
                  rcases ih rest hr with ⟨m, rest', h⟩ | ⟨x, h⟩
                  · exact .inl ⟨m, rest', .keepAlive h⟩
                  · exact .inr ⟨x, .keepAlive h⟩
                · exact .inr ⟨_, .control hd' hc hP hk⟩
              · exact .inr ⟨_, .size hd' hc hP⟩

theorem notGenuine_parse {f : Bytes} {e : SmbError} (h : NotGenuine f e) : Info.parse f = .err e := by
  cases h with
  | header h => exact (C13_rejected f).1.mpr h
  | @command c hl hm hc hk =>
    have hg : ¬ Genuine f := by
      rintro ⟨_, _, ⟨c', h1, h2⟩, _⟩
      rw [hc] at h2
      cases h2
      exact hk h1
    obtain ⟨magic, cmd, status, f1, f2, ph, sig, tid, pl, uid, mid, rest, h1, h2, rfl⟩ := split_header f hl
    rw [raw_cmd _ _ _ _ _ _ _ _ _ _ _ h1 h2] at hc
    rw [raw_magic _ _ _ _ _ _ _ _ _ _ _ h1 h2] at hm
    have hc := UInt8.toNat_inj.mp (Option.some.inj hc)
    subst hc
    rw [parse_rawHeader _ _ _ _ _ _ _ _ _ _ _ h1 h2, if_neg (by rw [Option.some.inj hm]; decide)]
    cases ht : Cmd.tryFrom cmd with
    | none => rfl
    | some c => exact absurd (tryFrom_some ht ▸ code_known c) hk
  | @request c n hl hm hc hk hf hb =>
    obtain ⟨magic, cmd, status, f1, f2, ph, sig, tid, pl, uid, mid, rest, h1, h2, rfl⟩ := split_header f hl
    rw [raw_cmd _ _ _ _ _ _ _ _ _ _ _ h1 h2] at hc
    rw [raw_magic _ _ _ _ _ _ _ _ _ _ _ h1 h2] at hm
    rw [raw_flags1 _ _ _ _ _ _ _ _ _ _ _ h1 h2] at hf
    have hc := Option.some.inj hc
    have hf := Option.some.inj hf
    subst hc
    subst hf
    rw [parse_rawHeader _ _ _ _ _ _ _ _ _ _ _ h1 h2, if_neg (by rw [Option.some.inj hm]; decide)]
    obtain ⟨c, ht⟩ := known_code _ hk
    rw [ht]
    dsimp only
    rw [if_pos ((reply_bit _).mpr (by omega))]

theorem genuine_cases (f : Bytes) : Genuine f ∨ ∃ e, NotGenuine f e := by
  by_cases hg : Genuine f
  · exact .inl hg
  · refine .inr ?_
    by_cases h : 32 ≤ f.length ∧ magicOf (message f) = some smbMagic
    · obtain ⟨hl, hm⟩ := h
      obtain ⟨magic, cmd, status, f1, f2, ph, sig, tid, pl, uid, mid, rest, h1, h2, e⟩ := split_header f hl
      have hc := raw_cmd (rest := rest) magic cmd status f1 f2 ph sig tid pl uid mid h1 h2
      have hf := raw_flags1 (rest := rest) magic cmd status f1 f2 ph sig tid pl uid mid h1 h2
      rw [← e] at hc hf
      by_cases hk : cmd.toNat ∈ knownCodes
      · refine ⟨_, .request hl hm hc hk hf ?_⟩
        have : ¬ f1.toNat / 128 % 2 = 1 := fun h => hg ⟨hl, hm, ⟨_, hk, hc⟩, _, hf, h⟩
        omega
      · exact ⟨_, .command hl hm hc hk⟩
    · exact ⟨_, .header h⟩

theorem notGenuine_not {f : Bytes} {e : SmbError} (h : NotGenuine f e) : ¬ Genuine f := by
  intro hg
  obtain ⟨i, r, hp⟩ := (C13_accepted_iff f).mpr hg
  rw [notGenuine_parse h] at hp
  cases hp

/-- What a stream without a reply does. -/
theorem noReply_flat {t : Tail} {mid : UInt16} {b : Bytes} {x : Option Error} (h : NoReply t mid.toNat b x) : (flatNext t mid b).1 = stopped x := by
  obtain ⟨b', hs, h⟩ := h
  rcases h with ⟨y, hy, rfl⟩ | ⟨f, rest, e, hd, hg, rfl⟩
  · rw [flatNext_skips t mid hs, flatNext_eq]
    have hm := noMessage_flat hy
    rcases hr : flatRecvMessage t b' with ⟨o, r⟩
    rw [hr] at hm
    have e : flatMsg t b' = (o.net, r) := by unfold flatMsg; rw [hr]
    dsimp only at hm
    rw [e, hm]
    cases y <;> rfl
  · obtain ⟨e', h1, h2⟩ := flatNext_garbled t mid hs hd (notGenuine_not hg)
    rw [notGenuine_parse hg] at h1
    cases h1
    rw [h2]
    rfl

/-- There is a reply, or there is none. -/
theorem reply_cases (t : Tail) (mid : Nat) (n : Nat) : ∀ b : Bytes, b.length < n → (∃ f rest, Awaits mid b f rest) ∨ ∃ x, NoReply t mid b x := by
  induction n with
  | zero => intro b h; omega
  | succ n ih =>
    intro b hn
    rcases stream_cases t (b.length + 1) b (by omega) with ⟨f, rest, hd⟩ | ⟨x, hx⟩
    · rcases genuine_cases f with hg | ⟨e, he⟩
      · obtain ⟨i, r, hp⟩ := (C13_accepted_iff f).mpr hg
        have hm := parse_mid hp
        by_cases hq : i.mid.toNat = mid
        · rw [hq] at hm
          exact .inl ⟨f, rest, b, .done b, hd, hg, hm⟩
        · have hl : rest.length + 4 ≤ b.length := by
            have := (flatMsg_cases t b).2.2.2 f (by rw [flatMsg_delivers t hd])
            rw [flatMsg_delivers t hd] at this
            exact this
          rcases ih rest (by omega) with ⟨f', rest', b', hs, h⟩ | ⟨x, b', hs, h⟩
          · exact .inl ⟨f', rest', b', .skip hd hg _ hm hq hs, h⟩
          · exact .inr ⟨x, b', .skip hd hg _ hm hq hs, h⟩
      · exact .inr ⟨_, b, .done b, .inr ⟨f, rest, e, hd, he, rfl⟩⟩
    · exact .inr ⟨_, b, .done b, .inl ⟨x, hx, rfl⟩⟩

end Cifs
