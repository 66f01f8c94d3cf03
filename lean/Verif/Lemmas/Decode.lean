import Verif.Lemmas.Answer
import Verif.Lemmas.Parse
/-! # Reply bodies -/

namespace Cifs
open Spec

variable {σ : Type}

theorem u8At_lt {b : Bytes} {o n : Nat} (h : u8At b o = some n) : o < b.length := by
  unfold u8At at h
  rw [Option.map_eq_some_iff] at h
  obtain ⟨x, hx, _⟩ := h
  exact (List.getElem?_eq_some_iff.mp hx).1

theorem u8At_zero {b : Bytes} {n : Nat} (h : u8At b 0 = some n) : ∃ x r, b = x :: r ∧ x.toNat = n := by
  match b with
  | [] => simp [u8At] at h
  | x :: r => exact ⟨x, r, rfl, by simpa [u8At] using h⟩

theorem u16At_zero {b : Bytes} {n : Nat} (h : u16At b 0 = some n) : ∃ x r, b = putU16 x ++ r ∧ x.toNat = n := by
  have hl : 2 ≤ b.length := by
    match b with
    | [] => simp [u16At, u8At] at h
    | [_] => simp [u16At, u8At] at h
    | _ :: _ :: _ => simp
  obtain ⟨x, r, rfl⟩ := split_u16 b hl
  rw [u16At_put] at h
  exact ⟨x, r, rfl, Option.some.inj h⟩

theorem u16At_length {b : Bytes} {o n : Nat} (h : u16At b o = some n) : o + 2 ≤ b.length := by
  cases hc : u8At b (o + 1) with
  | some m => have := u8At_lt hc; omega
  | none => simp [u16At, hc] at h

theorem u32At_length {b : Bytes} {o n : Nat} (h : u32At b o = some n) : o + 4 ≤ b.length := by
  cases hc : u16At b (o + 2) with
  | some m => have := u16At_length hc; omega
  | none => simp [u32At, hc] at h

theorem u64At_length {b : Bytes} {o n : Nat} (h : u64At b o = some n) : o + 8 ≤ b.length := by
  cases hc : u32At b (o + 4) with
  | some m => have := u32At_length hc; omega
  | none => simp [u64At, hc] at h

theorem sliceAt_length {b a : Bytes} {o n : Nat} (h : sliceAt b o n = some a) : o + n ≤ b.length ∧ a.length = n := by
  unfold sliceAt at h
  split at h
  · rename_i hl; cases h; simp; omega
  · cases h

theorem sliceAt_zero_some {b a : Bytes} {n : Nat} (h : sliceAt b 0 n = some a) : ∃ r, b = a ++ r ∧ a.length = n := by
  unfold sliceAt at h
  split at h
  · simp at h
    exact ⟨b.drop n, by rw [← h, List.take_append_drop], by rw [← h, List.length_take]; omega⟩
  · cases h

/-- A reply body in one piece. -/
theorem body_split {f ps ds : Bytes} (hl : 32 ≤ f.length) (h : ReplyBody (message f) ps ds) :
    ∃ (w : UInt8) (n : UInt16) (rest : Bytes), f.drop 32 = w :: (ps ++ (putU16 n ++ (ds ++ rest))) ∧ ps.length = 2 * w.toNat ∧ ds.length = n.toNat := by
  obtain ⟨h4, hh, he⟩ := message_eq f
  obtain ⟨hd, r, h32, rfl⟩ := split_n 32 f hl
  rw [List.drop_left' h32]
  have hm : message (hd ++ r) = (h4 ++ hd) ++ r := by rw [he, List.append_assoc]
  have hlen : (h4 ++ hd).length = 36 := by simp [hh, h32]
  rw [hm] at h
  obtain ⟨h1, m, h2, h3⟩ := h
  have hw : wordCountOf ((h4 ++ hd) ++ r) = u8At r 0 := by
    rw [wordCountOf, u8At_append_right _ _ _ (by omega), hlen]
  rw [paramsOf, hw] at h1
  rw [byteCountOf, hw] at h2
  cases hu : u8At r 0 with
  | none => rw [hu] at h1; cases h1
  | some w =>
    rw [hu] at h1 h2
    obtain ⟨x, r, rfl, rfl⟩ := u8At_zero hu
    simp only [Option.bind_some] at h1 h2
    rw [sliceAt_append_right _ _ _ _ (by omega), hlen, sliceAt_cons_pos _ _ _ _ (by omega)] at h1
    obtain ⟨r, rfl, hps⟩ := sliceAt_zero_some h1
    rw [u16At_append_right _ _ _ (by omega), hlen, u16At_cons_pos _ _ _ (by omega), u16At_append_right _ _ _ (by omega),
      show 37 + 2 * x.toNat - 36 - 1 - ps.length = 0 by omega] at h2
    obtain ⟨n, r, rfl, rfl⟩ := u16At_zero h2
    rw [sliceAt_append_right _ _ _ _ (by omega), hlen, sliceAt_cons_pos _ _ _ _ (by omega), sliceAt_append_right _ _ _ _ (by omega),
      sliceAt_append_right _ _ _ _ (by simp; omega), show 39 + ps.length - 36 - 1 - ps.length - (putU16 n).length = 0 by simp; omega] at h3
    obtain ⟨r, rfl, hds⟩ := sliceAt_zero_some h3
    exact ⟨x, n, r, rfl, hps, hds⟩

/-- Conversely. -/
theorem body_of_split {f ps ds : Bytes} (hl : 32 ≤ f.length) (w : UInt8) (n : UInt16) (rest : Bytes)
    (h : f.drop 32 = w :: (ps ++ (putU16 n ++ (ds ++ rest)))) (h1 : ps.length = 2 * w.toNat) (h2 : ds.length = n.toNat) :
    ReplyBody (message f) ps ds := by
  obtain ⟨h4, hh, he⟩ := message_eq f
  obtain ⟨hd, r, h32, rfl⟩ := split_n 32 f hl
  rw [List.drop_left' h32] at h
  subst h
  have hm : message (hd ++ (w :: (ps ++ (putU16 n ++ (ds ++ rest))))) = (h4 ++ hd) ++ (w :: (ps ++ (putU16 n ++ (ds ++ rest)))) := by
    rw [he, List.append_assoc]
  have hlen : (h4 ++ hd).length = 36 := by simp [hh, h32]
  rw [hm]
  have hw : wordCountOf ((h4 ++ hd) ++ (w :: (ps ++ (putU16 n ++ (ds ++ rest))))) = some w.toNat := by
    rw [wordCountOf, u8At_append_right _ _ _ (by omega), hlen]; rfl
  refine ⟨?_, n.toNat, ?_, ?_⟩
  · rw [paramsOf, hw, Option.bind_some, sliceAt_append_right _ _ _ _ (by omega), hlen, sliceAt_cons_pos _ _ _ _ (by omega)]
    exact sliceAt_left _ _ _ h1
  · rw [byteCountOf, hw, Option.bind_some, u16At_append_right _ _ _ (by omega), hlen, u16At_cons_pos _ _ _ (by omega),
      u16At_append_right _ _ _ (by omega), show 37 + 2 * w.toNat - 36 - 1 - ps.length = 0 by omega, u16At_put]
  · rw [sliceAt_append_right _ _ _ _ (by omega), hlen, sliceAt_cons_pos _ _ _ _ (by omega), sliceAt_append_right _ _ _ _ (by omega),
      sliceAt_append_right _ _ _ _ (by simp; omega), show 39 + ps.length - 36 - 1 - ps.length - (putU16 n).length = 0 by simp; omega]
    exact sliceAt_left _ _ _ h2

/-- What is made of the parameter and data bytes. -/
def Reply.make {α : Type} (R : Reply α) (info : Info) (ps ds : Bytes) : Res SmbError α :=
  if R.andx then
    (AndX.parse ps).bind fun p =>
      if p.1.isSome then .err (.Unsupported "AndX chaining is currently not supported")
      else R.create { info, parameter := p.2, data := ds, dataOffset := 35 + ps.length }
  else R.create { info, parameter := ps, data := ds, dataOffset := 35 + ps.length }

theorem parse_body {α : Type} (R : Reply α) (i : Info) {f ps ds : Bytes} (hl : 32 ≤ f.length) (h : ReplyBody (message f) ps ds) :
    R.parse i (f.drop 32) = R.make i ps ds := by
  obtain ⟨w, n, rest, e, h1, h2⟩ := body_split hl h
  rw [e]
  unfold Reply.parse
  rw [Rd.getU8_cons]
  simp only [Res.ok_bind]
  rw [Rd.copyToBytes_append _ _ _ h1]
  simp only [Res.ok_bind, Rd.getU16_put]
  rw [Rd.copyToBytes_append _ _ _ h2]
  simp only [Res.ok_bind]
  rw [show SMB_HEADER_LEN + 1 + 2 * w.toNat + 2 = 35 + ps.length by simp [SMB_HEADER_LEN]; omega]
  rfl

/-- A body that is shorter than it says. -/
theorem parse_short {α : Type} (R : Reply α) (i : Info) {f : Bytes} (hl : 32 ≤ f.length) (h : ¬ ∃ ps ds, ReplyBody (message f) ps ds) :
    R.parse i (f.drop 32) = .panic := by
  unfold Reply.parse
  rcases hb : f.drop 32 with _ | ⟨w, r⟩
  · rfl
  · rw [Rd.getU8_cons]
    simp only [Res.ok_bind]
    by_cases h1 : r.length < 2 * w.toNat
    · simp [Rd.copyToBytes, h1]
    · obtain ⟨ps, r, hps, rfl⟩ := split_n (2 * w.toNat) r (by omega)
      rw [Rd.copyToBytes_append _ _ _ hps]
      simp only [Res.ok_bind]
      by_cases h2 : r.length < 2
      · simp [Rd.getU16_eq, h2]
      · obtain ⟨n, r, rfl⟩ := split_u16 r (by omega)
        simp only [Rd.getU16_put, Res.ok_bind]
        by_cases h3 : r.length < n.toNat
        · simp [Rd.copyToBytes, h3]
        · obtain ⟨ds, r, hds, rfl⟩ := split_n n.toNat r (by omega)
          exact absurd ⟨ps, ds, body_of_split hl w n r hb hps hds⟩ h

/-- No further command. -/
theorem make_andx {α : Type} (R : Reply α) (hR : R.andx = true) (i : Info) {ps ds : Bytes} (h : u8At ps 0 = some 0xff) (hl : 4 ≤ ps.length) :
    R.make i ps ds = R.create { info := i, parameter := ps.drop 4, data := ds, dataOffset := 35 + ps.length } := by
  obtain ⟨x, r, rfl, hx⟩ := u8At_zero h
  obtain ⟨y, r, rfl⟩ := split_u8 r (by simp at hl; omega)
  obtain ⟨z, r, rfl⟩ := split_u16 r (by simp at hl; omega)
  have hx : x = 0xff := UInt8.toNat_inj.mp hx
  subst hx
  have e : AndX.parse (0xff :: y :: (putU16 z ++ r)) = .ok (none, r) := by
    unfold AndX.parse
    simp only [Rd.bind_apply, Rd.getU8_cons, Res.bind_ok]
    rw [show y :: (putU16 z ++ r) = [y] ++ (putU16 z ++ r) from rfl, Rd.advance_append 1 _ _ rfl]
    simp only [Res.bind_ok, Rd.getU16_put]
    rfl
  rw [Reply.make, if_pos hR, e]
  simp only [Res.bind_ok, Option.isSome_none]
  rfl

theorem make_plain {α : Type} (R : Reply α) (hR : R.andx = false) (i : Info) {ps ds : Bytes} :
    R.make i ps ds = R.create { info := i, parameter := ps, data := ds, dataOffset := 35 + ps.length } := by
  simp [Reply.make, hR]

theorem accept_success {α : Type} (R : Reply α) (i : Info) (b : Bytes) (hc : i.cmd = R.cmd) (hs : i.status = .Known .SUCCESS) :
    accept R i b = (R.parse i b).mapErr Error.SMBError := by
  rw [accept, if_neg (by simp [hc]), if_pos (.inl hs)]

theorem status_zero {i : Info} (hi : ∃ n, i.status = Status.ofU32 n) (h : i.status.toU32.toNat = 0) : i.status = .Known .SUCCESS := by
  obtain ⟨n, hn⟩ := hi
  rw [hn, C16_roundtrip] at h
  have : n = 0 := UInt32.toNat_inj.mp h
  rw [hn, this]; rfl

theorem parse_status {f : Bytes} {i : Info} {r : Bytes} (h : Info.parse f = .ok (i, r)) : ∃ n, i.status = Status.ofU32 n := by
  have hl := ((C13_accepted_iff f).mp ⟨i, r, h⟩).1
  obtain ⟨magic, cmd, status, f1, f2, ph, sig, tid, pl, uid, mid, body, h1, h2, rfl⟩ := split_header f hl
  rw [parse_rawHeader _ _ _ _ _ _ _ _ _ _ _ h1 h2] at h
  split at h
  · cases h
  · split at h
    · cases h
    · split at h
      · cases h
      · cases h; exact ⟨status, rfl⟩

/-- The outcome of an operation that is answered successfully, in terms of the reply type `R`. -/
theorem answered {α : Type} (R : Reply α) (g : α → Val) {E : Env σ} {log : σ → List Bytes} (hlog : Logs E.V log) {op : Op}
    (ho : oneReply op = true) (hd : ∀ i b, op.decode i b = (accept R i b).mapOk g) (hR : R.cmd = op.first.cmd) {s : St σ} {f ps ds : Bytes}
    (h : Answered E log op s f ps ds) :
    ∃ i, Info.parse f = .ok (i, f.drop 32) ∧ (runOp E op s).1 = (((R.make i ps ds).mapErr Error.SMBError).mapOk g).out := by
  obtain ⟨rest, c, hx, hc, hin, hst, hb⟩ := h
  obtain ⟨i, hp, h1, _, _⟩ := exchange_eq hlog ho hx
  have hg := (C13_accepted_iff f).mp ⟨_, _, hp⟩
  have hr := C17_read f i _ hp
  rw [hc] at hr
  rw [hst] at hr
  have hs : single op = true := by cases op <;> first | rfl | (simp [oneReply] at ho)
  have e1 := Option.some.inj hr.2.1
  rw [codes_first op hs, e1] at hin
  have e2 := code_inj (List.mem_singleton.mp hin)
  refine ⟨i, hp, ?_⟩
  rw [h1, hd, accept_success R i _ (by rw [hR, e2]) (status_zero (parse_status hp) (Option.some.inj hr.2.2.1).symm), parse_body R i hg.1 hb]

/-- A reply too short for the AndX block. -/
theorem make_andx_short {α : Type} (R : Reply α) (hR : R.andx = true) (i : Info) {ps ds : Bytes} (hl : ps.length < 4) : R.make i ps ds = .panic := by
  have e : AndX.parse ps = .panic := by
    unfold AndX.parse
    match ps, hl with
    | [], _ => rfl
    | [_], _ => rfl
    | [_, _], _ => rfl
    | [_, _, _], _ => rfl
  rw [Reply.make, if_pos hR, e]; rfl

/-- A reply that announces a further command. -/
theorem make_andx_more {α : Type} (R : Reply α) (hR : R.andx = true) (i : Info) {ps ds : Bytes} (hl : 4 ≤ ps.length) (hx : ¬ LastAndX ps) :
    ∃ e, R.make i ps ds = .err e := by
  obtain ⟨x, r, rfl⟩ := split_u8 ps (by omega)
  obtain ⟨y, r, rfl⟩ := split_u8 r (by simp at hl; omega)
  obtain ⟨z, r, rfl⟩ := split_u16 r (by simp at hl; omega)
  have hxx : x ≠ 0xff := by rintro rfl; exact hx ⟨rfl, by simp⟩
  rw [Reply.make, if_pos hR]
  have e : AndX.parse (x :: y :: (putU16 z ++ r)) = match Cmd.tryFrom x with
      | some c => .ok (some (c, z), r)
      | none => .err (.InvalidCommand x) := by
    unfold AndX.parse
    simp only [Rd.bind_apply, Rd.getU8_cons, Res.bind_ok]
    rw [show y :: (putU16 z ++ r) = [y] ++ (putU16 z ++ r) from rfl, Rd.advance_append 1 _ _ rfl]
    simp only [Res.bind_ok, Rd.getU16_put]
    rw [if_neg hxx]
    cases Cmd.tryFrom x <;> rfl
  rw [e]
  cases Cmd.tryFrom x <;> exact ⟨_, rfl⟩

theorem make_andx_ok {α : Type} (R : Reply α) (hR : R.andx = true) (i : Info) {ps ds : Bytes} {a : α} (h : R.make i ps ds = .ok a) : LastAndX ps := by
  by_cases hl : ps.length < 4
  · rw [make_andx_short R hR i hl] at h; cases h
  · by_cases hx : LastAndX ps
    · exact hx
    · obtain ⟨e, he⟩ := make_andx_more R hR i (ds := ds) (by omega) hx
      rw [he] at h; cases h

/-- The reply that made an operation succeed, and what was made of it. -/
theorem answered_of_ok {α : Type} (R : Reply α) (g : α → Val) {E : Env σ} {log : σ → List Bytes} (hlog : Logs E.V log) {op : Op}
    (ho : oneReply op = true) (hd : ∀ i b, op.decode i b = (accept R i b).mapOk g) (hR : R.cmd = op.first.cmd) {s : St σ} {v : Val}
    (hv : (runOp E op s).1 = .ok v) :
    ∃ f ps ds i a, Answered E log op s f ps ds ∧ Info.parse f = .ok (i, f.drop 32) ∧ R.make i ps ds = .ok a ∧ v = g a := by
  have hs : single op = true := by cases op <;> first | rfl | (simp [oneReply] at ho)
  obtain ⟨f, rest, i, hx, hp, hc, hst⟩ := exchange_of_ok hlog hs hv
  have hr := C17_read f i _ hp
  have hg := (C13_accepted_iff f).mp ⟨_, _, hp⟩
  obtain ⟨i', hp', h1, _, _⟩ := exchange_eq hlog ho hx
  rw [hp] at hp'; cases hp'
  rw [h1, hd, accept_success R i (f.drop 32) (by rw [hc, hR]) hst] at hv
  by_cases hb : ∃ ps ds, ReplyBody (message f) ps ds
  · obtain ⟨ps, ds, hb⟩ := hb
    rw [parse_body R i hg.1 hb] at hv
    refine ⟨f, ps, ds, i, ?_⟩
    cases hm : R.make i ps ds with
    | err e => rw [hm] at hv; cases hv
    | panic => rw [hm] at hv; cases hv
    | ok a =>
      rw [hm] at hv
      cases hv
      exact ⟨a, ⟨rest, _, hx, hr.2.1, by rw [hc, codes_first op hs]; simp, by rw [hr.2.2.1, hst]; rfl, hb⟩, hp, rfl, rfl⟩
  · rw [parse_short R i hg.1 hb] at hv; cases hv

/-! ## Reading beyond the end -/

namespace Rd
variable {ε : Type}

theorem getU8_short {b : Bytes} (h : b.length < 1) : (getU8 b : Res ε _) = .panic := by rw [getU8_eq, if_pos h]
theorem getU16_short {b : Bytes} (h : b.length < 2) : (getU16 b : Res ε _) = .panic := by rw [getU16_eq, if_pos h]
theorem getU32_short {b : Bytes} (h : b.length < 4) : (getU32 b : Res ε _) = .panic := by rw [getU32_eq, if_pos h]
theorem getU64_short {b : Bytes} (h : b.length < 8) : (getU64 b : Res ε _) = .panic := by rw [getU64_eq, if_pos h]
theorem advance_short {n : Nat} {b : Bytes} (h : b.length < n) : (advance n b : Res ε _) = .panic := by rw [advance, if_pos h]
theorem copyToBytes_short {n : Nat} {b : Bytes} (h : b.length < n) : (copyToBytes n b : Res ε _) = .panic := by rw [copyToBytes, if_pos h]

end Rd

/-- Read a byte from the buffer `b`, whose length is bounded by `h`; done if there is none. -/
macro "rd8 " b:ident h:ident : tactic => `(tactic|
  (by_cases hs : List.length $b < 1
   · (rw [Rd.getU8_short hs]; rfl)
   obtain ⟨x, $b:ident, e⟩ := split_u8 $b (by omega)
   subst e
   clear hs
   simp only [Rd.getU8_cons, Res.ok_bind]
   rw [List.length_cons] at $h:ident))
/-- The same for 16 bits. -/
macro "rd16 " b:ident h:ident : tactic => `(tactic|
  (by_cases hs : List.length $b < 2
   · (rw [Rd.getU16_short hs]; rfl)
   obtain ⟨x, $b:ident, e⟩ := split_u16 $b (by omega)
   subst e
   clear hs
   simp only [Rd.getU16_put, Res.ok_bind]
   rw [List.length_append, length_putU16] at $h:ident))
/-- The same for 32 bits. -/
macro "rd32 " b:ident h:ident : tactic => `(tactic|
  (by_cases hs : List.length $b < 4
   · (rw [Rd.getU32_short hs]; rfl)
   obtain ⟨x, $b:ident, e⟩ := split_u32 $b (by omega)
   subst e
   clear hs
   simp only [Rd.getU32_put, Res.ok_bind]
   rw [List.length_append, length_putU32] at $h:ident))
/-- The same for 64 bits. -/
macro "rd64 " b:ident h:ident : tactic => `(tactic|
  (by_cases hs : List.length $b < 8
   · (rw [Rd.getU64_short hs]; rfl)
   obtain ⟨x, $b:ident, e⟩ := split_u64 $b (by omega)
   subst e
   clear hs
   simp only [Rd.getU64_put, Res.ok_bind]
   rw [List.length_append, length_putU64] at $h:ident))
/-- The same for `n` bytes skipped. -/
macro "rdskip " n:num b:ident h:ident : tactic => `(tactic|
  (by_cases hs : List.length $b < $n
   · (rw [Rd.advance_short hs]; rfl)
   obtain ⟨x, $b:ident, hx, e⟩ := split_n $n $b (by omega)
   subst e
   clear hs
   rw [Rd.advance_append $n _ _ hx]
   simp only [Res.ok_bind]
   rw [List.length_append, hx] at $h:ident))

end Cifs
