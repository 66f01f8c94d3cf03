import Verif.Spec.Stream
import Verif.Lemmas.Net
/-! # Lemmas about the specification-level field accessors -/

namespace Cifs
open Spec

theorem u8At_append_right (a b : Bytes) (o : Nat) (h : a.length ≤ o) : u8At (a ++ b) o = u8At b (o - a.length) := by
  simp [u8At, List.getElem?_append_right h]
theorem u16At_append_right (a b : Bytes) (o : Nat) (h : a.length ≤ o) : u16At (a ++ b) o = u16At b (o - a.length) := by
  simp only [u16At]; rw [u8At_append_right a b o h, u8At_append_right a b (o + 1) (by omega), show o + 1 - a.length = o - a.length + 1 by omega]
theorem u32At_append_right (a b : Bytes) (o : Nat) (h : a.length ≤ o) : u32At (a ++ b) o = u32At b (o - a.length) := by
  simp only [u32At]; rw [u16At_append_right a b o h, u16At_append_right a b (o + 2) (by omega), show o + 2 - a.length = o - a.length + 2 by omega]
theorem u64At_append_right (a b : Bytes) (o : Nat) (h : a.length ≤ o) : u64At (a ++ b) o = u64At b (o - a.length) := by
  simp only [u64At]; rw [u32At_append_right a b o h, u32At_append_right a b (o + 4) (by omega), show o + 4 - a.length = o - a.length + 4 by omega]
theorem sliceAt_append_right (a b : Bytes) (o n : Nat) (h : a.length ≤ o) : sliceAt (a ++ b) o n = sliceAt b (o - a.length) n := by
  simp only [sliceAt, List.length_append, List.drop_append, List.drop_of_length_le h, List.nil_append]
  by_cases hb : o + n ≤ a.length + b.length
  · rw [if_pos hb, if_pos (by omega)]
  · rw [if_neg hb, if_neg (by omega)]
theorem sliceAt_left (a b : Bytes) (n : Nat) (h : a.length = n) : sliceAt (a ++ b) 0 n = some a := by
  subst h; simp [sliceAt]
theorem sliceAt_mid (p a b : Bytes) (o n : Nat) (hp : p.length = o) (h : a.length = n) : sliceAt (p ++ (a ++ b)) o n = some a := by
  rw [sliceAt_append_right _ _ _ _ (by omega), hp, Nat.sub_self, sliceAt_left _ _ _ h]
theorem sliceAt_end (p a : Bytes) (o n : Nat) (hp : p.length = o) (h : a.length = n) : sliceAt (p ++ a) o n = some a := by
  have := sliceAt_mid p a [] o n hp h; simpa using this

theorem u8At_cons (x : UInt8) (b : Bytes) : u8At (x :: b) 0 = some x.toNat := rfl

theorem u16At_putLE (n : Nat) (b : Bytes) : u16At (putLE 2 n ++ b) 0 = some (n % 65536) := by
  show some _ = some _
  simp; omega
theorem u16At_put (x : UInt16) (b : Bytes) : u16At (putU16 x ++ b) 0 = some x.toNat := by
  rw [putU16, u16At_putLE]; have := x.toNat_lt; congr 1; omega
theorem u32At_putLE (n : Nat) (b : Bytes) : u32At (putLE 4 n ++ b) 0 = some (n % 2 ^ 32) := by
  show some _ = some _
  simp; omega
theorem u32At_put (x : UInt32) (b : Bytes) : u32At (putU32 x ++ b) 0 = some x.toNat := by
  rw [putU32, u32At_putLE]; have := x.toNat_lt; congr 1; omega
theorem u64At_putLE (n : Nat) (b : Bytes) : u64At (putLE 8 n ++ b) 0 = some (n % 2 ^ 64) := by
  show some _ = some _
  simp; omega
theorem u64At_put (x : UInt64) (b : Bytes) : u64At (putU64 x ++ b) 0 = some x.toNat := by
  rw [putU64, u64At_putLE]; have := x.toNat_lt; congr 1; omega

theorem u8At_cons_pos (x : UInt8) (b : Bytes) (o : Nat) (h : 1 ≤ o) : u8At (x :: b) o = u8At b (o - 1) :=
  u8At_append_right [x] b o h
theorem u16At_cons_pos (x : UInt8) (b : Bytes) (o : Nat) (h : 1 ≤ o) : u16At (x :: b) o = u16At b (o - 1) :=
  u16At_append_right [x] b o h
theorem u32At_cons_pos (x : UInt8) (b : Bytes) (o : Nat) (h : 1 ≤ o) : u32At (x :: b) o = u32At b (o - 1) :=
  u32At_append_right [x] b o h
theorem u64At_cons_pos (x : UInt8) (b : Bytes) (o : Nat) (h : 1 ≤ o) : u64At (x :: b) o = u64At b (o - 1) :=
  u64At_append_right [x] b o h
theorem sliceAt_cons_pos (x : UInt8) (b : Bytes) (o n : Nat) (h : 1 ≤ o) : sliceAt (x :: b) o n = sliceAt b (o - 1) n :=
  sliceAt_append_right [x] b o n h

theorem sliceAt_zero (a b : Bytes) (h : a.length = n) : sliceAt (a ++ b) 0 n = some a := sliceAt_left a b n h
theorem sliceAt_all (a : Bytes) (h : a.length = n) : sliceAt a 0 n = some a := by
  have := sliceAt_left a [] n h; simpa using this

theorem u16At_put' (x : UInt16) : u16At (putU16 x) 0 = some x.toNat := by simpa using u16At_put x []
theorem u32At_put' (x : UInt32) : u32At (putU32 x) 0 = some x.toNat := by simpa using u32At_put x []
theorem u64At_put' (x : UInt64) : u64At (putU64 x) 0 = some x.toNat := by simpa using u64At_put x []

/-- Find a field in a concatenation of pieces of known length. -/
macro "wire" : tactic => `(tactic| simp only [List.append_assoc, List.cons_append, List.nil_append,
  u8At_append_right, u16At_append_right, u32At_append_right, u64At_append_right, sliceAt_append_right,
  u8At_cons_pos, u16At_cons_pos, u32At_cons_pos, u64At_cons_pos, sliceAt_cons_pos,
  u8At_cons, u16At_put, u32At_put, u64At_put, u16At_put', u32At_put', u64At_put',
  length_putU16, length_putU32, length_putU64, length_zeros, List.length_cons, List.length_nil, List.length_append,
  Nat.reduceLeDiff, Nat.reduceSub, Nat.reduceAdd, Nat.le_refl, Nat.sub_self])

/-- The model's length bytes are those of the specification. -/
theorem be24_packet (ty : UInt8) (d : Bytes) : ty :: (be24 d.length ++ d) = packet ty d := by
  simp only [be24, packet, List.cons_append, List.nil_append]
  have h1 : UInt8.ofNat (d.length / 256 % 256) = UInt8.ofNat (d.length / 256) := by apply UInt8.toNat_inj.mp; simp
  have h2 : UInt8.ofNat (d.length % 256) = UInt8.ofNat d.length := by apply UInt8.toNat_inj.mp; simp
  rw [h1, h2]

theorem message_eq (f : Bytes) : ∃ h, h.length = 4 ∧ message f = h ++ f := ⟨_, rfl, rfl⟩

@[simp] theorem length_packet (ty : UInt8) (d : Bytes) : (packet ty d).length = d.length + 4 := by simp [packet]

theorem flatRecv_packet (t : Tail) (ty : UInt8) (d rest : Bytes) (h : d.length ≤ maxPayload) :
    flatRecv t (packet ty d ++ rest) =
      match Frame.new ty d with
        | .ok f => (.ok f, rest)
        | .err e => (.err e, rest)
        | .panic => (.panic, rest) := by
  have e : packet ty d ++ rest = ty :: (be24 d.length ++ (d ++ rest)) := by rw [← be24_packet]; simp
  rw [e]; exact flatRecv_frame t ty d rest h

theorem flatRecvMessage_packet (t : Tail) (m rest : Bytes) (h : m.length ≤ maxPayload) :
    flatRecvMessage t (message m ++ rest) = (.ok m, rest) := by
  have e : message m ++ rest = 0x00 :: (be24 m.length ++ (m ++ rest)) := by rw [message, ← be24_packet]; simp
  rw [e]; exact flatRecvMessage_message t m rest h

theorem flatRecvMessage_delivers (t : Tail) {s m rest : Bytes} (h : Delivers s m rest) : flatRecvMessage t s = (.ok m, rest) := by
  induction h with
  | message m rest h => exact flatRecvMessage_packet t m rest h
  | keepAlive _ ih => rw [← ih]; exact flatRecvMessage_keepalive t _

/-- Every stream of at least four bytes starts with a header; split it. -/
theorem split4 (b : Bytes) (h : 4 ≤ b.length) : ∃ ty len rest, len.length = 3 ∧ b = ty :: (len ++ rest) := by
  match b, h with
  | ty :: a :: c :: d :: rest, _ => exact ⟨ty, [a, c, d], rest, rfl, rfl⟩

/-- A three-byte length in front of that many bytes is a packet. -/
theorem packet_of_len (ty : UInt8) (len d : Bytes) (h : len.length = 3) (hd : d.length = beVal len) :
    ty :: (len ++ d) = packet ty d := by
  rw [← be24_packet]
  congr 2
  match len, h with
  | [a, b, c], _ =>
    have ha := a.toNat_lt; have hb := b.toNat_lt; have hc := c.toNat_lt
    have : d.length = a.toNat * 65536 + b.toNat * 256 + c.toNat := by rw [hd]; simp [beVal]; omega
    simp only [be24, this]
    congr 1
    · apply UInt8.toNat_inj.mp; simp; omega
    · congr 1
      · apply UInt8.toNat_inj.mp; simp; omega
      · congr 1
        apply UInt8.toNat_inj.mp; simp

/-- Success of `flatRecv` means that a whole packet was at the head of the stream. -/
theorem flatRecv_ok (t : Tail) (b rest : Bytes) (f : Frame) (h : flatRecv t b = (.ok f, rest)) :
    ∃ ty d, d.length ≤ maxPayload ∧ b = packet ty d ++ rest ∧ Frame.new ty d = .ok f := by
  by_cases h4 : b.length < 4
  · rw [flatRecv_short4 t b h4] at h; cases t <;> simp [Tail.out] at h
  · obtain ⟨ty, len, r, hl, rfl⟩ := split4 b (by omega)
    rw [flatRecv_cons t ty len r hl] at h
    repeat' split at h
    · simp at h
    · cases t <;> simp [Tail.out] at h
    · rename_i hm hr f' hf
      simp only [Prod.mk.injEq, Out.ok.injEq] at h
      obtain ⟨rfl, rfl⟩ := h
      refine ⟨ty, r.take (beVal len), by simp [maxPayload, MAX_FRAME_LENGTH] at *; omega, ?_, hf⟩
      rw [← packet_of_len ty len _ hl (by simp; omega)]
      simp
    · simp at h
    · simp at h

theorem frame_new_message (ty : UInt8) (d m : Bytes) (h : Frame.new ty d = .ok (.Message m)) : ty = 0 ∧ d = m := by
  unfold Frame.new at h
  repeat' split at h
  all_goals simp_all

theorem frame_new_keepalive (ty : UInt8) (d : Bytes) (h : Frame.new ty d = .ok .Keepalive) : packet ty d = keepAlive := by
  unfold Frame.new at h
  repeat' split at h
  all_goals simp_all
  all_goals rfl

theorem flatRecvMessage_ok (t : Tail) (b m rest : Bytes) (h : flatRecvMessage t b = (.ok m, rest)) : Delivers b m rest := by
  induction hn : b.length using Nat.strongRecOn generalizing b with
  | _ n ih =>
    rw [flatRecvMessage_eq] at h
    rw [M.bind_eq_ok] at h
    obtain ⟨f, b', h1, h2⟩ := h
    obtain ⟨ty, d, hd, rfl, hf⟩ := flatRecv_ok t b b' f h1
    cases f
    case Message m' =>
      simp at h2
      obtain ⟨rfl, rfl⟩ := h2
      obtain ⟨rfl, rfl⟩ := frame_new_message _ _ _ hf
      exact .message _ _ hd
    case Keepalive =>
      rw [frame_new_keepalive _ _ hf]
      exact .keepAlive (ih b'.length (by simp at hn; omega) b' h2 rfl)
    all_goals simp [M.fail] at h2

end Cifs
