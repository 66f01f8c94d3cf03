import Verif.Model.Net
import Verif.Lemmas.Codec
/-! # Transport lemmas: the receive functions seen as functions of the flat byte stream -/

namespace Cifs

section monad
variable {ε S α β : Type}
@[simp] theorem M.pure_apply (a : α) (s : S) : (pure a : M ε S α) s = (.ok a, s) := rfl
theorem M.bind_apply (m : M ε S α) (f : α → M ε S β) (s : S) : (m >>= f) s = M.bind m f s := rfl
theorem M.bind_ok {m : M ε S α} {f : α → M ε S β} {s s' : S} {a : α} (h : m s = (.ok a, s')) : (m >>= f) s = f a s' := by
  simp [M.bind_apply, M.bind, h]
theorem M.bind_err {m : M ε S α} {f : α → M ε S β} {s s' : S} {e : ε} (h : m s = (.err e, s')) : (m >>= f) s = (.err e, s') := by
  simp [M.bind_apply, M.bind, h]
theorem M.bind_panic {m : M ε S α} {f : α → M ε S β} {s s' : S} (h : m s = (.panic, s')) : (m >>= f) s = (.panic, s') := by
  simp [M.bind_apply, M.bind, h]
theorem M.bind_pending {m : M ε S α} {f : α → M ε S β} {s s' : S} (h : m s = (.pending, s')) :
    (m >>= f) s = (.pending, s') := by
  simp [M.bind_apply, M.bind, h]
theorem M.bind_running {m : M ε S α} {f : α → M ε S β} {s s' : S} (h : m s = (.running, s')) :
    (m >>= f) s = (.running, s') := by
  simp [M.bind_apply, M.bind, h]

/-- A sequence ends in `ok` only through `ok` of its first part. -/
theorem M.bind_eq_ok {m : M ε S α} {f : α → M ε S β} {s s'' : S} {b : β} :
    (m >>= f) s = (.ok b, s'') ↔ ∃ a s', m s = (.ok a, s') ∧ f a s' = (.ok b, s'') := by
  simp only [M.bind_apply, M.bind]
  rcases h : m s with ⟨o, s'⟩
  cases o
  case ok a =>
    constructor
    · intro hf; exact ⟨a, s', rfl, hf⟩
    · rintro ⟨a2, s2, h1, h2⟩; cases h1; exact h2
  all_goals simp
end monad

variable {σ : Type}

/-- The bytes that have arrived and were not read. -/
def World.flat (w : World σ) : Bytes := w.inbox.flatten

@[simp] theorem World.avail_eq (w : World σ) : w.avail = w.flat.length := rfl

theorem readChunks_spec (n : Nat) (acc : Bytes) (cs : List Bytes) :
    if cs.flatten.length < n then readChunks n acc cs = (none, [])
    else ∃ rest, readChunks n acc cs = (some (acc ++ cs.flatten.take n), rest) ∧ rest.flatten = cs.flatten.drop n := by
  induction cs generalizing n acc with
  | nil =>
    simp only [List.flatten_nil, List.length_nil, readChunks]
    by_cases h : n = 0 <;> simp [h]
    simp [Nat.pos_of_ne_zero h]
  | cons c cs ih =>
    simp only [readChunks]
    by_cases hn : n = 0
    · subst hn; simp
    · simp only [if_neg hn, List.flatten_cons, List.length_append]
      by_cases hc : c.length < n
      · have := ih (n - c.length) (acc ++ c)
        simp only [if_pos hc]
        by_cases hl : cs.flatten.length < n - c.length
        · rw [if_pos (by omega)]; rw [if_pos hl] at this; exact this
        · rw [if_neg (by omega)]; rw [if_neg hl] at this
          obtain ⟨rest, h1, h2⟩ := this
          refine ⟨rest, ?_, ?_⟩
          · rw [h1, List.take_append, List.take_of_length_le (i := n) (l := c) (by omega), List.append_assoc]
          · rw [h2, List.drop_append, List.drop_of_length_le (i := n) (l := c) (by omega), List.nil_append]
      · rw [if_neg (by omega)]
        refine ⟨c.drop n :: cs, ?_, ?_⟩
        · simp only [if_neg hc]; rw [List.take_append_of_le_length (by omega)]
        · rw [List.flatten_cons, List.drop_append_of_le_length (by omega)]

/-- What is found after the arrived bytes. -/
def Tail.out {α : Type} (t : Tail) (eof : NbError) : Out NbError α :=
  match t with
  | .eof => .err eof
  | .blocked => .pending
  | .ioErr e => .err (.IoError e)

/-- `m` only reads, and its effect is that of `f` on the flat stream. -/
def FlatSim {α : Type} (V : Server σ) (m : M NbError (World σ) α) (f : Tail → M NbError Bytes α) : Prop :=
  ∀ w : World σ, ∃ ib, ib.flatten = (f (V.tail w.srv) w.flat).2 ∧ m w = ((f (V.tail w.srv) w.flat).1, { w with inbox := ib })

theorem FlatSim.bind {α β : Type} {V : Server σ} {m : M NbError (World σ) α} {f : Tail → M NbError Bytes α}
    {m' : α → M NbError (World σ) β} {f' : Tail → α → M NbError Bytes β}
    (h : FlatSim V m f) (h' : ∀ a, FlatSim V (m' a) (fun t => f' t a)) :
    FlatSim V (m >>= m') (fun t => f t >>= f' t) := by
  intro w
  obtain ⟨ib, h1, h2⟩ := h w
  simp only [M.bind_apply, M.bind, h2]
  rcases hf : f (V.tail w.srv) w.flat with ⟨o, bs⟩
  rw [hf] at h1
  cases o with
  | ok a =>
    obtain ⟨ib2, h3, h4⟩ := h' a { w with inbox := ib }
    have e : ({ w with inbox := ib } : World σ).flat = bs := h1
    rw [e] at h3 h4
    exact ⟨ib2, h3, h4⟩
  | _ => exact ⟨ib, h1, rfl⟩

theorem FlatSim.pure {α : Type} (V : Server σ) (a : α) : FlatSim V (pure a) (fun _ => pure a) :=
  fun w => ⟨w.inbox, rfl, rfl⟩
theorem FlatSim.fail {α : Type} (V : Server σ) (e : NbError) : FlatSim V (M.fail e : M _ _ α) (fun _ => M.fail e) :=
  fun w => ⟨w.inbox, rfl, rfl⟩
theorem FlatSim.ofRes {α ε' : Type} (V : Server σ) (g : ε' → NbError) (r : Res ε' α) :
    FlatSim V (M.ofRes g r) (fun _ => M.ofRes g r) :=
  fun w => ⟨w.inbox, by cases r <;> rfl, by cases r <;> rfl⟩
theorem FlatSim.running {α : Type} (V : Server σ) :
    FlatSim V (fun w => (.running, w) : M _ _ α) (fun _ => fun b => (.running, b)) :=
  fun w => ⟨w.inbox, rfl, rfl⟩

/-- Read exactly `n` bytes of a flat stream. -/
def flatRead (eof : NbError) (n : Nat) (t : Tail) : M NbError Bytes Bytes := fun b =>
  if b.length < n then (t.out eof, []) else (.ok (b.take n), b.drop n)

theorem readExact_flat (V : Server σ) (eof : NbError) (n : Nat) : FlatSim V (readExact V eof n) (flatRead eof n) := by
  intro w
  have h := readChunks_spec n [] w.inbox
  by_cases hl : w.flat.length < n
  · have e : flatRead eof n (V.tail w.srv) w.flat = ((V.tail w.srv).out eof, []) := if_pos hl
    rw [if_pos (show w.inbox.flatten.length < n from hl)] at h
    rw [e]
    refine ⟨[], rfl, ?_⟩
    simp only [readExact, h]
    cases V.tail w.srv <;> rfl
  · have e : flatRead eof n (V.tail w.srv) w.flat = (.ok (w.flat.take n), w.flat.drop n) := if_neg hl
    rw [if_neg (show ¬ w.inbox.flatten.length < n from hl)] at h
    obtain ⟨rest, h1, h2⟩ := h
    rw [e]
    refine ⟨rest, h2, ?_⟩
    simp only [readExact, h1]; rfl

/-- `recvFrame` on the flat stream. -/
def flatRecv (t : Tail) : M NbError Bytes Frame := do
  let ty ← flatRead (.IoError .unexpectedEof) 1 t
  let len ← flatRead (.IoError .unexpectedEof) 3 t
  if beVal len > MAX_FRAME_LENGTH then M.fail .FrameTooBig
  else
    let d ← flatRead .UnexpectedEOF (beVal len) t
    M.ofRes id (Frame.new (UInt8.ofNat (beVal ty)) d)

theorem recvFrame_flat (V : Server σ) : FlatSim V (recvFrame V) flatRecv := by
  refine FlatSim.bind (readExact_flat _ _ _) fun ty => FlatSim.bind (readExact_flat _ _ _) fun len => ?_
  by_cases h : beVal len > MAX_FRAME_LENGTH
  · simp only [if_pos h]; exact FlatSim.fail _ _
  · simp only [if_neg h]; exact FlatSim.bind (readExact_flat _ _ _) fun d => FlatSim.ofRes _ _ _

/-- `recvMessageLoop` on the flat stream. -/
def flatRecvMessageLoop (t : Tail) : Nat → M NbError Bytes Bytes
  | 0 => fun b => (.running, b)
  | k + 1 => do
    match ← flatRecv t with
    | .Message m => pure m
    | .Keepalive => flatRecvMessageLoop t k
    | _ => M.fail .UnexpectedFrame

theorem recvMessageLoop_flat (V : Server σ) (k : Nat) :
    FlatSim V (recvMessageLoop V k) (fun t => flatRecvMessageLoop t k) := by
  induction k with
  | zero => exact FlatSim.running V
  | succ k ih =>
    refine FlatSim.bind (recvFrame_flat V) fun f => ?_
    cases f
    case Message m => exact FlatSim.pure V m
    case Keepalive => exact ih
    all_goals exact FlatSim.fail _ _

/-- `recvMessage` on the flat stream. -/
def flatRecvMessage (t : Tail) : M NbError Bytes Bytes := fun b => flatRecvMessageLoop t (b.length + 1) b

theorem recvMessage_flat (V : Server σ) : FlatSim V (recvMessage V) flatRecvMessage :=
  fun w => recvMessageLoop_flat V (w.avail + 1) w

/-! ## Exact description of `flatRecv` -/

theorem flatRecv_short1 (t : Tail) : flatRecv t [] = (t.out (.IoError .unexpectedEof), []) := by
  have : flatRead (.IoError .unexpectedEof) 1 t [] = (t.out (.IoError .unexpectedEof), []) := rfl
  unfold flatRecv
  cases t
  · exact M.bind_err this
  · exact M.bind_pending this
  · exact M.bind_err this

theorem flatRecv_short4 (t : Tail) (b : Bytes) (h : b.length < 4) :
    flatRecv t b = (t.out (.IoError .unexpectedEof), []) := by
  cases b with
  | nil => exact flatRecv_short1 t
  | cons x xs =>
    have h1 : flatRead (.IoError .unexpectedEof) 1 t (x :: xs) = (.ok [x], xs) := by simp [flatRead]
    have h2 : flatRead (.IoError .unexpectedEof) 3 t xs = (t.out (.IoError .unexpectedEof), []) := by
      simp only [List.length_cons] at h
      simp only [flatRead]; rw [if_pos (by omega)]
    unfold flatRecv
    rw [M.bind_ok h1]
    cases t
    · exact M.bind_err h2
    · exact M.bind_pending h2
    · exact M.bind_err h2

theorem flatRecv_cons (t : Tail) (ty : UInt8) (len rest : Bytes) (h : len.length = 3) :
    flatRecv t (ty :: (len ++ rest)) =
      if beVal len > MAX_FRAME_LENGTH then (.err .FrameTooBig, rest)
      else if rest.length < beVal len then (t.out .UnexpectedEOF, [])
      else match Frame.new ty (rest.take (beVal len)) with
        | .ok f => (.ok f, rest.drop (beVal len))
        | .err e => (.err e, rest.drop (beVal len))
        | .panic => (.panic, rest.drop (beVal len)) := by
  have h1 : flatRead (.IoError .unexpectedEof) 1 t (ty :: (len ++ rest)) = (.ok [ty], len ++ rest) := by simp [flatRead]
  have h2 : flatRead (.IoError .unexpectedEof) 3 t (len ++ rest) = (.ok len, rest) := by
    simp only [flatRead]; rw [if_neg (by simp [h])]; simp [← h]
  unfold flatRecv
  rw [M.bind_ok h1, M.bind_ok h2]
  by_cases hm : beVal len > MAX_FRAME_LENGTH
  · simp only [if_pos hm]; rfl
  · simp only [if_neg hm]
    by_cases hr : rest.length < beVal len
    · have h3 : flatRead .UnexpectedEOF (beVal len) t rest = (t.out .UnexpectedEOF, []) := by simp [flatRead, hr]
      simp only [if_pos hr]
      cases t
      · exact M.bind_err h3
      · exact M.bind_pending h3
      · exact M.bind_err h3
    · have h3 : flatRead .UnexpectedEOF (beVal len) t rest = (.ok (rest.take (beVal len)), rest.drop (beVal len)) := by
        simp [flatRead, hr]
      simp only [if_neg hr]
      rw [M.bind_ok h3]
      have : UInt8.ofNat (beVal [ty]) = ty := by simp [beVal]
      rw [this]
      simp only [M.ofRes]
      cases Frame.new ty (rest.take (beVal len)) <;> rfl

theorem Frame.new_no_panic (t : UInt8) (d : Bytes) : Frame.new t d ≠ .panic := by
  unfold Frame.new
  repeat' split
  all_goals simp

/-- Receiving a frame never uses up a budget, and consumes at least four bytes when it succeeds. -/
theorem flatRecv_cases (t : Tail) (b : Bytes) :
    (flatRecv t b).1 ≠ .running ∧ (flatRecv t b).1 ≠ .panic ∧ (flatRecv t b).2.length ≤ b.length ∧
      (∀ f, (flatRecv t b).1 = .ok f → (flatRecv t b).2.length + 4 ≤ b.length) := by
  by_cases h : b.length < 4
  · rw [flatRecv_short4 t b h]; cases t <;> simp [Tail.out]
  · match b, h with
    | ty :: b', h =>
      simp only [List.length_cons] at h
      have e : b' = b'.take 3 ++ b'.drop 3 := (List.take_append_drop 3 b').symm
      rw [e, flatRecv_cons t ty _ _ (by simp; omega)]
      generalize beVal (b'.take 3) = n
      have hnp := Frame.new_no_panic ty ((b'.drop 3).take n)
      repeat' split
      · simp; omega
      · cases t <;> simp [Tail.out]
      · simp; omega
      · simp; omega
      · rename_i hp; exact absurd hp hnp

theorem be24_length (n : Nat) : (be24 n).length = 3 := rfl
theorem be24_val (n : Nat) (h : n < 2 ^ 24) : beVal (be24 n) = n := by
  simp [be24, beVal]; omega

/-- A whole frame at the head of the stream. -/
theorem flatRecv_frame (t : Tail) (ty : UInt8) (d rest : Bytes) (h : d.length ≤ MAX_FRAME_LENGTH) :
    flatRecv t (ty :: (be24 d.length ++ (d ++ rest))) =
      match Frame.new ty d with
        | .ok f => (.ok f, rest)
        | .err e => (.err e, rest)
        | .panic => (.panic, rest) := by
  rw [flatRecv_cons t ty _ _ (be24_length _), be24_val _ (by simp [MAX_FRAME_LENGTH] at h; omega), if_neg (by omega),
    if_neg (by simp)]
  simp

/-! ## The receive loop -/

theorem flatRecvMessageLoop_cases (t : Tail) (k : Nat) (b : Bytes) (hk : b.length < k) :
    (flatRecvMessageLoop t k b).1 ≠ .running ∧ (flatRecvMessageLoop t k b).1 ≠ .panic ∧
      (flatRecvMessageLoop t k b).2.length ≤ b.length ∧
      (∀ m, (flatRecvMessageLoop t k b).1 = .ok m → (flatRecvMessageLoop t k b).2.length + 4 ≤ b.length) := by
  induction k generalizing b with
  | zero => omega
  | succ k ih =>
    have hc := flatRecv_cases t b
    simp only [flatRecvMessageLoop, M.bind_apply, M.bind]
    rcases h : flatRecv t b with ⟨o, b'⟩
    rw [h] at hc
    obtain ⟨h1, h2, h3, h4⟩ := hc
    cases o with
    | ok f =>
      have := h4 f rfl
      cases f
      case Message m => simp at this ⊢; omega
      case Keepalive =>
        obtain ⟨i1, i2, i3, i4⟩ := ih b' (by simp at this; omega)
        refine ⟨i1, i2, by simp at this ⊢; omega, fun m hm => ?_⟩
        have := i4 m hm; simp at *; omega
      all_goals simp [M.fail] at *; omega
    | err e => simpa using h3
    | panic => exact absurd rfl h2
    | pending => simpa using h3
    | running => exact absurd rfl h1

/-- The budget does not matter once it exceeds the number of bytes available. -/
theorem flatRecvMessageLoop_fuel (t : Tail) (k k' : Nat) (b : Bytes) (hk : b.length < k) (hk' : b.length < k') :
    flatRecvMessageLoop t k b = flatRecvMessageLoop t k' b := by
  induction k generalizing b k' with
  | zero => omega
  | succ k ih =>
    cases k' with
    | zero => omega
    | succ k' =>
      have hc := flatRecv_cases t b
      simp only [flatRecvMessageLoop, M.bind_apply, M.bind]
      rcases h : flatRecv t b with ⟨o, b'⟩
      rw [h] at hc
      cases o with
      | ok f =>
        have := hc.2.2.2 f rfl
        cases f <;> first | rfl | exact ih k' b' (by simp at this; omega) (by simp at this; omega)
      | _ => rfl

/-- One unfolding of `flatRecvMessage`. -/
theorem flatRecvMessage_eq (t : Tail) (b : Bytes) :
    flatRecvMessage t b = (do
      match ← flatRecv t with
      | .Message m => pure m
      | .Keepalive => flatRecvMessage t
      | _ => M.fail .UnexpectedFrame : M NbError Bytes Bytes) b := by
  have hc := flatRecv_cases t b
  simp only [flatRecvMessage, flatRecvMessageLoop, M.bind_apply, M.bind]
  rcases h : flatRecv t b with ⟨o, b'⟩
  rw [h] at hc
  cases o with
  | ok f =>
    have := hc.2.2.2 f rfl
    cases f <;> first | rfl | exact flatRecvMessageLoop_fuel t _ _ b' (by simp at this; omega) (by omega)
  | _ => rfl

theorem flatRecvMessage_cases (t : Tail) (b : Bytes) :
    (flatRecvMessage t b).1 ≠ .running ∧ (flatRecvMessage t b).1 ≠ .panic ∧
      (flatRecvMessage t b).2.length ≤ b.length ∧
      (∀ m, (flatRecvMessage t b).1 = .ok m → (flatRecvMessage t b).2.length + 4 ≤ b.length) :=
  flatRecvMessageLoop_cases t _ b (by omega)

theorem flatRecvMessage_message (t : Tail) (m rest : Bytes) (h : m.length ≤ MAX_FRAME_LENGTH) :
    flatRecvMessage t (0x00 :: (be24 m.length ++ (m ++ rest))) = (.ok m, rest) := by
  rw [flatRecvMessage_eq, M.bind_ok (a := .Message m) (s' := rest)]
  · rfl
  · rw [flatRecv_frame t 0x00 m rest h]; rfl

theorem flatRecvMessage_keepalive (t : Tail) (rest : Bytes) :
    flatRecvMessage t (0x85 :: 0 :: 0 :: 0 :: rest) = flatRecvMessage t rest := by
  conv => lhs; rw [flatRecvMessage_eq]
  rw [M.bind_ok (a := .Keepalive) (s' := rest)]
  · exact flatRecv_frame t 0x85 [] rest (by simp)

/-! ## Writing -/

theorem writeLoop_out (ws : List WriteEv) (buf out : Bytes) :
    ∃ p s, buf = p ++ s ∧ (writeLoop ws buf out).2.2 = out ++ p ∧ ((writeLoop ws buf out).1 = .done ↔ s = []) := by
  induction ws generalizing buf out with
  | nil => exact ⟨buf, [], by simp, rfl, fun _ => rfl, fun _ => rfl⟩
  | cons ev ws ih =>
    simp only [writeLoop]
    by_cases hb : buf = []
    · subst hb; exact ⟨[], [], rfl, by simp, by simp⟩
    · simp only [if_neg hb]
      cases ev with
      | accept n =>
        obtain ⟨p, s, h1, h2, h3⟩ := ih (buf.drop n) (out ++ buf.take n)
        refine ⟨buf.take n ++ p, s, ?_, ?_, h3⟩
        · rw [List.append_assoc, ← h1, List.take_append_drop]
        · simp only []; rw [h2, List.append_assoc]
      | fail e => exact ⟨[], buf, rfl, by simp, by simp [hb]⟩
      | block => exact ⟨[], buf, rfl, by simp, by simp [hb]⟩

/-- A write schedule without failures. -/
def Accepting (ws : List WriteEv) : Prop := ∀ ev ∈ ws, ∃ n, ev = .accept n

theorem writeLoop_accepting (ws : List WriteEv) (buf out : Bytes) (h : Accepting ws) :
    (writeLoop ws buf out).1 = .done ∧ Accepting (writeLoop ws buf out).2.1 := by
  induction ws generalizing buf out with
  | nil => exact ⟨rfl, h⟩
  | cons ev ws ih =>
    simp only [writeLoop]
    by_cases hb : buf = []
    · rw [if_pos hb]; exact ⟨rfl, h⟩
    · simp only [if_neg hb]
      obtain ⟨n, rfl⟩ := h ev (by simp)
      exact ih _ _ (fun e he => h e (by simp [he]))

end Cifs
