import Verif.Lemmas.Size
import Verif.Props.Notify
import Verif.Props.Consumed
/-!
# Results are no bigger than what was received for them (C76)
-/

namespace Cifs
open Spec

variable {σ : Type} {E : Env σ} {fed : σ → Bytes}

/-- **C76** Every result of a call, other than a list of changes, is at most as big as what the client received during the call: the
bytes that were waiting and the bytes `said` that the server sent, without the bytes that are left over. -/
theorem C76_result_partial (hf : Feeds E.V fed) {op : Op} (ho : isNotify op = false) {s s' : St σ} {v : Val} (h : runOp E op s = (.ok v, s')) :
    ∃ said, fed s'.w.srv = fed s.w.srv ++ said ∧ sizeOfVal v + s'.w.inbox.flatten.length ≤ s.w.inbox.flatten.length + said.length :=
  runOp_paid hf ho h

theorem sum_le_mul {α : Type} (f : α → Nat) (n : Nat) (l : List α) (h : ∀ a ∈ l, f a ≤ n) : (l.map f).sum ≤ l.length * n := by
  induction l with
  | nil => simp
  | cons a l ih =>
    have h1 := h a (by simp)
    have h2 := ih fun x hx => h x (by simp [hx])
    simp only [List.map_cons, List.sum_cons, List.length_cons, Nat.succ_mul]
    omega

/-- **C76** For a list of changes only this holds: there are no more changes than bytes, and each is at most as big as what was received.
Altogether they are at most as big as the square of it. -/
theorem C76_changes_partial (hf : Feeds E.V fed) {handle : Handle} {what : UInt32} {s s' : St σ} {l : List (Str × NotifyAction)}
    (h : runOp E (.notify handle what) s = (.ok (.changes l), s')) :
    ∃ said n, fed s'.w.srv = fed s.w.srv ++ said ∧ n + s'.w.inbox.flatten.length ≤ s.w.inbox.flatten.length + said.length ∧
      l.length ≤ n ∧ (∀ c ∈ l, changeSize c ≤ n) ∧ sizeOfVal (.changes l) ≤ n * n := by
  obtain ⟨n, ⟨said, h1, h2⟩, h3, h4⟩ := notify_paid hf h
  exact ⟨said, n, h1, h2, h3, h4, Nat.le_trans (sum_le_mul _ n l h4) (Nat.mul_le_mul_right _ h3)⟩

/-! ## Changes that overlap -/

namespace Demo

/-- `n` records, each of which gives all the following ones as its name. -/
def nested : Nat → Bytes
  | 0 => []
  | n + 1 => putLE 4 (if n = 0 then 0 else 12) ++ (putLE 4 1 ++ (putLE 4 (12 * n) ++ nested n))

/-- These records as text. -/
def nestedText : Nat → Str
  | 0 => []
  | n + 1 => Char.ofNat (if n = 0 then 0 else 12) :: Char.ofNat 0 :: Char.ofNat 1 :: Char.ofNat 0 :: Char.ofNat (12 * n) :: Char.ofNat 0 ::
      nestedText n

/-- The changes they describe. -/
def nestedChanges : Nat → List (Str × NotifyAction)
  | 0 => []
  | n + 1 => (nestedText n, .ADDED) :: nestedChanges n

theorem nested_length (n : Nat) : (nested n).length = 12 * n := by
  induction n with
  | zero => rfl
  | succ n ih => simp only [nested, List.length_append, ih, putLE, List.length_cons, List.length_nil]; omega

theorem nestedText_length (n : Nat) : (nestedText n).length = 6 * n := by
  induction n with
  | zero => rfl
  | succ n ih => simp only [nestedText, List.length_cons, ih]; omega

theorem putLE_small {x : Nat} (h : x < 65536) : putLE 4 x = [UInt8.ofNat x, UInt8.ofNat (x / 256), 0, 0] := by
  simp only [putLE]
  rw [show x / 256 / 256 = 0 by omega]
  rfl

theorem text_number {x : Nat} {t : Str} {b : Bytes} (h : x < 55296) (ht : Utf16le t b) :
    Utf16le (Char.ofNat x :: Char.ofNat 0 :: t) (putLE 4 x ++ b) := by
  rw [putLE_small (by omega)]
  refine .basic ?_ (.basic rfl ht)
  rw [toNat_ofNat (.inl h)]
  simp; omega

theorem nested_text {n : Nat} (h : n ≤ 4000) : Utf16le (nestedText n) (nested n) := by
  induction n with
  | zero => exact .nil
  | succ n ih =>
    refine text_number ?_ (text_number (by decide) (text_number (by omega) (ih (by omega))))
    split <;> decide

theorem nested_changes {n : Nat} (h : n ≤ 4000) : Changes (nested n) (nestedChanges n) := by
  induction n with
  | zero => exact .none
  | succ n ih =>
    have hl := nested_length n
    have hc : Change (nested (n + 1)) (nestedText n, .ADDED) := by
      have := record_change (if n = 0 then 0 else 12) ⟨nestedText n, nested n, .ADDED, []⟩ [] (nested_text (by omega)) (by show (nested n).length < _; omega)
      simp only [List.append_nil] at this
      rw [nested, ← hl]
      exact this
    cases n with
    | zero => exact .last (u32At_putLE 0 _) hc
    | succ m =>
      refine .more (next := 12) (u32At_putLE 12 _) (by decide) (by rw [nested_length]; omega) hc ?_
      have e : (nested (m + 1 + 1)).drop 12 = nested (m + 1) := rfl
      rw [e]
      exact ih (by omega)

theorem nestedChanges_size (n : Nat) : ((nestedChanges n).map changeSize).sum = 6 * n * n + 6 * n := by
  induction n with
  | zero => rfl
  | succ n ih =>
    simp only [nestedChanges, List.map_cons, List.sum_cons, ih, changeSize, textSize, nestedText_length]
    simp only [Nat.mul_add, Nat.add_mul]
    omega

/-- An environment whose server plays back prepared answers and keeps a record of what it received and what it sent. -/
def fedEnv : Env ((List (List Bytes) × Bytes) × List Bytes) := { env true with V := logged (feeding script) }

theorem fedEnv_feeds : Feeds fedEnv.V (fun v => v.1.2) := fun _ _ => rfl

/-- A session with that server. -/
def fedSt (answers : List (List Bytes)) : St ((List (List Bytes) × Bytes) × List Bytes) :=
  { cli := cli, w := { inbox := [], wsched := [], out := [], srv := ((answers, []), []) } }

/-- A reply with these records. -/
def nestedReply (n : Nat) : Bytes :=
  frameOf (replyInfo (asked 7) .Transact (.Known .SUCCESS)) (notifyParams (UInt32.ofNat (12 * n))) (0 :: nested n)

theorem nestedReply_length (n : Nat) : (nestedReply n).length = 12 * n + 72 := by
  rw [nestedReply, frame_body_length, List.length_cons, nested_length]
  show 35 + 36 + (12 * n + 1) = _
  omega

theorem nested_answered {n : Nat} (h : n ≤ 4000) :
    Answered fedEnv Prod.snd (.notify handle 0xfff) (fedSt [[message (nestedReply n)]]) (nestedReply n) (notifyParams (UInt32.ofNat (12 * n)))
      (0 :: nested n) ∧
    (runOp fedEnv (.notify handle 0xfff) (fedSt [[message (nestedReply n)]])).2.w.srv.1.2 = message (nestedReply n) := by
  have hs := reply_succeeds (asked 7) .Transact (notifyParams (UInt32.ofNat (12 * n))) (0 :: nested n) (by show 36 / 2 < 256; decide)
    (by show 36 % 2 = 0; rfl) (by rw [List.length_cons, nested_length]; omega)
  have hg := reply_genuine (asked 7) .Transact (.Known .SUCCESS) (notifyParams (UInt32.ofNat (12 * n))) (0 :: nested n) ⟨7, by decide +kernel⟩
  have hacc : Accepting (fedSt [[message (nestedReply n)]]).w.wsched := by intro ev hev; cases hev
  have hsend : sendable (Op.notify handle 0xfff).first = true := by decide +kernel
  unfold sendable at hsend
  cases hf : requestFrame cli (Op.notify handle 0xfff).first with
  | err e => rw [hf] at hsend; cases hsend
  | panic => rw [hf] at hsend; cases hsend
  | ok f =>
    rw [hf] at hsend
    obtain ⟨ws, ib, _, hr⟩ := runOp_single_sends fedEnv (.notify handle 0xfff) rfl (fedSt [[message (nestedReply n)]]) f
      (by intro h; exact absurd h.2 (by simp [fedSt, cli])) hf (of_decide_eq_true hsend) hacc
    have e : [] ++ List.flatten [message (nestedReply n)] = message (nestedReply n) := by simp
    refine ⟨⟨[], _, ⟨message f, 7, by rw [hr]; rfl, requestFrame_mid (sends_keepsMid (first_sent _ rfl)) hf, _, .done _, ?_, hg.1, ?_⟩, hs.1,
      by decide +kernel, hs.2.1, hs.2.2⟩, ?_⟩
    · have := Delivers.message (nestedReply n) [] (by rw [nestedReply_length]; simp only [maxPayload]; omega)
      rw [List.append_nil] at this
      show Delivers ([] ++ List.flatten [message (nestedReply n)]) _ _
      rw [e]; exact this
    · exact hg.2.trans (by decide +kernel)
    · rw [hr]; exact e

theorem nested_reply {n : Nat} (h0 : 0 < n) (h : n ≤ 4000) : IsNtReply (notifyParams (UInt32.ofNat (12 * n))) (0 :: nested n) (nested n) [] := by
  have e : (UInt32.ofNat (12 * n)).toNat = 12 * n := by simp; omega
  have el : (notifyParams (UInt32.ofNat (12 * n))).length = 36 := rfl
  refine ⟨12 * n, 0, 12 * n, 72, 0, 0, 0, ?_, rfl, ?_, rfl, rfl, rfl, rfl, by rw [el]; decide, Nat.le_refl _, Nat.le_refl _, .inr ⟨by omega, ?_, ?_⟩, .inl ⟨rfl, rfl⟩⟩
  · unfold notifyParams; wire; rw [e]
  · unfold notifyParams; wire; rw [e]
  · rw [el]; decide
  · rw [el]
    have := sliceAt_mid [0] (nested n) [] 1 (12 * n) rfl (nested_length n)
    simpa using this

theorem nested_outcome {n : Nat} (h0 : 0 < n) (h : n ≤ 4000) :
    (runOp fedEnv (.notify handle 0xfff) (fedSt [[message (nestedReply n)]])).1 = .ok (.changes (nestedChanges n)) :=
  C33_notify (logs_logged _) (nested_answered h).1 (nested_reply h0 h) (nested_changes h)

theorem nested_said (n : Nat) : (message (nestedReply n)).length = 12 * n + 76 := by
  obtain ⟨h4, hh, he⟩ := message_eq (nestedReply n)
  rw [he, List.length_append, hh, nestedReply_length]
  omega

end Demo

/-- **C76 violated** The server may let the records of a list of changes overlap. With a reply of 76 + 12 n bytes it makes the client
return a list of size 6 n² + 6 n: 96 MB for 48 kB. -/
theorem C76_violated : ∃ (E : Env ((List (List Bytes) × Bytes) × List Bytes)) (handle : Handle) (what : UInt32), Feeds E.V (fun v => v.1.2) ∧
    ∀ n, 0 < n → n ≤ 4000 → ∃ (s s' : St ((List (List Bytes) × Bytes) × List Bytes)) (said : Bytes) (l : List (Str × NotifyAction)),
      runOp E (.notify handle what) s = (.ok (.changes l), s') ∧ s.w.inbox = [] ∧ s'.w.srv.1.2 = s.w.srv.1.2 ++ said ∧
      said.length = 12 * n + 76 ∧ sizeOfVal (.changes l) = 6 * n * n + 6 * n := by
  refine ⟨Demo.fedEnv, Demo.handle, 0xfff, Demo.fedEnv_feeds, fun n h0 h => ?_⟩
  have hs := (Demo.nested_answered h).2
  have hv := Demo.nested_outcome h0 h
  have hl := Demo.nested_said n
  rcases hr : runOp Demo.fedEnv (.notify Demo.handle 0xfff) (Demo.fedSt [[message (Demo.nestedReply n)]]) with ⟨o, s'⟩
  rw [hr] at hv hs
  generalize message (Demo.nestedReply n) = m at *
  refine ⟨Demo.fedSt [[m]], s', m, Demo.nestedChanges n, ?_, rfl, ?_, hl, Demo.nestedChanges_size n⟩
  · rw [hr]; exact congrArg (·, s') hv
  · exact hs

/-! ## Not vacuous -/

example : Feeds Demo.slowEnv.V Prod.snd := feeds_feeding _

example : (runOp Demo.slowEnv (.read Demo.handle 0) (Demo.slowSt [[message (Demo.given 7 [1, 2])]])).1 = .ok (.bytes [1, 2]) ∧
    sizeOfVal (.bytes [1, 2]) = 2 := by decide +kernel

example : (runOp Demo.fedEnv (.notify Demo.handle 0xfff) (Demo.fedSt [[message (Demo.nestedReply 2)]])).1 =
    .ok (.changes [(['\x00', '\x00', '\x01', '\x00', '\x00', '\x00'], .ADDED), ([], .ADDED)]) := Demo.nested_outcome (by decide) (by decide)

end Cifs
