import Verif.Model.Display
import Verif.Spec.Status
import Verif.Props.Replies
/-!
# The texts of errors
-/

namespace Cifs

open Spec

variable {σ : Type}

/-! ## Digits -/

theorem hexDigit_digitChar (d : Nat) (h : d < 16) : hexDigit d.digitChar = some d := by
  have : ∀ d : Fin 16, hexDigit d.val.digitChar = some d.val := by decide
  exact this ⟨d, h⟩

theorem hex_digits (n : Nat) : Hex (Nat.toDigits 16 n) n := by
  induction n using Nat.strongRecOn with
  | _ n ih =>
    rw [Nat.toDigits_eq_if (by decide)]
    split
    · have := Hex.snoc .nil (hexDigit_digitChar n ‹_›)
      simpa using this
    · have := Hex.snoc (ih (n / 16) (by omega)) (hexDigit_digitChar (n % 16) (Nat.mod_lt _ (by decide)))
      rwa [Nat.div_add_mod] at this

theorem hex_append {l m : Str} {n k : Nat} (h : Hex m k) (hl : Hex l n) (hk : n = 0) : Hex (l ++ m) k := by
  induction h with
  | nil => rw [List.append_nil]; rwa [hk] at hl
  | snoc h hd ih => rw [← List.append_assoc]; exact .snoc ih hd

theorem hex_zeros (k : Nat) : Hex (List.replicate k '0') 0 := by
  induction k with
  | zero => exact .nil
  | succ k ih => rw [List.replicate_succ']; exact Hex.snoc (d := 0) ih (by decide)

theorem hex_fun {l : Str} {a b : Nat} (h1 : Hex l a) : Hex l b → a = b := by
  induction h1 generalizing b with
  | nil =>
    intro h
    generalize hl : ([] : Str) = l at h
    cases h with
    | nil => rfl
    | snoc _ _ => simp at hl
  | @snoc l c n d h hd ih =>
    intro h2
    generalize hl : l ++ [c] = l' at h2
    cases h2 with
    | nil => simp at hl
    | @snoc l2 c2 n2 d2 h' hd' =>
      obtain ⟨rfl, e⟩ := List.append_inj' hl rfl
      cases e
      rw [hd] at hd'
      cases hd'
      rw [ih h']

theorem hex02_hex (n : Nat) : Hex (hex02 n) n := hex_append (hex_digits n) (hex_zeros _) rfl

theorem hex02_inj {a b : Nat} (h : hex02 a = hex02 b) : a = b := hex_fun (hex02_hex a) (h ▸ hex02_hex b)

theorem digits_head (n : Nat) (h : 0 < n) : (Nat.toDigits 16 n).head? ≠ some '0' := by
  induction n using Nat.strongRecOn with
  | _ n ih =>
    rw [Nat.toDigits_eq_if (by decide)]
    split
    · have : ∀ d : Fin 16, 0 < d.val → d.val.digitChar ≠ '0' := by decide
      simpa using this ⟨n, ‹_›⟩ h
    · have := ih (n / 16) (by omega) (by omega)
      have hne : Nat.toDigits 16 (n / 16) ≠ [] := Nat.toDigits_ne_nil
      cases hd : Nat.toDigits 16 (n / 16) with
      | nil => exact absurd hd hne
      | cons c l => rw [hd] at this; simpa using this

theorem hex02_shape (n : Nat) : 2 ≤ (hex02 n).length ∧ (2 < (hex02 n).length → (hex02 n).head? ≠ some '0') := by
  unfold hex02
  have hp := Nat.length_toDigits_pos (b := 16) (n := n)
  constructor
  · simp; omega
  · intro h
    have h2 : 2 - (Nat.toDigits 16 n).length = 0 := by simp at h; omega
    have h3 : 2 < (Nat.toDigits 16 n).length := by simp at h; omega
    have hn : 0 < n := by
      rcases Nat.eq_zero_or_pos n with rfl | h
      · simp [Nat.toDigits_zero] at h3
      · exact h
    show (List.replicate (2 - (Nat.toDigits 16 n).length) '0' ++ Nat.toDigits 16 n).head? ≠ _
    rw [h2]
    exact digits_head n hn

theorem hexDigit_inv {c : Char} {d : Nat} (h : hexDigit c = some d) : d < 16 ∧ c = d.digitChar := by
  have key : ∀ k : Fin 128, ∀ d : Fin 128, hexDigit (Char.ofNat k.val) = some d.val → d.val < 16 ∧ Char.ofNat k.val = d.val.digitChar := by decide +kernel
  have hc : c.toNat < 128 ∧ d < 128 := by
    unfold hexDigit at h
    split at h
    · rename_i h'
      have : c.toNat ≤ 57 := h'.2
      simp at h
      omega
    · split at h
      · rename_i h'
        have : c.toNat ≤ 102 := h'.2
        simp at h
        omega
      · cases h
  have := key ⟨c.toNat, hc.1⟩ ⟨d, hc.2⟩
  rw [Char.ofNat_toNat] at this
  exact this h

theorem hex_lt {l : Str} {n : Nat} (h : Hex l n) : n < 16 ^ l.length := by
  induction h with
  | nil => decide
  | snoc h hd ih =>
    have := (hexDigit_inv hd).1
    rw [List.length_append, List.length_singleton, Nat.pow_succ]
    omega

theorem hex_ge {l : Str} {n : Nat} (h : Hex l n) (h0 : l.head? ≠ some '0') (hne : l ≠ []) : 16 ^ (l.length - 1) ≤ n := by
  induction h with
  | nil => exact absurd rfl hne
  | @snoc l c n d h hd ih =>
    rw [List.length_append, List.length_singleton, Nat.add_sub_cancel]
    cases l with
    | nil =>
      have := hexDigit_inv hd
      rcases Nat.eq_zero_or_pos d with rfl | h
      · rw [this.2] at h0; exact absurd rfl h0
      · show 1 ≤ _; omega
    | cons a l =>
      have := ih (by simpa using h0) (by simp)
      rw [show (a :: l).length = l.length + 1 from rfl, Nat.pow_succ]
      simp only [List.length_cons, Nat.add_sub_cancel] at this
      omega

theorem hex_inj {l : Str} {n : Nat} (h : Hex l n) : ∀ {m : Str}, Hex m n → l.length = m.length → l = m := by
  induction h with
  | nil => intro m _ e; exact (List.eq_nil_of_length_eq_zero e.symm).symm
  | @snoc l c n d h hd ih =>
    intro m h2 e
    generalize hn : 16 * n + d = n' at h2
    cases h2 with
    | nil => simp at e
    | @snoc m' c' n2 d2 h' hd' =>
      have k1 := hexDigit_inv hd
      have k2 := hexDigit_inv hd'
      have e1 : n = n2 := by omega
      have e2 : d = d2 := by omega
      subst e1 e2
      rw [ih h' (by simpa using e), k1.2, k2.2]

/-- There is one way to write a number in at least two digits without unnecessary zeros. -/
theorem hex_unique {l m : Str} {n : Nat} (h : Hex l n) (h' : Hex m n) (h2 : 2 ≤ l.length) (h2' : 2 ≤ m.length)
    (h0 : 2 < l.length → l.head? ≠ some '0') (h0' : 2 < m.length → m.head? ≠ some '0') : l = m := by
  have aux : ∀ {l m : Str}, Hex l n → Hex m n → 2 ≤ m.length → (2 < l.length → l.head? ≠ some '0') → ¬ m.length < l.length := by
    intro l m h h' h2 h0 hlt
    have k1 := hex_ge h (h0 (by omega)) (by intro e; subst e; simp at hlt)
    have k2 := hex_lt h'
    have := Nat.pow_le_pow_right (n := 16) (by decide) (show m.length ≤ l.length - 1 by omega)
    omega
  have := aux h h' h2' h0
  have := aux h' h h2 h0'
  exact hex_inj h h' (by omega)

/-! ## C63 -/

/-- The client's names stand in the table with their codes. -/
theorem known_table (x : NTStatus) : ∃ std, (x.code.toNat, x.debug, std) ∈ statusTable := by
  have : ∀ x ∈ NTStatus.all, (statusTable.any fun e => e.1 == x.code.toNat && e.2.1 == x.debug) = true := by decide +kernel
  have hx : x ∈ NTStatus.all := by cases x <;> decide
  obtain ⟨⟨n, name, std⟩, h1, h2⟩ := List.any_eq_true.mp (this x hx)
  simp only [Bool.and_eq_true, beq_iff_eq] at h2
  exact ⟨std, by rw [← h2.1, ← h2.2]; exact h1⟩

/-- Every code of the table belongs to one of the client's statuses. -/
theorem table_known {n : Nat} {name std : String} (h : (n, name, std) ∈ statusTable) : ∃ x : NTStatus, x.code.toNat = n ∧ x.debug = name := by
  have : ∀ e ∈ statusTable, (NTStatus.all.any fun x => x.code.toNat == e.1 && x.debug == e.2.1) = true := by decide +kernel
  obtain ⟨x, _, h2⟩ := List.any_eq_true.mp (this _ h)
  simp only [Bool.and_eq_true, beq_iff_eq] at h2
  exact ⟨x, h2⟩

/-- **C63** The text for a status is its name in the protocol, if the client has one, and else its number. -/
theorem C63_text (n : UInt32) (l : Str) : (Status.ofU32 n).display = l ↔ StatusText n.toNat l := by
  cases hs : Status.ofU32 n with
  | Known x =>
    have hx : x.code = n := by
      have := C16_roundtrip n
      rw [hs] at this
      exact this
    obtain ⟨std, ht⟩ := known_table x
    rw [hx] at ht
    constructor
    · rintro rfl
      exact .named ht
    · intro h
      cases h with
      | named h' =>
        obtain ⟨y, h1, h2⟩ := table_known h'
        have : y.code = x.code := by rw [hx]; exact UInt32.toNat_inj.mp h1
        have hy : Status.ofU32 y.code = .Known y := C16_named y
        rw [this, hx, hs] at hy
        cases hy
        rw [← h2]; rfl
      | number h' _ _ _ => exact absurd ht (h' _ _)
  | Unknown m =>
    have hm : m = n := by
      have := C16_roundtrip n
      rw [hs] at this
      exact this
    subst hm
    have hno : ∀ name std, (m.toNat, name, std) ∉ statusTable := by
      intro name std h
      obtain ⟨y, h1, _⟩ := table_known h
      have hy := C16_named y
      rw [show y.code = m from UInt32.toNat_inj.mp h1, hs] at hy
      cases hy
    obtain ⟨h2, h0⟩ := hex02_shape m.toNat
    constructor
    · rintro rfl
      exact .number hno (hex02_hex _) h2 h0
    · intro h
      cases h with
      | named h' => exact absurd h' (hno _ _)
      | number _ hl k2 k0 =>
        show "Unknown (".toList ++ hex02 m.toNat ++ ")".toList = _
        rw [hex_unique (hex02_hex _) hl h2 k2 h0 k0]

/-- **C63** A reply of the right type with a status other than 0 makes the call fail, and the text of the error tells the user which status it
was. -/
theorem C63_server_error {E : Env σ} {log : σ → List Bytes} (hlog : Logs E.V log) {op : Op} (hs : single op = true) {s : St σ} {f rest : Bytes}
    (h : Exchange E log op s f rest) (c : Nat) (hc : cmdOf (message f) = some c) (hin : c ∈ codes op) (n : Nat)
    (hn : statusOf (message f) = some n) (h0 : n ≠ 0) (io : IoErr → Str) :
    ∃ e l, (runOp E op s).1 = .err e ∧ e.display io = "server error: ".toList ++ l ∧ StatusText n l := by
  obtain ⟨st, h1, rfl⟩ := C15_status hlog hs h c hc hin n hn h0
  exact ⟨_, _, h1, rfl, (C63_text st _).mp rfl⟩

example : StatusText 0xc0000022 "ACCESS_DENIED".toList ∧ StatusText 0xdeadbeef "Unknown (deadbeef)".toList ∧ StatusText 5 "Unknown (05)".toList :=
  ⟨(C63_text 0xc0000022 _).mp (by decide), (C63_text 0xdeadbeef _).mp (by decide), (C63_text 5 _).mp (by decide)⟩

/-- non-vacuity of `C63_server_error`. -/
example : ∃ r, Exchange (Demo.env true) Prod.snd (.umount Demo.share) (Demo.st (Demo.answer r)) r [] ∧ cmdOf (message r) = some comTreeDisconnect ∧
    statusOf (message r) = some 0xc0000022 :=
  ⟨{ Info.default .TreeDisconnect with flags1 := 0x98, mid := 7, status := .Known .ACCESS_DENIED : Info }.write ++ [0, 0, 0],
    Demo.exchange _ rfl (by decide +kernel) _ (by decide +kernel) (by decide +kernel), by decide +kernel, by decide +kernel⟩

/-! ## C64 -/

theorem toList_inj {a b : String} (h : a.toList = b.toList) : a = b := String.toList_inj.mp h

theorem status_debug_inj : ∀ a b : NTStatus, a.debug = b.debug → a = b := by
  have : ∀ a ∈ NTStatus.all, ∀ b ∈ NTStatus.all, a.debug = b.debug → a = b := by decide +kernel
  have hx : ∀ x : NTStatus, x ∈ NTStatus.all := by intro x; cases x <;> decide
  exact fun a b => this a (hx a) b (hx b)

theorem cmd_debug_inj : ∀ a b : Cmd, a.debug = b.debug → a = b := by
  have : ∀ a ∈ Cmd.all, ∀ b ∈ Cmd.all, a.debug = b.debug → a = b := by decide +kernel
  have hx : ∀ x : Cmd, x ∈ Cmd.all := by intro x; cases x <;> decide
  exact fun a b => this a (hx a) b (hx b)

/-- Different statuses have different texts. -/
theorem status_display_inj {a b : Status} (h : a.display = b.display) : a = b := by
  have key : ∀ x : NTStatus, ∀ n : UInt32, Status.display (.Known x) ≠ Status.display (.Unknown n) := by
    intro x n h
    have h1 : '(' ∈ Status.display (.Unknown n) := by
      have hp : '(' ∈ "Unknown (".toList := by decide +kernel
      exact List.mem_append_left _ (List.mem_append_left _ hp)
    rw [← h, show Status.display (.Known x) = x.debug.toList from rfl] at h1
    have key : ∀ x ∈ NTStatus.all, '(' ∉ x.debug.toList := by decide +kernel
    have hx : x ∈ NTStatus.all := by cases x <;> decide
    exact key x hx h1
  cases a with
  | Known a =>
    cases b with
    | Known b =>
      have h : a.debug.toList = b.debug.toList := h
      rw [status_debug_inj a b (toList_inj h)]
    | Unknown b => exact absurd h (key _ _)
  | Unknown a =>
    cases b with
    | Known b => exact absurd h.symm (key _ _)
    | Unknown b =>
      have h : "Unknown (".toList ++ hex02 a.toNat ++ ")".toList = "Unknown (".toList ++ hex02 b.toNat ++ ")".toList := h
      have := List.append_cancel_right h
      have := hex02_inj (List.append_cancel_left this)
      rw [UInt32.toNat_inj.mp this]

/-- Text up to a separator is determined. -/
theorem sep_inj {c : Char} : ∀ {l m x y : Str}, c ∉ l → c ∉ m → l ++ c :: x = m ++ c :: y → l = m ∧ x = y
  | [], [], _, _, _, _, h => by simpa using h
  | [], a :: m, _, _, _, h2, h => by simp at h; exact absurd h.1 (by simp at h2; exact fun e => h2.1 e)
  | a :: l, [], _, _, h1, _, h => by simp at h; exact absurd h.1 (by simp at h1; exact fun e => h1.1 e.symm)
  | a :: l, b :: m, _, _, h1, h2, h => by
    simp only [List.cons_append, List.cons.injEq] at h
    simp only [List.mem_cons, not_or] at h1 h2
    obtain ⟨e1, e2⟩ := sep_inj h1.2 h2.2 h.2
    exact ⟨by rw [h.1, e1], e2⟩

theorem showDecimal_digit {n : Nat} {c : Char} (h : c ∈ showDecimal n) : c.isDigit := Nat.isDigit_of_mem_toDigits (by decide) (by decide) h

theorem showDecimal_inj {a b : Nat} (h : showDecimal a = showDecimal b) : a = b := by
  have h1 := Nat.ofDigitChars_toDigits (b := 10) (n := a) (by decide) (by decide)
  have h2 := Nat.ofDigitChars_toDigits (b := 10) (n := b) (by decide) (by decide)
  rw [← h1, ← h2]
  exact congrArg (fun l => Nat.ofDigitChars 10 l 0) h

theorem showDecimal_sep {c : Char} (hc : c.isDigit = false) {a b : Nat} {x y : Str} (h : showDecimal a ++ c :: x = showDecimal b ++ c :: y) : a = b ∧ x = y := by
  have hn : ∀ n, c ∉ showDecimal n := fun n h => by rw [showDecimal_digit h] at hc; cases hc
  obtain ⟨h1, h2⟩ := sep_inj (hn a) (hn b) h
  exact ⟨showDecimal_inj h1, h2⟩

/-- The two texts differ somewhere before either ends. -/
def differ (s t : String) : Bool := (List.zip s.toList t.toList).any fun p => p.1 != p.2

theorem zip_differ {l m x y : Str} (h : ((List.zip l m).any fun p => p.1 != p.2) = true) : l ++ x ≠ m ++ y := by
  induction l generalizing m with
  | nil => simp at h
  | cons a l ih =>
    cases m with
    | nil => simp at h
    | cons b m =>
      intro e
      simp only [List.cons_append, List.cons.injEq] at e
      rw [List.zip_cons_cons, List.any_cons, Bool.or_eq_true] at h
      rcases h with h | h
      · simp [e.1] at h
      · exact ih h e.2

/-- Texts that begin with different literals. -/
theorem lit_inj {α : Type} {f : α → Str} (texts : List String) (tag : α → Nat) (rest : α → Str)
    (hf : ∀ a, tag a < texts.length ∧ f a = (texts.getD (tag a) "").toList ++ rest a)
    (hp : ∀ i < texts.length, ∀ j < texts.length, i = j ∨ differ (texts.getD i "") (texts.getD j "") = true) {a b : α} (h : f a = f b) :
    tag a = tag b ∧ rest a = rest b := by
  obtain ⟨ha, fa⟩ := hf a
  obtain ⟨hb, fb⟩ := hf b
  rw [fa, fb] at h
  rcases hp _ ha _ hb with e | e
  · rw [e] at h; exact ⟨e, List.append_cancel_left h⟩
  · exact absurd h (zip_differ e)

/-- The beginnings of the texts. -/
def ReassembleErr.leads : List String :=
  ["server changed it's mind about total packet size: ",
   "got fragment at offset ",
   "length does not match, want ",
   "offset mismatch, got: "]

/-- Which one it is. -/
def ReassembleErr.lead : ReassembleErr → Nat
  | .totalChanged _ _ => 0
  | .duplicate _ => 1
  | .lengthMismatch _ _ => 2
  | .offsetMismatch _ _ => 3

/-- The rest of the text. -/
def ReassembleErr.rest : ReassembleErr → Str
  | .totalChanged saved total => showDecimal saved ++ " vs ".toList ++ showDecimal total
  | .duplicate offset => showDecimal offset ++ " twice".toList
  | .lengthMismatch want got => showDecimal want ++ ", but got ".toList ++ showDecimal got
  | .offsetMismatch got expected => showDecimal got ++ ", expected: ".toList ++ showDecimal expected

theorem two_decimals {a b c d : Nat} {ch : Char} {l : Str} (hc : ch.isDigit = false) (h : showDecimal a ++ ch :: l ++ showDecimal b = showDecimal c ++ ch :: l ++ showDecimal d) :
    a = c ∧ b = d := by
  rw [List.append_assoc, List.append_assoc] at h
  obtain ⟨h1, h2⟩ := showDecimal_sep hc h
  exact ⟨h1, showDecimal_inj (List.append_cancel_left h2)⟩

theorem reassemble_inj {a b : ReassembleErr} (h : a.message = b.message) : a = b := by
  obtain ⟨h1, h2⟩ := lit_inj ReassembleErr.leads ReassembleErr.lead ReassembleErr.rest (by
    intro a; cases a <;> exact ⟨by dsimp only [ReassembleErr.lead]; decide, by first | rfl | exact (List.append_nil _).symm | (rw [ReassembleErr.rest, ← List.append_assoc, ← List.append_assoc]; rfl) | (rw [ReassembleErr.rest, ← List.append_assoc]; rfl)⟩)
    (by decide +kernel) h
  cases a <;> cases b <;> first | (dsimp only [ReassembleErr.lead] at h1; omega) | skip
  · obtain ⟨rfl, rfl⟩ := two_decimals (ch := ' ') (l := "vs ".toList) rfl h2; rfl
  · obtain ⟨rfl, _⟩ := showDecimal_sep (c := ' ') (x := "twice".toList) (y := "twice".toList) rfl h2; rfl
  · obtain ⟨rfl, rfl⟩ := two_decimals (ch := ',') (l := " but got ".toList) rfl h2; rfl
  · obtain ⟨rfl, rfl⟩ := two_decimals (ch := ',') (l := " expected: ".toList) rfl h2; rfl

/-- The beginnings of the texts. -/
def SmbError.leads : List String :=
  ["invalid header",
   "invalid packet data",
   "invalid command: ",
   "no supported dialect found",
   "need security extension",
   "header is marked as request instead of reply",
   "error creating packet: ",
   "error reassembling transact2 reply: ",
   "unsupported feature: "]

/-- Which one it is. -/
def SmbError.lead : SmbError → Nat
  | .InvalidHeader => 0
  | .InvalidData => 1
  | .InvalidCommand _ => 2
  | .NoDialect => 3
  | .NeedSecurityExt => 4
  | .ReplyExpected => 5
  | .CreatePacket _ => 6
  | .Reassemble _ => 7
  | .Unsupported _ => 8

/-- The rest of the text. -/
def SmbError.rest : SmbError → Str
  | .InvalidHeader => []
  | .InvalidData => []
  | .InvalidCommand cmd => hex02 cmd.toNat
  | .NoDialect => []
  | .NeedSecurityExt => []
  | .ReplyExpected => []
  | .CreatePacket what => what.toList
  | .Reassemble why => why.message
  | .Unsupported what => what.toList

theorem smb_inj {a b : SmbError} (h : a.display = b.display) : a = b := by
  obtain ⟨h1, h2⟩ := lit_inj SmbError.leads SmbError.lead SmbError.rest (by
    intro a; cases a <;> exact ⟨by dsimp only [SmbError.lead]; decide, by first | rfl | exact (List.append_nil _).symm | (rw [SmbError.rest, ← List.append_assoc, ← List.append_assoc]; rfl) | (rw [SmbError.rest, ← List.append_assoc]; rfl)⟩)
    (by decide +kernel) h
  cases a <;> cases b <;> first | rfl | (dsimp only [SmbError.lead] at h1; omega) | skip
  · rw [UInt8.toNat_inj.mp (hex02_inj h2)]
  · rw [toList_inj h2]
  · rw [reassemble_inj h2]
  · rw [toList_inj h2]

/-- The beginnings of the texts. -/
def NbError.leads : List String :=
  ["io error: ",
   "can't create NBT session: error code 0x",
   "invalid NetBIOS message type: 0x",
   "invalid NetBIOS frame",
   "frame exceeds maximal size",
   "unexpected NetBIOS frame",
   "unexpected end of stream"]

/-- Which one it is. -/
def NbError.lead : NbError → Nat
  | .IoError _ => 0
  | .CreateSession _ => 1
  | .InvalidFrameType _ => 2
  | .InvalidFrame => 3
  | .FrameTooBig => 4
  | .UnexpectedFrame => 5
  | .UnexpectedEOF => 6

/-- The rest of the text. -/
def NbError.rest (io : IoErr → Str) : NbError → Str
  | .IoError what => io what
  | .CreateSession code => hex02 code.toNat
  | .InvalidFrameType v => hex02 v.toNat
  | .InvalidFrame => []
  | .FrameTooBig => []
  | .UnexpectedFrame => []
  | .UnexpectedEOF => []

theorem nb_inj {io : IoErr → Str} (hio : ∀ x y, io x = io y → x = y) {a b : NbError} (h : a.display io = b.display io) : a = b := by
  obtain ⟨h1, h2⟩ := lit_inj NbError.leads NbError.lead (NbError.rest io) (by
    intro a; cases a <;> exact ⟨by dsimp only [NbError.lead]; decide, by first | rfl | exact (List.append_nil _).symm | (rw [NbError.rest, ← List.append_assoc, ← List.append_assoc]; rfl) | (rw [NbError.rest, ← List.append_assoc]; rfl)⟩)
    (by decide +kernel) h
  cases a <;> cases b <;> first | rfl | (dsimp only [NbError.lead] at h1; omega) | skip
  · rw [hio _ _ h2]
  · rw [UInt8.toNat_inj.mp (hex02_inj h2)]
  · rw [UInt8.toNat_inj.mp (hex02_inj h2)]

theorem ntlm_inj {a b : NtlmError} (h : a.display = b.display) : a = b := by
  have key : ∀ a ∈ [NtlmError.InputParameter, .InvalidPacket, .NeedAuth], ∀ b ∈ [NtlmError.InputParameter, .InvalidPacket, .NeedAuth],
      a.display = b.display → a = b := by decide +kernel
  exact key a (by cases a <;> decide) b (by cases b <;> decide) h

/-- The beginnings of the texts. -/
def Error.leads : List String :=
  ["NetBios error: ",
   "protocol error: ",
   "NTLM error: ",
   "unexpected reply, want: ",
   "server error: ",
   "URI is invalid"]

/-- Which one it is. -/
def Error.lead : Error → Nat
  | .NetBios _ => 0
  | .SMBError _ => 1
  | .NTLMError _ => 2
  | .UnexpectedReply _ _ => 3
  | .ServerError _ => 4
  | .InvalidUri => 5

/-- The rest of the text. -/
def Error.rest (io : IoErr → Str) : Error → Str
  | .NetBios error => error.display io
  | .SMBError err => err.display
  | .NTLMError err => err.display
  | .UnexpectedReply want got => want.debug.toList ++ ", got: ".toList ++ got.debug.toList
  | .ServerError status => status.display
  | .InvalidUri => []

/-- **C64** Different errors have different texts, if different operating system errors have. -/
theorem C64_injective {io : IoErr → Str} (hio : ∀ x y, io x = io y → x = y) {a b : Error} (h : a.display io = b.display io) : a = b := by
  obtain ⟨h1, h2⟩ := lit_inj Error.leads Error.lead (Error.rest io) (by
    intro a; cases a <;> exact ⟨by dsimp only [Error.lead]; decide, by first | rfl | exact (List.append_nil _).symm | (rw [Error.rest, ← List.append_assoc, ← List.append_assoc]; rfl) | (rw [Error.rest, ← List.append_assoc]; rfl)⟩)
    (by decide +kernel) h
  cases a <;> cases b <;> first | rfl | (dsimp only [Error.lead] at h1; omega) | skip
  · rw [nb_inj hio h2]
  · rw [smb_inj h2]
  · rw [ntlm_inj h2]
  · rename_i w g w' g'
    have hc : ∀ c : Cmd, ',' ∉ c.debug.toList := by intro c; cases c <;> decide
    simp only [Error.rest, List.append_assoc] at h2
    obtain ⟨e1, e2⟩ := sep_inj (c := ',') (x := " got: ".toList ++ g.debug.toList) (y := " got: ".toList ++ g'.debug.toList) (hc w) (hc w') h2
    rw [cmd_debug_inj _ _ (toList_inj e1), cmd_debug_inj _ _ (toList_inj (List.append_cancel_left e2))]
  · rw [status_display_inj h2]

/-- non-vacuity: such texts exist. -/
example : ∃ io : IoErr → Str, (∀ x y, io x = io y → x = y) ∧
    Error.display io (.ServerError (.Known .ACCESS_DENIED)) = "server error: ACCESS_DENIED".toList ∧
    Error.display io (.SMBError (.InvalidCommand 5)) = "protocol error: invalid command: 05".toList := by
  refine ⟨fun | .unexpectedEof => [] | .os n => showDecimal n, ?_, by decide +kernel, by decide +kernel⟩
  intro x y h
  cases x <;> cases y
  · rfl
  · exact absurd h.symm Nat.toDigits_ne_nil
  · exact absurd h Nat.toDigits_ne_nil
  · rw [showDecimal_inj h]

/-- **C64** The names of the request types in texts belong to their codes. -/
theorem C64_commands (c : Cmd) : commandName c.code.toNat = some c.debug := by cases c <;> decide +kernel

theorem unexpected_text (io : IoErr → Str) (want got : Cmd) :
    Error.display io (.UnexpectedReply want got) = ("unexpected reply, want: " ++ want.debug ++ ", got: " ++ got.debug).toList := by
  rw [String.toList_append, String.toList_append, String.toList_append]
  rfl

/-- **C64** A reply of another type than expected makes the call fail, and the text tells the user both types. -/
theorem C64_unexpected {E : Env σ} {log : σ → List Bytes} (hlog : Logs E.V log) {op : Op} (hs : single op = true) {s : St σ} {f rest : Bytes}
    (h : Exchange E log op s f rest) (c : Nat) (hc : cmdOf (message f) = some c) (hne : c ∉ codes op) (io : IoErr → Str) :
    ∃ e code want got, (runOp E op s).1 = .err e ∧ codes op = [code] ∧ commandName code = some want ∧ commandName c = some got ∧
      e.display io = ("unexpected reply, want: " ++ want ++ ", got: " ++ got).toList := by
  obtain ⟨want, got, h1, h2, rfl⟩ := C14_unexpected hlog hs h c hc hne
  exact ⟨_, _, _, _, h1, h2, C64_commands want, C64_commands got, unexpected_text io want got⟩

example : commandName 0x32 = some "Transact2" ∧ commandName 0x33 = none := by decide +kernel

/-- non-vacuity: a reply to another type of request, and the text. -/
example : ∃ r, Exchange (Demo.env true) Prod.snd (.umount Demo.share) (Demo.st (Demo.answer r)) r [] ∧ cmdOf (message r) = some 0x04 ∧
    0x04 ∉ codes (.umount Demo.share) :=
  ⟨Demo.reply .Close 7 [] [], Demo.exchange _ rfl (by decide +kernel) _ (by decide +kernel) (by decide +kernel), by decide +kernel, by decide⟩

/-- **C64** The texts of what can go wrong in a login before a message is sent, or because of what the server says about NTLM. -/
theorem C64_login (io : IoErr → Str) :
    Error.display io (.NTLMError .NeedAuth) = "NTLM error: authentication not configured".toList ∧
    Error.display io (.NTLMError .InvalidPacket) = "NTLM error: invalid packet data".toList ∧
    Error.display io (.NTLMError .InputParameter) =
      "NTLM error: invalid input paramater: numeric conversion: out of range integral type conversion attempted".toList := by
  have h : ∀ e : NtlmError, Error.display io (.NTLMError e) = "NTLM error: ".toList ++ e.display := fun _ => rfl
  rw [h, h, h]
  decide +kernel

end Cifs
