import Verif.Props.Requests
/-!
# The sizes of requests, and which names are encoded as the flag says (C27, C28)

What a caller has to know to keep within the negotiated buffer, and the operations on which a connection without Unicode goes wrong.
-/

namespace Cifs
open Spec

variable {σ : Type} {E : Env σ} {log : σ → List Bytes}

/-- The size of the request of an operation, without the transport's header: 32 bytes of header, one of word count, two of byte count, the words,
the bytes; search requests are filled up to a multiple of four. -/
def C27_size (unicode : Bool) : Op → Nat
  | .mount path password => 43 + mountLength unicode path password
  | .umount _ => 35
  | .openfile _ path => 86 + 2 * utf16Len path
  | .opendir _ path => 86 + 2 * utf16Len path
  | .close _ => 41
  | .read .. => 59
  | .delete _ path => 40 + 2 * utf16Len path
  | .rmdir _ path => 38 + 2 * utf16Len path
  | .notify .. => 84
  | .findFirst _ pattern => 4 * ((2 * utf16Len pattern + 85) / 4)
  | .findNext _ _ last => 4 * ((2 * utf16Len last + 85) / 4)
  | .download .. => 0
  | .list .. => 0

/-- **C27** (`_partial`: nothing compares this with the negotiated size.) The size of a request is a function of the arguments, and of whether Unicode
was negotiated. -/
theorem C27_size_partial (hlog : Logs E.V log) {op : Op} (hs : single op = true) (s : St σ) (p : Bytes)
    (h : Sent log s.w.srv (runOp E op s).2.w.srv p) : p.length = 4 + C27_size s.cli.useUnicode op := by
  have hb' := utf16Len_backslashed
  simp only [backslashed_eq] at hb'
  obtain ⟨k, m, b, d, hm, hb, h1, h2, rfl⟩ := sent_frame hlog h
  rw [frame_length]
  have hopen : ∀ {o : OpenMsg} {i : Info} {p d : Bytes}, o.msg.body i = .ok (p, d) →
      (o.msg.params p).length = 48 ∧ d.length = 2 * utf16Len o.filename + 3 := by
    intro o i p d hb
    obtain ⟨_, rfl, rfl⟩ := body_open_ok hb
    rw [params_open]; simp
  have ht2 : ∀ {t : UInt16} {c : SubCmd2} {i : Info} {p d sp : Bytes}, c.parameter = .ok sp → c.data = .ok [] →
      (transact2Msg t c).body i = .ok (p, d) → ((transact2Msg t c).params p).length = 30 ∧ 65 + d.length = 4 * ((sp.length + 71) / 4) := by
    intro t c i p d sp h1 h2 hb
    rw [transact2_body t c i sp [] h1 h2] at hb
    repeat' split at hb
    all_goals cases hb
    rw [params_transact2]
    refine ⟨by simp, ?_⟩
    simp [fillUp4n]; omega
  cases op <;> first | cases hs | skip
  case mount a b =>
    cases hm
    obtain ⟨g1, g2⟩ := treeConnect_lengths hb
    have e : mountLength (s.cli.withMid k).useUnicode (sanitizePath a) b = mountLength s.cli.useUnicode a b := by
      have e2 : (s.cli.withMid k).useUnicode = s.cli.useUnicode := rfl
      simp only [e2, mountLength, hb', utf8Len_sanitize]
    simp only [C27_size]
    omega
  case umount => cases hm; have := umount_lengths hb; simp only [C27_size]; omega
  case openfile => cases hm; have := hopen hb; simp only [OpenMsg.fileRo, hb', C27_size] at this ⊢; omega
  case opendir => cases hm; have := hopen hb; simp only [OpenMsg.dir, hb', C27_size] at this ⊢; omega
  case close => cases hm; have := close_lengths hb; simp only [C27_size]; omega
  case read => cases hm; have := read_lengths hb; simp only [C27_size]; omega
  case delete => cases hm; have := delete_lengths hb; rw [hb'] at this; simp only [C27_size]; omega
  case rmdir => cases hm; have := rmdir_lengths hb; rw [hb'] at this; simp only [C27_size]; omega
  case notify => cases hm; have := notify_lengths hb; simp only [C27_size]; omega
  case findFirst s n =>
    cases hm
    obtain ⟨sp, e1, e2⟩ := length_findFirst (sanitizePath n) (FileAttr.HIDDEN ||| FileAttr.SYSTEM ||| FileAttr.DIRECTORY)
    have := ht2 e1 rfl hb
    rw [hb'] at e2
    simp only [C27_size]
    omega
  case findNext s i n =>
    cases hm
    obtain ⟨sp, e1, e2⟩ := length_findNext i n
    have := ht2 e1 rfl hb
    simp only [C27_size]
    omega

/-- **C27** So exactly the calls whose size is above the negotiated one violate it. -/
theorem C27_exactly (hlog : Logs E.V log) {op : Op} (hs : single op = true) (s : St σ) (hw : Accepting s.w.wsched)
    (hc : ¬ (E.checked = true ∧ s.cli.mid.toNat = 65535)) (hf : Fits s.cli.useUnicode op) :
    (∀ p, Sent log s.w.srv (runOp E op s).2.w.srv p → p.length - 4 ≤ s.cli.maxSmbSize) ↔ C27_size s.cli.useUnicode op ≤ s.cli.maxSmbSize := by
  obtain ⟨p, rest, hp, hr⟩ := C25_sent E log hlog op s hw hc hf
  have hsent : Sent log s.w.srv (runOp E op s).2.w.srv p := ⟨_, hp, .head _⟩
  constructor
  · intro h
    have := h p hsent
    rw [C27_size_partial hlog hs s p hsent] at this
    omega
  · intro h q hq
    rw [C27_size_partial hlog hs s q hq]
    omega

/-- **C27** Calls without names stay within every buffer that the protocol allows (at least 1024 bytes, [MS-CIFS] 3.3.1.1). -/
theorem C27_nameless (hlog : Logs E.V log) (op : Op) (s : St σ) (hm : 84 ≤ s.cli.maxSmbSize)
    (ho : (∃ x, op = .umount x) ∨ (∃ x, op = .close x) ∨ (∃ x y, op = .read x y) ∨ ∃ x y, op = .notify x y) (p : Bytes)
    (h : Sent log s.w.srv (runOp E op s).2.w.srv p) : p.length - 4 ≤ s.cli.maxSmbSize := by
  rcases ho with ⟨_, rfl⟩ | ⟨_, rfl⟩ | ⟨_, _, rfl⟩ | ⟨_, _, rfl⟩ <;>
  · rw [C27_size_partial hlog rfl s p h]
    simp only [C27_size]
    omega

/-- Text in the encoding that the flag announces. -/
def C28_Encoded (unicode : Bool) (t : Str) (b : Bytes) : Prop := if unicode then Utf16le t b else b = utf8Bytes t

/-- Where the name stands, also in a `mount` without Unicode and in `find_next`. -/
def C28_At (p name : Bytes) : Op → Prop
  | .mount _ password => ∃ pad nul, dataOf p = some (passwordField password ++ pad ++ name ++ nul ++ [0x3f, 0x3f, 0x3f, 0x3f, 0x3f, 0]) ∧
      ((unicodeOf p = some true ∧ (pad = [] ∨ pad = [0]) ∧ nul = [0, 0]) ∨ (unicodeOf p = some false ∧ pad = [] ∧ nul = [0]))
  | .findNext .. => ∃ ps po n, paramsOf p = some ps ∧ u16At ps 20 = some po ∧ u16At ps 18 = some n ∧ n = 12 + name.length + 2 ∧
      sliceAt p (4 + po + 12) (n - 12) = some (name ++ [0, 0])
  | op => NameAt p name op

/-- The name in the request of an operation. -/
def C28_name : Op → Option Str
  | .findNext _ _ last => some last
  | op => (pathArg op).map backslashed

/-- Is the operation a mount? -/
def C28_mount : Op → Bool
  | .mount .. => true
  | _ => false

/-- **C28** (`_partial`: see `C28_exactly`.) A request of an operation with a name has the negotiated flag. The name is in the encoding that the flag
says if that is Unicode, or if the operation is `mount`; otherwise it is in UTF-16 nevertheless. -/
theorem C28_names_partial (hlog : Logs E.V log) {op : Op} {t : Str} (ho : C28_name op = some t) (s : St σ) (p : Bytes)
    (h : Sent log s.w.srv (runOp E op s).2.w.srv p) :
    unicodeOf p = some s.cli.useUnicode ∧ ∃ name, C28_At p name op ∧ C28_Encoded (s.cli.useUnicode || !C28_mount op) t name := by
  have hu := (C09_header E log hlog _ s p h).2.2.2.2.2.2.2.2.2.1
  refine ⟨hu, ?_⟩
  have rest : ∀ path, pathArg op = some path → C28_mount op = false → ∃ name, NameAt p name op ∧ Utf16le (backslashed path) name := by
    intro path hp hm
    obtain ⟨name, k1, k2⟩ := C18_path hlog op path hp s p (by rintro ⟨_, _, rfl⟩; cases hm) h
    exact ⟨name, k1, (k2 _).mpr rfl⟩
  cases op with
  | findNext share sid last =>
    obtain rfl : t = last := (Option.some.inj ho).symm
    obtain ⟨ps, h1, h2⟩ := C24_find_next hlog share sid t s p h
    obtain ⟨name, e, hn⟩ := h2.last
    obtain ⟨pp, hp, _, _, _, hc, _, _, po, dO, hpo, _, _, _, _, _, hsl, _⟩ := h1.fields
    have hl := congrArg List.length e
    simp at hl
    refine ⟨name, ⟨pp, po, ps.length, hp, hpo, hc, by omega, ?_⟩, by simpa [C28_mount, C28_Encoded] using hn⟩
    have := sliceAt_drop hsl (show 12 ≤ ps.length by omega)
    rwa [e] at this
  | mount pth pw =>
    cases ho
    have hm := C22_mount hlog pth pw s p h
    obtain ⟨pad, name, nul, hd, hpad⟩ := hm.data
    cases hs : s.cli.useUnicode with
    | true =>
      rw [hs] at hpad hu
      obtain ⟨k1, _, k2, k3⟩ := hpad
      exact ⟨name, ⟨pad, nul, hd, .inl ⟨hu, k1, k3⟩⟩, k2⟩
    | false =>
      rw [hs] at hpad hu
      obtain ⟨k1, k2, k3⟩ := hpad
      exact ⟨name, ⟨pad, nul, hd, .inr ⟨hu, k1, k3⟩⟩, k2⟩
  | openfile a b | opendir a b | delete a b | rmdir a b | findFirst a b =>
    cases ho
    obtain ⟨name, k1, k2⟩ := rest _ rfl rfl
    exact ⟨name, k1, by simpa [C28_mount, C28_Encoded] using k2⟩
  | _ => cases ho

theorem encoded_once {p a b : Bytes} {op : Op} {t : Str} (ho : C28_name op = some t) (hm : C28_mount op = false) (ha : C28_At p a op) (hb : C28_At p b op) :
    a = b := by
  have search : (∃ ps po n, paramsOf p = some ps ∧ u16At ps 20 = some po ∧ u16At ps 18 = some n ∧ n = 12 + a.length + 2 ∧
      sliceAt p (4 + po + 12) (n - 12) = some (a ++ [0, 0])) → (∃ ps po n, paramsOf p = some ps ∧ u16At ps 20 = some po ∧ u16At ps 18 = some n ∧
      n = 12 + b.length + 2 ∧ sliceAt p (4 + po + 12) (n - 12) = some (b ++ [0, 0])) → a = b := by
    rintro ⟨ps, po, n, h1, h2, h3, _, h4⟩ ⟨ps', po', n', k1, k2, k3, _, k4⟩
    cases h1.symm.trans k1
    cases h2.symm.trans k2
    cases h3.symm.trans k3
    exact List.append_cancel_right (Option.some.inj (h4.symm.trans k4))
  cases op <;> first | cases hm; done | cases ho; done | exact search ha hb | skip
  all_goals
    have e := Option.some.inj (Eq.trans (Eq.symm ha) hb)
    simp only [List.cons_append, List.cons.injEq, true_and] at e
    exact List.append_cancel_right e

/-- **C28** For ASCII names that are not empty: the name in a request is in the encoding that the request announces exactly if Unicode was negotiated
or the operation is `mount`. So every other operation violates the property on every connection without Unicode, whatever the name. -/
theorem C28_exactly (hlog : Logs E.V log) {op : Op} {t : Str} (ho : C28_name op = some t) (hn : t ≠ []) (ha : ∀ c ∈ t, c.toNat < 128) (s : St σ) (p : Bytes)
    (h : Sent log s.w.srv (runOp E op s).2.w.srv p) :
    (∃ u name, unicodeOf p = some u ∧ C28_At p name op ∧ C28_Encoded u t name) ↔ s.cli.useUnicode = true ∨ C28_mount op = true := by
  obtain ⟨hu, name, h1, h2⟩ := C28_names_partial hlog ho s p h
  constructor
  · rintro ⟨u, name', k1, k2, k3⟩
    cases hu.symm.trans k1
    cases hs : s.cli.useUnicode with
    | true => exact .inl rfl
    | false =>
      cases hm : C28_mount op with
      | true => exact .inr rfl
      | false =>
        cases encoded_once ho hm h1 k2
        rw [hs] at h2 k3
        rw [hm] at h2
        have h2 : Utf16le t name := h2
        have k3 : name = utf8Bytes t := k3
        have hl := congrArg List.length k3
        obtain ⟨l1, l2⟩ := ascii_lengths t ha
        rw [utf16le_unique h2, length_utf16le, l1, l2] at hl
        exact absurd (List.length_eq_zero_iff.mp (by omega)) hn
  · rintro (hs | hm)
    · rw [hs] at h2 hu
      exact ⟨true, name, hu, h1, h2⟩
    · rw [hm] at h2
      exact ⟨_, name, hu, h1, by simpa using h2⟩

/-- Not vacuous: such requests are sent. -/
example : ∃ p, Sent Prod.snd (Demo.st []).w.srv
    (runOp (Demo.env true) (.findNext Demo.share 5 ['a']) { Demo.st [] with cli := { Demo.cli with useUnicode := false } }).2.w.srv p ∧
    C27_size false (.findNext Demo.share 5 ['a']) = 84 :=
  ⟨_, ⟨_, rfl, .head _⟩, by decide +kernel⟩

example : Fits true (.openfile Demo.share ['a']) ∧ Accepting (Demo.st []).w.wsched ∧ C27_size true (.openfile Demo.share ['a']) = 88 := by
  refine ⟨by show utf16Len ['a'] ≤ nameLimit; decide +kernel, ?_, by decide +kernel⟩
  intro ev hev; simp [Demo.st] at hev; rcases hev with h | h <;> exact ⟨_, h⟩

end Cifs
