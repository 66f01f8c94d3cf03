import Verif.Props.Wild
import Verif.Props.Door
import Verif.Props.Lends
import Verif.Spec.Heard
/-!
# What servers read in requests (C90)
-/

namespace Cifs
open Spec

variable {σ A : Type}

/-! ## Texts with NULs -/

theorem upToNul_clean (s : Str) : '\x00' ∉ upToNul s := by
  unfold upToNul
  induction s with
  | nil => simp
  | cons c s ih =>
    rw [List.takeWhile_cons]
    split
    · rename_i hc
      have hc : c ≠ '\x00' := by simpa using hc
      simp only [List.mem_cons, not_or]
      exact ⟨fun e => hc e.symm, ih⟩
    · simp

theorem upToNul_plain {s : Str} (h : '\x00' ∉ s) : upToNul s = s := by
  unfold upToNul
  induction s with
  | nil => rfl
  | cons c s ih =>
    simp only [List.mem_cons, not_or] at h
    rw [List.takeWhile_cons, if_pos (by simpa using fun e => h.1 e.symm), ih h.2]

theorem upToNul_cut {s : Str} (h : '\x00' ∉ s) (t : Str) : upToNul (s ++ '\x00' :: t) = s := by
  unfold upToNul
  induction s with
  | nil => simp
  | cons c s ih =>
    simp only [List.mem_cons, not_or] at h
    rw [List.cons_append, List.takeWhile_cons, if_pos (by simpa using fun e => h.1 e.symm), ih h.2]

theorem upToNul_split {s : Str} (h : '\x00' ∈ s) : ∃ t, s = upToNul s ++ '\x00' :: t := by
  induction s with
  | nil => cases h
  | cons c s ih =>
    by_cases hc : c = '\x00'
    · subst hc; exact ⟨s, by simp [upToNul]⟩
    · obtain ⟨t, ht⟩ := ih ((List.mem_cons.mp h).resolve_left (fun e => hc e.symm))
      refine ⟨t, ?_⟩
      have : upToNul (c :: s) = c :: upToNul s := by simp [upToNul, hc]
      rw [this, List.cons_append, ← ht]

theorem upToNul_eq {s : Str} : upToNul s = s ↔ '\x00' ∉ s := ⟨fun h => h ▸ upToNul_clean s, upToNul_plain⟩

theorem upToNul_backslashed (s : Str) : upToNul (backslashed s) = backslashed (upToNul s) := by
  unfold upToNul backslashed
  induction s with
  | nil => rfl
  | cons c s ih =>
    rw [List.map_cons, List.takeWhile_cons, List.takeWhile_cons, ih]
    by_cases h1 : c = '/'
    · subst h1; simp
    · by_cases h2 : c = '\x00'
      · subst h2; simp
      · simp [h1, h2]

theorem utf16le_nul {t : Str} {b : Bytes} (h : Utf16le ('\x00' :: t) b) : ∃ r, b = 0 :: 0 :: r ∧ Utf16le t r := by
  cases h with
  | @basic _ lo hi _ r h hs =>
    have h : 0 = lo.toNat + 256 * hi.toNat := h
    have e1 : lo = 0 := UInt8.toNat_inj.mp (by show _ = 0; omega)
    have e2 : hi = 0 := UInt8.toNat_inj.mp (by show _ = 0; omega)
    subst e1 e2
    exact ⟨r, rfl, hs⟩
  | pair _ _ hc =>
    have hc : 0 = _ := hc
    omega

theorem utf16le_split {t : Str} : ∀ {s : Str} {b : Bytes}, Utf16le (s ++ t) b → ∃ b1 b2, b = b1 ++ b2 ∧ Utf16le s b1 ∧ Utf16le t b2 := by
  intro s
  induction s with
  | nil => intro b h; exact ⟨[], b, rfl, .nil, h⟩
  | cons c s ih =>
    intro b h
    cases h with
    | basic h hs => obtain ⟨b1, b2, rfl, h1, h2⟩ := ih hs; exact ⟨_ :: _ :: b1, b2, rfl, .basic h h1, h2⟩
    | pair hx hy hc e1 e2 hs => obtain ⟨b1, b2, rfl, h1, h2⟩ := ih hs; exact ⟨_ :: _ :: _ :: _ :: b1, b2, rfl, .pair hx hy hc e1 e2 h1, h2⟩

theorem nulText_of {s : Str} {b : Bytes} (h : Utf16le s b) (more : Bytes) : ∃ rest, NulText (upToNul s) (b ++ [0, 0] ++ more) rest := by
  by_cases h0 : '\x00' ∈ s
  · obtain ⟨t, ht⟩ := upToNul_split h0
    rw [ht] at h
    obtain ⟨b1, b2, rfl, h1, h2⟩ := utf16le_split h
    obtain ⟨r, rfl, _⟩ := utf16le_nul h2
    exact ⟨r ++ [0, 0] ++ more, upToNul_clean s, b1, h1, by simp⟩
  · rw [upToNul_plain h0]
    exact ⟨more, h0, b, h, rfl⟩

theorem utf8_nul (s t : Str) : utf8Bytes (s ++ '\x00' :: t) = utf8Bytes s ++ [0] ++ utf8Bytes t := by
  have e : String.utf8EncodeChar '\x00' = [0] := by decide
  simp [utf8Bytes, List.flatMap_append, List.flatMap_cons, e]

theorem nulBytes_of (s : Str) (more : Bytes) : ∃ rest, NulBytes (upToNul s) (utf8Bytes s ++ [0] ++ more) rest := by
  by_cases h0 : '\x00' ∈ s
  · obtain ⟨t, ht⟩ := upToNul_split h0
    refine ⟨utf8Bytes t ++ [0] ++ more, upToNul_clean s, ?_⟩
    rw [show utf8Bytes s = _ from congrArg _ ht, utf8_nul]
    simp
  · rw [upToNul_plain h0]
    exact ⟨more, h0, rfl⟩

theorem nulText_unique {t t' : Str} {b rest rest' : Bytes} (h : NulText t b rest) (h' : NulText t' b rest') : t = t' ∧ rest = rest' := by
  obtain ⟨h0, n, hn, rfl⟩ := h
  obtain ⟨h0', n', hn', e⟩ := h'
  rw [utf16le_unique hn, utf16le_unique hn'] at e
  simp only [List.append_assoc, List.cons_append, List.nil_append] at e
  have p := congrArg (parseUtf16le0 SmbError.InvalidData) e
  rw [parseUtf16le0_encode _ _ _ h0, parseUtf16le0_encode _ _ _ h0'] at p
  simpa using p

theorem nulBytes_unique {t t' : Str} {b rest rest' : Bytes} (h : NulBytes t b rest) (h' : NulBytes t' b rest') : t = t' ∧ rest = rest' := by
  obtain ⟨h0, rfl⟩ := h
  obtain ⟨h0', e⟩ := h'
  rw [← utf8_bytes, ← utf8_bytes] at e
  simp only [List.append_assoc, List.cons_append, List.nil_append] at e
  obtain ⟨e1, e2⟩ := nul_split (by rwa [mem_utf8_zero]) (by rwa [mem_utf8_zero]) e
  exact ⟨utf8_inj e1, e2⟩

/-! ## Requests -/

theorem hears_cut {unicode : Bool} {req : Bytes} {c : Call} (h : IsCall unicode req c) : Hears unicode req (c.rename upToNul) := by
  cases c
  case mount pw path =>
    refine ⟨⟨path, h⟩, ?_⟩
    obtain ⟨_, _, _, pad, name, nul, hd, hc⟩ := h
    cases unicode with
    | true =>
      rw [if_pos rfl] at hc
      obtain ⟨h1, h2, h3, rfl⟩ := hc
      obtain ⟨rest, hr⟩ := nulText_of h3 [0x3f, 0x3f, 0x3f, 0x3f, 0x3f, 0]
      exact ⟨rest, pad, name ++ [0, 0] ++ [0x3f, 0x3f, 0x3f, 0x3f, 0x3f, 0], by rw [hd]; simp only [List.append_assoc], by rw [if_pos rfl]; exact ⟨h1, h2, hr⟩⟩
    | false =>
      rw [if_neg (by simp)] at hc
      obtain ⟨h1, rfl, rfl⟩ := hc
      obtain ⟨rest, hr⟩ := nulBytes_of path [0x3f, 0x3f, 0x3f, 0x3f, 0x3f, 0]
      exact ⟨rest, pad, utf8Bytes path ++ [0] ++ [0x3f, 0x3f, 0x3f, 0x3f, 0x3f, 0], by rw [hd]; simp only [List.append_assoc], by rw [if_neg (by simp)]; exact ⟨h1, hr⟩⟩
  case delete tid path =>
    refine ⟨⟨path, h⟩, ?_⟩
    obtain ⟨name, hd, hn⟩ := h.2.2.name
    obtain ⟨rest, hr⟩ := nulText_of hn []
    exact ⟨_, rest, hd, by simpa using hr⟩
  case rmdir tid path =>
    refine ⟨⟨path, h⟩, ?_⟩
    obtain ⟨name, hd, hn⟩ := h.2.2.name
    obtain ⟨rest, hr⟩ := nulText_of hn []
    exact ⟨_, rest, hd, by simpa using hr⟩
  case findFirst tid pattern =>
    refine ⟨⟨pattern, h⟩, ?_⟩
    obtain ⟨ps, h1, h2⟩ := h.2.2
    obtain ⟨name, hd, hn⟩ := h2.pattern
    obtain ⟨rest, hr⟩ := nulText_of hn []
    exact ⟨ps, rest, h1, by rw [hd]; simpa using hr⟩
  case findNext tid sid last =>
    refine ⟨⟨last, h⟩, ?_⟩
    obtain ⟨ps, h1, h2⟩ := h.2.2
    obtain ⟨name, hd, hn⟩ := h2.last
    obtain ⟨rest, hr⟩ := nulText_of hn []
    exact ⟨ps, rest, h1, by rw [hd]; simpa using hr⟩
  all_goals exact ⟨⟨[], h⟩, trivial⟩

theorem readsShare_unique {unicode : Bool} {req pw : Bytes} {path path' : Str} {rest rest' : Bytes} (h : ReadsShare unicode req pw path rest)
    (h' : ReadsShare unicode req pw path' rest') : path = path' ∧ rest = rest' := by
  obtain ⟨pad, b, hd, hc⟩ := h
  obtain ⟨pad', b', hd', hc'⟩ := h'
  have e := Option.some.inj (hd.symm.trans hd')
  simp only [List.append_assoc] at e
  have e := List.append_cancel_left e
  cases unicode with
  | true =>
    rw [if_pos rfl] at hc hc'
    obtain ⟨_, h2, h3⟩ := hc
    obtain ⟨_, h2', h3'⟩ := hc'
    have hl : pad.length = pad'.length := by
      rename_i h1 h1'
      rcases h1 with rfl | rfl <;> rcases h1' with rfl | rfl <;> simp at h2 h2' ⊢ <;> omega
    obtain ⟨_, rfl⟩ := List.append_inj e hl
    exact nulText_unique h3 h3'
  | false =>
    rw [if_neg (by simp)] at hc hc'
    obtain ⟨rfl, h3⟩ := hc
    obtain ⟨rfl, h3'⟩ := hc'
    cases e
    exact nulBytes_unique h3 h3'

theorem hears_unique {unicode : Bool} {req : Bytes} {c c' : Call} (h : Hears unicode req c) (h' : Hears unicode req c') : c = c' := by
  obtain ⟨⟨full, h1⟩, h2⟩ := h
  obtain ⟨⟨full', h1'⟩, h2'⟩ := h'
  have e := C66_unambiguous h1 h1'
  cases c <;> cases c' <;> simp only [Call.rename, Call.mount.injEq, Call.delete.injEq, Call.rmdir.injEq, Call.findFirst.injEq, Call.findNext.injEq, reduceCtorEq] at e
  case mount.mount =>
    obtain ⟨rfl, _⟩ := e
    obtain ⟨r, h2⟩ := h2
    obtain ⟨r', h2'⟩ := h2'
    rw [(readsShare_unique h2 h2').1]
  case delete.delete =>
    obtain ⟨rfl, _⟩ := e
    obtain ⟨b, r, hd, h2⟩ := h2
    obtain ⟨b', r', hd', h2'⟩ := h2'
    have := Option.some.inj (hd.symm.trans hd')
    cases this
    rw [(nulText_unique h2 h2').1]
  case rmdir.rmdir =>
    obtain ⟨rfl, _⟩ := e
    obtain ⟨b, r, hd, h2⟩ := h2
    obtain ⟨b', r', hd', h2'⟩ := h2'
    have := Option.some.inj (hd.symm.trans hd')
    cases this
    rw [(nulText_unique h2 h2').1]
  case findFirst.findFirst =>
    obtain ⟨rfl, _⟩ := e
    obtain ⟨ps, r, hd, h2⟩ := h2
    obtain ⟨ps', r', hd', h2'⟩ := h2'
    cases (transact2_unique hd hd').2
    rw [(nulText_unique h2 h2').1]
  case findNext.findNext =>
    obtain ⟨rfl, rfl, _⟩ := e
    obtain ⟨ps, r, hd, h2⟩ := h2
    obtain ⟨ps', r', hd', h2'⟩ := h2'
    cases (transact2_unique hd hd').2
    rw [(nulText_unique h2 h2').1]
  all_goals exact e

theorem hears_iff {unicode : Bool} {req : Bytes} {c c' : Call} (h : IsCall unicode req c) : Hears unicode req c' ↔ c' = c.rename upToNul :=
  ⟨fun h' => hears_unique h' (hears_cut h), fun e => e ▸ hears_cut h⟩

section
variable {E : Env σ} {log : σ → List Bytes}

theorem sent_isCall (hlog : Logs E.V log) {op : Op} {c : Call} (hc : callOf op = some c) {s : St σ} {p : Bytes}
    (h : Sent log s.w.srv (runOp E op s).2.w.srv p) : IsCall s.cli.useUnicode p c := by
  have hs : single op = true := by cases op <;> first | rfl | cases hc
  obtain ⟨k, m', ps, d, h1, h2, h3, h4, rfl⟩ := sent_frame hlog h
  cases sends_first hs h1
  exact isCall_first (c := s.cli.withMid k) hc (requestFrame_of_body h2 h3 h4)

theorem nul_backslashed (s : Str) : '\x00' ∈ backslashed s ↔ '\x00' ∈ s := by
  unfold backslashed
  rw [List.mem_map]
  constructor
  · rintro ⟨c, hc, e⟩
    split at e
    · exact absurd e (by decide)
    · exact e ▸ hc
  · intro h
    exact ⟨_, h, by decide⟩

theorem nulFree_iff {op : Op} {c : Call} (hc : callOf op = some c) : NulFree op ↔ c = c.rename upToNul := by
  have key : ∀ s : Str, '\x00' ∉ s ↔ s = upToNul s := fun s => by rw [eq_comm]; exact upToNul_eq.symm
  have key' : ∀ s : Str, '\x00' ∉ s ↔ backslashed s = upToNul (backslashed s) := fun s => by rw [← key, nul_backslashed]
  cases op <;> cases hc <;> simp only [NulFree, Call.rename, Call.mount.injEq, Call.delete.injEq, Call.rmdir.injEq, Call.findFirst.injEq,
    Call.findNext.injEq, true_and] <;> first | exact key' _ | exact key _

/-- **C90** What a server hears: exactly the call that was made, with the name up to its first NUL (in full for the calls that open). -/
theorem C90_heard (hlog : Logs E.V log) {op : Op} {c : Call} (hc : callOf op = some c) {s : St σ} {p : Bytes}
    (h : Sent log s.w.srv (runOp E op s).2.w.srv p) (c' : Call) : Hears s.cli.useUnicode p c' ↔ c' = c.rename upToNul :=
  hears_iff (sent_isCall hlog hc h)

/-- **C90** Calls with names without NUL are heard as they were made. Missing: names with NULs. -/
theorem C90_plain_partial (hlog : Logs E.V log) {op : Op} {c : Call} (hc : callOf op = some c) {s : St σ} {p : Bytes}
    (h : Sent log s.w.srv (runOp E op s).2.w.srv p) (h0 : NulFree op) : Hears s.cli.useUnicode p c :=
  (C90_heard hlog hc h c).mpr ((nulFree_iff hc).mp h0)

/-- **C90 violated.** A call with a NUL in its name is sent, and heard as another one. -/
theorem C90_violated (hlog : Logs E.V log) {op : Op} {c : Call} (hc : callOf op = some c) {s : St σ} {p : Bytes}
    (h : Sent log s.w.srv (runOp E op s).2.w.srv p) (h0 : ¬ NulFree op) : ¬ Hears s.cli.useUnicode p c ∧ ∃ c', c' ≠ c ∧ Hears s.cli.useUnicode p c' :=
  ⟨fun hh => h0 ((nulFree_iff hc).mpr ((C90_heard hlog hc h c).mp hh)),
    _, fun e => h0 ((nulFree_iff hc).mpr e.symm), (C90_heard hlog hc h _).mpr rfl⟩

/-- The rest of the packet after the name of the share, in the requests of this client: the kind of share that is asked for, `?????`. -/
def C90_any : Bytes := [0x3f, 0x3f, 0x3f, 0x3f, 0x3f, 0]

/-- **C90** What is read after the name of the share in a request to mount, which is the kind of share that the client asks for: any kind, or, if there is a NUL
in the name, whatever comes after it. -/
theorem C90_kind (hlog : Logs E.V log) (path password : Str) (s : St σ) {p : Bytes} (h0 : '\x00' ∉ path) :
    (Sent log s.w.srv (runOp E (.mount path password) s).2.w.srv p → ∀ name rest, ReadsShare s.cli.useUnicode p (passwordField password) name rest ↔
      name = backslashed path ∧ rest = C90_any) ∧
    ∀ more, Sent log s.w.srv (runOp E (.mount (path ++ '\x00' :: more) password) s).2.w.srv p →
      ∃ b, (if s.cli.useUnicode then Utf16le (backslashed more) b else b = utf8Bytes (backslashed more)) ∧
        ∀ name rest, ReadsShare s.cli.useUnicode p (passwordField password) name rest ↔
          name = backslashed path ∧ rest = b ++ (if s.cli.useUnicode then [0, 0] else [0]) ++ C90_any := by
  have iff : ∀ {name rest}, ReadsShare s.cli.useUnicode p (passwordField password) name rest →
      ∀ name' rest', ReadsShare s.cli.useUnicode p (passwordField password) name' rest' ↔ name' = name ∧ rest' = rest :=
    fun hr _ _ => ⟨fun hr' => readsShare_unique hr' hr, fun ⟨e1, e2⟩ => e1 ▸ e2 ▸ hr⟩
  have h0' : '\x00' ∉ backslashed path := by rwa [nul_backslashed]
  constructor
  · intro h
    refine iff ?_
    obtain ⟨_, _, _, pad, name, nul, hd, hc⟩ := sent_isCall hlog rfl h
    cases hu : s.cli.useUnicode with
    | true =>
      rw [hu, if_pos rfl] at hc
      obtain ⟨h1, h2, h3, rfl⟩ := hc
      exact ⟨pad, name ++ [0, 0] ++ C90_any, by rw [hd]; simp only [List.append_assoc, C90_any], by rw [if_pos rfl]; exact ⟨h1, h2, h0', name, h3, rfl⟩⟩
    | false =>
      rw [hu, if_neg (by simp)] at hc
      obtain ⟨h1, rfl, rfl⟩ := hc
      exact ⟨pad, utf8Bytes (backslashed path) ++ [0] ++ C90_any, by rw [hd]; simp only [List.append_assoc, C90_any],
        by rw [if_neg (by simp)]; exact ⟨h1, h0', rfl⟩⟩
  · intro more h
    have eb : backslashed (path ++ '\x00' :: more) = backslashed path ++ '\x00' :: backslashed more := by
      simp only [backslashed, List.map_append, List.map_cons]; congr 1
    obtain ⟨_, _, _, pad, name, nul, hd, hc⟩ := sent_isCall hlog rfl h
    rw [eb] at hc
    cases hu : s.cli.useUnicode with
    | true =>
      rw [hu] at iff
      rw [hu, if_pos rfl] at hc
      obtain ⟨h1, h2, h3, rfl⟩ := hc
      obtain ⟨b1, b2, rfl, h4, h5⟩ := utf16le_split h3
      obtain ⟨b, rfl, h6⟩ := utf16le_nul h5
      refine ⟨b, by rw [if_pos rfl]; exact h6, iff ?_⟩
      exact ⟨pad, b1 ++ [0, 0] ++ (b ++ [0, 0] ++ C90_any), by rw [hd]; simp [C90_any], by rw [if_pos rfl]; exact ⟨h1, h2, h0', b1, h4, rfl⟩⟩
    | false =>
      rw [hu] at iff
      rw [hu, if_neg (by simp)] at hc
      obtain ⟨h1, rfl, rfl⟩ := hc
      refine ⟨utf8Bytes (backslashed more), by rw [if_neg (by simp)], iff ?_⟩
      exact ⟨pad, utf8Bytes (backslashed path) ++ [0] ++ (utf8Bytes (backslashed more) ++ [0] ++ C90_any), by rw [hd, utf8_nul]; simp [C90_any],
        by rw [if_neg (by simp)]; exact ⟨h1, h0', rfl⟩⟩

theorem reads_account {p response : Bytes} {user domain : Str} (h : IsClassicSetup p response user domain) :
    ('\x00' ∉ user → '\x00' ∉ domain → ∀ u d, ReadsAccount p response u d ↔ u = user ∧ d = domain) ∧
    ∀ u more, '\x00' ∉ u → user = u ++ '\x00' :: more → ReadsAccount p response u (upToNul more) := by
  obtain ⟨_, ps, b, b', _, _, _, _, _, _, _, hu, hd, hp⟩ := h
  constructor
  · intro h1 h2 u d
    have hr : ReadsAccount p response user domain := by
      refine ⟨b ++ [0, 0] ++ (b' ++ [0, 0] ++ emptyNames p), b' ++ [0, 0] ++ emptyNames p, emptyNames p, ?_, ⟨h1, b, hu, rfl⟩, ⟨h2, b', hd, rfl⟩⟩
      rw [hp]; simp only [List.append_assoc]
    constructor
    · rintro ⟨x, x', r, e, k1, k2⟩
      obtain ⟨y, y', r', e', k1', k2'⟩ := hr
      have e := List.append_cancel_left (Option.some.inj (e.symm.trans e'))
      subst e
      obtain ⟨rfl, rfl⟩ := nulText_unique k1 k1'
      exact ⟨rfl, (nulText_unique k2 k2').1⟩
    · rintro ⟨rfl, rfl⟩; exact hr
  · rintro u more h0 rfl
    obtain ⟨b1, b2, rfl, h4, h5⟩ := utf16le_split hu
    obtain ⟨r, rfl, h6⟩ := utf16le_nul h5
    obtain ⟨rest, hr⟩ := nulText_of h6 (b' ++ [0, 0] ++ emptyNames p)
    refine ⟨b1 ++ [0, 0] ++ (r ++ [0, 0] ++ (b' ++ [0, 0] ++ emptyNames p)), _, rest, ?_, ⟨h0, b1, h4, rfl⟩, hr⟩
    rw [hp]; simp

/-- **C90** What a server without extended security reads in a login: the account, or, if there is a NUL in the name of the user, what comes after it for the
domain. -/
theorem C90_login (hlog : Logs E.V log) {s s' : St σ} (h : setupConnection E s = (.ok (), s')) :
    ∃ packets, log s'.w.srv = log s.w.srv ++ packets ∧ ∀ p p', packets = [p, p'] → ∃ response, response.length = 24 ∧
      ('\x00' ∉ s.cli.auth.user → '\x00' ∉ s.cli.auth.domain → ∀ u d, ReadsAccount p' response u d ↔ u = s.cli.auth.user ∧ d = s.cli.auth.domain) ∧
      ∀ u more, '\x00' ∉ u → s.cli.auth.user = u ++ '\x00' :: more → ReadsAccount p' response u (upToNul more) := by
  obtain ⟨packets, ps, st, h1, -, h2, -⟩ := C46_login hlog h
  refine ⟨packets, h1, ?_⟩
  rintro p p' rfl
  cases h2 with
  | classic _ _ hl h' _ => exact ⟨_, hl, reads_account h'⟩

end

/-! ## Services -/

theorem answers_rename {V : Server σ} {own : Nat → Prop} {v : σ} {req : Bytes} {c : Call} {r : Answer} (f : Str → Str) :
    Answers V own v req (c.rename f) r ↔ Answers V own v req c r := by
  cases r with
  | refused => cases c <;> exact Iff.rfl
  | value x => cases c <;> cases x <;> exact Iff.rfl

/-- **C90** A server that offers a service and reads names like this looks to this client like a server that offers the service with all names cut; and the other
way round. -/
theorem C90_service {V : Server σ} {own : Nat → Prop} {unicode : Bool} {uid : Nat} {Does : A → Call → Answer → A → Prop} {rel : A → σ → Prop} :
    Listens V own unicode uid Does rel ↔ Implements V own unicode uid (fun a c r a' => Does a (c.rename upToNul) r a') rel := by
  constructor
  · intro hl a v req c ha hc hu
    obtain ⟨r, a', h1, h2, h3⟩ := hl a v req _ ha (hears_cut hc) hu
    exact ⟨r, a', h1, (answers_rename _).mp h2, h3⟩
  · intro hi a v req c ha hc hu
    obtain ⟨full, hf⟩ := hc.1
    obtain ⟨r, a', h1, h2, h3⟩ := hi a v req _ ha hf hu
    rw [hears_unique (hears_cut hf) hc] at h1
    exact ⟨r, a', h1, (answers_rename _).mp h2, h3⟩

theorem speakable_rename {c : Call} {r : Answer} (f : Str → Str) (h : Speakable (c.rename f) r) : Speakable c r := by
  cases c <;> cases r with
  | refused => exact h
  | value x => cases x <;> exact h

/-- **C90** There are such servers, for every service. -/
theorem C90_possible (own : Nat → Prop) (unicode : Bool) (step : A → Call → Answer × A) (h : ∀ a c, Speakable c (step a c).1) :
    ∃ V : Server A, ∀ uid, Listens V own unicode uid (fun a c r a' => step a c = (r, a')) (fun a v => a = v) := by
  obtain ⟨V, hV⟩ := C66_services own unicode (fun a c => step a (c.rename upToNul)) fun a c => speakable_rename upToNul (h a _)
  exact ⟨V, fun uid => C90_service.mpr (hV uid)⟩

/-- **C90 violated**, what comes of it: if the client is told to delete a file with a NUL in its name, and this succeeds, then it is the file with the name
up to the NUL that was there and is gone. -/
theorem C90_violated_delete {E : Env σ} {own : Nat → Prop} {M : Str → Str → Prop} {rel : Trees → σ → Prop} (hM : Globs M) {s : St σ}
    (hl : Listens E.V own s.cli.useUnicode s.cli.uid.toNat (Deletes M) rel) (share : Share) (name more : Str) (hw : ∀ c ∈ name, c ∉ wildcards)
    (h0 : '\x00' ∉ name) (n : Nat) (a : Trees) (hr : Ready E own (n + 1) s) (ha : rel a s.w.srv) {v : Val} {s' : St σ}
    (hrun : runOp E (.delete share (name ++ '\x00' :: more)) s = (.ok v, s')) :
    a share.tid.toNat (backslashed name) ≠ none ∧ ∃ a', rel a' s'.w.srv ∧ Lost a share.tid.toNat (· = backslashed name) a' := by
  obtain ⟨o, a', t, h1, h2, h3, -⟩ := C66_operation (C90_service.mp hl) (.delete share (name ++ '\x00' :: more)) n a hr ha
  rw [hrun] at h2
  obtain ⟨rfl, rfl⟩ := Prod.mk.inj h2
  have hw' : ∀ c ∈ backslashed name, c ∉ wildcards := by
    intro c hc
    obtain ⟨d, hd, rfl⟩ := List.mem_map.mp hc
    split
    · decide
    · exact hw d hd
  generalize ho : Out.ok v = o at h1
  cases h1 with
  | long hl => subst ho; rcases hl.2 with ⟨_, h⟩ | ⟨_, _, h⟩ <;> cases h
  | single hc hd =>
    cases hc
    have e : upToNul (backslashed (name ++ '\x00' :: more)) = backslashed name := by rw [upToNul_backslashed, upToNul_cut h0]
    have hd : Deletes M a (.delete share.tid.toNat (upToNul (backslashed (name ++ '\x00' :: more)))) _ a' := hd
    rw [e] at hd
    cases hd with
    | deleted hq hh hlost =>
      have e := hits_plain hM hw' hh
      subst e
      refine ⟨hq, a', h3, fun t p => ⟨?_, ?_⟩⟩
      · rintro ⟨ht, rfl⟩; exact (hlost t _).1 ⟨ht, hh⟩
      · intro hn; exact (hlost t p).2 (fun ⟨ht, hp⟩ => hn ⟨ht, hits_plain hM hw' hp⟩)
    | refused => cases ho
    | other hc => exact absurd rfl (hc _ _)

namespace Demo

/-- non-vacuity of `C90_heard`, `C90_plain_partial` and `C90_violated`: for all the calls, a packet is sent; with a NUL in its name. -/
example : ∀ op ∈ [Op.mount ['s', '\x00', 'a'] [], .delete share ['s', '\x00', 'a'], .rmdir share ['s', '\x00', 'a'], .findFirst share ['s', '\x00', 'a'],
      .findNext share 7 ['s', '\x00', 'a']],
    ∃ p c, callOf op = some c ∧ Sent Prod.snd (st []).w.srv (runOp (env true) op (st [])).2.w.srv p ∧ ¬ Hears true p c ∧
      Hears true p (c.rename fun _ => ['s']) := by
  intro op hop
  have main : ∀ {p c}, callOf op = some c → ¬ NulFree op → c.rename upToNul = c.rename (fun _ => ['s']) →
      Sent Prod.snd (st []).w.srv (runOp (env true) op (st [])).2.w.srv p →
      ∃ p c, callOf op = some c ∧ Sent Prod.snd (st []).w.srv (runOp (env true) op (st [])).2.w.srv p ∧ ¬ Hears true p c ∧
        Hears true p (c.rename fun _ => ['s']) := fun {p c} hc h0 he hp =>
    ⟨p, c, hc, hp, (C90_violated (E := env true) (log := Prod.snd) (logs_logged _) hc hp h0).1,
      he ▸ (C90_heard (E := env true) (log := Prod.snd) (logs_logged _) hc hp _).mpr rfl⟩
  simp only [List.mem_cons, List.not_mem_nil, or_false] at hop
  rcases hop with rfl | rfl | rfl | rfl | rfl <;> exact main rfl (by simp [NulFree]) rfl ⟨_, rfl, .head _⟩

/-- non-vacuity of `C90_violated_delete`: the user deletes `a␀b`, of which there is none; the file `a` is deleted, and `b` is still there. -/
example : ∃ (E : Env Trees) (s s' : St Trees), s.w.srv = twoFiles ∧ runOp E (.delete share ['a', '\x00', 'b']) s = (.ok .unit, s') ∧
    s'.w.srv share.tid.toNat ['a'] = none ∧ s'.w.srv share.tid.toNat ['b'] = some [2] := by
  obtain ⟨V, hV⟩ := C90_possible (fun _ => True) true (C88_step glob) step_speakable
  have hr : Ready { env true with V := V } (fun _ => True) 2
    { cli := cli, w := { inbox := [], wsched := [.accept 3, .accept 10], out := [], srv := twoFiles } } :=
    ⟨by intro ev he; simp at he; rcases he with rfl | rfl <;> exact ⟨_, rfl⟩, .nil, fun _ _ => trivial, fun _ => by decide⟩
  have hl : Listens V (fun _ => True) true cli.uid.toNat (Deletes glob) (fun a v => a = v) := fun a v req c ha hc hu =>
    let ⟨r, a', h1, h2, h3⟩ := hV _ a v req c ha hc hu
    ⟨r, a', step_deletes h1, h2, h3⟩
  obtain ⟨s', h1, h2, -⟩ := step_call (step := fun a c => C88_step glob a (c.rename upToNul)) (E := { env true with V := V })
    (op := .delete share ['a', '\x00', 'b']) (n := 1) (r := .value .unit) (a' := (C88_step glob twoFiles (.delete share.tid.toNat ['a'])).2)
    (C90_service.mp (hV _)) hr rfl
    (show _ ≤ _ by decide +kernel) (by
      show C88_step glob twoFiles (.delete share.tid.toNat ['a']) = _
      rw [C88_step, if_pos ⟨['a'], by decide, [], ['a'], ['a'], rfl, rfl, by decide, by decide, .inl rfl, .inr rfl⟩])
  obtain ⟨-, a', rfl, h4⟩ := C90_violated_delete (E := { env true with V := V }) glob_globs hl share ['a'] ['b'] (by decide) (by decide) 1 twoFiles hr rfl h1
  exact ⟨_, _, s', rfl, h1, (h4 _ _).1 ⟨rfl, rfl⟩, ((h4 _ _).2 (by decide)).trans (by decide)⟩

/-- non-vacuity of `C90_kind`: the second letter of the path, U+3A41, is read as the kind of share `A:`, which the user did not ask for. -/
example : ∃ p, Sent Prod.snd (st []).w.srv (runOp (env true) (.mount ['s', '\x00', '㩁'] []) (st [])).2.w.srv p ∧
    ReadsShare true p (passwordField []) ['s'] ([0x41, 0x3a] ++ [0, 0] ++ C90_any) := by
  have h : ∃ p, Sent Prod.snd (st []).w.srv (runOp (env true) (.mount ['s', '\x00', '㩁'] []) (st [])).2.w.srv p := ⟨_, _, rfl, .head _⟩
  obtain ⟨p, hp⟩ := h
  obtain ⟨b, h1, h2⟩ := (C90_kind (E := env true) (log := Prod.snd) (logs_logged _) ['s'] [] (st []) (p := p) (by decide)).2 ['㩁'] hp
  have e : b = [0x41, 0x3a] := (utf16le_unique h1).trans (by decide)
  exact ⟨p, hp, e ▸ (h2 _ _).mpr ⟨rfl, rfl⟩⟩

/-- The login of the user `u␀d` of the domain `w` to a server without extended security. -/
def twisted : St (List (List Bytes) × List Bytes) := loginSt ⟨['u', '\x00', 'd'], [], ['w'], []⟩ (legacy (.Known .SUCCESS))

theorem twisted_enters : (setupConnection (env true) twisted).1 = .ok () := by decide +kernel

theorem twisted_sends : (setupConnection (env true) twisted).2.w.srv.2.length = 2 := by decide +kernel

/-- non-vacuity of `C90_login`: it succeeds, and the server reads the user `u` of the domain `d`. -/
example : ∃ s', setupConnection (env true) twisted = (.ok (), s') ∧ ∃ p ∈ s'.w.srv.2, ∃ response, ReadsAccount p response ['u'] ['d'] := by
  have e := twisted_enters
  have hl := twisted_sends
  rcases hr : setupConnection (env true) twisted with ⟨o, s'⟩
  rw [hr] at e hl
  have e : o = .ok () := e
  subst e
  obtain ⟨packets, h1, h2⟩ := C90_login (E := env true) (log := Prod.snd) (logs_logged _) hr
  have h1 : s'.w.srv.2 = packets := h1
  have hl : s'.w.srv.2.length = 2 := hl
  rw [h1] at hl
  match packets, hl with
  | [p, p'], _ =>
    obtain ⟨response, -, -, h3⟩ := h2 p p' rfl
    exact ⟨_, rfl, p', by rw [h1]; simp, response, h3 ['u'] ['d'] (by decide) rfl⟩

end Demo

end Cifs
