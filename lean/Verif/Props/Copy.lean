import Verif.Props.Names
import Verif.Spec.Copy
/-!
# Copying a directory with everything below it (C92)
-/

namespace Cifs
open Spec

variable {σ α β : Type} {E : Env σ} {own : Nat → Prop} {look : Volume → Str → List DirInfo} {unicode : Bool} {rel : Store → σ → Prop}

/-! ## Programs, with the requests counted -/

/-- Whatever the file system chooses: the program can do all of its operations, makes at most `n` requests, and `Q` holds for the number of requests that
are left, its result and the state afterwards. -/
def EnsuresIn (look : Volume → Str → List DirInfo) (unicode : Bool) (Q : Nat → α → Store → Prop) : Nat → Prog α → Store → Prop
  | n, .done x, a => Q n x a
  | n, .call op next, a => cost op ≤ n ∧ a.Can look unicode op ∧ ∀ o a', a.Expects look op o a' → EnsuresIn look unicode Q (n - cost op) (next o) a'

theorem ensuresIn_bind {Q : Nat → β → Store → Prop} {f : α → Prog β} {p : Prog α} : ∀ {n : Nat} {a : Store},
    EnsuresIn look unicode (fun m x b => EnsuresIn look unicode Q m (f x) b) n p a → EnsuresIn look unicode Q n (p.bind f) a := by
  induction p with
  | done x => exact fun h => h
  | call op next ih => exact fun h => ⟨h.1, h.2.1, fun o a' he => ih o (h.2.2 o a' he)⟩

theorem ensuresIn_mono {Q R : Nat → α → Store → Prop} {p : Prog α} : ∀ {n : Nat} {a : Store} (_ : ∀ m x b, Q m x b → R m x b)
    (_ : EnsuresIn look unicode Q n p a), EnsuresIn look unicode R n p a := by
  induction p with
  | done x => exact fun h he => h _ _ _ he
  | call op next ih => exact fun h he => ⟨he.1, he.2.1, fun o a' ho => ih o h (he.2.2 o a' ho)⟩

/-- With a server that offers the file system, the program does what it ensures. -/
theorem ensuresIn_run {p : Prog α} {Q : Nat → α → Store → Prop} {a : Store} {s : St σ}
    (hi : Implements E.V own s.cli.useUnicode s.cli.uid.toNat (FileSystem look) rel) (n : Nat) (hr : Ready E own n s) (ha : rel a s.w.srv)
    (he : EnsuresIn look s.cli.useUnicode Q n p a) :
    ∃ x m a' s', p.run E s = (x, s') ∧ Q m x a' ∧ rel a' s'.w.srv ∧ SameUser s.cli s'.cli ∧ Ready E own m s' := by
  induction p generalizing s n a with
  | done y => exact ⟨y, n, a, s, rfl, he, ha, ⟨rfl, rfl⟩, hr⟩
  | call op next ih =>
    obtain ⟨o, a1, s1, h0, h1, h2, h3, h4⟩ := C80_operation_partial hi op (n - cost op) a (by rw [Nat.sub_add_cancel he.1]; exact hr) ha he.2.1
    obtain ⟨x, m, a', s', h5, h6, h7, h8, h9⟩ := ih o (s := s1) (by rw [h3.1, h3.2]; exact hi) (n - cost op) h4 h2 (by rw [h3.1]; exact he.2.2 _ _ h0)
    refine ⟨x, m, a', s', ?_, h6, h7, ⟨h8.1.trans h3.1, h8.2.trans h3.2⟩, h9⟩
    show (next (runOp E op s).1).run E (runOp E op s).2 = _
    rw [h1]
    exact h5

/-! ## Paths -/

theorem backslashed_plain {path : Str} (h : '/' ∉ path) : backslashed path = path := by
  unfold backslashed
  induction path with
  | nil => rfl
  | cons c l ih =>
    simp only [List.mem_cons, not_or] at h
    rw [List.map_cons, if_neg (fun e => h.1 e.symm), ih h.2]

theorem inside_plain {path name : Str} (h : '/' ∉ path) (hn : '/' ∉ name) : '/' ∉ inside path name := by
  simp [inside, h, hn]

theorem leads_plain {name : Str} (h : Leads name) : '/' ∉ name := fun hm => (h.1.2 _ hm).1 rfl

theorem below_append (path : Str) (l m : List Str) : below path (l ++ m) = below (below path l) m := by
  induction l generalizing path with
  | nil => rfl
  | cons n l ih => exact ih _

/-- What is above something is a directory. -/
theorem closed_below {vol : Volume} (hc : ∀ p name, Leads name → vol (inside p name) ≠ none → vol p = some .dir) {names : List Str}
    (hn : ∀ n ∈ names, Leads n) (hne : names ≠ []) {path : Str} (hv : vol (below path names) ≠ none) : vol path = some .dir := by
  induction names generalizing path with
  | nil => exact absurd rfl hne
  | cons n l ih =>
    by_cases hl : l = []
    · subst hl; exact hc _ _ (hn n (by simp)) hv
    · refine hc _ _ (hn n (by simp)) ?_
      rw [ih (fun m hm => hn m (by simp [hm])) hl hv]
      nofun

/-- The path of something below a directory begins with the name of what it is in, or is. -/
theorem below_inside (path name : Str) (names : List Str) : ∃ t, (t = [] ∨ ∃ u, t = '\\' :: u) ∧ below (inside path name) names = path ++ '\\' :: (name ++ t) := by
  induction names generalizing path name with
  | nil => exact ⟨[], .inl rfl, by simp [below, inside]⟩
  | cons n l ih =>
    obtain ⟨t, -, h⟩ := ih (inside path name) n
    exact ⟨'\\' :: (n ++ t), .inr ⟨_, rfl⟩, by rw [below, h, inside]; simp⟩

theorem upToSlash {name t : Str} (h : '\\' ∉ name) (ht : t = [] ∨ ∃ u, t = '\\' :: u) : (name ++ t).takeWhile (· != '\\') = name := by
  rw [List.takeWhile_append_of_pos (by intro c hc; simp only [bne_iff_ne]; rintro rfl; exact h hc)]
  rcases ht with rfl | ⟨u, rfl⟩ <;> simp

theorem below_inj {path n m : Str} (hn : Leads n) (hm : Leads m) {l l' : List Str} (h : below (inside path n) l = below (inside path m) l') : n = m := by
  obtain ⟨t, h1, h2⟩ := below_inside path n l
  obtain ⟨t', h3, h4⟩ := below_inside path m l'
  rw [h2, h4, List.append_cancel_left_eq, List.cons.injEq] at h
  have := congrArg (List.takeWhile (· != '\\')) h.2
  rwa [upToSlash (fun hc => (hn.1.2 _ hc).2.1 rfl) h1, upToSlash (fun hc => (hm.1.2 _ hc).2.1 rfl) h3] at this

/-- A directory in one that can be copied can be copied, too. -/
theorem copyable_inside {vol : Volume} {k d : Nat} {path name : Str} (h : Copyable look vol k d path) (hn : Leads name)
    (hv : vol (inside path name) = some .dir) : ∃ d', d = d' + 1 ∧ Copyable look vol k d' (inside path name) := by
  have cons : ∀ {names : List Str}, (∀ n ∈ names, Leads n) → ∀ n ∈ name :: names, Leads n := fun hl n hm => by
    rcases List.mem_cons.mp hm with rfl | hm
    · exact hn
    · exact hl n hm
  cases d with
  | zero => have := h.deep [name] (cons (by simp)) (by simp); rw [show below path [name] = inside path name from rfl, hv] at this; cases this
  | succ d =>
    refine ⟨d, rfl, inside_plain h.plain (leads_plain hn), hv, h.closed, fun names hl hd => ?_, fun names hl => ?_, fun names hl => ?_, fun names hl => ?_⟩
    · exact h.deep (name :: names) (cons hl) (by simp; omega)
    · exact h.shown (name :: names) (cons hl)
    · exact h.pages (name :: names) (cons hl)
    · exact h.files (name :: names) (cons hl)

/-! ## What is copied -/

/-- What was copied from these entries. -/
def FromEntries (vol : Volume) (path : Str) (l : List DirInfo) (x : Files) : Prop :=
  ∀ p contents, (p, contents) ∈ x ↔ ∃ e ∈ l, Leads e.filename ∧ ∃ names, (∀ n ∈ names, Leads n) ∧ p = below (inside path e.filename) names ∧ vol p = some (.file contents)

/-- The names that are kept: all those of things in the directory. -/
def Keeping (keep : Str → Bool) : Prop := ∀ name, (Leads name → keep name = true) ∧ (Dots name → keep name = false)

theorem leads_not_dots {name : Str} (h : Leads name) : ¬ Dots name := fun hd => hd.elim h.2.1 h.2.2

theorem copyEntries_ensures {keep : Str → Bool} (hk : Keeping keep) {vol : Volume} {k d : Nat} {share : Share} {path : Str} {a : Store}
    (hv : a.volume share.tid.toNat = some vol) (ho : ∃ i, i < 65536 ∧ a.opened share.tid.toNat i = none) (hc : Copyable look vol k d path)
    {sub : Str → Prog (Option Files)} {steps : Str → Nat}
    (hs : ∀ name, Leads name → vol (inside path name) = some .dir → ∀ n, EnsuresIn look unicode
      (fun m x b => m = n ∧ b = a ∧ ∃ y, x = some y ∧ (∀ p contents, (p, contents) ∈ y ↔ vol.Has (inside path name) p contents) ∧ (y.map (·.1)).Nodup)
      (n + (k + 1) * steps (inside path name)) (sub (inside path name)) a) :
    ∀ (l : List DirInfo), (∀ e ∈ l, e ∈ look vol (inside path ['*'])) → (l.map (·.filename)).Nodup → ∀ n, EnsuresIn look unicode
      (fun m x b => m = n ∧ b = a ∧ ∃ y, x = some y ∧ FromEntries vol path l y ∧ (y.map (·.1)).Nodup)
      (n + (k + 1) * (l.map fun e => if keep e.filename then if isDir e then steps (inside path e.filename) else 1 else 0).sum)
      (copyEntries keep k share path sub l) a := by
  intro l
  induction l with
  | nil => intro _ _ n; exact ⟨by simp, rfl, [], rfl, fun p c => by simp, .nil⟩
  | cons e l ih =>
    intro hl hnd n
    rw [List.map_cons, List.nodup_cons] at hnd
    have he := hl e (by simp)
    have ih := ih (fun e he => hl e (by simp [he])) hnd.2
    have shown : Shown look vol path := hc.shown [] (by simp) hc.root
    rw [List.map_cons, List.sum_cons, copyEntries]
    rcases shown.names e he with hd | hlead
    · rw [(hk _).2 hd, if_neg (by simp), if_neg (by simp), Nat.zero_add]
      refine ensuresIn_mono (fun m x b h => ?_) (ih n)
      obtain ⟨h1, h2, y, h3, h4, hy⟩ := h
      refine ⟨h1, h2, y, h3, fun p c => (h4 p c).trans ⟨fun ⟨e', h5, h6⟩ => ⟨e', by simp [h5], h6⟩, fun ⟨e', h5, h6⟩ => ⟨e', ?_, h6⟩⟩, hy⟩
      rcases List.mem_cons.mp h5 with rfl | h5
      · exact absurd hd (leads_not_dots h6.1)
      · exact h5
    · rw [(hk _).1 hlead, if_pos rfl, if_pos rfl, Nat.mul_add]
      have kinds := shown.kinds e he hlead
      -- the rest
      have rest : ∀ (x : Files), (∀ p contents, (p, contents) ∈ x ↔ ∃ names, (∀ n ∈ names, Leads n) ∧ p = below (inside path e.filename) names ∧
          vol p = some (.file contents)) → (x.map (·.1)).Nodup → EnsuresIn look unicode (fun m x b => m = n ∧ b = a ∧ ∃ y, x = some y ∧ FromEntries vol path (e :: l) y ∧ (y.map (·.1)).Nodup)
          (n + (k + 1) * (l.map fun e => if keep e.filename then if isDir e then steps (inside path e.filename) else 1 else 0).sum)
          ((copyEntries keep k share path sub l).bind fun y => .done (y.map (x ++ ·))) a := by
        intro x hx hxn
        refine ensuresIn_bind (ensuresIn_mono (fun m y b h => ?_) (ih n))
        obtain ⟨h1, h2, y, rfl, h4, hy⟩ := h
        refine ⟨h1, h2, x ++ y, rfl, fun p c => ?_, ?_⟩
        rotate_left
        · rw [List.map_append, List.nodup_append]
          refine ⟨hxn, hy, ?_⟩
          rintro p hp q hq rfl
          obtain ⟨⟨p1, c⟩, hp1, rfl⟩ := List.mem_map.mp hp
          obtain ⟨⟨p2, c'⟩, hp2, hpq⟩ := List.mem_map.mp hq
          cases hpq
          obtain ⟨names, -, h5, -⟩ := (hx _ _).mp hp1
          obtain ⟨e', he', h6, names', -, h7, -⟩ := (h4 _ _).mp hp2
          have := below_inj hlead h6 (h5.symm.trans h7)
          exact hnd.1 (List.mem_map.mpr ⟨e', he', this.symm⟩)
        rw [List.mem_append, hx, h4]
        constructor
        · rintro (⟨names, h⟩ | ⟨e', h5, h6⟩)
          · exact ⟨e, by simp, hlead, names, h⟩
          · exact ⟨e', by simp [h5], h6⟩
        · rintro ⟨e', h5, h6, h7⟩
          rcases List.mem_cons.mp h5 with rfl | h5
          · exact .inl h7
          · exact .inr ⟨e', h5, h6, h7⟩
      refine ensuresIn_bind ?_
      by_cases hdir : isDir e
      · rw [if_pos hdir, if_pos hdir]
        rw [if_pos hdir] at kinds
        rw [show ∀ u v : Nat, n + (u + v) = (n + v) + u from fun u v => by omega]
        refine ensuresIn_mono (fun m x b h => ?_) (hs e.filename hlead kinds _)
        obtain ⟨rfl, rfl, y, rfl, h4, hy⟩ := h
        refine rest y (fun p c => (h4 p c).trans ⟨fun ⟨names, _, h⟩ => ⟨names, h⟩, fun ⟨names, h1, h2, h3⟩ => ⟨names, ?_, h1, h2, h3⟩⟩) hy
        rintro rfl
        rw [h2] at h3
        rw [show below (inside path e.filename) [] = inside path e.filename from rfl, kinds] at h3
        cases h3
      · rw [if_neg hdir, if_neg hdir]
        rw [if_neg hdir] at kinds
        obtain ⟨contents, kinds⟩ := kinds
        have hplain := backslashed_plain (inside_plain hc.plain (leads_plain hlead))
        have hf := hc.files [e.filename] (by simpa using hlead) contents kinds
        refine ⟨by show k + 1 ≤ _; omega, ⟨hf.1, ho, vol, hv, ?_⟩, fun o a1 hexp => ?_⟩
        · rw [hplain, kinds]; intro c hcc; cases hcc; exact hf.2
        · obtain ⟨rfl, rfl⟩ := expects_download hexp hv
          rw [hplain, kinds, show ∀ v : Nat, n + ((k + 1) * 1 + v) - cost (.download k share (inside path e.filename)) = n + v from fun v => by
            show n + ((k + 1) * 1 + v) - (k + 1) = n + v; omega]
          refine rest [(inside path e.filename, contents)] (fun p c => ?_) (by simp)
          rw [List.mem_singleton]
          constructor
          · intro h; cases h; exact ⟨[], by simp, rfl, kinds⟩
          · rintro ⟨names, h1, rfl, h3⟩
            by_cases hne : names = []
            · subst hne
              rw [show below (inside path e.filename) [] = inside path e.filename from rfl] at h3 ⊢
              rw [kinds] at h3; cases h3; rfl
            · have := closed_below hc.closed h1 hne (path := inside path e.filename) (by rw [h3]; nofun)
              rw [kinds] at this; cases this

/-- Copying ensures that there is a copy. -/
theorem copyTree_ensures {keep : Str → Bool} (hk : Keeping keep) {vol : Volume} {k : Nat} {share : Share} {a : Store}
    (hv : a.volume share.tid.toNat = some vol) (ho : ∃ i, i < 65536 ∧ a.opened share.tid.toNat i = none)
    (hsr : ∃ i, i < 65536 ∧ a.searches share.tid.toNat i = none) :
    ∀ (d : Nat) (path : Str), Copyable look vol k d path → ∀ n, EnsuresIn look unicode
      (fun m x b => m = n ∧ b = a ∧ ∃ y, x = some y ∧ (∀ p contents, (p, contents) ∈ y ↔ vol.Has path p contents) ∧ (y.map (·.1)).Nodup)
      (n + (k + 1) * copySteps keep look vol (d + 1) path) (copyTree keep k share (d + 1) path) a := by
  intro d
  induction d with
  | zero | succ d ih =>
    intro path hc n
    have hplain := backslashed_plain (inside_plain hc.plain (show '/' ∉ ['*'] by decide))
    have hp := hc.pages [] (by simp) hc.root
    have shown : Shown look vol path := hc.shown [] (by simp) hc.root
    rw [copyTree, copySteps, Nat.mul_add]
    refine ⟨by show k + 1 ≤ _; omega, ⟨hp.1, hsr, vol, hv, by rw [hplain]; exact hp.2⟩, fun o a1 hexp => ?_⟩
    obtain ⟨rfl, rfl⟩ := expects_list hexp hv
    rw [hplain, show ∀ v : Nat, n + ((k + 1) * 1 + v) - cost (.list k share (inside path ['*'])) = n + v from fun v => by
      show n + ((k + 1) * 1 + v) - (k + 1) = n + v; omega]
    refine ensuresIn_mono (fun m x b h => ?_) (copyEntries_ensures hk hv ho hc (fun name hn hd => ?_) _ (fun _ h => h) shown.once n)
    · obtain ⟨h1, h2, y, h3, h4, hy⟩ := h
      refine ⟨h1, h2, y, h3, fun p c => (h4 p c).trans ⟨?_, ?_⟩, hy⟩
      · rintro ⟨e, -, h6, names, h7, h8, h9⟩
        exact ⟨e.filename :: names, by simp, by simpa using ⟨h6, h7⟩, h8, h9⟩
      · rintro ⟨names, h6, h7, h8, h9⟩
        cases names with
        | nil => exact absurd rfl h6
        | cons name names =>
          simp only [List.mem_cons, forall_eq_or_imp] at h7
          have : vol (inside path name) ≠ none := by
            by_cases hne : names = []
            · subst hne; rw [show inside path name = p from h8.symm, h9]; nofun
            · rw [closed_below hc.closed h7.2 hne (path := inside path name) (by rw [show below (inside path name) names = p from h8.symm, h9]; nofun)]; nofun
          obtain ⟨e, he, rfl⟩ := shown.found name h7.1 this
          exact ⟨e, he, h7.1, names, h7.2, h8, h9⟩
    · obtain ⟨d', hd', hc'⟩ := copyable_inside hc hn hd
      first
        | (cases hd'; done)
        | (cases hd'; exact ih _ hc')

/-- **C92** A directory can be copied with everything below it: with every server that offers the file system, the program that lists directories and
downloads files brings the files below the directory, all of them and no others, each once and with its contents; the file system is as it was, and
further requests can be made. -/
theorem C92_copy {keep : Str → Bool} (hk : Keeping keep) {s : St σ} (hi : Implements E.V own s.cli.useUnicode s.cli.uid.toNat (FileSystem look) rel)
    {vol : Volume} {k d : Nat} {share : Share} {path : Str} {a : Store} (hv : a.volume share.tid.toNat = some vol)
    (ho : ∃ i, i < 65536 ∧ a.opened share.tid.toNat i = none) (hsr : ∃ i, i < 65536 ∧ a.searches share.tid.toNat i = none)
    (hc : Copyable look vol k d path) (n : Nat) (hr : Ready E own (n + (k + 1) * copySteps keep look vol (d + 1) path) s) (ha : rel a s.w.srv) :
    ∃ files s', (copyTree keep k share (d + 1) path).run E s = (some files, s') ∧
      (∀ p contents, (p, contents) ∈ files ↔ vol.Has path p contents) ∧ (files.map (·.1)).Nodup ∧
      rel a s'.w.srv ∧ SameUser s.cli s'.cli ∧ Ready E own n s' := by
  obtain ⟨x, m, a', s', h1, ⟨rfl, rfl, y, rfl, h2, h3⟩, h4, h5, h6⟩ :=
    ensuresIn_run hi _ hr ha (copyTree_ensures hk hv ho hsr d path hc n)
  exact ⟨y, s', h1, h2, h3, h4, h5, h6⟩

/-- Mounting, copying and unmounting. -/
theorem fetchTree_ensures {keep : Str → Bool} (hk : Keeping keep) {vol : Volume} {k d : Nat} {volume path : Str} {a : Store}
    (hfit : Fits unicode (.mount volume [])) (hd : a.disk (backslashed volume) = some vol) (hm : ∃ i, i < 65536 ∧ a.mounted i = none)
    (ho : ∀ t, ∃ i, i < 65536 ∧ a.opened t i = none) (hsr : ∀ t, ∃ i, i < 65536 ∧ a.searches t i = none) (hc : Copyable look vol k d path) (n : Nat) :
    EnsuresIn look unicode (fun m x b => m = n ∧ b = a ∧ ∃ y, x = some y ∧ (∀ p contents, (p, contents) ∈ y ↔ vol.Has path p contents) ∧ (y.map (·.1)).Nodup)
      (n + (k + 1) * copySteps keep look vol (d + 1) path + 2) (fetchTree keep k volume (d + 1) path) a := by
  refine ⟨by show 1 ≤ _; omega, ⟨hfit, trivial⟩, fun o a1 he => ?_⟩
  obtain ⟨share, rfl, hf, rfl⟩ := expects_mount he hd hm
  rw [show n + (k + 1) * copySteps keep look vol (d + 1) path + 2 - cost (.mount volume []) = n + 1 + (k + 1) * copySteps keep look vol (d + 1) path from by
    show n + _ + 2 - 1 = _; omega]
  refine ensuresIn_bind (ensuresIn_mono (fun m x b h => ?_) (copyTree_ensures hk (volume_mount hd) (ho _) (hsr _) d path hc (n + 1)))
  obtain ⟨rfl, rfl, y, rfl, h1, h2⟩ := h
  refine ⟨by show 1 ≤ _; omega, ⟨trivial, trivial⟩, fun o a1 he => ?_⟩
  obtain ⟨-, rfl⟩ := expects_umount he (name := backslashed volume) (by simp [entry])
  refine ⟨rfl, ?_, y, rfl, h1, h2⟩
  have : entry (entry a.mounted share.tid.toNat (some (backslashed volume))) share.tid.toNat none = a.mounted := by
    funext i
    unfold entry
    by_cases hi : i = share.tid.toNat
    · subst hi; simp [hf]
    · simp [hi]
  dsimp only
  rw [this]

/-- **C92** From the outside: a program that connects to a server, gives the right password, mounts a volume and copies a directory has the files below it; the
file system is as it was. -/
theorem C92_session {password : Str → Str → Option Str} {room : Nat} {fresh : σ → Prop} {asked : Bool → σ → Prop}
    {challenged : Bool → Nat → Bytes → Nat → σ → Prop} {legacy : Bool → Bytes → σ → Prop} {inside : Bool → Nat → σ → Prop} {outside : σ → Prop}
    (hD : Doorkeeper E.V own E.C.hashes E.C.des password room fresh asked challenged legacy inside outside) {dial : Dial σ} {port : UInt16}
    {auth : Auth} {w : World σ} (hdial : dial port = .ok w) {keep : Str → Bool} (hk : Keeping keep) {vol : Volume} {k d : Nat} {volume path : Str}
    (hr : Ready E own ((k + 1) * copySteps keep look vol (d + 1) path + 5) { cli := .init auth, w }) (hs : fresh w.srv)
    (fit : NamesFit auth.user auth.workstation auth.domain room) (h0 : 0 ≤ E.now) (h1 : 10 * (E.now / 1000) < 2 ^ 64)
    (hp : password auth.user auth.domain = some auth.password) {a : Store}
    (hi : ∀ unicode uid v, inside unicode uid v → Implements E.V own unicode uid (FileSystem look) rel ∧ rel a v)
    (hfit : ∀ unicode, Fits unicode (.mount volume [])) (hd : a.disk (backslashed volume) = some vol) (hm : ∃ i, i < 65536 ∧ a.mounted i = none)
    (ho : ∀ t, ∃ i, i < 65536 ∧ a.opened t i = none) (hsr : ∀ t, ∃ i, i < 65536 ∧ a.searches t i = none) (hc : Copyable look vol k d path) :
    ∃ s1 files s', openCifs E dial (some port) (some auth) = { outcome := .ok (), state := some s1, ports := [port] } ∧
      (fetchTree keep k volume (d + 1) path).run E s1 = (some files, s') ∧ (∀ p contents, (p, contents) ∈ files ↔ vol.Has path p contents) ∧
      (files.map (·.1)).Nodup ∧ rel a s'.w.srv := by
  obtain ⟨s1, h2, h3, _, h4⟩ := C69_right hD (n := (k + 1) * copySteps keep look vol (d + 1) path + 2) hr hs fit h0 h1 hp
  obtain ⟨h5, h6⟩ := hi _ _ _ h4
  obtain ⟨x, m, a', s', h7, ⟨-, rfl, y, rfl, h8, h9⟩, h10, -⟩ :=
    ensuresIn_run h5 _ h3 h6 (by have := fetchTree_ensures (unicode := s1.cli.useUnicode) hk (hfit _) hd hm ho hsr hc 0; rwa [Nat.zero_add] at this)
  refine ⟨s1, y, s', ?_, h7, h8, h9, h10⟩
  simp only [openCifs, openRaw, hdial, Option.getD_some, h2]

/-! ## Servers that tell anything -/

theorem keeps_bind {P : Op → Prop} {R : α → Prop} {S : β → Prop} {f : α → Prog β} (hf : ∀ x, R x → (f x).Keeps P S) {p : Prog α} (hp : p.Keeps P R) :
    (p.bind f).Keeps P S := by
  induction p with
  | done x => exact hf x hp
  | call op next ih => exact ⟨hp.1, fun o => ih o (hp.2 o)⟩

theorem keeps_run {P : Op → Prop} {R : α → Prop} {p : Prog α} (hp : p.Keeps P R) (s : St σ) : R (p.run E s).1 := by
  induction p generalizing s with
  | done x => exact hp
  | call op next ih => exact ih _ (hp.2 _) _

/-- Below a directory. -/
def Below (path p : Str) : Prop := ∃ names, (∀ n ∈ names, Leads n) ∧ p = below path names

/-- A listing of a directory below this one, or a download of a file below it. -/
def Downwards (path : Str) (op : Op) : Prop :=
  ∃ k share p, Below path p ∧ (op = .list k share (inside p ['*']) ∨ op = .download k share p)

theorem below_trans {path p q : Str} (h : Below path p) (h' : Below p q) : Below path q := by
  obtain ⟨l, h1, rfl⟩ := h
  obtain ⟨m, h2, rfl⟩ := h'
  refine ⟨l ++ m, fun n hn => ?_, (below_append _ _ _).symm⟩
  rcases List.mem_append.mp hn with hn | hn
  · exact h1 n hn
  · exact h2 n hn

theorem below_name {path name : Str} (h : Leads name) : Below path (inside path name) := ⟨[name], by simpa using h, rfl⟩

theorem copyEntries_keeps {keep : Str → Bool} (hk : ∀ name, keep name = true → Leads name) {k : Nat} {share : Share} {root path : Str} (hp : Below root path)
    {sub : Str → Prog (Option Files)} (hs : ∀ p, Below root p → (sub p).Keeps (Downwards root) fun x => ∀ y, x = some y → ∀ f ∈ y, Below root f.1) (l : List DirInfo) :
    (copyEntries keep k share path sub l).Keeps (Downwards root) fun x => ∀ y, x = some y → ∀ f ∈ y, Below root f.1 := by
  induction l with
  | nil => intro y h; cases h; nofun
  | cons e l ih =>
    rw [copyEntries]
    split
    · rename_i hkeep
      have hb := below_trans hp (below_name (hk _ hkeep))
      refine keeps_bind (R := fun x => ∀ y, x = some y → ∀ f ∈ y, Below root f.1) (fun x hx => ?_) ?_
      · cases x with
        | none => intro y h; cases h
        | some x =>
          refine keeps_bind (fun y hy => ?_) ih
          intro z hz f hf
          cases y with
          | none => cases hz
          | some y =>
            cases hz
            rcases List.mem_append.mp hf with hf | hf
            · exact hx x rfl f hf
            · exact hy y rfl f hf
      · split
        · exact hs _ hb
        · refine ⟨⟨k, share, _, hb, .inr rfl⟩, fun o => ?_⟩
          dsimp only
          split
          · intro y h f hf; cases h; cases List.mem_singleton.mp hf; exact hb
          · intro y h; cases h
    · exact ih

/-- **C92** A program that keeps only what leads down never leaves the directory, whatever the server says: all that it asks for and all that it brings is
below the directory. -/
theorem C92_safe {keep : Str → Bool} (hk : ∀ name, keep name = true → Leads name) (k : Nat) (share : Share) (d : Nat) (root : Str) :
    (copyTree keep k share d root).Keeps (Downwards root) fun x => ∀ y, x = some y → ∀ f ∈ y, Below root f.1 := by
  have main : ∀ path, Below root path → (copyTree keep k share d path).Keeps (Downwards root) fun x => ∀ y, x = some y → ∀ f ∈ y, Below root f.1 := by
    induction d with
    | zero => intro path _ y h; cases h
    | succ d ih =>
      intro path hp
      refine ⟨⟨k, share, path, hp, .inl rfl⟩, fun o => ?_⟩
      dsimp only
      split
      · exact copyEntries_keeps hk hp ih _
      · intro y h; cases h
  exact main root ⟨[], by simp, rfl⟩

/-- **C92** So, when it is run with any server, what it brings is below the directory. -/
theorem C92_brings {keep : Str → Bool} (hk : ∀ name, keep name = true → Leads name) (k : Nat) (share : Share) (d : Nat) (root : Str) {s s' : St σ} {files : Files}
    (h : (copyTree keep k share d root).run E s = (some files, s')) : ∀ f ∈ files, Below root f.1 := by
  have := keeps_run (E := E) (C92_safe hk k share d root) s
  rw [h] at this
  exact this files rfl

/-- A volume on which there seems to be a file of this name, mounted as tree 5. -/
def strayStore (name : Str) (contents : Bytes) : Store where
  disk := fun v => if v = ['v'] then some fun p => if p = backslashed (inside [] name) then some (.file contents) else none else none
  mounted := fun tid => if tid = 5 then some ['v'] else none
  opened := fun _ _ => none
  searches := fun _ _ => none

theorem strayStore_sound {name : Str} {contents : Bytes} (hl : contents.length < 2 ^ 64) : (strayStore name contents).Sound := by
  refine ⟨fun v vol path c hd hp => ?_, fun tid n h => ?_, nofun⟩
  · unfold strayStore at hd
    dsimp only at hd
    split at hd
    · cases hd
      dsimp only at hp
      split at hp <;> cases hp
      exact hl
    · cases hd
  · unfold strayStore at h
    dsimp only at h
    split at h
    · subst tid; decide
    · cases h

/-- **C91** And so it happens: for every name but `.` and `..` there is a server with which a program that skips only these two takes the contents that the
server likes for those of a file of this name. -/
theorem C91_astray (own : Nat → Prop) (unicode : Bool) {name : Str} (hn : ¬ Dots name) (hl : utf16Len name < 29000) {k : Nat} {contents : Bytes} (hk : contents.length < k)
    (hc : contents.length < 2 ^ 64) :
    ∃ V : Server Store, ∀ (E : Env Store) (s : St Store), E.V = V → s.cli.useUnicode = unicode → s.w.srv = strayStore name contents →
      Ready E own (2 * (k + 1)) s → ∀ share : Share, share.tid = 5 →
        ∃ s', (copyTree (fun n => !decide (Dots n)) k share 1 []).run E s = (some [(inside [] name, contents)], s') := by
  have hw : (encodeUtf16le name).length = 2 * utf16Len name := by simp
  obtain ⟨V, hV⟩ := C80_services (look := fun _ _ => [(C91_record name).info]) own unicode (fun vol pattern d hd => by
    cases List.mem_singleton.mp hd
    refine ⟨C91_record name, ⟨Nat.two_pow_pos _, Nat.two_pow_pos _, Nat.two_pow_pos _, Nat.two_pow_pos _, Nat.two_pow_pos _, ?_, utf16le_encode name⟩, rfl, ?_⟩
    · show 64 + (encodeUtf16le name).length + 0 < 2 ^ 32; omega
    · show (encodeUtf16le name).length + 0 < 59000; omega)
  refine ⟨V, fun E s hE hu hs hr share ht => ?_⟩
  subst hu
  have hvol : (strayStore name contents).volume share.tid.toNat = some fun p => if p = backslashed (inside [] name) then some (.file contents) else none := by
    rw [ht]; rfl
  have hens : EnsuresIn (fun _ _ => [(C91_record name).info]) s.cli.useUnicode (fun _ x _ => x = some [(inside [] name, contents)]) (2 * (k + 1))
      (copyTree (fun n => !decide (Dots n)) k share 1 []) (strayStore name contents) := by
    refine ⟨by show k + 1 ≤ _; omega, ⟨by show utf16Len _ ≤ 32725; decide +kernel, ⟨0, by decide, rfl⟩, _, hvol, by show 1 ≤ k; omega, fun d hd => ?_⟩, fun o a1 he => ?_⟩
    · cases List.mem_singleton.mp hd; show utf16Len name ≤ 32725; omega
    obtain ⟨rfl, rfl⟩ := expects_list he hvol
    have e1 : (C91_record name).info.filename = name := rfl
    have e2 : isDir (C91_record name).info = false := by show (UInt32.ofNat (0 &&& attrMask) &&& 16 != 0) = false; decide +kernel
    dsimp only
    rw [copyEntries, e1, e2, if_pos (by simp [hn]), if_neg (by simp)]
    refine ⟨by show k + 1 ≤ 2 * (k + 1) - (k + 1); omega, ⟨?_, ⟨0, by decide, rfl⟩, _, hvol, ?_⟩, fun o a1 he => ?_⟩
    · show utf16Len (inside [] name) ≤ 32766
      have : utf16Len (inside [] name) = 1 + utf16Len name := by simp [inside, utf16Len]
      omega
    · intro c h; rw [if_pos rfl] at h; cases h; exact hk
    obtain ⟨rfl, rfl⟩ := expects_download he hvol
    rw [if_pos rfl]
    rfl
  obtain ⟨x, m, a', s', h1, h2, -⟩ := ensuresIn_run (own := own) (rel := fun a v => a = v ∧ a.Sound) (by rw [hE]; exact hV _) _ hr ⟨hs.symm, strayStore_sound hc⟩ hens
  exact ⟨s', by rw [h1, h2]⟩

/-- Such a name may lead out of the directory. -/
theorem astray_outside (rest : Str) : ¬ Below [] (inside [] ('.' :: '.' :: '\\' :: rest)) := by
  rintro ⟨names, h1, h2⟩
  cases names with
  | nil => cases h2
  | cons n names =>
    obtain ⟨t, h3, h4⟩ := below_inside [] n names
    have hn := h1 n (by simp)
    rw [below, h4] at h2
    have := congrArg (List.takeWhile (· != '\\')) (List.cons.inj h2).2
    rw [upToSlash (fun hc => (hn.1.2 _ hc).2.1 rfl) h3] at this
    exact hn.2.2 this.symm

theorem inside_inj {p q n m : Str} (hn : Leads n) (hm : Leads m) (h : inside p n = inside q m) : p = q ∧ n = m := by
  have no : ∀ {n : Str}, Leads n → '\\' ∉ n := fun hn hc => (hn.1.2 _ hc).2.1 rfl
  unfold inside at h
  rcases List.append_eq_append_iff.mp h with ⟨l, h1, h2⟩ | ⟨l, h1, h2⟩
  · cases l with
    | nil => exact ⟨by simpa using h1.symm, by simpa using h2⟩
    | cons c l => rw [List.cons_append, List.cons.injEq] at h2; exact absurd (by rw [h2.2]; simp) (no hn)
  · cases l with
    | nil => exact ⟨by simpa using h1, by simpa using h2.symm⟩
    | cons c l => rw [List.cons_append, List.cons.injEq] at h2; exact absurd (by rw [h2.2]; simp) (no hm)

namespace Demo

/-- A volume with a file `a`, and a directory `s` with a file `b`. -/
def twigs : Volume := fun p =>
  if p = [] then some .dir else if p = inside [] ['a'] then some (.file [1]) else if p = inside [] ['s'] then some .dir
  else if p = inside (inside [] ['s']) ['b'] then some (.file [2, 3]) else none

/-- An entry. -/
def leaf (attributes : Nat) (name : Str) : C36_Record := ⟨0, 0, 0, 0, 0, 0, 0, attributes, name, encodeUtf16le name, []⟩

/-- Its directories. -/
def twigsLook : Volume → Str → List DirInfo := fun _ pattern =>
  if pattern = inside [] ['*'] then [(leaf 0x10 ['.']).info, (leaf 0 ['a']).info, (leaf 0x10 ['s']).info]
  else if pattern = inside (inside [] ['s']) ['*'] then [(leaf 0x10 ['.', '.']).info, (leaf 0x20 ['b']).info]
  else []

theorem twigs_cases {p : Str} (h : twigs p ≠ none) : p = [] ∨ p = inside [] ['a'] ∨ p = inside [] ['s'] ∨ p = inside (inside [] ['s']) ['b'] := by
  unfold twigs at h
  split at h
  · exact .inl ‹_›
  · split at h
    · exact .inr (.inl ‹_›)
    · split at h
      · exact .inr (.inr (.inl ‹_›))
      · split at h
        · exact .inr (.inr (.inr ‹_›))
        · exact absurd rfl h

theorem twigs_inside {p name : Str} (hn : Leads name) (h : twigs (inside p name) ≠ none) :
    p = [] ∧ name = ['a'] ∨ p = [] ∧ name = ['s'] ∨ p = inside [] ['s'] ∧ name = ['b'] := by
  rcases twigs_cases h with h | h | h | h
  · cases p <;> cases h
  · exact .inl (inside_inj hn (by decide) h)
  · exact .inr (.inl (inside_inj hn (by decide) h))
  · exact .inr (.inr (inside_inj hn (by decide) h))

theorem twigs_below : ∀ {names : List Str}, (∀ n ∈ names, Leads n) → twigs (below [] names) ≠ none → names = [] ∨ names = [['a']] ∨ names = [['s']] ∨ names = [['s'], ['b']] := by
  have hnil : ∀ names : List Str, below [] names = [] → names = [] := fun names h => by
    cases names with
    | nil => rfl
    | cons n l => obtain ⟨t, -, h2⟩ := below_inside [] n l; rw [below, h2] at h; cases h
  have hlast : ∀ names : List Str, names = [] ∨ ∃ l n, names = l ++ [n] := fun names => by
    rcases List.eq_nil_or_concat names with h | ⟨l, n, h⟩
    · exact .inl h
    · exact .inr ⟨l, n, by simpa using h⟩
  intro names hl h
  rcases hlast names with rfl | ⟨l, n, rfl⟩
  · exact .inl rfl
  rw [below_append] at h
  rcases twigs_inside (hl n (by simp)) h with ⟨h1, rfl⟩ | ⟨h1, rfl⟩ | ⟨h1, rfl⟩
  · rw [hnil _ h1]; simp
  · rw [hnil _ h1]; simp
  · rcases hlast l with rfl | ⟨l, n, rfl⟩
    · cases h1
    rw [below_append] at h1
    obtain ⟨h2, rfl⟩ := inside_inj (hl n (by simp)) (by decide) h1
    rw [hnil _ h2]; simp

theorem twigs_copyable : Copyable twigsLook twigs 9 2 [] where
  plain := by decide
  root := rfl
  closed := fun p name hn h => by
    rcases twigs_inside hn h with ⟨rfl, -⟩ | ⟨rfl, -⟩ | ⟨rfl, -⟩ <;> rfl
  deep := fun names hl hd => Classical.byContradiction fun h => by
    rcases twigs_below hl h with rfl | rfl | rfl | rfl <;> simp at hd
  shown := fun names hl h => by
    rcases twigs_below hl (by rw [h]; nofun) with rfl | rfl | rfl | rfl
    · refine ⟨by decide +kernel, fun name hn hv => ?_, ?_, by decide +kernel⟩
      · rcases twigs_inside hn hv with ⟨-, rfl⟩ | ⟨-, rfl⟩ | ⟨h, -⟩
        · exact ⟨(leaf 0 ['a']).info, by simp [below, twigsLook], rfl⟩
        · exact ⟨(leaf 0x10 ['s']).info, by simp [below, twigsLook], rfl⟩
        · cases h
      · intro e he hn
        simp only [below, twigsLook, if_pos, List.mem_cons, List.not_mem_nil, or_false] at he
        rcases he with rfl | rfl | rfl
        · exact absurd hn (by decide +kernel)
        · exact ⟨[1], rfl⟩
        · rfl
    · cases h
    · refine ⟨by decide +kernel, fun name hn hv => ?_, ?_, by decide +kernel⟩
      · rcases twigs_inside hn hv with ⟨h, -⟩ | ⟨h, -⟩ | ⟨-, rfl⟩
        · cases h
        · cases h
        · exact ⟨(leaf 0x20 ['b']).info, List.mem_cons_of_mem _ List.mem_cons_self, rfl⟩
      · intro e he hn
        rcases List.mem_cons.mp he with rfl | he
        · exact absurd hn (by decide +kernel)
        cases List.mem_singleton.mp he
        exact ⟨[2, 3], rfl⟩
    · cases h
  pages := fun names hl h => by
    rcases twigs_below hl (by rw [h]; nofun) with rfl | rfl | rfl | rfl
    · decide +kernel
    · cases h
    · decide +kernel
    · cases h
  files := fun names hl contents h => by
    rcases twigs_below hl (by rw [h]; nofun) with rfl | rfl | rfl | rfl
    · cases h
    · cases h; decide +kernel
    · cases h
    · cases h; decide +kernel

theorem twigs_fits : ∀ vol pattern, ∀ d ∈ twigsLook vol pattern, EntryFits d := by
  have one : ∀ (attributes : Nat) (name : Str), attributes < 2 ^ 32 → utf16Len name < 100 → EntryFits (leaf attributes name).info := fun attributes name h1 h2 => by
    have hw : (encodeUtf16le name).length = 2 * utf16Len name := by simp
    refine ⟨leaf attributes name, ⟨Nat.two_pow_pos _, Nat.two_pow_pos _, Nat.two_pow_pos _, Nat.two_pow_pos _, h1, ?_, utf16le_encode name⟩, rfl, ?_⟩
    · show 64 + (encodeUtf16le name).length + 0 < 2 ^ 32; omega
    · show (encodeUtf16le name).length + 0 < 59000; omega
  intro vol pattern d hd
  unfold twigsLook at hd
  split at hd
  · simp only [List.mem_cons, List.not_mem_nil, or_false] at hd
    rcases hd with rfl | rfl | rfl <;> exact one _ _ (by decide) (by decide +kernel)
  · split at hd
    · simp only [List.mem_cons, List.not_mem_nil, or_false] at hd
      rcases hd with rfl | rfl <;> exact one _ _ (by decide) (by decide +kernel)
    · cases hd

/-- This volume, and nothing else. `mounted` says whether it is mounted as tree 5. -/
def twigsStore (mounted : Bool) : Store where
  disk := fun name => if name = ['\\', 'v'] then some twigs else none
  mounted := fun tid => if mounted ∧ tid = 5 then some ['\\', 'v'] else none
  opened := fun _ _ => none
  searches := fun _ _ => none

theorem twigsStore_sound (mounted : Bool) : (twigsStore mounted).Sound := by
  refine ⟨fun name vol path contents hd hp => ?_, fun tid name h => ?_, nofun⟩
  · unfold twigsStore at hd
    dsimp only at hd
    split at hd
    · cases hd
      rcases twigs_cases (by rw [hp]; nofun) with rfl | rfl | rfl | rfl <;> cases hp <;> decide
    · cases hd
  · unfold twigsStore at h
    dsimp only at h
    split at h
    · rename_i h'; rw [h'.2]; decide
    · cases h

theorem keeping_leads : Keeping (fun n => decide (Leads n)) := fun name => ⟨fun h => by simp [h], fun h => by
  rw [decide_eq_false_iff_not]; exact fun hl => leads_not_dots hl h⟩

/-- The two files are there. -/
theorem twigs_has : twigs.Has [] (inside [] ['a']) [1] ∧ twigs.Has [] (inside (inside [] ['s']) ['b']) [2, 3] :=
  ⟨⟨[['a']], by simp, by decide, rfl, rfl⟩, ⟨[['s'], ['b']], by simp, by decide, rfl, rfl⟩⟩

/-- non-vacuity of `C92_copy`: a server with this volume, and a copy of it. -/
example : ∃ (E : Env Store) (s s' : St Store) (files : Files), s.w.srv = twigsStore true ∧
    (copyTree (fun n => decide (Leads n)) 9 { share with tid := 5 } 3 []).run E s = (some files, s') ∧
    (inside [] ['a'], [1]) ∈ files ∧ (inside (inside [] ['s']) ['b'], [2, 3]) ∈ files ∧ s'.w.srv = twigsStore true := by
  obtain ⟨V, hV⟩ := C80_services (fun _ => True) true twigs_fits
  obtain ⟨files, s', h1, h2, -, ⟨h3, -⟩, -⟩ := C92_copy (E := { env true with V := V }) (own := fun _ => True) keeping_leads
    (s := { cli := cli, w := { inbox := [], wsched := [.accept 3, .accept 10], out := [], srv := twigsStore true } }) (hV _) (share := { share with tid := 5 })
    (a := twigsStore true) (vol := twigs) rfl ⟨0, by decide, rfl⟩ ⟨0, by decide, rfl⟩ twigs_copyable 0
    ⟨by intro ev he; simp at he; rcases he with rfl | rfl <;> exact ⟨_, rfl⟩, .nil, fun _ _ => trivial, fun _ => by decide +kernel⟩ ⟨rfl, twigsStore_sound _⟩
  exact ⟨_, _, s', files, rfl, h1, (h2 _ _).mpr twigs_has.1, (h2 _ _).mpr twigs_has.2, h3.symm⟩

/-- non-vacuity of `C92_session`: this volume, behind a door, reached over a new connection, with the real hash functions; both kinds of login. -/
example (extended : Bool) : ∃ (V : Server (Site Store)) (s1 s' : St (Site Store)) (files : Files),
    openCifs { env true with V := V, C := Crypto.real } (fun _ => .ok { inbox := [], wsched := [.accept 9], out := [], srv := .fresh (twigsStore false) })
      (some 445) (some (person "me".toList "secret".toList)) = { outcome := .ok (), state := some s1, ports := [445] } ∧
    (fetchTree (fun n => decide (Leads n)) 9 ['/', 'v'] 3 []).run { env true with V := V, C := Crypto.real } s1 = (some files, s') ∧
    (inside [] ['a'], [1]) ∈ files ∧ (inside (inside [] ['s']) ['b'], [2, 3]) ∈ files ∧ s'.w.srv = .inside (twigsStore false) := by
  obtain ⟨step, h1, h2⟩ := serve_files twigs_fits
  obtain ⟨V, hD, hi⟩ := C69_possible (fun _ => True) Crypto.real.hashes Crypto.real.des accounts extended [1, 2, 3, 4, 5, 6, 7, 8] 100 step rfl h1
  obtain ⟨s1, files, s', h3, h4, h5, -, h6, -⟩ := C92_session (E := { env true with V := V, C := Crypto.real }) (hD (twigsStore false))
    (dial := fun _ => .ok { inbox := [], wsched := [.accept 9], out := [], srv := .fresh (twigsStore false) }) (port := 445) (auth := person "me".toList "secret".toList) rfl
    keeping_leads (look := twigsLook) (vol := twigs) (k := 9) (d := 2) (path := []) (volume := ['/', 'v'])
    ⟨by intro ev he; simp at he; subst he; exact ⟨_, rfl⟩, .nil, fun _ _ => trivial, fun _ => by decide +kernel⟩ rfl
    (person_fits (by decide) (by decide +kernel) (by decide +kernel)) (show (0 : Int) ≤ 13370000000000000000 by decide)
    (show (10 : Int) * (13370000000000000000 / 1000) < 2 ^ 64 by decide) rfl (a := twigsStore false) (rel := fun a v => v = .inside a ∧ a.Sound)
    (fun unicode uid v h => by
      obtain ⟨rfl, rfl, rfl⟩ := h
      exact ⟨serve_implements h2 hi, rfl, twigsStore_sound _⟩)
    (fun unicode => by cases unicode <;> show mountLength _ _ _ < 65536 <;> decide +kernel)
    (by rw [show backslashed ['/', 'v'] = ['\\', 'v'] by decide +kernel]; rfl) ⟨0, by decide, rfl⟩
    (fun _ => ⟨0, by decide, rfl⟩) (fun _ => ⟨0, by decide, rfl⟩) twigs_copyable
  exact ⟨V, s1, s', files, h3, h4, (h5 _ _).mpr twigs_has.1, (h5 _ _).mpr twigs_has.2, h6⟩

/-- non-vacuity of `C92_safe`: the same way to choose names does for it. -/
example : (copyTree (fun n => decide (Leads n)) 9 share 3 []).Keeps (Downwards []) fun x => ∀ y, x = some y → ∀ f ∈ y, Below [] f.1 :=
  C92_safe (fun _ h => of_decide_eq_true h) 9 share 3 []

/-- non-vacuity of `C91_astray`: a copy of the directory brings a file that is not below it. -/
example : ∃ (E : Env Store) (s s' : St Store), (copyTree (fun n => !decide (Dots n)) 9 { share with tid := 5 } 1 []).run E s =
    (some [(inside [] ['.', '.', '\\', 'x'], [7])], s') ∧ ¬ Below [] (inside [] ['.', '.', '\\', 'x']) := by
  obtain ⟨V, hV⟩ := C91_astray (fun _ => True) true (name := ['.', '.', '\\', 'x']) (by decide) (by decide +kernel) (k := 9) (contents := [7]) (by decide) (by decide)
  obtain ⟨s', h⟩ := hV { env true with V := V } { cli := cli, w := { inbox := [], wsched := [.accept 3, .accept 10], out := [], srv := strayStore ['.', '.', '\\', 'x'] [7] } }
    rfl rfl rfl ⟨by intro ev he; simp at he; rcases he with rfl | rfl <;> exact ⟨_, rfl⟩, .nil, fun _ _ => trivial, fun _ => by decide⟩ { share with tid := 5 } rfl
  exact ⟨_, _, s', h, astray_outside _⟩

end Demo

end Cifs
