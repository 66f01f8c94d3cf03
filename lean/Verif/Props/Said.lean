import Verif.Lemmas.Said
import Verif.Props.Listing
import Verif.Props.Notify
import Verif.Props.CrashDownload
/-!
# Nothing is made up (C70)

Whatever the server does: a value that the client returns, and a refusal that it reports, is what the server has said in reply to the
requests of this operation.
-/

namespace Cifs
open Spec

variable {σ α : Type} {E : Env σ}

theorem outcome_ok {r : Answer} {v : Val} (h : Out.ok v = r.outcome) : r = .value v := by
  cases r <;> cases h
  rfl

theorem outcome_err {r : Answer} {e : Error} (h : Out.err e = r.outcome) : ∃ status, r = .refused status := by
  cases r <;> cases h
  exact ⟨_, rfl⟩

/-- An operation with such an outcome has arguments that fit. -/
theorem conclusive_fits {op : Op} {s s' : St σ} {o : Out Error Val} (h : runOp E op s = (o, s')) (ho : Conclusive o) : Fits s.cli.useUnicode op := by
  refine Classical.byContradiction fun hf => ?_
  rcases send_cases E op.first s with ⟨_, _, hs⟩ | ⟨hc, _⟩
  · rw [runOp_send_panic E op s s hs] at h; cases h; exact ho
  · by_cases hp : Panics op
    · rw [C25_violated_panic E op s hc hp] at h; cases h; exact ho
    · obtain ⟨e, he⟩ := C25_refused E op s hc hf hp
      rw [he] at h; cases h; exact ho

/-- A step that returns a value. -/
theorem step_told {β : Type} {op : Op} {m : CM σ β} {g : β → Val} (hop : runOp E op = M.map' g m) {c : Call} (hc : callOf op = some c) {s s1 : St σ} {b : β}
    (h : m s = (.ok b, s1)) :
    Told E.V s.cli.useUnicode s.cli.uid.toNat (service s) c (.value (g b)) (service s1) ∧ SameUser s.cli s1.cli ∧ Fits s.cli.useUnicode op := by
  have e : runOp E op s = (.ok (g b), s1) := by rw [hop]; exact map'_ok h
  obtain ⟨r, h1, h2, h3⟩ := call_told hc e trivial
  rw [outcome_ok h1] at h2
  exact ⟨h2, by rw [h3]; exact ⟨rfl, rfl⟩, conclusive_fits e trivial⟩

/-- A step that is refused. -/
theorem step_refused {β : Type} {op : Op} {m : CM σ β} {g : β → Val} (hop : runOp E op = M.map' g m) {c : Call} (hc : callOf op = some c) {s s1 : St σ}
    {e : Error} (h : m s = (.err e, s1)) (ho : Conclusive (.err e)) : ∃ status, .err e = (Answer.refused status).outcome ∧
      Told E.V s.cli.useUnicode s.cli.uid.toNat (service s) c (.refused status) (service s1) ∧ SameUser s.cli s1.cli ∧
      Fits s.cli.useUnicode op := by
  have e : runOp E op s = (.err e, s1) := by rw [hop]; exact map'_err h
  obtain ⟨r, h1, h2, h3⟩ := call_told hc e ho
  obtain ⟨status, rfl⟩ := outcome_err h1
  exact ⟨status, h1, h2, by rw [h3]; exact ⟨rfl, rfl⟩, conclusive_fits e ho⟩

/-- A step that fails in another way. -/
theorem bind_inconclusive {β γ : Type} {m : CM σ β} {f : β → CM σ γ} {g : γ → Val} {s s1 s' : St σ} {ob : Out Error β} {o : Out Error Val} (h : m s = (ob, s1))
    (hm : M.map' g (m >>= f) s = (o, s')) (ho : Conclusive o) :
    (∃ b, ob = .ok b ∧ M.map' g (f b) s1 = (o, s')) ∨ ∃ e, ob = .err e ∧ o = .err e ∧ s' = s1 := by
  cases ob with
  | ok b => exact .inl ⟨b, rfl, by rw [← hm]; exact (map'_congr (M.bind_ok h)).symm⟩
  | err e =>
    rw [map'_err (M.bind_err h)] at hm
    cases hm
    exact .inr ⟨e, rfl, rfl, rfl⟩
  | panic => rw [map'_panic (M.bind_panic h)] at hm; cases hm; cases ho
  | pending =>
    have e : M.map' g (m >>= f) s = (.pending, s1) := by unfold M.map' M.bind; rw [M.bind_pending h]
    rw [e] at hm; cases hm; cases ho
  | running =>
    have e : M.map' g (m >>= f) s = (.running, s1) := by unfold M.map' M.bind; rw [M.bind_running h]
    rw [e] at hm; cases hm; cases ho

/-- The loop of a download, with the closing of the file. -/
theorem fetches_told (unicode : Bool) (uid : UInt16) (h : Handle) (k : Nat) : ∀ (data : Bytes) (s s' : St σ) (o : Out Error Val),
    s.cli.useUnicode = unicode ∧ s.cli.uid = uid →
    M.map' Val.bytes (downloadLoop E h k data >>= fun d => close E h >>= fun _ => pure d) s = (o, s') → Conclusive o →
    Fetches (Told E.V unicode uid.toNat) h k data (service s) o (service s') ∧ SameUser s.cli s'.cli := by
  induction k with
  | zero => intro data s s' o hu hm ho; cases hm; cases ho
  | succ k ih =>
    intro data s s' o hu hm ho
    obtain ⟨rfl, rfl⟩ := hu
    rw [show (downloadLoop E h (k + 1) data) = (if data.length < h.size.toNat then
      read E h (UInt64.ofNat data.length) >>= fun chunk => downloadLoop E h k (data ++ chunk) else pure data) from rfl] at hm
    by_cases hl : data.length < h.size.toNat
    · have eo : (UInt64.ofNat data.length).toNat = data.length := UInt64.toNat_ofNat_of_lt' (by have := h.size.toNat_lt; simp only [UInt64.size] at *; omega)
      rw [if_pos hl, M.bind_assoc'] at hm
      rcases hr : read E h (UInt64.ofNat data.length) s with ⟨ob, s1⟩
      rcases bind_inconclusive hr hm ho with ⟨chunk, rfl, h2⟩ | ⟨e, rfl, rfl, rfl⟩
      · obtain ⟨k1, k2, hf⟩ := step_told (op := .read h (UInt64.ofNat data.length)) (g := Val.bytes) rfl rfl hr
        rw [eo] at k1
        obtain ⟨k3, k4⟩ := ih (data ++ chunk) s1 s' o k2 h2 ho
        exact ⟨.chunk hl k1 k3, k4.trans k2⟩
      · obtain ⟨status, k1, k2, k3, hf⟩ := step_refused (op := .read h (UInt64.ofNat data.length)) (g := Val.bytes) rfl rfl hr ho
        rw [eo] at k2
        rw [k1]
        exact ⟨.refused hl k2, k3⟩
    · rw [if_neg hl] at hm
      have hm : M.map' Val.bytes (close E h >>= fun _ => pure data) s = (o, s') := hm
      rcases hr : close E h s with ⟨ob, s1⟩
      rcases bind_inconclusive hr hm ho with ⟨u, rfl, h2⟩ | ⟨e, rfl, rfl, rfl⟩
      · cases h2
        obtain ⟨k1, k2, hf⟩ := step_told (op := .close h) (g := fun _ => Val.unit) rfl rfl hr
        exact ⟨.closed (by omega) k1, k2⟩
      · obtain ⟨status, k1, k2, k3, hf⟩ := step_refused (op := .close h) (g := fun _ => Val.unit) rfl rfl hr ho
        rw [k1]
        exact ⟨.unclosed (by omega) k2, k3⟩

/-- The loop of a listing. -/
theorem continues_told (unicode : Bool) (uid : UInt16) (share : Share) (sid : UInt16) (k : Nat) : ∀ (got : List DirInfo) (s s' : St σ) (o : Out Error Val),
    s.cli.useUnicode = unicode ∧ s.cli.uid = uid → M.map' Val.entries (listLoop E share sid k got) s = (o, s') → Conclusive o →
    Continues (Told E.V unicode uid.toNat) unicode share sid k got (service s) o (service s') ∧ SameUser s.cli s'.cli := by
  induction k with
  | zero => intro got s s' o hu hm ho; cases hm; cases ho
  | succ k ih =>
    intro got s s' o hu hm ho
    obtain ⟨rfl, rfl⟩ := hu
    rw [listLoop] at hm
    cases hlast : got.getLast? with
    | none => rw [hlast] at hm; cases hm; cases ho
    | some last =>
      rw [hlast] at hm
      dsimp only at hm
      rcases hr : findNext E share sid last.filename s with ⟨ob, s1⟩
      rcases bind_inconclusive hr hm ho with ⟨⟨done, page⟩, rfl, h2⟩ | ⟨e, rfl, rfl, rfl⟩
      · obtain ⟨k1, k2, hf⟩ := step_told (op := .findNext share sid last.filename) (g := Val.next) rfl rfl hr
        cases done with
        | true => cases h2; exact ⟨.ended hlast k1 hf, k2⟩
        | false =>
          obtain ⟨k3, k4⟩ := ih (got ++ page) s1 s' o k2 h2 ho
          exact ⟨.more hlast k1 k3 hf, k4.trans k2⟩
      · obtain ⟨status, k1, k2, k3, hf⟩ := step_refused (op := .findNext share sid last.filename) (g := Val.next) rfl rfl hr ho
        rw [k1]
        exact ⟨.refused hlast k2 hf, k3⟩

/-- **C70** One operation, against any server, in any state: if its outcome is a value or a refusal, then this is what `Behaves` says of the
service that the server offers (`Told`): it was said in replies to requests of the operation, and nothing else was asked of the server. -/
theorem C70_operation {op : Op} {s s' : St σ} {o : Out Error Val} (h : runOp E op s = (o, s')) (ho : Conclusive o) :
    Behaves (Told E.V s.cli.useUnicode s.cli.uid.toNat) s.cli.useUnicode (service s) op o (service s') ∧ SameUser s.cli s'.cli := by
  have one : ∀ c, callOf op = some c →
      Behaves (Told E.V s.cli.useUnicode s.cli.uid.toNat) s.cli.useUnicode (service s) op o (service s') ∧ SameUser s.cli s'.cli := by
    intro c hc
    obtain ⟨r, rfl, h2, h3⟩ := call_told hc h ho
    exact ⟨.single hc h2 (conclusive_fits h ho), by rw [h3]; exact ⟨rfl, rfl⟩⟩
  cases op <;> first | exact one _ rfl | skip
  case download k share path =>
    have e : download E k share path = (openfile E share path >>= fun file => downloadLoop E file k [] >>= fun d => close E file >>= fun _ => pure d) := rfl
    have h : M.map' Val.bytes (download E k share path) s = (o, s') := h
    rw [e] at h
    rcases hr : openfile E share path s with ⟨ob, s1⟩
    rcases bind_inconclusive hr h ho with ⟨file, rfl, h2⟩ | ⟨e, rfl, rfl, rfl⟩
    · obtain ⟨k1, k2, hf⟩ := step_told (op := .openfile share path) (g := Val.handle) rfl rfl hr
      obtain ⟨k3, k4⟩ := fetches_told _ _ file k [] s1 s' o k2 h2 ho
      exact ⟨.opened k1 k3 hf, k4.trans k2⟩
    · obtain ⟨status, k1, k2, k3, hf⟩ := step_refused (op := .openfile share path) (g := Val.handle) rfl rfl hr ho
      rw [k1]
      exact ⟨.unopened k2 hf, k3⟩
  case list k share pattern =>
    have e : list E k share pattern = (findFirst E share pattern >>= fun reply =>
      if reply.done then pure reply.info else listLoop E share reply.sid k reply.info) := rfl
    have h : M.map' Val.entries (list E k share pattern) s = (o, s') := h
    rw [e] at h
    rcases hr : findFirst E share pattern s with ⟨ob, s1⟩
    rcases bind_inconclusive hr h ho with ⟨r, rfl, h2⟩ | ⟨e, rfl, rfl, rfl⟩
    · obtain ⟨k1, k2, hf⟩ := step_told (op := .findFirst share pattern) (g := Val.first) rfl rfl hr
      cases hd : r.done with
      | true => rw [if_pos hd] at h2; cases h2; exact ⟨.listed hd k1 hf, k2⟩
      | false =>
        rw [if_neg (by simp [hd])] at h2
        obtain ⟨k3, k4⟩ := continues_told _ _ share r.sid k r.info s1 s' o k2 h2 ho
        exact ⟨.listing hd k1 k3 hf, k4.trans k2⟩
    · obtain ⟨status, k1, k2, k3, hf⟩ := step_refused (op := .findFirst share pattern) (g := Val.first) rfl rfl hr ho
      rw [k1]
      exact ⟨.unlisted k2 hf, k3⟩

/-- **C70** Any program, against any server: as long as the outcomes are values and refusals, running it with the client is one of the ways to
run it with the service that the server offers. -/
theorem C70_program (p : Prog α) : ∀ (s : St σ), p.Concludes E s →
    p.Runs (Told E.V s.cli.useUnicode s.cli.uid.toNat) s.cli.useUnicode (service s) (p.run E s).1 (service (p.run E s).2) := by
  induction p with
  | done x => intro s _; exact .done x _
  | call op next ih =>
    intro s hp
    obtain ⟨h1, h2, h3⟩ := C70_operation (E := E) (op := op) (s := s) (s' := (runOp E op s).2) (o := (runOp E op s).1) rfl hp.1
    have := ih (runOp E op s).1 (runOp E op s).2 hp.2
    rw [h2, h3] at this
    exact .call h1 this

/-- A download that brings a file, and one that is refused. -/
example : Conclusive (runOp (Demo.fileEnv true 2 (Demo.chunksOf [1, 2] 1)) (.download 9 Demo.share ['a']) Demo.fileSt).1 ∧
    Conclusive (runOp (Demo.fileEnv true 2 (fun _ => none)) (.download 9 Demo.share ['a']) Demo.fileSt).1 := by
  have h1 : (runOp (Demo.fileEnv true 2 (Demo.chunksOf [1, 2] 1)) (.download 9 Demo.share ['a']) Demo.fileSt).1 = .ok (.bytes [1, 2]) :=
    Demo.isBytes_of (by decide +kernel)
  have h2 : (runOp (Demo.fileEnv true 2 (fun _ => none)) (.download 9 Demo.share ['a']) Demo.fileSt).1 = .err (.ServerError (.Known .ACCESS_DENIED)) :=
    Demo.isDenied_of (by decide +kernel)
  rw [h1, h2]
  exact ⟨trivial, trivial⟩

/-- A program of which all operations have such an outcome. -/
example : (Prog.call (.download 9 Demo.share ['a']) (fun o => .done o)).Concludes (Demo.fileEnv true 2 (Demo.chunksOf [1, 2] 1)) Demo.fileSt := by
  have h1 : (runOp (Demo.fileEnv true 2 (Demo.chunksOf [1, 2] 1)) (.download 9 Demo.share ['a']) Demo.fileSt).1 = .ok (.bytes [1, 2]) :=
    Demo.isBytes_of (by decide +kernel)
  exact ⟨by rw [h1]; trivial, trivial⟩

/-! ## What the server has said is one thing -/

theorem rights_det {ps : Bytes} {o : Nat} {r r' : Option UInt32} (h : IsRights ps o r) (h' : IsRights ps o r') : r = r' := by
  have hs : ∀ n, u32At ps o = some n → ¬ ps.length < o + 4 := by
    intro n hn hl
    have := u32At_length hn
    omega
  cases r <;> cases r'
  · rfl
  · obtain ⟨n, hn, _⟩ := h'; exact absurd h (hs n hn)
  · obtain ⟨n, hn, _⟩ := h; exact absurd h' (hs n hn)
  · obtain ⟨n, hn, h1⟩ := h
    obtain ⟨n', hn', h2⟩ := h'
    rw [hn] at hn'; cases hn'
    rw [UInt32.toNat.inj (h1.trans h2.symm)]

theorem mounts_det {f : Bytes} {x x' : Share} (h : Mounts f x) (h' : Mounts f x') : x = x' := by
  obtain ⟨ps, ds, u, h1, _, _, h2, h3, h4, h5, h6⟩ := h
  obtain ⟨ps', ds', u', k1, _, _, k2, k3, k4, k5, k6⟩ := h'
  obtain ⟨rfl, rfl⟩ := succeeds_det h1 k1
  rw [h2] at k2; cases k2
  rw [h3] at k3
  have e1 := UInt16.toNat.inj (Option.some.inj k3)
  obtain ⟨e2, e3⟩ := C31_unique _ _ _ _ _ _ _ h6 k6
  have e4 := rights_det h4 k4
  have e5 := rights_det h5 k5
  cases x; cases x'
  simp only at e1 e2 e3 e4 e5
  rw [e1, e2, e3, e4, e5]

theorem block_det {ps ds b b' : Bytes} {n o : Nat} (h : Block ps ds n o b) (h' : Block ps ds n o b') : b = b' := by
  rcases h with ⟨h1, rfl⟩ | ⟨h1, _, h2⟩ <;> rcases h' with ⟨k1, rfl⟩ | ⟨k1, _, k2⟩
  · rfl
  · omega
  · omega
  · exact Option.some.inj (h2.symm.trans k2)

theorem notifies_det {f : Bytes} {l l' : List (Str × NotifyAction)} (h : Notifies f l) (h' : Notifies f l') : l = l' := by
  obtain ⟨ps, ds, pb, db, h1, ⟨_, _, n, o, _, _, _, _, _, h3, h4, _, _, _, _, _, _, h5, _⟩, h2⟩ := h
  obtain ⟨ps', ds', pb', db', k1, ⟨_, _, n', o', _, _, _, _, _, k3, k4, _, _, _, _, _, _, k5, _⟩, k2⟩ := h'
  obtain ⟨rfl, rfl⟩ := succeeds_det h1 k1
  rw [h3] at k3; cases k3
  rw [h4] at k4; cases k4
  cases block_det h5 k5
  exact C33_unique h2 k2

theorem gives_det {f : Bytes} {c : Call} {x x' : Val} (h : Gives f c x) (h' : Gives f c x') : x = x' := by
  cases c <;> cases x <;> first | exact h.elim | skip
  all_goals cases x' <;> first | exact h'.elim | skip
  · rw [mounts_det h h']
  · rfl
  · rw [opens_det h h']
  · rw [opens_det h h']
  · rfl
  · rw [yields_det h h']
  · rfl
  · rfl
  · rw [notifies_det h h']

theorem gives_succeeds {f : Bytes} {c : Call} {x : Val} (h : Gives f c x) : statusOf (message f) = some 0 := by
  cases c <;> cases x <;> first | exact h.elim | skip
  all_goals first
    | (obtain ⟨_, _, h⟩ := h; exact h.2.1)
    | (obtain ⟨_, _, _, h, _⟩ := h; exact h.2.1)
    | (obtain ⟨_, _, _, _, h, _⟩ := h; exact h.2.1)
    | (obtain ⟨_, _, h, _⟩ := h; exact h.2.1)

theorem refuses_det {f : Bytes} {c c' : Nat} {x x' : UInt32} (h : Refuses f c x) (h' : Refuses f c' x') : x = x' := by
  have := h.2.2.symm.trans h'.2.2
  exact UInt32.toNat.inj (Option.some.inj this)

theorem refuses_not {f : Bytes} {c : Nat} {x : UInt32} (h : Refuses f c x) : statusOf (message f) ≠ some 0 := by
  intro h0
  have := h.2.2.symm.trans h0
  exact h.1 (UInt32.toNat.inj (Option.some.inj this))

theorem pieces_not_refused {mid c : Nat} {b r f b' : Bytes} {l : List Piece} {x : UInt32} (h : Pieces Brings mid b l r) (ha : Awaits mid b f b')
    (hr : Refuses f c x) : l = [] ∧ r = b := by
  cases h with
  | nil => exact ⟨rfl, rfl⟩
  | cons ha' hb _ =>
    obtain ⟨rfl, rfl⟩ := awaits_det ha ha'
    exact absurd hb.2.1 (refuses_not hr)

theorem searchRefused_det {V : Server σ} {v v1 v2 : σ} {b req b1 b2 : Bytes} {x x' : UInt32} (h : SearchRefused V v b req x v1 b1)
    (h' : SearchRefused V v b req x' v2 b2) : x = x' ∧ v1 = v2 ∧ b1 = b2 := by
  obtain ⟨rfl, mid, l, c, f, h1, h2, h3, h4, h5⟩ := h
  obtain ⟨rfl, mid', l', c', f', k1, k2, k3, k4, k5⟩ := h'
  rw [h1] at k1; cases k1
  have : c = c' := by
    rcases pieces_split h2 k2 with ⟨post, rfl, hp⟩ | ⟨post, rfl, hp⟩
    · exact (pieces_not_refused hp h4 h5).2.symm
    · exact (pieces_not_refused hp k4 k5).2
  subst this
  obtain ⟨rfl, rfl⟩ := awaits_det h4 k4
  exact ⟨refuses_det h5 k5, rfl, rfl⟩

theorem searchRefused_not {V : Server σ} {v v1 v2 : σ} {b req b1 b2 P D : Bytes} {x : UInt32} (h : SearchRefused V v b req x v1 b1)
    (h' : SearchRound V v b req P D v2 b2) : False := by
  obtain ⟨rfl, mid, l, c, f, h1, h2, h3, h4, h5⟩ := h
  obtain ⟨rfl, mid', l', k1, k2, k3, k4⟩ := h'
  rw [h1] at k1; cases k1
  rcases pieces_split h2 k2 with ⟨post, rfl, hp⟩ | ⟨post, rfl, hp⟩
  · obtain ⟨rfl, _⟩ := pieces_not_refused hp h4 h5
    exact h3 l [] _ _ (by simp) (by simpa using k3)
  · exact h3 l' post _ _ rfl k3

/-- **C70** (no ambiguity) What a server answers to a request is one thing: one value or one refusal. So a client that only returns what it was
told, as `C70_operation` says, has no choice. -/
theorem C70_unambiguous {V : Server σ} {v v1 v2 : σ} {b req b1 b2 : Bytes} {c : Call} {r r' : Answer} (h : Tells V v b req c r v1 b1)
    (h' : Tells V v b req c r' v2 b2) : r = r' ∧ v1 = v2 ∧ b1 = b2 := by
  have single : ∀ {f f' : Bytes} {w w' : σ} {d d' : Bytes}, Round V v b req f w d → Round V v b req f' w' d' → f = f' ∧ w = w' ∧ d = d' := round_det
  cases c
  case findFirst =>
    cases r with
    | refused x =>
      cases r' with
      | refused x' => obtain ⟨rfl, h2⟩ := searchRefused_det h h'; exact ⟨rfl, h2⟩
      | value y =>
        cases y <;> first | (obtain ⟨_, _, h'⟩ := h'; exact h'.elim) | skip
        obtain ⟨P, D, h1, _⟩ := h'
        exact (searchRefused_not h h1).elim
    | value y =>
      cases y <;> first | (obtain ⟨_, _, h⟩ := h; exact h.elim) | skip
      obtain ⟨P, D, h1, h2⟩ := h
      cases r' with
      | refused x' => exact (searchRefused_not h' h1).elim
      | value y' =>
        cases y' <;> first | (obtain ⟨_, _, h'⟩ := h'; exact h'.elim) | skip
        obtain ⟨P', D', k1, k2⟩ := h'
        obtain ⟨rfl, rfl, h3⟩ := searchRound_det h1 k1
        obtain ⟨e1, e2, e3⟩ := firstPage_det h2 k2
        rename_i x x'
        cases x; cases x'
        simp only at e1 e2 e3
        rw [UInt16.toNat.inj e1, e2, e3]
        exact ⟨rfl, h3⟩
  case findNext =>
    cases r with
    | refused x =>
      cases r' with
      | refused x' => obtain ⟨rfl, h2⟩ := searchRefused_det h h'; exact ⟨rfl, h2⟩
      | value y =>
        cases y <;> first | (obtain ⟨_, _, h'⟩ := h'; exact h'.elim) | skip
        obtain ⟨P, D, h1, _⟩ := h'
        exact (searchRefused_not h h1).elim
    | value y =>
      cases y <;> first | (obtain ⟨_, _, h⟩ := h; exact h.elim) | skip
      obtain ⟨P, D, h1, h2⟩ := h
      cases r' with
      | refused x' => exact (searchRefused_not h' h1).elim
      | value y' =>
        cases y' <;> first | (obtain ⟨_, _, h'⟩ := h'; exact h'.elim) | skip
        obtain ⟨P', D', k1, k2⟩ := h'
        obtain ⟨rfl, rfl, h3⟩ := searchRound_det h1 k1
        obtain ⟨e2, e3⟩ := nextPage_det h2 k2
        rename_i x x'
        cases x; cases x'
        simp only at e2 e3
        rw [e2, e3]
        exact ⟨rfl, h3⟩
  all_goals
    cases r <;> cases r' <;> obtain ⟨f, h1, h2⟩ := h <;> obtain ⟨f', k1, k2⟩ := h' <;> obtain ⟨rfl, h3⟩ := single h1 k1
    · exact ⟨congrArg _ (gives_det h2 k2), h3⟩
    · exact absurd (gives_succeeds h2) (refuses_not k2)
    · exact absurd (gives_succeeds k2) (refuses_not h2)
    · exact ⟨congrArg _ (refuses_det h2 k2), h3⟩

/-- There is such an answer. -/
example : ∃ (req : Bytes) (r : Answer) (a : (Unit × List Bytes) × Bytes),
    Tells (Demo.fileEnv true 2 (fun _ => none)).V Demo.fileSt.w.srv [] req (.openfile Demo.share.tid.toNat ['a']) r a.1 a.2 := by
  have ho : Conclusive (runOp (Demo.fileEnv true 2 (fun _ => none)) (.openfile Demo.share ['a']) Demo.fileSt).1 := by
    have h : (match (runOp (Demo.fileEnv true 2 (fun _ => none)) (.openfile Demo.share ['a']) Demo.fileSt).1 with | .ok _ => true | _ => false) = true := by
      decide +kernel
    revert h
    generalize (runOp (Demo.fileEnv true 2 (fun _ => none)) (.openfile Demo.share ['a']) Demo.fileSt).1 = o
    intro h
    cases o <;> first | trivial | cases h
  obtain ⟨r, _, ⟨req, _, _, h⟩, _⟩ := call_told (E := Demo.fileEnv true 2 (fun _ => none)) (op := .openfile Demo.share ['a']) (s := Demo.fileSt) rfl rfl ho
  exact ⟨req, r, _, h⟩

/-! ## A server that says nothing -/

theorem delivers_nil {f b : Bytes} : ¬ Delivers [] f b := by
  intro h
  generalize hb : ([] : Bytes) = stream at h
  cases h <;> exact absurd (congrArg List.length hb) (by simp [Spec.message, Spec.keepAlive]; try omega)

theorem awaits_nil {mid : Nat} {f b : Bytes} : ¬ Awaits mid [] f b := by
  rintro ⟨b', hs, hd, _⟩
  cases hs with
  | done => exact delivers_nil hd
  | skip h => exact delivers_nil h

theorem told_mute {V : Server σ} (hV : ∀ v req, (V.react v req).2.flatten = []) {unicode : Bool} {uid : Nat} {v : σ} {c : Call} {r : Answer} {a : σ × Bytes} :
    ¬ Told V unicode uid (v, []) c r a := by
  rintro ⟨req, _, _, h⟩
  have round : ∀ {f w d}, ¬ Round V v [] req f w d := by
    rintro f w d ⟨_, mid, _, ha⟩
    rw [hV] at ha
    exact awaits_nil ha
  have search : ∀ {P D w d}, ¬ SearchRound V v [] req P D w d := by
    rintro P D w d ⟨_, mid, l, _, hp, hc, _⟩
    rw [hV] at hp
    cases hp with
    | nil => exact hc.1 rfl
    | cons ha => exact awaits_nil ha
  have refused : ∀ {x w d}, ¬ SearchRefused V v [] req x w d := by
    rintro x w d ⟨_, mid, l, b1, f, _, hp, _, ha, _⟩
    rw [hV] at hp
    cases hp with
    | nil => exact awaits_nil ha
    | cons ha' => exact awaits_nil ha'
  cases c <;> cases r <;> first
    | (obtain ⟨f, h, _⟩ := h; exact round h)
    | exact refused h
    | (rename_i y; cases y <;> first | (obtain ⟨f, h, _⟩ := h; exact round h) | (obtain ⟨P, D, h, _⟩ := h; exact search h))

/-- **C70** (a special case) From a server that says nothing, no operation gets a value or a refusal. -/
theorem C70_mute (hV : ∀ v req, (E.V.react v req).2.flatten = []) (op : Op) (s : St σ) (hs : s.w.inbox.flatten = []) : ¬ Conclusive (runOp E op s).1 := by
  intro ho
  have h := (C70_operation (E := E) (op := op) (s := s) (s' := (runOp E op s).2) (o := (runOp E op s).1) rfl ho).1
  rw [show service s = (s.w.srv, []) by unfold service; rw [hs]] at h
  generalize runOp E op s = x at h ho
  obtain ⟨o, s'⟩ := x
  generalize service s' = a at h
  cases h with
  | long hl =>
    rcases hl.2 with ⟨_, rfl⟩ | ⟨_, e, rfl⟩ <;> exact ho
  | single hc hr => exact told_mute hV hr
  | unopened hr => exact told_mute hV hr
  | opened hr => exact told_mute hV hr
  | listed _ hr => exact told_mute hV hr
  | listing _ hr => exact told_mute hV hr
  | unlisted hr => exact told_mute hV hr

/-- A server that says nothing. -/
example : (∀ (v : Unit) (req : Bytes), (((⟨fun v _ => (v, []), fun _ => .blocked⟩ : Server Unit)).react v req).2.flatten = []) := fun _ _ => rfl

end Cifs
