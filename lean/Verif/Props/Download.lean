import Verif.Lemmas.DemoFiles
import Verif.Lemmas.Determined
/-!
# Downloads: C39 to C43
-/

namespace Cifs
open Spec

variable {σ : Type} {E : Env σ} {log : σ → List Bytes}

theorem map_outcome {α β : Type} (g : α → β) (m : CM σ α) (s : St σ) : M.map' g m s = (match (m s).1 with
    | .ok a => .ok (g a) | .err e => .err e | .panic => .panic | .pending => .pending | .running => .running, (m s).2) := by
  show M.bind m _ s = _
  rcases hm : m s with ⟨o, s'⟩
  cases o <;> simp only [M.bind, hm]

theorem runOp_download (E : Env σ) (k : Nat) (share : Share) (path : Str) (s : St σ) :
    (runOp E (.download k share path) s).2 = (download E k share path s).2 ∧
    (∀ d, (runOp E (.download k share path) s).1 = .ok (.bytes d) ↔ (download E k share path s).1 = .ok d) ∧
    ((runOp E (.download k share path) s).1 = .running ↔ (download E k share path s).1 = .running) ∧
    ((runOp E (.download k share path) s).1 = .panic ↔ (download E k share path s).1 = .panic) := by
  have e : runOp E (.download k share path) s = _ := map_outcome Val.bytes (download E k share path) s
  rw [e]
  refine ⟨rfl, fun d => ?_, ?_, ?_⟩
  all_goals cases (download E k share path s).1 <;> simp

theorem reading_result {V : Server σ} {quit : Prop} {h : Handle} {v v' : σ} {b data : Bytes} {reqs chunks : List Bytes} {r : Option Bytes}
    (hr : Reading V quit h v b data reqs chunks r v') (d : Bytes) (hd : r = some d) :
    d = data ++ chunks.flatten ∧ h.size.toNat ≤ d.length ∧ ∃ pre req, reqs = pre ++ [req] ∧ CloseRequest req h := by
  induction hr with
  | stop => cases hd
  | read hl hq' hr hf hs ih =>
    obtain ⟨h1, h2, pre, req, h3, h4⟩ := ih hd
    exact ⟨by simpa using h1, h2, _ :: pre, req, by rw [h3]; rfl, h4⟩
  | unread => cases hd
  | close hl hq hr hf => cases hd; exact ⟨by simp, hl, [], _, rfl, hq⟩
  | unclosed => cases hd

/-- A download with a handle began with a request that was answered with it. -/
theorem downloading_opened {V : Server σ} {quit : Prop} {tid : Nat} {path : Str} {v v' : σ} {b : Bytes} {reqs chunks : List Bytes} {h : Handle}
    {r : Option Bytes} (hd : Downloading V quit tid path v b reqs (some h) chunks r v') :
    ∃ o reqs' f v1 b1, reqs = o :: reqs' ∧ OpenRequest o tid path ∧ Round V v b o f v1 b1 ∧ Opens f h ∧
      Reading V quit h v1 b1 [] reqs' chunks r v' := by
  cases hd with
  | opened hq hr hf hs => exact ⟨_, _, _, _, _, rfl, hq, hr, hf, hs⟩

/-! ## C39 -/

/-- **C39** (partial: in a build with overflow checks there have to be enough multiplex ids left, see `C39_violated`; without these checks,
`C39_release` has no such condition.) A download from a server that serves the file `content` (see `FileServer`: it chooses the size of every chunk, cuts its stream
into segments as it likes, and sends keep-alives and replies to other requests in between) returns `content` and closes the file. `Ready`: the
socket takes what the client writes, only foreign replies are unread, and the multiplex ids of the `n + 2` requests (open, at most `n` reads,
close) are not used by foreign replies and do not overflow. -/
theorem C39_content_partial (hlog : Logs E.V log) {own : Nat → Prop} {path : Str} {content : Bytes} {least : Nat} {idle : σ → Prop}
    {opened : Handle → σ → Prop} {closed : σ → Prop} {share : Share}
    (hs : FileServer E.V own share.tid.toNat path content least idle opened closed) (n : Nat) (hn : content.length ≤ n * least) (s : St σ)
    (hi : idle s.w.srv) (hp : Fits s.cli.useUnicode (.openfile share path)) (hr : Ready E own (n + 2) s) (budget : Nat) (hb : n < budget) :
    (runOp E (.download budget share path) s).1 = .ok (.bytes content) ∧ closed (runOp E (.download budget share path) s).2.w.srv ∧
      ∃ h pre req, log (runOp E (.download budget share path) s).2.w.srv = log s.w.srv ++ pre ++ [req] ∧ CloseRequest req h := by
  obtain ⟨s', h1, h2⟩ := served_download hs n hn s hi hp hr budget hb
  obtain ⟨e1, e2, _, _⟩ := runOp_download E budget share path s
  obtain ⟨reqs, file, chunks, r, g1, g2, _⟩ := download_course E budget share path s
  have hlg := downloading_log hlog g1
  rw [e1, e2, hlg]
  have hr : r = some content := (g2 content).mp (by rw [h1])
  subst hr
  rw [h1]
  refine ⟨rfl, h2, ?_⟩
  cases file with
  | none => cases g1
  | some h =>
    obtain ⟨o, reqs', f, v1, b1, rfl, -, -, -, hd⟩ := downloading_opened g1
    obtain ⟨_, _, pre, req, rfl, hc⟩ := reading_result hd content rfl
    exact ⟨h, o :: pre, req, by simp, hc⟩

namespace Demo

/-- The chunks of a file, `n` bytes each. -/
def chunksOf (content : Bytes) (n : Nat) (offset : Nat) : Option Bytes := some ((content.drop offset).take n)

/-- The demo server serves files, of any content, in chunks of any size. -/
theorem serves_file (own : Nat → Prop) (content : Bytes) (hc : content.length < 2 ^ 64) (n : Nat) (hn : n < 65536) (tid : Nat) (path : Str) :
    FileServer (logged (fileServer (UInt64.ofNat content.length) (chunksOf content n))) own tid path content n (fun _ => True)
      (fun h _ => h = fileHandle (UInt64.ofNat content.length)) (fun _ => True) where
  opens := fun v req _ hq => by
    obtain ⟨f, h1, h2⟩ := served_open own _ (chunksOf content n) v req hq
    exact ⟨f, _, h1, h2, by show (UInt64.ofNat content.length).toNat = _; rw [UInt64.toNat_ofNat_of_lt' (by simpa [UInt64.size] using hc)], rfl⟩
  reads := fun v req h o ho hq hl => by
    obtain ⟨f, h1, h2⟩ := served_read own (UInt64.ofNat content.length) (chunksOf content n) v req hq _ rfl (by simp; omega)
    refine ⟨f, _, h1, h2, List.take_prefix _ _, ?_, ho⟩
    simp
  closes := fun v req h _ hq => by
    obtain ⟨f, h1, h2⟩ := served_close own (UInt64.ofNat content.length) (chunksOf content n) v req hq
    exact ⟨f, h1, h2, trivial⟩

theorem accepting_fileSt : Accepting fileSt.w.wsched := by intro ev hev; simp [fileSt] at hev; rcases hev with h | h <;> exact ⟨_, h⟩

end Demo

/-- The hypotheses can be met, for any content and any chunk size: here a file of a million bytes in chunks of 1000. -/
example (checked : Bool) : (runOp (Demo.fileEnv checked 1000000 (Demo.chunksOf (List.replicate 1000000 7) 1000)) (.download 1001 Demo.share ['a']) Demo.fileSt).1
    = .ok (.bytes (List.replicate 1000000 7)) := by
  have e : (1000000 : UInt64) = UInt64.ofNat (List.replicate 1000000 (7 : UInt8)).length := by rw [List.length_replicate]; rfl
  have hs := Demo.serves_file (fun _ => True) (List.replicate 1000000 7) (by rw [List.length_replicate]; decide) 1000 (by decide) Demo.share.tid.toNat ['a']
  rw [← e] at hs
  refine (C39_content_partial (E := Demo.fileEnv checked 1000000 (Demo.chunksOf (List.replicate 1000000 7) 1000)) (logs_logged _) hs 1000 (by rw [List.length_replicate]; decide) Demo.fileSt trivial ?_
    ⟨Demo.accepting_fileSt, .nil, fun _ _ => trivial, fun _ => ?_⟩ 1001 (by decide)).1
  · show utf16Len ['a'] ≤ nameLimit
    decide
  · show (7 : UInt16).toNat + 1002 ≤ 65535
    decide

/-! ## C40 -/

/-- **C40** The course of a download, whatever the server does: the client asks for a handle; then, as long as it has fewer bytes than the
size in the handle, for the bytes that follow those it has; then it closes the file. What it returns is what it got. (`Downloading` and
`Reading` say this in terms of requests and replies on the wire. `Quits`: the socket refused data, the call panicked, or the budget of `k`
rounds is used up.) -/
theorem C40_course (hlog : Logs E.V log) (k : Nat) (share : Share) (path : Str) (s : St σ) :
    ∃ reqs file chunks r, Downloading E.V (Quits s (runOp E (.download k share path) s).1) share.tid.toNat path s.w.srv s.w.inbox.flatten
        reqs file chunks r (runOp E (.download k share path) s).2.w.srv ∧
      log (runOp E (.download k share path) s).2.w.srv = log s.w.srv ++ reqs ∧
      (∀ d, (runOp E (.download k share path) s).1 = .ok (.bytes d) ↔ r = some d) ∧
      ((runOp E (.download k share path) s).1 = .running → file ≠ none ∧ chunks.length = k) := by
  obtain ⟨e1, e2, e3, e4⟩ := runOp_download E k share path s
  obtain ⟨reqs, file, chunks, r, h1, h2, h3⟩ := download_course E k share path s
  have e : Quits s (runOp E (.download k share path) s).1 = Quits s (download E k share path s).1 := by
    unfold Quits; rw [e3, e4]
  rw [e, e1]
  exact ⟨reqs, file, chunks, r, h1, downloading_log hlog h1, fun d => (e2 d).trans (h2 d), fun h => h3 (e3.mp h)⟩

theorem reading_offset {V : Server σ} {quit : Prop} {h : Handle} {v v' : σ} {b data : Bytes} {reqs chunks : List Bytes} {r : Option Bytes}
    (hr : Reading V quit h v b data reqs chunks r v') (i : Nat) (req : Bytes) (hq : reqs[i]? = some req) :
    ReadRequest req h (data.length + (chunks.take i).flatten.length) ∨ (CloseRequest req h ∧ i + 1 = reqs.length) := by
  induction hr generalizing i with
  | stop => simp at hq
  | read hl hq' hr hf hs ih =>
    cases i with
    | zero => simp at hq; subst hq; left; simpa using hq'
    | succ i =>
      rcases ih i (by simpa using hq) with h | h
      · left; simpa [Nat.add_assoc] using h
      · right; simpa using h
  | unread hl hq' =>
    cases i with
    | zero => simp at hq; subst hq; left; simpa using hq'
    | succ i => simp at hq
  | close hl hq' hr hf =>
    cases i with
    | zero => simp at hq; subst hq; right; exact ⟨hq', rfl⟩
    | succ i => simp at hq
  | unclosed hl hq' =>
    cases i with
    | zero => simp at hq; subst hq; right; exact ⟨hq', rfl⟩
    | succ i => simp at hq

/-- **C40** In particular: after the request to open, the `i`-th request is to read at the number of bytes received in the `i` chunks before
it, or it is the last one and closes the file. -/
theorem C40_offsets {V : Server σ} {quit : Prop} {tid : Nat} {path : Str} {v v' : σ} {b : Bytes} {reqs chunks : List Bytes} {h : Handle}
    {r : Option Bytes} (hr : Downloading V quit tid path v b reqs (some h) chunks r v') (i : Nat) (req : Bytes) (hq : reqs[i + 1]? = some req) :
    ReadRequest req h (chunks.take i).flatten.length ∨ (CloseRequest req h ∧ i + 2 = reqs.length) := by
  cases hr with
  | opened hq' hr hf hs =>
    rcases reading_offset hs i req (by simpa using hq) with h | h
    · left; simpa using h
    · right; exact ⟨h.1, by simpa using h.2⟩

/-- **C09** The tree ids of a download, whatever the server does: the first request carries that of the share, and the others that of the handle
which the server gave in its reply to the first. -/
theorem C09_download (hlog : Logs E.V log) (k : Nat) (share : Share) (path : Str) (s : St σ) :
    ∃ reqs, log (runOp E (.download k share path) s).2.w.srv = log s.w.srv ++ reqs ∧ ∀ first more, reqs = first :: more →
      tidOf first = some share.tid.toNat ∧ (more ≠ [] → ∃ f v' b' h, Round E.V s.w.srv s.w.inbox.flatten first f v' b' ∧ Opens f h ∧
        ∀ req ∈ more, tidOf req = some h.tid.toNat) := by
  obtain ⟨reqs, file, chunks, r, h1, h2, -⟩ := C40_course hlog k share path s
  refine ⟨reqs, h2, fun first more e => ?_⟩
  clear h2
  subst e
  generalize (runOp E (.download k share path) s).2.w.srv = v' at h1
  cases h1 with
  | unopened hq => exact ⟨hq.2.1, fun h => absurd rfl h⟩
  | opened hq hr hf hs =>
    refine ⟨hq.2.1, fun _ => ⟨_, _, _, _, hr, hf, fun req hm => ?_⟩⟩
    obtain ⟨i, hi⟩ := List.getElem?_of_mem hm
    rcases reading_offset hs i req hi with h | ⟨h, -⟩
    · exact h.2.1
    · exact h.2.1

/-- non-vacuity: a download with requests after the first. -/
example : (runOp (Demo.fileEnv true 2 (Demo.chunksOf [1, 2] 2)) (.download 100 Demo.share ['a']) Demo.fileSt).2.w.srv.2.length = 3 := by
  decide +kernel

/-- **C40** A file that is returned is the concatenation of the chunks, and at least as long as announced. -/
theorem C40_result {V : Server σ} {quit : Prop} {tid : Nat} {path : Str} {v v' : σ} {b : Bytes} {reqs chunks : List Bytes} {file : Option Handle}
    {d : Bytes} (hr : Downloading V quit tid path v b reqs file chunks (some d) v') :
    ∃ h, file = some h ∧ d = chunks.flatten ∧ h.size.toNat ≤ d.length := by
  cases hr with
  | opened hq hr hf hs =>
    obtain ⟨h1, h2, _⟩ := reading_result hs d rfl
    exact ⟨_, rfl, by simpa using h1, h2⟩

theorem succeeds_det {f : Bytes} {c c' : Nat} {ps ps' ds ds' : Bytes} (h : Succeeds f c ps ds) (h' : Succeeds f c' ps' ds') : ps = ps' ∧ ds = ds' := by
  obtain ⟨_, _, h1, n, h2, h3⟩ := h
  obtain ⟨_, _, g1, m, g2, g3⟩ := h'
  rw [h1] at g1; cases g1
  rw [h2] at g2; cases g2
  rw [h3] at g3; cases g3
  exact ⟨rfl, rfl⟩

theorem yields_det {f c c' : Bytes} (h : Yields f c) (h' : Yields f c') : c = c' := by
  obtain ⟨ps, pad, h1, _, h2, h3⟩ := h
  obtain ⟨ps', pad', g1, _, g2, g3⟩ := h'
  obtain ⟨rfl, e⟩ := succeeds_det h1 g1
  rw [h3] at g3
  have hl : c.length = c'.length := Option.some.inj g3
  have := congrArg List.length e
  simp only [List.length_append] at this
  exact (List.append_inj e (by omega)).2

theorem opens_det {f : Bytes} {h h' : Handle} (ho : Opens f h) (ho' : Opens f h') : h = h' := by
  obtain ⟨ps, ds, tid, h1, _, h2, h3⟩ := ho
  obtain ⟨ps', ds', tid', g1, _, g2, g3⟩ := ho'
  obtain ⟨rfl, rfl⟩ := succeeds_det h1 g1
  rw [h2] at g2; cases g2
  exact C30_unique _ _ _ _ h3 g3

theorem reading_det {V : Server σ} {quit : Prop} {h : Handle} {v v1 v2 : σ} {b data : Bytes} {reqs chunks chunks' : List Bytes}
    {r r' : Option Bytes} (h1 : Reading V quit h v b data reqs chunks r v1) (h2 : Reading V quit h v b data reqs chunks' r' v2) :
    chunks = chunks' ∧ r = r' := by
  induction h1 generalizing chunks' with
  | stop hq => cases h2; exact ⟨rfl, rfl⟩
  | read hl hq hr hf hs ih =>
    cases h2 with
    | read hl' hq' hr' hf' hs' =>
      obtain ⟨rfl, rfl, rfl⟩ := round_det hr hr'
      cases yields_det hf hf'
      obtain ⟨rfl, rfl⟩ := ih hs'
      exact ⟨rfl, rfl⟩
    | unread hl' hq' hn => exact absurd hf (hn _ _ _ _ hr)
    | close hl' hq' hr' hf' => omega
    | unclosed hl' hq' hn => omega
  | unread hl hq hn =>
    cases h2 with
    | read hl' hq' hr' hf' hs' => exact absurd hf' (hn _ _ _ _ hr')
    | unread hl' hq' hn' => exact ⟨rfl, rfl⟩
    | close hl' hq' hr' hf' => omega
    | unclosed hl' hq' hn => omega
  | close hl hq hr hf =>
    cases h2 with
    | read hl' => omega
    | unread hl' => omega
    | close hl' hq' hr' hf' => exact ⟨rfl, rfl⟩
    | unclosed hl' hq' hn => exact absurd hf (hn _ _ _ hr)
  | unclosed hl hq hn =>
    cases h2 with
    | read hl' => omega
    | unread hl' => omega
    | close hl' hq' hr' hf' => exact absurd hf' (hn _ _ _ hr')
    | unclosed hl' hq' hn => exact ⟨rfl, rfl⟩

/-- **C40** The course is determined by the requests: there is only one handle, one list of chunks and one result that fit. -/
theorem C40_unique {V : Server σ} {quit : Prop} {tid : Nat} {path : Str} {v v1 v2 : σ} {b : Bytes} {reqs chunks chunks' : List Bytes}
    {file file' : Option Handle} {r r' : Option Bytes} (h : Downloading V quit tid path v b reqs file chunks r v1)
    (h' : Downloading V quit tid path v b reqs file' chunks' r' v2) : file = file' ∧ chunks = chunks' ∧ r = r' := by
  cases h with
  | none => cases h'; exact ⟨rfl, rfl, rfl⟩
  | unopened hq hn =>
    cases h' with
    | unopened hq' hn' => exact ⟨rfl, rfl, rfl⟩
    | opened hq' hr' hf' hs' => exact absurd hf' (hn _ _ _ _ hr')
  | opened hq hr hf hs =>
    cases h' with
    | unopened hq' hn' => exact absurd hf (hn' _ _ _ _ hr)
    | opened hq' hr' hf' hs' =>
      obtain ⟨rfl, rfl, rfl⟩ := round_det hr hr'
      cases opens_det hf hf'
      obtain ⟨rfl, rfl⟩ := reading_det hs hs'
      exact ⟨rfl, rfl, rfl⟩

/-! ## C41 -/

theorem downloadLoop_budget (E : Env σ) (file : Handle) (j : Nat) : ∀ (k : Nat) (data : Bytes) (s : St σ),
    (downloadLoop E file k data s).1 ≠ .running → downloadLoop E file (k + j) data s = downloadLoop E file k data s := by
  intro k
  induction k with
  | zero => intro data s h; exact absurd rfl h
  | succ k ih =>
    intro data s h
    rw [show k + 1 + j = k + j + 1 by omega]
    by_cases hl : data.length < file.size.toNat
    · rw [downloadLoop, if_pos hl] at h ⊢
      rw [downloadLoop, if_pos hl]
      rcases hr : read E file (UInt64.ofNat data.length) s with ⟨o, s1⟩
      rcases out_cases o with ⟨chunk, rfl⟩ | ho
      · rw [M.bind_ok hr] at h ⊢
        rw [M.bind_ok hr]
        exact ih _ _ h
      · rw [M.bind_fails hr ho, M.bind_fails hr ho]
    · rw [downloadLoop, if_neg hl, downloadLoop, if_neg hl]

/-- The budget is a device of the model: a download that ends within `k` rounds takes the same course with any larger budget. -/
theorem C41_budget (k k' : Nat) (hk : k ≤ k') (share : Share) (path : Str) (s : St σ)
    (h : (runOp E (.download k share path) s).1 ≠ .running) : runOp E (.download k' share path) s = runOp E (.download k share path) s := by
  obtain ⟨j, rfl⟩ : ∃ j, k' = k + j := ⟨k' - k, by omega⟩
  have hd : download E (k + j) share path s = download E k share path s := by
    have h' : (download E k share path s).1 ≠ .running := fun e => h ((runOp_download E k share path s).2.2.1.mpr e)
    have e : ∀ k, download E k share path = (openfile E share path >>= fun file => downloadLoop E file k [] >>= fun data => close E file >>= fun _ => pure data) :=
      fun _ => rfl
    rw [e] at h' ⊢
    rw [e]
    rcases hop : openfile E share path s with ⟨o, s1⟩
    rcases out_cases o with ⟨file, rfl⟩ | ho
    · rw [M.bind_ok hop] at h' ⊢
      rw [M.bind_ok hop]
      have hl := downloadLoop_budget E file j k [] s1 (fun hl => h' (by
        have : downloadLoop E file k [] s1 = (.running, (downloadLoop E file k [] s1).2) := by rw [← hl]
        rw [M.bind_running this]))
      show M.bind _ _ _ = M.bind _ _ _
      unfold M.bind
      rw [hl]
    · rw [M.bind_fails hop ho, M.bind_fails hop ho]
  show M.map' _ _ _ = M.map' _ _ _
  rw [map_outcome, map_outcome, hd]

example : runOp (Demo.fileEnv true 2 (Demo.chunksOf [1, 2] 1)) (.download 100 Demo.share ['a']) Demo.fileSt =
    runOp (Demo.fileEnv true 2 (Demo.chunksOf [1, 2] 1)) (.download 3 Demo.share ['a']) Demo.fileSt :=
  C41_budget 3 100 (by decide) _ _ _ (by decide +kernel)

theorem reading_mono {V : Server σ} {quit quit' : Prop} (hq : quit → quit') {h : Handle} {v v' : σ} {b data : Bytes} {reqs chunks : List Bytes}
    {r : Option Bytes} (hr : Reading V quit h v b data reqs chunks r v') : Reading V quit' h v b data reqs chunks r v' := by
  induction hr with
  | stop hq' => exact .stop (hq hq') _ _ _
  | read hl hq hr hf hs ih => exact .read hl hq hr hf ih
  | unread hl hq hn => exact .unread hl hq hn
  | close hl hq hr hf => exact .close hl hq hr hf
  | unclosed hl hq hn => exact .unclosed hl hq hn

theorem reading_short {V : Server σ} {quit : Prop} {h : Handle} {v v' : σ} {b data : Bytes} {reqs chunks : List Bytes} {r : Option Bytes}
    (hr : Reading V quit h v b data reqs chunks r v') (hc : chunks ≠ []) : (data ++ chunks.dropLast.flatten).length < h.size.toNat := by
  induction hr with
  | stop => exact absurd rfl hc
  | @read v v' v'' b b' data req f chunk reqs chunks r hl hq hr hf hs ih =>
    cases chunks with
    | nil => simpa using hl
    | cons c cs => simpa using ih (by simp)
  | unread => exact absurd rfl hc
  | close => exact absurd rfl hc
  | unclosed => exact absurd rfl hc

theorem flatten_length_ge (l : List Bytes) (h : [] ∉ l) : l.length ≤ l.flatten.length := by
  induction l with
  | nil => simp
  | cons c l ih =>
    have h1 : c ≠ [] := fun e => h (by simp [e])
    have h2 := ih (fun e => h (by simp [e]))
    have : 0 < c.length := List.length_pos_iff.mpr h1
    rw [List.flatten_cons, List.length_append, List.length_cons]; omega

/-- **C41**, as far as it holds (`_partial`: see `C41_violated`): a download that is not over after `k` rounds has received `k` chunks, of which
all but the last together are shorter than the file. So if `k` exceeds the size, one of them is empty. -/
theorem C41_partial (hlog : Logs E.V log) (k : Nat) (share : Share) (path : Str) (s : St σ)
    (hrun : (runOp E (.download k share path) s).1 = .running) :
    ∃ reqs h chunks, Downloading E.V True share.tid.toNat path s.w.srv s.w.inbox.flatten reqs (some h) chunks none
        (runOp E (.download k share path) s).2.w.srv ∧
      log (runOp E (.download k share path) s).2.w.srv = log s.w.srv ++ reqs ∧ chunks.length = k ∧
      (k ≠ 0 → chunks.dropLast.flatten.length < h.size.toNat) ∧ (h.size.toNat < k → [] ∈ chunks) := by
  obtain ⟨reqs, file, chunks, r, h1, h2, h3, h4⟩ := C40_course hlog k share path s
  obtain ⟨h5, h6⟩ := h4 hrun
  generalize (runOp E (.download k share path) s).2.w.srv = w at h1 h2 ⊢
  cases file with
  | none => exact absurd rfl h5
  | some h =>
    obtain ⟨o, reqs', f, v1, b1, rfl, hq, hr, hf, hs⟩ := downloading_opened h1
    have hr0 : r = none := by
      cases r with
      | none => rfl
      | some d => have := (h3 d).mpr rfl; rw [hrun] at this; cases this
    subst hr0
    have hlt : k ≠ 0 → chunks.dropLast.flatten.length < h.size.toNat := fun hk => by
      have := reading_short hs (by rintro rfl; simp at h6; omega)
      simpa using this
    refine ⟨_, h, chunks, .opened hq hr hf (reading_mono (fun _ => trivial) hs), h2, h6, hlt, fun hk => ?_⟩
    apply Classical.byContradiction
    intro hn
    have h7 := hlt (by omega)
    have h8 := flatten_length_ge chunks.dropLast (fun hm => hn (List.dropLast_subset _ hm))
    rw [List.length_dropLast] at h8
    omega

def Demo.isRunning (o : Out Error Val) : Bool :=
  match o with
  | .running => true
  | _ => false

theorem Demo.isRunning_of {o : Out Error Val} (h : isRunning o = true) : o = .running := by
  unfold isRunning at h; split at h <;> simp_all

theorem Demo.endless (file : Handle) (hf : 0 < file.size.toNat) (k : Nat) : ∀ s : St (Unit × List Bytes),
    Accepting s.w.wsched → Foreign (fun _ => True) s.w.inbox.flatten → (downloadLoop (fileEnv false 1 (fun _ => some [])) file k [] s).1 = .running := by
  induction k with
  | zero => intro s _ _; rfl
  | succ k ih =>
    intro s hw hb
    obtain ⟨fr, hfr⟩ := first_fits s.cli (.read file (UInt64.ofNat 0)) trivial
    obtain ⟨f, h1, h2⟩ := served_read (fun _ => True) 1 (fun _ => some []) s.w.srv _ (readRequest hfr) [] rfl (by decide)
    obtain ⟨s', g1, g2, g3, g4, g5⟩ := command_serves (E := fileEnv false 1 (fun _ => some [])) (keepsMid_setTid _ _ rfl) readReply hw
      (fun h => by cases h.1) hb trivial hfr h1 (fun i hp => (accept_read hp []).mpr h2)
    rw [downloadLoop, if_pos (by simpa using hf)]
    exact (congrArg Prod.fst (M.bind_ok g1)).trans (ih s' g5 g4)

/-- **C41** is violated: from a server that answers every read with no bytes, a download (in a release build) never ends. -/
theorem C41_violated : ∃ (σ : Type) (E : Env σ) (s : St σ), Accepting s.w.wsched ∧ E.checked = false ∧
    ∀ budget, (runOp E (.download budget Demo.share ['a']) s).1 = .running := by
  refine ⟨_, Demo.fileEnv false 1 (fun _ => some []), Demo.fileSt, Demo.accepting_fileSt, rfl, fun k => ?_⟩
  rw [(runOp_download _ _ _ _ _).2.2.1]
  obtain ⟨fr, hfr⟩ := first_fits Demo.fileSt.cli (.openfile Demo.share ['a']) (by show utf16Len ['a'] ≤ nameLimit; decide)
  obtain ⟨f, h1, h2⟩ := Demo.served_open (fun _ => True) 1 (fun _ => some []) Demo.fileSt.w.srv _ (openRequest hfr)
  obtain ⟨s', g1, g2, g3, g4, g5⟩ := command_serves (E := Demo.fileEnv false 1 (fun _ => some [])) (keepsMid_setTid _ _ rfl) Handle.reply
    Demo.accepting_fileSt (fun h => by cases h.1) .nil trivial hfr h1 (fun i hp => (accept_open hp _).mpr h2)
  have hl := Demo.endless (Demo.fileHandle 1) (by decide) k s' g5 g4
  have hl' : downloadLoop (Demo.fileEnv false 1 (fun _ => some [])) (Demo.fileHandle 1) k [] s' = (.running, (downloadLoop (Demo.fileEnv false 1 (fun _ => some [])) (Demo.fileHandle 1) k [] s').2) := by rw [← hl]
  have he : download (Demo.fileEnv false 1 (fun _ => some [])) k Demo.share ['a'] = (openfile _ Demo.share ['a'] >>= fun file =>
    downloadLoop _ file k [] >>= fun data => close (Demo.fileEnv false 1 (fun _ => some [])) file >>= fun _ => pure data) := rfl
  rw [he, M.bind_ok (show openfile _ _ _ _ = _ from g1), M.bind_running hl']

/-- The hypothesis of `C41_partial` can be met: the server delivers one byte at a time, and the budget is too small. -/
example : ∃ reqs h chunks, Downloading (Demo.fileEnv true 5 (Demo.chunksOf [1, 2, 3, 4, 5] 1)).V True Demo.share.tid.toNat ['a'] ((), []) [] reqs (some h)
    chunks none (runOp (Demo.fileEnv true 5 (Demo.chunksOf [1, 2, 3, 4, 5] 1)) (.download 3 Demo.share ['a']) Demo.fileSt).2.w.srv ∧ chunks.length = 3 := by
  obtain ⟨reqs, h, chunks, h1, _, h2, _⟩ := C41_partial (E := Demo.fileEnv true 5 (Demo.chunksOf [1, 2, 3, 4, 5] 1)) (logs_logged _) 3 Demo.share ['a']
    Demo.fileSt (Demo.isRunning_of (by decide +kernel))
  exact ⟨reqs, h, chunks, h1, h2⟩

/-! ## C42 -/

/-- **C42**, as far as it holds (`_partial`: see `C42_violated`): a file that is returned is not shorter than announced; and if it is longer,
then because the last chunk is longer than what was missing. -/
theorem C42_partial {V : Server σ} {quit : Prop} {tid : Nat} {path : Str} {v v' : σ} {b : Bytes} {reqs chunks : List Bytes} {file : Option Handle}
    {d : Bytes} (hr : Downloading V quit tid path v b reqs file chunks (some d) v') :
    ∃ h, file = some h ∧ (d.length = h.size.toNat ∨
      ∃ pre last, chunks = pre ++ [last] ∧ pre.flatten.length < h.size.toNat ∧ h.size.toNat < pre.flatten.length + last.length ∧ d = pre.flatten ++ last) := by
  cases file with
  | none => cases hr
  | some h =>
    obtain ⟨o, reqs', f, v1, b1, rfl, hq, hr, hf, hs⟩ := downloading_opened hr
    obtain ⟨h1, h2, _⟩ := reading_result hs d rfl
    refine ⟨h, rfl, ?_⟩
    by_cases hc : chunks = []
    · left; subst hc; simp at h1; subst h1; simp at h2 ⊢; omega
    · have h3 := reading_short hs hc
      by_cases he : d.length = h.size.toNat
      · exact .inl he
      · right
        have e := List.dropLast_concat_getLast hc
        have hd : d = chunks.dropLast.flatten ++ chunks.getLast hc := by
          have e' := congrArg List.flatten e
          simp at e'
          rw [h1, e']; rfl
        refine ⟨_, _, e.symm, by simpa using h3, ?_, hd⟩
        have := congrArg List.length hd
        simp only [List.length_append] at this
        omega

def Demo.isBytes (o : Out Error Val) (d : Bytes) : Bool :=
  match o with
  | .ok (.bytes e) => e == d
  | _ => false

theorem Demo.isBytes_of {o : Out Error Val} {d : Bytes} (h : isBytes o d = true) : o = .ok (.bytes d) := by
  unfold isBytes at h; split at h <;> simp_all

def Demo.isDenied (o : Out Error Val) : Bool :=
  match o with
  | .err (.ServerError (.Known .ACCESS_DENIED)) => true
  | _ => false

theorem Demo.isDenied_of {o : Out Error Val} (h : isDenied o = true) : o = .err (.ServerError (.Known .ACCESS_DENIED)) := by
  unfold isDenied at h; split at h <;> simp_all

/-- The course of a download from the file server begins with the handle the server gives. -/
theorem Demo.course {size : UInt64} {chunkAt : Nat → Option Bytes} {quit : Prop} {tid : Nat} {path : Str} {v v' : Unit × List Bytes}
    {reqs chunks : List Bytes} {h : Handle} {r : Option Bytes}
    (hd : Downloading (logged (fileServer size chunkAt)) quit tid path v [] reqs (some h) chunks r v') :
    h = fileHandle size ∧ ∃ o reqs' f b', reqs = o :: reqs' ∧ OpenRequest o tid path ∧
      Round (logged (fileServer size chunkAt)) v [] o f ((logged (fileServer size chunkAt)).react v o).1 b' ∧ Opens f h ∧
      Reading (logged (fileServer size chunkAt)) quit h ((logged (fileServer size chunkAt)).react v o).1 b' [] reqs' chunks r v' := by
  obtain ⟨o, reqs', f, v1, b1, rfl, hq, hr, hf, hs⟩ := downloading_opened hd
  obtain ⟨rfl, mid, hm, ha⟩ := id hr
  obtain ⟨f', h1, h2⟩ := served_open (fun _ => True) size chunkAt v o hq
  obtain ⟨rest, _, h4⟩ := serves_awaits (.nil) h1 hm trivial
  obtain ⟨rfl, -, -⟩ := round_det hr ⟨rfl, mid, hm, h4⟩
  exact ⟨opens_det hf h2, o, reqs', f, b1, rfl, hq, hr, hf, hs⟩

/-- **C42** is violated: the server announces one byte, and delivers two. -/
theorem C42_violated : ∃ (E : Env (Unit × List Bytes)) (s : St (Unit × List Bytes)) (reqs chunks : List Bytes) (h : Handle),
    Downloading E.V False Demo.share.tid.toNat ['a'] s.w.srv s.w.inbox.flatten reqs (some h) chunks (some [5, 6])
      (runOp E (.download 2 Demo.share ['a']) s).2.w.srv ∧ h.size = 1 ∧ (runOp E (.download 2 Demo.share ['a']) s).1 = .ok (.bytes [5, 6]) := by
  have ho : (runOp (Demo.fileEnv true 1 (fun _ => some [5, 6])) (.download 2 Demo.share ['a']) Demo.fileSt).1 = .ok (.bytes [5, 6]) :=
    Demo.isBytes_of (by decide +kernel)
  obtain ⟨reqs, file, chunks, r, h1, h2, h3, h4⟩ :=
    C40_course (E := Demo.fileEnv true 1 (fun _ => some [5, 6])) (logs_logged _) 2 Demo.share ['a'] Demo.fileSt
  have hq : Quits Demo.fileSt (runOp (Demo.fileEnv true 1 (fun _ => some [5, 6])) (.download 2 Demo.share ['a']) Demo.fileSt).1 = False := by
    rw [ho]; unfold Quits; simp [Demo.accepting_fileSt]
  rw [hq] at h1
  obtain rfl := (h3 [5, 6]).mp ho
  cases file with
  | none => cases h1
  | some h =>
    obtain ⟨rfl, -⟩ := Demo.course h1
    exact ⟨_, _, reqs, chunks, _, h1, rfl, ho⟩

/-- It meets the hypotheses of `C40_offsets`, `C40_result`, `C40_unique` and `C42_partial`, with two requests after the first. -/
example : ∃ (V : Server (Unit × List Bytes)) (v v' : Unit × List Bytes) (o r c : Bytes) (chunks : List Bytes) (h : Handle),
    Downloading V False Demo.share.tid.toNat ['a'] v [] [o, r, c] (some h) chunks (some [5, 6]) v' ∧ h.size = 1 := by
  have ho : (runOp (Demo.fileEnv true 1 (fun _ => some [5, 6])) (.download 2 Demo.share ['a']) Demo.fileSt).1 = .ok (.bytes [5, 6]) :=
    Demo.isBytes_of (by decide +kernel)
  obtain ⟨reqs, file, chunks, r, h1, h2, h3, h4⟩ :=
    C40_course (E := Demo.fileEnv true 1 (fun _ => some [5, 6])) (logs_logged _) 2 Demo.share ['a'] Demo.fileSt
  have hq : Quits Demo.fileSt (runOp (Demo.fileEnv true 1 (fun _ => some [5, 6])) (.download 2 Demo.share ['a']) Demo.fileSt).1 = False := by
    rw [ho]; unfold Quits; simp [Demo.accepting_fileSt]
  rw [hq] at h1
  obtain rfl := (h3 [5, 6]).mp ho
  have h2' : reqs = (runOp (Demo.fileEnv true 1 (fun _ => some [5, 6])) (.download 2 Demo.share ['a']) Demo.fileSt).2.w.srv.2 := h2.symm
  have hl : reqs.length = 3 := by rw [h2']; decide +kernel
  obtain ⟨o, r, c, rfl⟩ : ∃ o r c, reqs = [o, r, c] := by
    match reqs, hl with
    | [o, r, c], _ => exact ⟨o, r, c, rfl⟩
  cases file with
  | none => cases h1
  | some h =>
    obtain ⟨rfl, -⟩ := Demo.course h1
    exact ⟨_, _, _, o, r, c, chunks, _, h1, rfl⟩

/-! ## C43 -/

theorem reading_closes {V : Server σ} {quit : Prop} (hq : ¬ quit) {h : Handle} {v v' : σ} {b data : Bytes} {reqs chunks : List Bytes} {r : Option Bytes}
    (hr : Reading V quit h v b data reqs chunks r v') :
    (h.size.toNat ≤ (data ++ chunks.flatten).length → ∃ pre req, reqs = pre ++ [req] ∧ CloseRequest req h) ∧
    ((data ++ chunks.flatten).length < h.size.toNat → r = none ∧ ∀ req ∈ reqs, cmdOf req ≠ some 0x04) := by
  induction hr with
  | stop hq' => exact absurd hq' hq
  | read hl hq' hr hf hs ih =>
    refine ⟨fun h => ?_, fun h => ?_⟩
    · obtain ⟨pre, req, h1, h2⟩ := ih.1 (by simpa using h)
      exact ⟨_ :: pre, req, by rw [h1]; rfl, h2⟩
    · obtain ⟨h1, h2⟩ := ih.2 (by simpa using h)
      refine ⟨h1, fun req hm => ?_⟩
      rcases List.mem_cons.mp hm with rfl | hm
      · rw [hq'.1]; decide
      · exact h2 req hm
  | unread hl hq' hn =>
    refine ⟨fun h => by simp at h; omega, fun h => ⟨rfl, fun req hm => ?_⟩⟩
    rw [List.mem_singleton.mp hm, hq'.1]; decide
  | close hl hq' hr hf => exact ⟨fun _ => ⟨[], _, rfl, hq'⟩, fun h => by simp at h; omega⟩
  | unclosed hl hq' hn => exact ⟨fun _ => ⟨[], _, rfl, hq'⟩, fun h => by simp at h; omega⟩

/-- **C43**, as far as it holds (`_partial`: see `C43_violated`): a download that returns, after it opened the file and got all of it, has sent a
request to close the file as its last one. But if it did not get all of it, it has sent no such request. (`Accepting`: the socket takes what the
client writes.) -/
theorem C43_partial (hlog : Logs E.V log) (k : Nat) (share : Share) (path : Str) (s : St σ) (hw : Accepting s.w.wsched)
    (hp : (runOp E (.download k share path) s).1 ≠ .panic) (hr : (runOp E (.download k share path) s).1 ≠ .running) :
    ∃ reqs file chunks r, Downloading E.V False share.tid.toNat path s.w.srv s.w.inbox.flatten reqs file chunks r
        (runOp E (.download k share path) s).2.w.srv ∧
      log (runOp E (.download k share path) s).2.w.srv = log s.w.srv ++ reqs ∧
      ∀ h, file = some h →
        (h.size.toNat ≤ chunks.flatten.length → ∃ pre req, reqs = pre ++ [req] ∧ CloseRequest req h) ∧
        (chunks.flatten.length < h.size.toNat → r = none ∧ ∀ req ∈ reqs, cmdOf req ≠ some 0x04) := by
  obtain ⟨reqs, file, chunks, r, h1, h2, h3, h4⟩ := C40_course hlog k share path s
  have hq : Quits s (runOp E (.download k share path) s).1 = False := by
    unfold Quits; simp [hp, hr, hw]
  rw [hq] at h1
  refine ⟨reqs, file, chunks, r, h1, h2, fun h e => ?_⟩
  subst e
  cases h1 with
  | opened hq' hr' hf hs =>
    have := reading_closes id hs
    refine ⟨fun hl => ?_, fun hl => ?_⟩
    · obtain ⟨pre, req, h1, h2⟩ := this.1 (by simpa using hl)
      exact ⟨_ :: pre, req, by rw [h1]; rfl, h2⟩
    · obtain ⟨h1, h2⟩ := this.2 (by simpa using hl)
      refine ⟨h1, fun req hm => ?_⟩
      rcases List.mem_cons.mp hm with rfl | hm
      · rw [hq'.1]; decide
      · exact h2 req hm

/-- Both cases occur: a download that gets all of the file, and one that does not. -/
example : Accepting Demo.fileSt.w.wsched ∧
    (runOp (Demo.fileEnv true 2 (Demo.chunksOf [1, 2] 1)) (.download 9 Demo.share ['a']) Demo.fileSt).1 = .ok (.bytes [1, 2]) ∧
    (runOp (Demo.fileEnv true 2 (fun _ => none)) (.download 9 Demo.share ['a']) Demo.fileSt).1 = .err (.ServerError (.Known .ACCESS_DENIED)) :=
  ⟨Demo.accepting_fileSt, Demo.isBytes_of (by decide +kernel), Demo.isDenied_of (by decide +kernel)⟩

/-- **C43** is violated: the server grants the handle and refuses the read; the call returns the server's error, and the handle stays open. -/
theorem C43_violated : ∃ (E : Env (Unit × List Bytes)) (s : St (Unit × List Bytes)) (h : Handle) (o r : Bytes),
    (runOp E (.download 2 Demo.share ['a']) s).1 = .err (.ServerError (.Known .ACCESS_DENIED)) ∧
    (runOp E (.download 2 Demo.share ['a']) s).2.w.srv.2 = [o, r] ∧ OpenRequest o Demo.share.tid.toNat ['a'] ∧ ReadRequest r h 0 ∧
    (∃ f b', Round E.V s.w.srv s.w.inbox.flatten o f (E.V.react s.w.srv o).1 b' ∧ Opens f h) := by
  have ho : (runOp (Demo.fileEnv true 1 (fun _ => none)) (.download 2 Demo.share ['a']) Demo.fileSt).1 =
      .err (.ServerError (.Known .ACCESS_DENIED)) := Demo.isDenied_of (by decide +kernel)
  have hl : (runOp (Demo.fileEnv true 1 (fun _ => none)) (.download 2 Demo.share ['a']) Demo.fileSt).2.w.srv.2.map cmdOf = [some 0xa2, some 0x2e] := by
    decide +kernel
  obtain ⟨reqs, file, chunks, r, h1, h2, -⟩ :=
    C43_partial (E := Demo.fileEnv true 1 (fun _ => none)) (logs_logged _) 2 Demo.share ['a'] Demo.fileSt Demo.accepting_fileSt
      (by rw [ho]; simp) (by rw [ho]; simp)
  generalize hw : (runOp (Demo.fileEnv true 1 (fun _ => none)) (.download 2 Demo.share ['a']) Demo.fileSt).2.w.srv = w at h1 h2 hl
  rw [show w.2 = reqs from h2] at hl
  cases file with
  | none =>
    cases h1 with
    | none => cases hl
    | unopened => simp at hl
  | some h =>
    obtain ⟨rfl, o, reqs', f, b', rfl, hq, hr, hf, hs⟩ := Demo.course h1
    obtain ⟨r, rfl, hc⟩ : ∃ r, reqs' = [r] ∧ cmdOf r = some 0x2e := by
      rcases reqs' with _ | ⟨r, _ | ⟨_, _⟩⟩
      · simp at hl
      · exact ⟨r, rfl, by simp at hl; exact hl.2⟩
      · simp at hl
    · refine ⟨_, Demo.fileSt, _, o, r, ho, by rw [hw]; exact h2, hq, ?_, f, b', hr, hf⟩
      cases hs with
      | read hl hq => exact hq
      | unread hl hq => exact hq
      | close hl hq => rw [hq.1] at hc; simp at hc
      | unclosed hl hq => rw [hq.1] at hc; simp at hc

end Cifs
