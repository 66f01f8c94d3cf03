import Verif.Lemmas.Mids
import Verif.Lemmas.Demo
/-!
# Multiplex ids and failed requests: C10, C11, C60
-/

namespace Cifs
open Spec

variable {σ : Type}

/-! ## C10 -/

/-- Number of calls of a history that did not return a value. -/
def failures {ε α : Type} (os : List (Out ε α)) : Nat := os.countP (fun o => !o.isOk)

/-- **C10.** The whole life of a connection: login, then any history. `A` lists the attempts to send a request: `some p` for a packet that
reached the server, `none` for one that did not; there are at most as many of the latter as calls that failed. The packets are what the
server saw, in order; the `i`-th attempt carries id `i` (mod 2^16); and among the first 65536 attempts no two packets carry the same id. -/
theorem C10_ids (E : Env σ) (log : σ → List Bytes) (hlog : Logs E.V log) (auth : Auth) (w : World σ) (ops : List Op)
    (s1 s2 : St σ) (o : Out Error Unit) (os : List (Out Error Val))
    (hopen : setupConnection E { cli := .init auth, w } = (o, s1)) (hrun : runOps E ops s1 = (os, s2)) :
    ∃ A : List (Option Bytes),
      log s2.w.srv = log w.srv ++ A.filterMap id ∧
      A.countP Option.isNone ≤ failures [o] + failures os ∧
      (∀ i p, A[i]? = some (some p) → midOf p = some (i % 65536)) ∧
      ((A.take 65536).filterMap id).Pairwise (fun p q => midOf p ≠ midOf q) ∧
      s2.cli.mid.toNat = A.length % 65536 := by
  have h1 := (setup_mids E log hlog { cli := .init auth, w }).hist
  rw [hopen] at h1
  have h2 := runOps_hist E log hlog ops s1
  rw [hrun] at h2
  obtain ⟨A, a1, a2, _, a4, a5⟩ := h1.trans h2
  have e0 : (⟨.init auth, w⟩ : St σ).cli.mid = 0 := rfl
  rw [e0] at a2 a4
  refine ⟨A, a1, ?_, ?_, hist_pairwise A 0 a4, ?_⟩
  · refine Nat.le_trans a5 ?_
    simp only [failures]
    cases hb : o.isOk <;> simp [hb]
  · intro i p hi
    rw [a4 i p hi]; simp
  · simp only at a2; rw [a2]; simp

/-- If nothing failed, the `i`-th packet of the connection carries id `i` (mod 2^16). -/
theorem C10_all_sent (E : Env σ) (log : σ → List Bytes) (hlog : Logs E.V log) (auth : Auth) (w : World σ) (ops : List Op)
    (s1 s2 : St σ) (os : List (Out Error Val))
    (hopen : setupConnection E { cli := .init auth, w } = (.ok (), s1)) (hrun : runOps E ops s1 = (os, s2))
    (hall : ∀ o ∈ os, ∃ v, o = .ok v) :
    ∃ ps, log s2.w.srv = log w.srv ++ ps ∧ ∀ i p, ps[i]? = some p → midOf p = some (i % 65536) := by
  obtain ⟨A, a1, a2, a3, a4, a5⟩ := C10_ids E log hlog auth w ops s1 s2 _ os hopen hrun
  have hz : A.countP Option.isNone = 0 := by
    have : failures os = 0 := by
      apply List.countP_eq_zero.mpr
      intro o ho; obtain ⟨v, rfl⟩ := hall o ho; simp [Out.isOk]
    rw [this] at a2
    have h0 : failures [(.ok () : Out Error Unit)] = 0 := rfl
    omega
  have hsome : ∀ a ∈ A, ∃ p, a = some p := by
    intro a ha
    have := List.countP_eq_zero.mp hz a ha
    cases a with
    | none => simp at this
    | some p => exact ⟨p, rfl⟩
  have hA : A = (A.filterMap id).map some := by
    clear a1 a2 a3 a4 a5 hz
    induction A with
    | nil => rfl
    | cons a A ih =>
      obtain ⟨p, rfl⟩ := hsome a (by simp)
      simp only [List.filterMap_cons, id, List.map_cons]
      rw [← ih (fun a ha => hsome a (by simp [ha]))]
  refine ⟨A.filterMap id, a1, ?_⟩
  intro i p hi
  apply a3
  rw [hA, List.getElem?_map, hi]; rfl

/-- A login against a silent server, then a call: the attempts are numbered from 0. -/
example : ∃ (o : Out Error Unit) (os : List (Out Error Val)) (s1 s2 : St (List (List Bytes) × List Bytes)),
    setupConnection (Demo.env true) { cli := .init defaultAuth, w := (Demo.st []).w } = (o, s1) ∧
    runOps (Demo.env true) [.umount Demo.share] s1 = (os, s2) ∧ s2.w.srv.2.map midOf = [some 0, some 1] :=
  ⟨_, _, _, _, rfl, rfl, by decide +kernel⟩

/-- A call of an operation that needs one request makes exactly one attempt: it uses up exactly one id and sends at most one packet,
unless the counter overflows in a build with overflow checks. -/
theorem C10_one_attempt (E : Env σ) (log : σ → List Bytes) (hlog : Logs E.V log) (op : Op) (hs : single op = true) (s : St σ)
    (hc : ¬ (E.checked = true ∧ s.cli.mid.toNat = 65535)) :
    (runOp E op s).2.cli.mid = s.cli.mid + 1 ∧
    (log (runOp E op s).2.w.srv = log s.w.srv ∨
      ∃ p, log (runOp E op s).2.w.srv = log s.w.srv ++ [p] ∧ midOf p = some s.cli.mid.toNat) := by
  obtain ⟨ib, e⟩ := runOp_single E op hs s
  rw [e]
  have hk : KeepsMid op.first := by
    cases op
    case mount => exact keepsMid_id _ rfl
    all_goals exact keepsMid_setTid _ _ rfl
  rcases send_cases E op.first s with ⟨h1, h2, _⟩ | ⟨_, ⟨e, _, h⟩ | ⟨_, h⟩ | ⟨f, _, _, h⟩ | ⟨f, hf, hl, ws, p, q, hpq, ⟨rfl, _, h⟩ | ⟨e, h⟩ | h⟩⟩
  · exact absurd ⟨h1, h2⟩ hc
  · rw [h]; exact ⟨rfl, .inl rfl⟩
  · rw [h]; exact ⟨rfl, .inl rfl⟩
  · rw [h]; exact ⟨rfl, .inl rfl⟩
  · rw [h]
    rw [List.append_nil, be24_packet] at hpq
    refine ⟨rfl, .inr ⟨p, hlog _ _, ?_⟩⟩
    rw [← hpq]; exact requestFrame_mid hk hf
  · rw [h]; exact ⟨rfl, .inl rfl⟩
  · rw [h]; exact ⟨rfl, .inl rfl⟩

example : (runOp (Demo.env true) (.umount Demo.share) (Demo.st [])).2.cli.mid = 8 :=
  (C10_one_attempt (Demo.env true) Prod.snd (logs_logged _) (.umount Demo.share) rfl (Demo.st []) (fun h => absurd h.2 (by decide))).1

/-! ## C11: does not hold -/

/-- State after `n` unmounts over a socket that accepts everything: `n` packets, one id each. -/
theorem umounts (E : Env σ) (log : σ → List Bytes) (hlog : Logs E.V log) (share : Share) (n : Nat) (s : St σ)
    (hw : Accepting s.w.wsched) (hc : E.checked = true → s.cli.mid.toNat + n ≤ 65535) :
    ∃ ps, ps.length = n ∧ log (runOps E (List.replicate n (.umount share)) s).2.w.srv = log s.w.srv ++ ps ∧
      (∀ i p, ps[i]? = some p → midOf p = some ((s.cli.mid.toNat + i) % 65536)) ∧
      (runOps E (List.replicate n (.umount share)) s).2.cli.mid = s.cli.mid + UInt16.ofNat n ∧
      Accepting (runOps E (List.replicate n (.umount share)) s).2.w.wsched := by
  induction n generalizing s with
  | zero => exact ⟨[], rfl, by simp [runOps], by simp, by simp [runOps], hw⟩
  | succ n ih =>
    have hlt := s.cli.mid.toNat_lt
    have hnc : ¬ (E.checked = true ∧ s.cli.mid.toNat = 65535) := by rintro ⟨h1, h2⟩; have := hc h1; omega
    have hf := requestFrame_umount s.cli share.tid
    have hmid : midOf (message (frameOf (requestInfo s.cli (treeDisconnectMsg share.tid)) [] [])) = some s.cli.mid.toNat :=
      requestFrame_mid (keepsMid_setTid _ _ rfl) hf
    have hfl : (frameOf (requestInfo s.cli (treeDisconnectMsg share.tid)) [] []).length ≤ maxPayload := by
      simp [frameOf, maxPayload]
    obtain ⟨ws, ib, hacc, hst⟩ := runOp_single_sends E (.umount share) rfl s _ hnc hf hfl hw
    generalize hpk : message (frameOf (requestInfo s.cli (treeDisconnectMsg share.tid)) [] []) = pk at *
    have hmid1 : (runOp E (.umount share) s).2.cli.mid = s.cli.mid + UInt16.ofNat 1 := by rw [hst]; rfl
    obtain ⟨ps, p1, p2, p3, p4, p5⟩ := ih (runOp E (.umount share) s).2 (by rw [hst]; exact hacc) (by
      intro h; have := hc h; rw [hmid1, toNat_add16 _ _ (by omega)]; omega)
    refine ⟨pk :: ps, by simp [p1], ?_, ?_, ?_, p5⟩
    · rw [List.replicate_succ]
      show log (runOps E (List.replicate n (.umount share)) (runOp E (.umount share) s).2).2.w.srv = _
      rw [p2, hst]
      show log (E.V.react s.w.srv pk).1 ++ ps = _
      rw [hlog]; simp
    · intro i p hi
      cases i with
      | zero =>
        simp at hi; subst hi
        rw [hmid]; congr 1; omega
      | succ i =>
        rw [List.getElem?_cons_succ] at hi
        rw [p3 i p hi, hmid1]
        congr 1
        simp; omega
    · rw [List.replicate_succ]
      show (runOps E (List.replicate n (.umount share)) (runOp E (.umount share) s).2).2.cli.mid = _
      rw [p4, hmid1, ofNat_add16, Nat.add_comm]

/-- **C11 is violated** in builds with overflow checks: once the counter has reached 65535, every call of every operation panics, and
nothing changes, so this is for ever. -/
theorem C11_checked_stuck (E : Env σ) (hE : E.checked = true) (ops : List Op) (s : St σ) (h : s.cli.mid.toNat = 65535) :
    runOps E ops s = (ops.map (fun _ => .panic), s) := by
  induction ops with
  | nil => rfl
  | cons op ops ih =>
    have hp : runOp E op s = (.panic, s) := by
      apply runOp_send_panic
      rcases send_cases E op.first s with ⟨_, _, h⟩ | ⟨hne, _⟩
      · exact h
      · exact absurd ⟨hE, h⟩ hne
    simp only [runOps, hp, ih, List.map_cons]

example : let s : St _ := { Demo.st [] with cli := { Demo.cli with mid := 65535 } }
    runOps (Demo.env true) [.umount Demo.share] s = ([.panic], s) :=
  C11_checked_stuck (Demo.env true) rfl [.umount Demo.share] _ rfl

/-- ... and that state is reached, on every server, by plain unmount requests. -/
theorem C11_checked_reached (E : Env σ) (log : σ → List Bytes) (hlog : Logs E.V log) (share : Share) (s : St σ)
    (hw : Accepting s.w.wsched) :
    (runOps E (List.replicate (65535 - s.cli.mid.toNat) (.umount share)) s).2.cli.mid.toNat = 65535 := by
  by_cases hE : E.checked = true
  all_goals
    have hlt := s.cli.mid.toNat_lt
    obtain ⟨_, _, _, _, h, _⟩ := umounts E log hlog share (65535 - s.cli.mid.toNat) s hw (by intro _; omega)
    rw [h, toNat_add16 _ _ (by omega)]; omega

example : ∃ n, n = 65535 - (Demo.st []).cli.mid.toNat ∧
    (runOps (Demo.env true) (List.replicate n (.umount Demo.share)) (Demo.st [])).2.cli.mid.toNat = 65535 :=
  ⟨_, rfl, C11_checked_reached (Demo.env true) Prod.snd (logs_logged _) Demo.share (Demo.st [])
    (by intro ev hev; simp [Demo.st] at hev; rcases hev with h | h <;> exact ⟨_, h⟩)⟩

/-- A server that never answers. -/
def silent : Server (List Bytes) where
  react := fun l b => (l ++ [b], [])
  tail := fun _ => .blocked

theorem silent_logs : Logs silent id := fun _ _ => rfl

/-- **C11 is violated** in builds without overflow checks: on a server that never answers, all of 65537 requests are outstanding, and the
last one carries the id of the first. -/
theorem C11_release_reuse (E : Env (List Bytes)) (hV : E.V = silent) (hE : E.checked = false) (share : Share) (c : Cli) :
    ∃ ps : List Bytes, ps.length = 65537 ∧
      (runOps E (List.replicate 65537 (.umount share)) { cli := c, w := { inbox := [], wsched := [], out := [], srv := [] } }).2.w.srv = ps ∧
      ∃ p q, ps[0]? = some p ∧ ps[65536]? = some q ∧ midOf p = midOf q ∧ midOf p = some c.mid.toNat := by
  have hlt := c.mid.toNat_lt
  have key : ∀ N, ∃ ps : List Bytes, ps.length = N ∧
      (runOps E (List.replicate N (.umount share)) { cli := c, w := { inbox := [], wsched := [], out := [], srv := [] } }).2.w.srv = ps ∧
      ∀ i p, ps[i]? = some p → midOf p = some ((c.mid.toNat + i) % 65536) := by
    intro N
    obtain ⟨ps, h1, h2, h3, _, _⟩ := umounts E id (by rw [hV]; exact silent_logs) share N
      { cli := c, w := { inbox := [], wsched := [], out := [], srv := [] } } (by intro ev h; simp at h) (by simp [hE])
    exact ⟨ps, h1, h2, h3⟩
  obtain ⟨ps, h1, h2, h3⟩ := key 65537
  have hget : ∀ i, i < 65537 → ∃ p, ps[i]? = some p := fun i hi => ⟨_, List.getElem?_eq_getElem (by rw [h1]; exact hi)⟩
  obtain ⟨p, g0⟩ := hget 0 (by decide)
  obtain ⟨q, g1⟩ := hget 65536 (by decide)
  have e0 := h3 0 p g0
  have e1 := h3 65536 q g1
  rw [Nat.add_zero, Nat.mod_eq_of_lt hlt] at e0
  rw [Nat.add_mod_right, Nat.mod_eq_of_lt hlt] at e1
  exact ⟨ps, h1, h2, p, q, g0, g1, e0.trans e1.symm, e0⟩

/-- What does hold (`_partial`: it does not exclude that a request is still outstanding 65536 requests later, which `C11_release_reuse`
shows to be possible): among any 65536 consecutive attempts of a connection all packets carry different ids. -/
theorem C11_window_partial (E : Env σ) (log : σ → List Bytes) (hlog : Logs E.V log) (ops : List Op) (s : St σ) :
    ∃ A : List (Option Bytes), log (runOps E ops s).2.w.srv = log s.w.srv ++ A.filterMap id ∧
      A.countP Option.isNone ≤ failures (runOps E ops s).1 ∧
      ∀ k, (((A.drop k).take 65536).filterMap id).Pairwise (fun p q => midOf p ≠ midOf q) := by
  obtain ⟨A, a1, _, _, a4, a5⟩ := runOps_hist E log hlog ops s
  refine ⟨A, a1, a5, fun k => hist_pairwise _ (s.cli.mid + UInt16.ofNat k) ?_⟩
  intro i p hi
  rw [List.getElem?_drop] at hi
  rw [a4 _ p hi, ofNat_add16]

/-- A session sends requests: three calls, three packets (one of them answered, one over a broken answer). -/
example : ∃ p q r, (runOps (Demo.env true) [.umount Demo.share, .openfile Demo.share ['a'], .rmdir Demo.share ['b']]
      (Demo.st [[[0x85, 0, 0, 0]], [[1, 2]]])).2.w.srv.2 = [p, q, r] ∧ midOf p = some 7 ∧ midOf q = some 8 ∧ midOf r = some 9 := by
  refine ⟨_, _, _, rfl, ?_, ?_, ?_⟩ <;> decide +kernel

/-! ## C60 -/

/-- Bytes are only ever appended to the outgoing stream. -/
theorem growsIgnores : Ignores (fun (_ : Bool) (a b : St σ) => ∃ x, b.w.out = a.w.out ++ x) where
  reads := fun _ s _ => ⟨[], by simp⟩
  trans := by rintro x a b c ⟨p, h⟩ ⟨q, h'⟩; exact ⟨p ++ q, by rw [h', h]; simp⟩

theorem send_grows (E : Env σ) (m : Msg) : RespO (fun _ (a b : St σ) => ∃ x, b.w.out = a.w.out ++ x) (send E m) := by
  intro s
  rcases send_cases E m s with ⟨_, _, h⟩ | ⟨_, ⟨e, _, h⟩ | ⟨_, h⟩ | ⟨f, _, _, h⟩ | ⟨f, hf, hl, ws, p, q, hpq, ⟨rfl, _, h⟩ | ⟨e, h⟩ | h⟩⟩
  · rw [h]; exact ⟨[], by simp⟩
  · rw [h]; exact ⟨[], by simp [St.bump]⟩
  · rw [h]; exact ⟨[], by simp [St.bump]⟩
  · rw [h]; exact ⟨[], by simp [St.bump]⟩
  all_goals rw [h]; exact ⟨p, rfl⟩

theorem cont_grows (E : Env σ) (op : Op) (s s1 : St σ) (a : UInt16) (h : send E op.first s = (.ok a, s1)) :
    ∃ x, (runOp E op s).2.w.out = s1.w.out ++ x :=
  cont_resp growsIgnores E op (fun m _ => send_grows E m) s s1 a h

/-- **C60.** If a call wrote nothing, then it failed, it consumed nothing that had arrived, the server noticed nothing, and of the
client's own state at most the multiplex counter moved, by one. -/
theorem C60_nothing_written (E : Env σ) (op : Op) (s : St σ) (h : (runOp E op s).2.w.out = s.w.out) :
    (∀ v, (runOp E op s).1 ≠ .ok v) ∧
    (runOp E op s).2.w.inbox = s.w.inbox ∧ (runOp E op s).2.w.srv = s.w.srv ∧
    ((runOp E op s).2.cli = s.cli ∨ (runOp E op s).2.cli = { s.cli with mid := s.cli.mid + 1 }) := by
  rcases send_cases E op.first s with ⟨_, _, h'⟩ | ⟨_, ⟨e, _, h'⟩ | ⟨_, h'⟩ | ⟨f, _, _, h'⟩ | ⟨f, hf, hl, ws, p, q, hpq, ⟨rfl, _, h'⟩ | ⟨e, h'⟩ | h'⟩⟩
  · rw [runOp_send_panic E op s _ h']; exact ⟨by simp, rfl, rfl, .inl rfl⟩
  · rw [runOp_send_err E op s _ _ h']; exact ⟨by simp, rfl, rfl, .inr rfl⟩
  · rw [runOp_send_panic E op s _ h']; exact ⟨by simp, rfl, rfl, .inr rfl⟩
  · rw [runOp_send_err E op s _ _ h']; exact ⟨by simp, rfl, rfl, .inr rfl⟩
  · exfalso
    obtain ⟨x, hx⟩ := cont_grows E op s _ _ h'
    rw [h] at hx
    rw [List.append_nil] at hpq
    have := congrArg List.length hx
    simp [← hpq] at this
  · rw [runOp_send_err E op s _ _ h']; exact ⟨by simp, rfl, rfl, .inr rfl⟩
  · have hp : runOp E op s = (.pending, { s.bump with w := { s.w with wsched := ws, out := s.w.out ++ p } }) := by
      obtain ⟨k, hk⟩ := runOp_starts E op
      rw [hk]; exact M.bind_pending h'
    rw [hp]; exact ⟨by simp, rfl, rfl, .inr rfl⟩

/-- **C60.** A request that cannot be built: the call reports why, one multiplex id is used up, and every later history behaves exactly
as it would have from the state with that id skipped. -/
theorem C60_unbuilt (E : Env σ) (op : Op) (s : St σ) (e : SmbError) (hc : ¬ (E.checked = true ∧ s.cli.mid.toNat = 65535))
    (h : requestFrame s.cli op.first = .err e) (ops : List Op) :
    runOps E (op :: ops) s =
      (.err (.SMBError e) :: (runOps E ops { s with cli := { s.cli with mid := s.cli.mid + 1 } }).1,
       (runOps E ops { s with cli := { s.cli with mid := s.cli.mid + 1 } }).2) := by
  have hr := runOp_send_err E op s _ _ (send_unbuilt E op.first s e hc h)
  simp only [runOps, hr]
  rfl

/-- A call that wrote nothing because the socket failed at once. (Requests that cannot be built: the `C25` theorems.) -/
example : let s : St _ := { Demo.st [] with w := { (Demo.st []).w with wsched := [.fail (.os 32)] } }
    (runOp (Demo.env true) (.umount Demo.share) s).2.w.out = s.w.out := by decide +kernel

end Cifs
