import Verif.Props.InStep
import Verif.Lemmas.DemoFiles
/-!
# Every call consumes whole packets
-/

namespace Cifs
open Spec

variable {σ : Type} {E : Env σ} {fed : σ → Bytes}

/-- Outcomes of receiving that tell of trouble with the connection. -/
def NetTrouble {α : Type} : Out NbError α → Prop
  | .pending => True
  | .err (.IoError _) => True
  | .err .UnexpectedEOF => True
  | .err .FrameTooBig => True
  | _ => False

theorem flatRecv_whole (t : Tail) (b : Bytes) (h : ¬ NetTrouble (flatRecv t b).1) : ∃ p, Whole p ∧ b = p ++ (flatRecv t b).2 := by
  by_cases h4 : b.length < 4
  · exfalso; apply h; rw [flatRecv_short4 t b h4]; cases t <;> trivial
  · obtain ⟨ty, len, r, hl, rfl⟩ := split4 b (by omega)
    rw [flatRecv_cons t ty len r hl] at h ⊢
    by_cases h1 : beVal len > MAX_FRAME_LENGTH
    · exfalso; apply h; rw [if_pos h1]; trivial
    · by_cases h2 : r.length < beVal len
      · exfalso; apply h; rw [if_neg h1, if_pos h2]; cases t <;> trivial
      · rw [if_neg h1, if_neg h2]
        have hd : (r.take (beVal len)).length = beVal len := by rw [List.length_take]; omega
        refine ⟨packet ty (r.take (beVal len)), whole_packet _ _ (by rw [hd]; exact Nat.le_of_not_gt h1), ?_⟩
        rw [← packet_of_len ty len _ hl hd]
        cases Frame.new ty (r.take (beVal len)) <;> simp

theorem flatRecvMessage_whole (t : Tail) (b : Bytes) (h : ¬ NetTrouble (flatRecvMessage t b).1) :
    ∃ p, Whole p ∧ b = p ++ (flatRecvMessage t b).2 := by
  have hc := flatRecv_cases t b
  have hw := flatRecv_whole t b
  rw [flatRecvMessage_eq] at h ⊢
  simp only [M.bind_apply, M.bind] at h ⊢
  rcases hf : flatRecv t b with ⟨o, b'⟩
  rw [hf] at h hc hw
  cases o with
  | ok f =>
    obtain ⟨p, hp, e⟩ := hw (fun h => h)
    have := hc.2.2.2 f rfl
    cases f with
    | Keepalive =>
      obtain ⟨q, hq, e'⟩ := flatRecvMessage_whole t b' h
      exact ⟨p ++ q, whole_append hp hq, by rw [e]; simp only [List.append_assoc]; rw [← e']⟩
    | _ => exact ⟨p, hp, e⟩
  | err e => exact hw (by cases e <;> exact h)
  | panic => exact hw h
  | pending => exact hw h
  | running => exact hw h
termination_by b.length
decreasing_by simp at this; omega

/-- Whole packets stay whole packets while messages are received. -/
theorem flatRecvMessage_leaves (t : Tail) (b : Bytes) (h : Whole b) : Whole (flatRecvMessage t b).2 := by
  have hc := flatRecv_cases t b
  have hw := whole_read t h
  rw [flatRecvMessage_eq]
  simp only [M.bind_apply, M.bind]
  have hw' : Whole (flatRecv t b).2 := by
    rcases hw with rfl | hw
    · rw [flatRecv_short1]; exact whole_nil
    · exact hw.2
  rcases hf : flatRecv t b with ⟨o, b'⟩
  rw [hf] at hc hw'
  cases o with
  | ok f =>
    have := hc.2.2.2 f rfl
    cases f with
    | Keepalive => exact flatRecvMessage_leaves t b' hw'
    | _ => exact hw'
  | _ => exact hw'
termination_by b.length
decreasing_by simp at this; omega

/-! ## What a call consumes -/

/-- The relation that `runOp_through` carries along. -/
def ReadsOn (fed : σ → Bytes) (o : Out Error Unit) (s s' : St σ) : Prop := ¬ Trouble o → Consumed fed s s'

theorem consumed_none {s s' : St σ} (b : Bytes) (h1 : fed s'.w.srv = fed s.w.srv ++ b) (h2 : s'.w.inbox.flatten = s.w.inbox.flatten ++ b) :
    Consumed fed s s' := fun c hc => ⟨[], whole_nil, by rw [h1, hc, h2]; simp⟩

theorem reads_steps : Steps (ReadsOn (σ := σ) fed) where
  cli := fun _ s c _ => consumed_none [] (by simp) (by simp)
  trans := by
    intro o a b c h1 h2 ht d hd
    obtain ⟨p, hp, e⟩ := h1 (fun h => h) d hd
    obtain ⟨q, hq, e'⟩ := h2 ht (d ++ p) e
    exact ⟨p ++ q, whole_append hp hq, by rw [e']; simp⟩

theorem reads_recv : Through (ReadsOn fed) (liftNet (recvMessage E.V)) := by
  intro s ht c hc
  obtain ⟨ib, h1, h2⟩ := liftRecv_eq E s
  rw [h2] at ht ⊢
  obtain ⟨p, hp, e⟩ := flatRecvMessage_whole (E.V.tail s.w.srv) s.w.flat (by
    intro h; apply ht
    revert h
    cases (flatRecvMessage (E.V.tail s.w.srv) s.w.flat).1 with
    | err e => cases e <;> exact id
    | _ => exact id)
  refine ⟨p, hp, ?_⟩
  show fed s.w.srv = c ++ p ++ ib.flatten
  rw [hc, h1, List.append_assoc, ← e]
  rfl

theorem reads_send (hf : Feeds E.V fed) (m : Msg) : Through (ReadsOn fed) (send E m) := by
  intro s ht
  rcases send_cases E m s with ⟨_, _, e⟩ | ⟨_, h⟩
  · rw [e]; exact consumed_none [] (by simp) (by simp)
  · rcases h with ⟨_, _, e⟩ | ⟨_, e⟩ | ⟨_, _, _, e⟩ | ⟨f, _, _, ws, p, q, _, h⟩
    · rw [e]; exact consumed_none [] (by simp [St.bump]) (by simp [St.bump])
    · rw [e]; exact consumed_none [] (by simp [St.bump]) (by simp [St.bump])
    · rw [e]; exact consumed_none [] (by simp [St.bump]) (by simp [St.bump])
    · rcases h with ⟨_, _, e⟩ | ⟨_, e⟩ | e
      · rw [e]; exact consumed_none (E.V.react s.w.srv p).2.flatten (hf _ _) (by simp)
      · rw [e]; exact consumed_none [] (by simp) (by simp)
      · rw [e]; exact consumed_none [] (by simp) (by simp)

theorem untrouble {α : Type} {o : Out Error α} (h : ¬ Trouble o) : ¬ Trouble o.void := by
  intro h'; apply h; revert h'
  cases o with
  | err e =>
    cases e with
    | NetBios n => cases n <;> exact id
    | _ => exact id
  | _ => exact id

/-- **C68** A call that does not tell of trouble with the connection has consumed whole packets: it leaves off where the server has begun or
will begin a packet. -/
theorem C68_call_partial (hf : Feeds E.V fed) (op : Op) (s : St σ) (h : ¬ Trouble (runOp E op s).1) : Consumed fed s (runOp E op s).2 :=
  runOp_through reads_steps E reads_recv (reads_send hf) op s (untrouble h)

/-- **C68** The same for a login. -/
theorem C68_login_partial (hf : Feeds E.V fed) (s : St σ) (h : ¬ Trouble (setupConnection E s).1) : Consumed fed s (setupConnection E s).2 :=
  setupConnection_through reads_steps E reads_recv (reads_send hf) s (untrouble h)

/-! ## When nothing arrives in pieces -/

theorem leaves_steps : Steps (fun (_ : Out Error Unit) (s s' : St σ) => Whole s.w.inbox.flatten → Whole s'.w.inbox.flatten) where
  cli := fun _ _ _ h => h
  trans := fun h1 h2 h => h2 (h1 h)

theorem leaves_recv : Through (fun _ (s s' : St σ) => Whole s.w.inbox.flatten → Whole s'.w.inbox.flatten) (liftNet (recvMessage E.V)) := by
  intro s h
  obtain ⟨ib, h1, h2⟩ := liftRecv_eq E s
  rw [h2]
  show Whole ib.flatten
  rw [h1]
  exact flatRecvMessage_leaves _ _ h

theorem leaves_send (hV : ∀ v req, Whole (E.V.react v req).2.flatten) (m : Msg) :
    Through (fun _ (s s' : St σ) => Whole s.w.inbox.flatten → Whole s'.w.inbox.flatten) (send E m) := by
  intro s hs
  rcases send_cases E m s with ⟨_, _, e⟩ | ⟨_, h⟩
  · rw [e]; exact hs
  · rcases h with ⟨_, _, e⟩ | ⟨_, e⟩ | ⟨_, _, _, e⟩ | ⟨f, _, _, ws, p, q, _, h⟩
    · rw [e]; exact hs
    · rw [e]; exact hs
    · rw [e]; exact hs
    · rcases h with ⟨_, _, e⟩ | ⟨_, e⟩ | e
      · rw [e]; show Whole (s.w.inbox ++ _).flatten; rw [List.flatten_append]; exact whole_append hs (hV _ _)
      · rw [e]; exact hs
      · rw [e]; exact hs

/-- **C68** If the server's packets arrive whole and are not too big, then whatever the calls return, and even if they are given up, every
call of a session starts at the beginning of a packet. -/
theorem C68_session_partial (hV : ∀ v req, Whole (E.V.react v req).2.flatten) (s : St σ) (hs : Whole s.w.inbox.flatten) (ops : List Op) :
    Whole (runOps E ops (setupConnection E s).2).2.w.inbox.flatten ∧ Whole (runOps E ops s).2.w.inbox.flatten := by
  have step : ∀ ops (s : St σ), Whole s.w.inbox.flatten → Whole (runOps E ops s).2.w.inbox.flatten := by
    intro ops
    induction ops with
    | nil => exact fun s h => h
    | cons op ops ih => exact fun s h => ih _ (runOp_through leaves_steps E leaves_recv (leaves_send hV) op s h)
  exact ⟨step ops _ (setupConnection_through leaves_steps E leaves_recv (leaves_send hV) s hs), step ops s hs⟩

/-! ## When something does -/

namespace Demo

/-- A server that plays back prepared segments and then keeps the client waiting; it records what it has sent. -/
def slow : Server (List (List Bytes) × Bytes) := feeding { script with tail := fun _ => .blocked }

/-- The environment with that server. -/
def slowEnv : Env (List (List Bytes) × Bytes) := { env true with V := slow }

/-- A session with that server. -/
def slowSt (answers : List (List Bytes)) : St (List (List Bytes) × Bytes) :=
  { cli := cli, w := { inbox := [], wsched := [], out := [], srv := (answers, []) } }

/-- Something with a multiplex id. -/
def asked (mid : UInt16) : Bytes := message (reply .Read mid [] [])

/-- A reply that delivers file contents. -/
def given (mid : UInt16) (file : Bytes) : Bytes := frameOf (replyInfo (asked mid) .Read (.Known .SUCCESS)) (readParams file.length) file

/-- A reply that refuses. -/
def refused (mid : UInt16) : Bytes := frameOf (replyInfo (asked mid) .Read (.Known .ACCESS_DENIED)) [] []

/-- The contents of a file: they look like a reply to a later request. -/
def bait : Bytes := message (given 8 [1, 2, 3])

/-- The first reply arrives in two parts, the second of them after the next request. -/
def late : St (List (List Bytes) × Bytes) :=
  slowSt [[(message (given 7 bait)).take ((message (given 7 bait)).length - bait.length)], [bait, message (refused 8)]]

end Demo

/-- **C68 violated** A call that is given up in the middle of a reply leaves the rest of the reply to the next call, which takes it for
replies of its own. The server below delivers a file, whole and correctly, and then refuses a request; the client takes the contents of the
file for the reply to the second request and returns bytes that the server never sent in reply to anything. -/
theorem C68_violated : ∃ (E : Env (List (List Bytes) × Bytes)) (s : St (List (List Bytes) × Bytes)) (h : Handle) (file r1 r2 bytes : Bytes),
    Feeds E.V Prod.snd ∧ s.w.srv.2 = [] ∧ s.w.inbox = [] ∧ (runOp E (.read h 0) s).1 = .pending ∧
    (runOps E [.read h 0, .read h 9] s).1 = [.pending, .ok (.bytes bytes)] ∧
    (runOps E [.read h 0, .read h 9] s).2.w.srv.2 = message r1 ++ message r2 ∧
    (runOps E [.read h 0, .read h 9] s).2.w.inbox.flatten = message r2 ∧
    Yields r1 file ∧ midOf (message r1) = some 7 ∧
    Genuine r2 ∧ midOf (message r2) = some 8 ∧ statusOf (message r2) ≠ some 0 := by
  refine ⟨Demo.slowEnv, Demo.late, Demo.handle, Demo.bait, Demo.given 7 Demo.bait, Demo.refused 8, [1, 2, 3], feeds_feeding _, rfl, rfl,
    by decide +kernel, by decide +kernel, by decide +kernel, by decide +kernel, Demo.yields _ _ (by decide +kernel), by decide +kernel,
    (Demo.reply_genuine _ _ _ _ _ ⟨8, by decide +kernel⟩).1, by decide +kernel, by decide +kernel⟩

/-- **C68 violated** The same after a packet that is too big: the client refuses it when it has read its header, and the next call takes
the payload for packets. -/
theorem C68_violated_size : ∃ (E : Env (List (List Bytes) × Bytes)) (s : St (List (List Bytes) × Bytes)) (h : Handle) (bytes : Bytes) (n : Nat)
    (payload : Bytes), Feeds E.V Prod.snd ∧ s.w.srv.2 = [] ∧ s.w.inbox = [] ∧ payload.length < n ∧
    (runOps E [.read h 0, .read h 9] s).1 = [.err (.NetBios .FrameTooBig), .ok (.bytes bytes)] ∧
    (runOps E [.read h 0, .read h 9] s).2.w.srv.2 = [0x00] ++ be24 n ++ payload := by
  refine ⟨Demo.slowEnv, Demo.slowSt [[[0, 2, 0, 0]], [Demo.bait]], Demo.handle, [1, 2, 3], 131072, Demo.bait, feeds_feeding _, rfl, rfl,
    by decide +kernel, by decide +kernel, by decide +kernel⟩

/-! ## Not vacuous -/

example : ¬ Trouble (runOp Demo.slowEnv (.read Demo.handle 0) (Demo.slowSt [[keepAlive, message (Demo.given 7 [1, 2])]])).1 ∧
    (runOp Demo.slowEnv (.read Demo.handle 0) (Demo.slowSt [[keepAlive, message (Demo.given 7 [1, 2])]])).1 = .ok (.bytes [1, 2]) := by
  have e : (runOp Demo.slowEnv (.read Demo.handle 0) (Demo.slowSt [[keepAlive, message (Demo.given 7 [1, 2])]])).1 = .ok (.bytes [1, 2]) := by
    decide +kernel
  rw [e]; exact ⟨id, rfl⟩

example (v : Unit) (req : Bytes) : Whole ((fun _ _ => ((), [keepAlive, message (Demo.given 7 [1, 2])]) : Unit → Bytes → Unit × List Bytes) v req).2.flatten := by
  have h := whole_append (whole_packet 0x85 [] (by decide)) (whole_packet 0 (Demo.given 7 [1, 2]) (by decide +kernel))
  show Whole [keepAlive, message (Demo.given 7 [1, 2])].flatten
  rw [List.flatten_cons, List.flatten_cons, List.flatten_nil, List.append_nil]
  exact h

end Cifs
