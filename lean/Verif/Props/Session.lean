import Verif.Spec.Ops
import Verif.Spec.Header
import Verif.Lemmas.Frames
import Verif.Lemmas.Demo
/-!
# Properties of sessions: C09, C59, C62
-/

namespace Cifs
open Spec

variable {σ : Type}

theorem sends_code {op : Op} {m : Msg} (h : op.sends m) : m.cmd.code.toNat ∈ codes op := by
  cases op
  case download =>
    rcases h with rfl | ⟨_, _, _, rfl⟩ | ⟨_, _, rfl⟩
    · exact .head _
    · exact .tail _ (.head _)
    · exact .tail _ (.tail _ (.head _))
  case list => rcases h with rfl | ⟨_, _, rfl⟩ <;> exact .head _
  all_goals (cases h; exact .head _)

theorem sends_fix {op : Op} {m : Msg} (h : op.sends m) :
    (∃ t, m.fixHeader = setTid t ∧ ∀ t', tree op = some t' → t = t') ∨ (m.fixHeader = id ∧ tree op = some 0xffff) := by
  cases op
  case download => rcases h with rfl | ⟨_, _, _, rfl⟩ | ⟨_, _, rfl⟩ <;> exact .inl ⟨_, rfl, by simp [tree]⟩
  case list => rcases h with rfl | ⟨_, _, rfl⟩ <;> exact .inl ⟨_, rfl, by simp [tree]⟩
  case mount => cases h; exact .inr ⟨rfl, rfl⟩
  all_goals (cases h; exact .inl ⟨_, rfl, by simp [tree, OpenMsg.fileRo, OpenMsg.dir]⟩)

/-! ## C09 -/

/-- Every packet sent by an operation, in any session state: its header. -/
theorem C09_header (E : Env σ) (log : σ → List Bytes) (hlog : Logs E.V log) (op : Op) (s : St σ) (p : Bytes)
    (h : Sent log s.w.srv (runOp E op s).2.w.srv p) :
    magicOf p = some [0xff, 0x53, 0x4d, 0x42] ∧
    (∃ c ∈ codes op, cmdOf p = some c) ∧
    statusOf p = some 0 ∧
    flags1Of p = some 0x18 ∧
    pidHighOf p = some 0 ∧ pidLowOf p = some 0xfeff ∧
    signatureOf p = some (List.replicate 10 0) ∧
    uidOf p = some s.cli.uid.toNat ∧
    (∀ t, tree op = some t → tidOf p = some t.toNat) ∧
    unicodeOf p = some s.cli.useUnicode ∧
    flags2Of p = some (requestFlags2 s.cli.useUnicode) := by
  obtain ⟨k, m, b, d, hm, hb, h1, h2, rfl⟩ := sent_frame hlog h
  have hc := sends_code hm
  have key : ∀ i : Info, i.cmd = m.cmd → i.status = .Known .SUCCESS → i.flags1 = Flags1.default → i.pid = 0xfeff → i.uid = s.cli.uid →
      i.flags2 = Flags2.set Flags2.default Flags2.UNICODE s.cli.useUnicode → (∀ t, tree op = some t → i.tid = t) →
      (magicOf (message (frameOf i (m.params b) d)) = some [0xff, 0x53, 0x4d, 0x42] ∧
        (∃ c ∈ codes op, cmdOf (message (frameOf i (m.params b) d)) = some c) ∧
        statusOf (message (frameOf i (m.params b) d)) = some 0 ∧
        flags1Of (message (frameOf i (m.params b) d)) = some 0x18 ∧
        pidHighOf (message (frameOf i (m.params b) d)) = some 0 ∧ pidLowOf (message (frameOf i (m.params b) d)) = some 0xfeff ∧
        signatureOf (message (frameOf i (m.params b) d)) = some (List.replicate 10 0) ∧
        uidOf (message (frameOf i (m.params b) d)) = some s.cli.uid.toNat ∧
        (∀ t, tree op = some t → tidOf (message (frameOf i (m.params b) d)) = some t.toNat) ∧
        unicodeOf (message (frameOf i (m.params b) d)) = some s.cli.useUnicode ∧
        flags2Of (message (frameOf i (m.params b) d)) = some (requestFlags2 s.cli.useUnicode)) := by
    intro i e1 e2 e3 e4 e5 e6 e7
    rw [unicodeOf, frame_magic, frame_cmd, frame_status, frame_flags1, frame_flags2, frame_pidHigh, frame_pidLow, frame_signature,
      frame_uid, frame_tid, e1, e2, e3, e4, e5, e6]
    refine ⟨rfl, ⟨_, hc, rfl⟩, rfl, rfl, rfl, rfl, rfl, rfl, fun t ht => by rw [e7 t ht], ?_, ?_⟩ <;>
      cases s.cli.useUnicode <;> rfl
  rcases sends_fix hm with ⟨t, hf, ht⟩ | ⟨hf, ht⟩
  · rw [requestInfo_setTid _ _ _ hf]
    exact key _ rfl rfl rfl rfl rfl rfl ht
  · rw [requestInfo_id _ _ hf]
    exact key _ rfl rfl rfl rfl rfl rfl (by intro t h; rw [ht] at h; simpa using h)

/-- Packets are sent. -/
example : ∃ p, Sent Prod.snd (Demo.st []).w.srv (runOp (Demo.env true) (.openfile Demo.share ['a', '/', 'b']) (Demo.st [])).2.w.srv p ∧
    cmdOf p = some 0xa2 ∧ tidOf p = some 0x0801 ∧ uidOf p = some 0x1234 :=
  ⟨_, ⟨_, rfl, .head _⟩, by decide +kernel, by decide +kernel, by decide +kernel⟩

/-! ## C59 -/

/-- Over any history: a packet that was sent has a command code of one of the operations called. -/
theorem C59_own_commands (E : Env σ) (log : σ → List Bytes) (hlog : Logs E.V log) (ops : List Op) (s : St σ) (p : Bytes)
    (h : Sent log s.w.srv (runOps E ops s).2.w.srv p) : ∃ op ∈ ops, ∃ c ∈ codes op, cmdOf p = some c := by
  induction ops generalizing s with
  | nil =>
    obtain ⟨new, e, hp⟩ := h
    have : new = [] := by
      have e' : log s.w.srv = log s.w.srv ++ new := e
      simpa using e'
    subst this; simp at hp
  | cons op ops ih =>
    obtain ⟨fs, n, _, _, h3, _⟩ := runOp_trace E log hlog op s
    obtain ⟨new, e, hp⟩ := h
    have hsuf : ∃ new', log (runOps E ops (runOp E op s).2).2.w.srv = log (runOp E op s).2.w.srv ++ new' := by
      clear ih e
      generalize (runOp E op s).2 = s1
      induction ops generalizing s1 with
      | nil => exact ⟨[], by simp [runOps]⟩
      | cons o os ih2 =>
        obtain ⟨n2, e2⟩ := ih2 (runOp E o s1).2
        obtain ⟨fs1, n1, _, _, e1, _⟩ := runOp_trace E log hlog o s1
        exact ⟨fs1.map message ++ n2, by simp only [runOps]; rw [e2, e1]; simp⟩
    obtain ⟨new', e'⟩ := hsuf
    have e2 : log s.w.srv ++ new = log s.w.srv ++ (fs.map message ++ new') := by
      rw [← e, ← List.append_assoc, ← h3, ← e']; rfl
    have e3 := List.append_cancel_left e2
    rw [e3] at hp
    rcases List.mem_append.mp hp with hp | hp
    · have := C09_header E log hlog op s p ⟨_, h3, hp⟩
      obtain ⟨c, hc, e⟩ := this.2.1
      exact ⟨op, by simp, c, hc, e⟩
    · obtain ⟨o, ho, c, hc, e⟩ := ih _ ⟨new', e', hp⟩
      exact ⟨o, by simp [ho], c, hc, e⟩

/-- Only `delete` sends delete requests, only `rmdir` sends directory removals; no operation ever sends any other modifying command. -/
theorem C59_modifying (E : Env σ) (log : σ → List Bytes) (hlog : Logs E.V log) (ops : List Op) (s : St σ) (p : Bytes)
    (h : Sent log s.w.srv (runOps E ops s).2.w.srv p) :
    (cmdOf p = some comDelete → ∃ share path, Op.delete share path ∈ ops) ∧
    (cmdOf p = some comRmdir → ∃ share path, Op.rmdir share path ∈ ops) ∧
    (∃ c ∈ [comTreeConnect, comTreeDisconnect, comCreate, comClose, comRead, comDelete, comRmdir, comNtTransact, comTransact2],
      cmdOf p = some c) := by
  obtain ⟨op, ho, c, hc, e⟩ := C59_own_commands E log hlog ops s p h
  rw [e]
  refine ⟨?_, ?_, ?_⟩
  · intro h; simp only [Option.some.injEq] at h; subst h
    cases op <;> simp [codes, comDelete, comTreeConnect, comTreeDisconnect, comCreate, comClose, comRead, comRmdir, comNtTransact,
      comTransact2] at hc
    exact ⟨_, _, ho⟩
  · intro h; simp only [Option.some.injEq] at h; subst h
    cases op <;> simp [codes, comDelete, comTreeConnect, comTreeDisconnect, comCreate, comClose, comRead, comRmdir, comNtTransact,
      comTransact2] at hc
    exact ⟨_, _, ho⟩
  · refine ⟨c, ?_, rfl⟩
    cases op <;> simp only [codes, List.mem_cons, List.not_mem_nil, or_false] at hc
    all_goals first
      | (subst hc; simp)
      | (rcases hc with rfl | rfl | rfl <;> simp)

/-- A history that deletes something. -/
example : ∃ p, Sent Prod.snd (Demo.st []).w.srv (runOps (Demo.env true) [.umount Demo.share, .delete Demo.share ['a']] (Demo.st [])).2.w.srv p ∧
    cmdOf p = some comDelete := by
  have h : (runOps (Demo.env true) [.umount Demo.share, .delete Demo.share ['a']] (Demo.st [])).2.w.srv.2 = [] ++ [_, _] := rfl
  exact ⟨_, ⟨_, h, .tail _ (.head _)⟩, by decide +kernel⟩

/-! ## C62 -/

/-- No history changes the user id, encoding, buffer size or credentials. -/
theorem C62_stable (E : Env σ) (ops : List Op) (s : St σ) :
    (runOps E ops s).2.cli.uid = s.cli.uid ∧ (runOps E ops s).2.cli.useUnicode = s.cli.useUnicode ∧
    (runOps E ops s).2.cli.maxSmbSize = s.cli.maxSmbSize ∧ (runOps E ops s).2.cli.auth = s.cli.auth := by
  have step : ∀ op (s : St σ), ∃ k, (runOp E op s).2.cli = s.cli.withMid k := by
    intro op s
    have hR : Ignores (fun (_ : Bool) (a b : St σ) => ∃ k, b.cli = a.cli.withMid k) :=
      ⟨fun _ s _ => ⟨s.cli.mid, rfl⟩, by rintro x a b c ⟨k, h⟩ ⟨k', h'⟩; exact ⟨k', by rw [h', h]; rfl⟩⟩
    refine runOp_resp hR E op (fun m _ s => ?_) s
    rcases send_cases E m s with ⟨_, _, h⟩ | ⟨_, ⟨e, _, h⟩ | ⟨_, h⟩ | ⟨f, _, _, h⟩ | ⟨f, hf, hl, ws, p, q, hpq, ⟨_, _, h⟩ | ⟨e, h⟩ | h⟩⟩
    · rw [h]; exact ⟨s.cli.mid, rfl⟩
    all_goals rw [h]; exact ⟨s.cli.mid + 1, rfl⟩
  induction ops generalizing s with
  | nil => exact ⟨rfl, rfl, rfl, rfl⟩
  | cons op ops ih =>
    obtain ⟨k, hk⟩ := step op s
    have := ih (runOp E op s).2
    rw [hk] at this
    exact this

example : (runOps (Demo.env true) [.umount Demo.share] (Demo.st [])).2.cli.uid = 0x1234 := (C62_stable _ _ (Demo.st [])).1

end Cifs
