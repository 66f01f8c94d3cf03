import Verif.Lemmas.Panic
import Verif.Props.Entries
/-!
# Properties about hostile replies (C38)
-/

namespace Cifs
open Spec

variable {σ : Type}

/-- **C38** (partial: the property fails, see `C38_violated`; this is exactly when.) An operation with a single reply, once it has sent its
request, panics if and only if it gets a reply of the right type, with status 0, that is too short for its own counts or for the fields the
client reads, or in which text ends with half a character. Whatever else the server sends, it returns a value or an error (or waits). -/
theorem C38_partial {E : Env σ} {log : σ → List Bytes} (hlog : Logs E.V log) {op : Op} (ho : oneReply op = true) {s : St σ} {req : Bytes}
    (h : log (runOp E op s).2.w.srv = log s.w.srv ++ [req]) : (runOp E op s).1 = .panic ↔ Crashes E log op s :=
  oneReply_panic hlog ho h

/-- **C38** The same for the two search operations. -/
theorem C38_search_partial {E : Env σ} {log : σ → List Bytes} (hlog : Logs E.V log) {op : Op} (ho : op.isFind = true) {s : St σ} {req : Bytes}
    (h : log (runOp E op s).2.w.srv = log s.w.srv ++ [req]) : (runOp E op s).1 = .panic ↔ SearchCrashes E log op s :=
  find_panic hlog ho h

/-- **C38** No SMB header makes the client panic. -/
theorem C38_header (f : Bytes) : Info.parse f ≠ .panic := parse_no_panic f

/-- **C38** Neither does a reply with an error status, nor one of the wrong type. -/
theorem C38_status {E : Env σ} {log : σ → List Bytes} (hlog : Logs E.V log) {op : Op} (ho : oneReply op = true) {s : St σ} {f rest : Bytes}
    (h : Exchange E log op s f rest) (hs : statusOf (message f) ≠ some 0 ∨ ∀ c ∈ codes op, cmdOf (message f) ≠ some c) :
    (runOp E op s).1 ≠ .panic := by
  obtain ⟨req, mid, h1, h2, h3⟩ := h
  rw [ne_eq, C38_partial hlog ho h1]
  rintro ⟨f', rest', c, ⟨req', mid', h1', h2', h3'⟩, hc, hin, hst, _⟩
  rw [h1] at h1'
  have : req' = req := (List.singleton_inj.mp (List.append_cancel_left h1')).symm
  subst this
  rw [h2] at h2'
  cases h2'
  obtain ⟨m, hm⟩ : ∃ m : UInt16, m.toNat = mid := by
    obtain ⟨fr, s1, e1, e2, e3, e4, e5, e6, e7⟩ := single_send E log hlog op (by cases op <;> first | rfl | (simp [oneReply] at ho)) s req' h1
    rw [e3, requestFrame_mid (sends_keepsMid (op := op) (by cases op <;> first | rfl | (simp [oneReply] at ho))) e1] at h2
    exact ⟨_, Option.some.inj h2⟩
  subst hm
  obtain ⟨i, hp, e⟩ := flatNext_awaits .eof m h3
  obtain ⟨i', hp', e'⟩ := flatNext_awaits .eof m h3'
  rw [e] at e'
  have ei : i' = i := by simp only [Prod.mk.injEq, Out.ok.injEq] at e'; exact e'.1.1.symm
  subst ei
  have r1 := C17_read f i' _ hp
  have r2 := C17_read f' i' _ hp'
  rcases hs with hs | hs
  · exact hs (by rw [r1.2.2.1, ← r2.2.2.1]; exact hst)
  · exact hs c hin (by rw [r1.2.1, ← r2.2.1]; exact hc)

namespace Demo

/-- A reply to a read request without any parameters. -/
def emptyReply : Bytes := reply .Read 7 [] []

theorem emptyAnswered : Answered (env true) Prod.snd (.read handle 0) (st (answer emptyReply)) emptyReply [] [] :=
  answered _ rfl (by decide +kernel) _ _ _ (by decide +kernel) (by decide +kernel) (by decide +kernel) (by decide +kernel)

example : Crashes (env true) Prod.snd (.read handle 0) (st (answer emptyReply)) := by
  obtain ⟨rest, c, hx, hc, hin, hst, hb⟩ := emptyAnswered
  exact ⟨_, rest, c, hx, hc, hin, hst, .inr ⟨true, [], [], hb, by decide +kernel, .inl (by decide)⟩⟩

/-- A page with a name of one byte. -/
example : BadPage search firstParams oemBytes := by
  refine ⟨by decide, .last rfl (by decide +kernel) ⟨3, [0x63, 0x61, 0x74], by decide +kernel, by decide +kernel, [Char.ofNat 0x6163], [0x63, 0x61], [], 0x74, ?_, rfl, .inl rfl⟩⟩
  exact utf16le_encode [Char.ofNat 0x6163]

end Demo

/-- **C38** is violated: one server answers a read request with a reply that has no parameters; the client panics. -/
theorem C38_violated : ∃ (E : Env (List (List Bytes) × List Bytes)) (op : Op) (s : St _) (f : Bytes),
    Answered E Prod.snd op s f [] [] ∧ (runOp E op s).1 = .panic :=
  ⟨_, _, _, _, Demo.emptyAnswered, Demo.isPanic_of (by decide +kernel)⟩

end Cifs
