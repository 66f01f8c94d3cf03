import Verif.Lemmas.Blame
import Verif.Props.Turns
import Verif.Props.Session
import Verif.Props.Reassembly
/-!
# Which reply ended a call, for all calls

`C14_unexpected` and `C15_status` are about calls that make one request and about the first reply to it. Here are all calls, all their requests, and
all the replies to them that are looked at.
-/

namespace Cifs
open Spec

variable {σ : Type} {E : Env σ} {log : σ → List Bytes}

/-- **C14** If any call ends with an unexpected reply, then all its requests but the last were granted in turn, and there is a reply to the last one,
the first that was not good, whose type is the one reported; the other type reported is that of the request. -/
theorem C14_any (hlog : Logs E.V log) (op : Op) (s : St σ) (want got : Cmd) (h : (runOp E op s).1 = .err (.UnexpectedReply want got)) :
    ∃ ps p f, log (runOp E op s).2.w.srv = log s.w.srv ++ ps ++ [p] ∧
      LastReply E.V s.w.srv s.w.inbox.flatten ps p want.code.toNat f (runOp E op s).2.w.srv (runOp E op s).2.w.inbox.flatten ∧
      cmdOf (message f) = some got.code.toNat ∧ got ≠ want := by
  obtain ⟨ps, p, c, f, h1, h2, h3⟩ := (runOp_blamed hlog op s).2 (.UnexpectedReply want got) (by rw [h]; rfl) trivial
  cases h3 with
  | other hw hg hne => subst hw; exact ⟨ps, p, f, h1, h2, hg, hne⟩

/-- **C15** If any call ends with a server error, then all its requests but the last were granted in turn, and there is a reply to the last one, of its
type, the first that was not good, whose status is the one reported. -/
theorem C15_any (hlog : Logs E.V log) (op : Op) (s : St σ) (st : Status) (h : (runOp E op s).1 = .err (.ServerError st)) :
    ∃ ps p c f, log (runOp E op s).2.w.srv = log s.w.srv ++ ps ++ [p] ∧
      LastReply E.V s.w.srv s.w.inbox.flatten ps p c f (runOp E op s).2.w.srv (runOp E op s).2.w.inbox.flatten ∧
      cmdOf (message f) = some c ∧ statusOf (message f) = some st.toU32.toNat ∧ st.toU32 ≠ 0 := by
  obtain ⟨ps, p, c, f, h1, h2, h3⟩ := (runOp_blamed hlog op s).2 (.ServerError st) (by rw [h]; rfl) trivial
  cases h3 with
  | refused hr => exact ⟨ps, p, c, f, h1, h2, hr.2.1, by rw [C16_roundtrip]; exact hr.2.2, by rw [C16_roundtrip]; exact hr.1⟩

/-- **C15** If any call succeeds, then all replies that it has looked at are of the type of the request and have status 0: it has sent its requests one
after the other, and each of them was granted. (`Granted` allows another status in a login only.) -/
theorem C15_all_granted (hlog : Logs E.V log) (op : Op) (s : St σ) (v : Val) (h : (runOp E op s).1 = .ok v) :
    ∃ new, log (runOp E op s).2.w.srv = log s.w.srv ++ new ∧
      Turns E.V s.w.srv s.w.inbox.flatten new (runOp E op s).2.w.srv (runOp E op s).2.w.inbox.flatten ∧
      ∀ p ∈ new, cmdOf p ≠ some 0x73 := by
  obtain ⟨new, h1, h2⟩ := (runOp_blamed hlog op s).1 (by rw [h]; rfl)
  refine ⟨new, h1, h2, fun p hp hc => ?_⟩
  obtain ⟨c, h3, h4⟩ := (C09_header E log hlog op s p ⟨new, h1, hp⟩).2.1
  rw [hc] at h4
  cases h4
  cases op <;> simp [codes, comTreeConnect, comTreeDisconnect, comCreate, comClose, comRead, comDelete, comRmdir, comNtTransact, comTransact2] at h3

/-- **C14** The same for a login. -/
theorem C14_login_any (hlog : Logs E.V log) (s : St σ) (want got : Cmd) (h : (setupConnection E s).1 = .err (.UnexpectedReply want got)) :
    ∃ ps p f, log (setupConnection E s).2.w.srv = log s.w.srv ++ ps ++ [p] ∧
      LastReply E.V s.w.srv s.w.inbox.flatten ps p want.code.toNat f (setupConnection E s).2.w.srv (setupConnection E s).2.w.inbox.flatten ∧
      cmdOf (message f) = some got.code.toNat ∧ got ≠ want := by
  obtain ⟨ps, p, c, f, h1, h2, h3⟩ := (setup_blamed hlog s).2 (.UnexpectedReply want got) (by rw [h]; rfl) trivial
  cases h3 with
  | other hw hg hne => subst hw; exact ⟨ps, p, f, h1, h2, hg, hne⟩

/-- **C15** The same for a login. -/
theorem C15_login_any (hlog : Logs E.V log) (s : St σ) (st : Status) (h : (setupConnection E s).1 = .err (.ServerError st)) :
    ∃ ps p c f, log (setupConnection E s).2.w.srv = log s.w.srv ++ ps ++ [p] ∧
      LastReply E.V s.w.srv s.w.inbox.flatten ps p c f (setupConnection E s).2.w.srv (setupConnection E s).2.w.inbox.flatten ∧
      cmdOf (message f) = some c ∧ statusOf (message f) = some st.toU32.toNat ∧ st.toU32 ≠ 0 := by
  obtain ⟨ps, p, c, f, h1, h2, h3⟩ := (setup_blamed hlog s).2 (.ServerError st) (by rw [h]; rfl) trivial
  cases h3 with
  | refused hr => exact ⟨ps, p, c, f, h1, h2, hr.2.1, by rw [C16_roundtrip]; exact hr.2.2, by rw [C16_roundtrip]; exact hr.1⟩

/-! ## Not vacuous -/

/-- A download whose second request is refused, and one whose third is. -/
example : (runOp (Demo.fileEnv true 2 (fun _ => none)) (.download 9 Demo.share ['a']) Demo.fileSt).1 = .err (.ServerError (.Known .ACCESS_DENIED)) ∧
    (runOp (Demo.fileEnv true 2 (fun _ => none)) (.download 9 Demo.share ['a']) Demo.fileSt).2.w.srv.2.length = 2 ∧
    (runOp (Demo.fileEnv true 2 (fun n => if n = 0 then some [1] else none)) (.download 9 Demo.share ['a']) Demo.fileSt).1 =
      .err (.ServerError (.Known .ACCESS_DENIED)) ∧
    (runOp (Demo.fileEnv true 2 (fun n => if n = 0 then some [1] else none)) (.download 9 Demo.share ['a']) Demo.fileSt).2.w.srv.2.length = 3 := by
  decide +kernel

/-- A download whose request to read is answered by the reply to something else. -/
example : (runOp (Demo.env true) (.download 9 Demo.share ['a'])
    (Demo.st [[message (frameOf { Info.default .Create with flags1 := 0x98, mid := 7 } (Demo.sizeParams 1) [])], [message (Demo.reply .Rmdir 8 [] [])]])).1 =
      .err (.UnexpectedReply .Read .Rmdir) := by decide +kernel

/-- A search that is refused after the first piece of the reply. -/
example : (runOp (Demo.env true) (.findFirst Demo.share ['*']) (Demo.st [[message Demo.head,
      message (frameOf { Info.default .Transact2 with flags1 := 0x98, mid := 7, status := .Known .ACCESS_DENIED } [] [])]])).1 = .err (.ServerError (.Known .ACCESS_DENIED)) := by
  decide +kernel

/-- Logins that are refused, or answered by something else. -/
example : (setupConnection (Demo.env true) (Demo.loginSt defaultAuth (Demo.modern (.Known .ACCESS_DENIED)))).1 = .err (.ServerError (.Known .ACCESS_DENIED)) ∧
    (setupConnection (Demo.env true) (Demo.loginSt defaultAuth [Demo.reply .Rmdir 0 [] []])).1 = .err (.UnexpectedReply .Negotiate .Rmdir) := by
  decide +kernel

end Cifs
