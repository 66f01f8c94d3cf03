import Verif.Props.Blame
import Verif.Props.Display
/-!
# What the text of an error says about the replies, for all calls

`C63_server_error` and `C64_unexpected` say what text a given reply leads to, for calls that make one request. Here it is the other way round, and for
all calls: what a user who has nothing but the text can tell about the replies.
-/

namespace Cifs
open Spec

variable {σ : Type} {E : Env σ} {log : σ → List Bytes}

/-- Only a refusal has a text that begins like that of one. -/
theorem refusal_of_text {io : IoErr → Str} {e : Error} {l : Str} (h : e.display io = "server error: ".toList ++ l) :
    ∃ st, e = .ServerError st ∧ st.display = l := by
  cases e with
  | ServerError st => exact ⟨st, rfl, List.append_cancel_left h⟩
  | NetBios x => exact absurd (congrArg List.head? h) (by change some 'N' ≠ some 's'; decide)
  | SMBError x => exact absurd (congrArg List.head? h) (by change some 'p' ≠ some 's'; decide)
  | NTLMError x => exact absurd (congrArg List.head? h) (by change some 'N' ≠ some 's'; decide)
  | UnexpectedReply a b => exact absurd (congrArg List.head? h) (by change some 'u' ≠ some 's'; decide)
  | InvalidUri => exact absurd (congrArg List.head? h) (by change some 'U' ≠ some 's'; decide)

/-- Only an unexpected reply has a text that begins like that of one. -/
theorem unexpected_of_text {io : IoErr → Str} {e : Error} {l : Str} (h : e.display io = "unexpected reply, want: ".toList ++ l) :
    ∃ want got, e = .UnexpectedReply want got ∧ l = want.debug.toList ++ ", got: ".toList ++ got.debug.toList := by
  cases e with
  | UnexpectedReply a b =>
    refine ⟨a, b, rfl, ?_⟩
    have : "unexpected reply, want: ".toList ++ (a.debug.toList ++ ", got: ".toList ++ b.debug.toList) = "unexpected reply, want: ".toList ++ l := by
      rw [← h, ← List.append_assoc, ← List.append_assoc]; rfl
    exact (List.append_cancel_left this).symm
  | ServerError st => exact absurd (congrArg List.head? h) (by change some 's' ≠ some 'u'; decide)
  | NetBios x => exact absurd (congrArg List.head? h) (by change some 'N' ≠ some 'u'; decide)
  | SMBError x => exact absurd (congrArg List.head? h) (by change some 'p' ≠ some 'u'; decide)
  | NTLMError x => exact absurd (congrArg List.head? h) (by change some 'N' ≠ some 'u'; decide)
  | InvalidUri => exact absurd (congrArg List.head? h) (by change some 'U' ≠ some 'u'; decide)

/-- **C63** If any call fails with a text that begins with `server error: `, then the rest of the text is that of a status other than 0 which a reply
to the last request of the call has; all other requests of the call were granted. -/
theorem C63_any (hlog : Logs E.V log) (op : Op) (s : St σ) {io : IoErr → Str} {e : Error} {l : Str} (h : (runOp E op s).1 = .err e)
    (ht : e.display io = "server error: ".toList ++ l) :
    ∃ ps p c f n, log (runOp E op s).2.w.srv = log s.w.srv ++ ps ++ [p] ∧
      LastReply E.V s.w.srv s.w.inbox.flatten ps p c f (runOp E op s).2.w.srv (runOp E op s).2.w.inbox.flatten ∧
      cmdOf (message f) = some c ∧ statusOf (message f) = some n ∧ n ≠ 0 ∧ StatusText n l := by
  obtain ⟨st, rfl, rfl⟩ := refusal_of_text ht
  obtain ⟨ps, p, c, f, h1, h2, h3⟩ := (runOp_blamed hlog op s).2 (.ServerError st) (by rw [h]; rfl) trivial
  cases h3 with
  | @refused status hr =>
    exact ⟨ps, p, c, f, _, h1, h2, hr.2.1, hr.2.2, fun h0 => hr.1 (UInt32.toNat_inj.mp h0), (C63_text status _).mp rfl⟩

/-- **C63** The same for a login. -/
theorem C63_login_any (hlog : Logs E.V log) (s : St σ) {io : IoErr → Str} {e : Error} {l : Str} (h : (setupConnection E s).1 = .err e)
    (ht : e.display io = "server error: ".toList ++ l) :
    ∃ ps p c f n, log (setupConnection E s).2.w.srv = log s.w.srv ++ ps ++ [p] ∧
      LastReply E.V s.w.srv s.w.inbox.flatten ps p c f (setupConnection E s).2.w.srv (setupConnection E s).2.w.inbox.flatten ∧
      cmdOf (message f) = some c ∧ statusOf (message f) = some n ∧ n ≠ 0 ∧ StatusText n l := by
  obtain ⟨st, rfl, rfl⟩ := refusal_of_text ht
  obtain ⟨ps, p, c, f, h1, h2, h3⟩ := (setup_blamed hlog s).2 (.ServerError st) (by rw [h]; rfl) trivial
  cases h3 with
  | @refused status hr =>
    exact ⟨ps, p, c, f, _, h1, h2, hr.2.1, hr.2.2, fun h0 => hr.1 (UInt32.toNat_inj.mp h0), (C63_text status _).mp rfl⟩

/-- **C64** If any call fails with a text that begins with `unexpected reply, want: `, then the text goes on with the name of the type of the last
request of the call and that of the type of a reply to it, and these are different; all other requests of the call were granted. -/
theorem C64_any (hlog : Logs E.V log) (op : Op) (s : St σ) {io : IoErr → Str} {e : Error} {l : Str} (h : (runOp E op s).1 = .err e)
    (ht : e.display io = "unexpected reply, want: ".toList ++ l) :
    ∃ ps p c f c' want got, log (runOp E op s).2.w.srv = log s.w.srv ++ ps ++ [p] ∧
      LastReply E.V s.w.srv s.w.inbox.flatten ps p c f (runOp E op s).2.w.srv (runOp E op s).2.w.inbox.flatten ∧
      cmdOf (message f) = some c' ∧ commandName c = some want ∧ commandName c' = some got ∧ want ≠ got ∧
      l = want.toList ++ ", got: ".toList ++ got.toList := by
  obtain ⟨want, got, rfl, rfl⟩ := unexpected_of_text ht
  obtain ⟨ps, p, f, h1, h2, h3, h4⟩ := C14_any hlog op s want got h
  exact ⟨ps, p, _, f, _, _, _, h1, h2, h3, C64_commands want, C64_commands got, fun hd => h4 (cmd_debug_inj _ _ hd).symm, rfl⟩

/-- **C64** The same for a login. -/
theorem C64_login_any (hlog : Logs E.V log) (s : St σ) {io : IoErr → Str} {e : Error} {l : Str} (h : (setupConnection E s).1 = .err e)
    (ht : e.display io = "unexpected reply, want: ".toList ++ l) :
    ∃ ps p c f c' want got, log (setupConnection E s).2.w.srv = log s.w.srv ++ ps ++ [p] ∧
      LastReply E.V s.w.srv s.w.inbox.flatten ps p c f (setupConnection E s).2.w.srv (setupConnection E s).2.w.inbox.flatten ∧
      cmdOf (message f) = some c' ∧ commandName c = some want ∧ commandName c' = some got ∧ want ≠ got ∧
      l = want.toList ++ ", got: ".toList ++ got.toList := by
  obtain ⟨want, got, rfl, rfl⟩ := unexpected_of_text ht
  obtain ⟨ps, p, f, h1, h2, h3, h4⟩ := C14_login_any hlog s want got h
  exact ⟨ps, p, _, f, _, _, _, h1, h2, h3, C64_commands want, C64_commands got, fun hd => h4 (cmd_debug_inj _ _ hd).symm, rfl⟩

/-! ## Not vacuous -/

/-- A download that is refused at its second request, and one that gets something else in reply to it, and the texts. -/
example (io : IoErr → Str) : (∃ e, (runOp (Demo.fileEnv true 2 (fun _ => none)) (.download 9 Demo.share ['a']) Demo.fileSt).1 = .err e ∧
      e.display io = "server error: ".toList ++ "ACCESS_DENIED".toList) ∧
    ∃ e, (runOp (Demo.env true) (.download 9 Demo.share ['a'])
      (Demo.st [[message (frameOf { Info.default .Create with flags1 := 0x98, mid := 7 } (Demo.sizeParams 1) [])],
        [message (Demo.reply .Rmdir 8 [] [])]])).1 = .err e ∧
      e.display io = "unexpected reply, want: ".toList ++ ("Read".toList ++ ", got: ".toList ++ "Rmdir".toList) :=
  ⟨⟨.ServerError (.Known .ACCESS_DENIED), by decide +kernel, rfl⟩, ⟨.UnexpectedReply .Read .Rmdir, by decide +kernel, rfl⟩⟩

/-- The same for logins. -/
example (io : IoErr → Str) :
    (∃ e, (setupConnection (Demo.env true) (Demo.loginSt defaultAuth (Demo.modern (.Known .ACCESS_DENIED)))).1 = .err e ∧
      e.display io = "server error: ".toList ++ "ACCESS_DENIED".toList) ∧
    ∃ e, (setupConnection (Demo.env true) (Demo.loginSt defaultAuth [Demo.reply .Rmdir 0 [] []])).1 = .err e ∧
      e.display io = "unexpected reply, want: ".toList ++ ("Negotiate".toList ++ ", got: ".toList ++ "Rmdir".toList) :=
  ⟨⟨.ServerError (.Known .ACCESS_DENIED), by decide +kernel, rfl⟩, ⟨.UnexpectedReply .Negotiate .Rmdir, by decide +kernel, rfl⟩⟩

end Cifs
