import Verif.Lemmas.Turns
import Verif.Lemmas.DemoFiles
import Verif.Props.Connect
import Verif.Props.Ntlm
import Verif.Props.Ids
import Verif.Props.Download
import Verif.Props.Size
/-!
# C77: one request at a time
-/

namespace Cifs
open Spec

variable {σ : Type} {E : Env σ} {log : σ → List Bytes} {fed : σ → Bytes}

/-- **C77.** However it ends, a call sends its requests in turns: each of them after complete, successful replies of the right type to the
one before it, with its multiplex id, were received. If it succeeds, the last one was answered in this way, too. -/
theorem C77_call (hlog : Logs E.V log) (op : Op) (s : St σ) :
    ∃ new, log (runOp E op s).2.w.srv = log s.w.srv ++ new ∧ InTurn E.V s.w.srv s.w.inbox.flatten new (runOp E op s).2.w.srv ∧
      ∀ v, (runOp E op s).1 = .ok v → Turns E.V s.w.srv s.w.inbox.flatten new (runOp E op s).2.w.srv (runOp E op s).2.w.inbox.flatten := by
  obtain ⟨new, h1, h2, h3⟩ := runOp_rounds (Orderly.steps E.V log) (fun hk hc => command_orderly hlog hk hc) (transact2_orderly hlog) op s
  exact ⟨new, h1, h2, fun v hv => h3 (by rw [hv]; rfl)⟩

/-- **C77.** So does the login. -/
theorem C77_login (hlog : Logs E.V log) (s : St σ) :
    ∃ new, log (setupConnection E s).2.w.srv = log s.w.srv ++ new ∧ InTurn E.V s.w.srv s.w.inbox.flatten new (setupConnection E s).2.w.srv ∧
      ((setupConnection E s).1 = .ok () →
        Turns E.V s.w.srv s.w.inbox.flatten new (setupConnection E s).2.w.srv (setupConnection E s).2.w.inbox.flatten) := by
  obtain ⟨new, h1, h2, h3⟩ := setup_rounds (Orderly.steps E.V log) (fun hk hc => command_orderly hlog hk hc) s
  exact ⟨new, h1, h2, fun hv => h3 (by rw [hv]; rfl)⟩

theorem runOps_metered (hlog : Logs E.V log) (hf : Feeds E.V fed) (ops : List Op) (s : St σ) :
    ∃ new said, log (runOps E ops s).2.w.srv = log s.w.srv ++ new ∧ fed (runOps E ops s).2.w.srv = fed s.w.srv ++ said ∧
      39 * new.length + (runOps E ops s).2.w.inbox.flatten.length ≤
        39 * failures (runOps E ops s).1 + s.w.inbox.flatten.length + said.length := by
  induction ops generalizing s with
  | nil => exact ⟨[], [], by simp [runOps], by simp [runOps], by simp [runOps, failures]⟩
  | cons op ops ih =>
    obtain ⟨x, y, h1, h2, h3⟩ := runOp_rounds (Metered.steps log fed) (fun hk hc => command_metered hlog hf hk hc) (transact2_metered hlog hf) op s
    obtain ⟨x', y', g1, g2, g3⟩ := ih (runOp E op s).2
    refine ⟨x ++ x', y ++ y', by simp only [runOps]; rw [g1, h1, List.append_assoc], by simp only [runOps]; rw [g2, h2, List.append_assoc], ?_⟩
    simp only [runOps, failures, List.countP_cons, List.length_append] at g3 ⊢
    have e : (if (runOp E op s).1.void = .ok () then 0 else 39) = 39 * (if (!(runOp E op s).1.isOk) = true then 1 else 0) := by
      cases (runOp E op s).1 <;> rfl
    omega

/-- **C77.** Whatever the server does, over a whole session - a login and any calls after it - the client sends at most one request per call that
fails (or, for the login, one more), plus one for every 39 bytes that it received. -/
theorem C77_session (hlog : Logs E.V log) (hf : Feeds E.V fed) (s : St σ) (ops : List Op) :
    ∃ new said, log (runOps E ops (setupConnection E s).2).2.w.srv = log s.w.srv ++ new ∧
      fed (runOps E ops (setupConnection E s).2).2.w.srv = fed s.w.srv ++ said ∧
      39 * new.length ≤ 39 * ((if (setupConnection E s).1 = .ok () then 0 else 1) + failures (runOps E ops (setupConnection E s).2).1) +
        s.w.inbox.flatten.length + said.length := by
  obtain ⟨x, y, h1, h2, h3⟩ := setup_rounds (Metered.steps log fed) (fun hk hc => command_metered hlog hf hk hc) s
  obtain ⟨x', y', g1, g2, g3⟩ := runOps_metered hlog hf ops (setupConnection E s).2
  refine ⟨x ++ x', y ++ y', by rw [g1, h1, List.append_assoc], by rw [g2, h2, List.append_assoc], ?_⟩
  simp only [List.length_append]
  have e : (setupConnection E s).1.void = (setupConnection E s).1 := by cases (setupConnection E s).1 <;> rfl
  rw [e] at h3
  split at h3 <;> rename_i h <;> simp only [h, if_true, if_false] <;> omega

/-- The same for calls on a connection in any state. -/
theorem C77_calls (hlog : Logs E.V log) (hf : Feeds E.V fed) (s : St σ) (ops : List Op) :
    ∃ new said, log (runOps E ops s).2.w.srv = log s.w.srv ++ new ∧ fed (runOps E ops s).2.w.srv = fed s.w.srv ++ said ∧
      39 * new.length ≤ 39 * failures (runOps E ops s).1 + s.w.inbox.flatten.length + said.length := by
  obtain ⟨new, said, h1, h2, h3⟩ := runOps_metered hlog hf ops s
  exact ⟨new, said, h1, h2, by omega⟩

/-- A download of four requests. -/
example : ((runOp (Demo.fileEnv true 2 (Demo.chunksOf [1, 2] 1)) (.download 9 Demo.share ['a']) Demo.fileSt).2.w.srv.2.map cmdOf =
      [some 0xa2, some 0x2e, some 0x2e, some 0x04]) ∧
    (runOp (Demo.fileEnv true 2 (Demo.chunksOf [1, 2] 1)) (.download 9 Demo.share ['a']) Demo.fileSt).1 = .ok (.bytes [1, 2]) := by decide +kernel

/-- A login of three requests. -/
example : (setupConnection (Demo.env true) (Demo.loginSt defaultAuth (Demo.modern (.Known .SUCCESS)))).2.w.srv.2.map cmdOf =
      [some 0x72, some 0x73, some 0x73] ∧
    (setupConnection (Demo.env true) (Demo.loginSt defaultAuth (Demo.modern (.Known .SUCCESS)))).1 = .ok () := by decide +kernel

/-- A server that says nothing gets one request per call. -/
example : (runOps Demo.fedEnv [.download 9 Demo.share ['a'], .list 9 Demo.share ['*']] (Demo.fedSt [])).2.w.srv.2.length = 2 ∧
    failures (runOps Demo.fedEnv [.download 9 Demo.share ['a'], .list 9 Demo.share ['*']] (Demo.fedSt [])).1 = 2 ∧
    (runOps Demo.fedEnv [.download 9 Demo.share ['a'], .list 9 Demo.share ['*']] (Demo.fedSt [])).2.w.srv.1.2.length = 0 := by decide +kernel

/-- The smallest replies cost 39 bytes. -/
example : (runOps Demo.fedEnv [.umount Demo.share] (Demo.fedSt [[message (Demo.reply .TreeDisconnect 7 [] [])]])).2.w.srv.2.length = 1 ∧
    failures (runOps Demo.fedEnv [.umount Demo.share] (Demo.fedSt [[message (Demo.reply .TreeDisconnect 7 [] [])]])).1 = 0 ∧
    (runOps Demo.fedEnv [.umount Demo.share] (Demo.fedSt [[message (Demo.reply .TreeDisconnect 7 [] [])]])).2.w.srv.1.2.length = 39 := by decide +kernel

end Cifs
