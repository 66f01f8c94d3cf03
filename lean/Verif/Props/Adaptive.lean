import Verif.Spec.Follows
import Verif.Props.Session
import Verif.Props.Ids
import Verif.Props.Alike
import Verif.Props.Turns
import Verif.Props.Streams
import Verif.Props.Between
/-!
# Programs that choose their calls by the outcomes of earlier ones (C03, C10, C12, C59, C61, C62, C73, C74, C77, C95)

A run of a program is a history: the calls that it came to make. So whatever holds of all histories holds of all programs. Here this is said
of some of the claims.
-/

namespace Cifs
open Spec

variable {σ σ' τ α : Type}

/-- A run of a program is a history of calls, and the program saw their outcomes. -/
theorem run_history (E : Env σ) : ∀ (p : Prog α) (s : St σ), ∃ ops os, p.Follows ops os (p.run E s).1 ∧ runOps E ops s = (os, (p.run E s).2)
  | .done x, s => ⟨[], [], .done x, rfl⟩
  | .call op next, s => by
    obtain ⟨ops, os, h1, h2⟩ := run_history E (next (runOp E op s).1) (runOp E op s).2
    exact ⟨op :: ops, (runOp E op s).1 :: os, .call h1, by rw [runOps, h2]; rfl⟩

/-- Where the calls of a history have the outcomes that a program followed, a run of the program is this history. -/
theorem follows_run {E : Env σ} {p : Prog α} {ops : List Op} {os : List (Out Error Val)} {x : α} (h : p.Follows ops os x) :
    ∀ {s : St σ}, (runOps E ops s).1 = os → p.run E s = (x, (runOps E ops s).2) := by
  induction h with
  | done x => intro s _; rfl
  | call _ ih =>
    intro s hs
    rw [runOps] at hs
    simp only [List.cons.injEq] at hs
    rw [Prog.run, hs.1, ih hs.2]
    rfl

theorem follows_only {P : Op → Prop} {p : Prog α} {ops : List Op} {os : List (Out Error Val)} {x : α} (h : p.Follows ops os x) (hp : p.Only P) :
    ∀ op ∈ ops, P op := by
  induction h with
  | done x => exact nofun
  | call _ ih =>
    intro op ho
    rcases List.mem_cons.1 ho with rfl | ho
    · exact hp.1
    · exact ih (hp.2 _) op ho

/-- **C59** Programs: a packet that was sent has a command code of one of the calls that the program may make. -/
theorem C59_program (E : Env σ) (log : σ → List Bytes) (hlog : Logs E.V log) {P : Op → Prop} {p : Prog α} (hp : p.Only P) (s : St σ) {q : Bytes}
    (h : Sent log s.w.srv (p.run E s).2.w.srv q) : ∃ op, P op ∧ ∃ c ∈ codes op, cmdOf q = some c := by
  obtain ⟨ops, os, h1, h2⟩ := run_history E p s
  obtain ⟨op, h3, h4⟩ := C59_own_commands E log hlog ops s q (by rw [h2]; exact h)
  exact ⟨op, follows_only h1 hp op h3, h4⟩

/-- **C62** No program changes the user id, the encoding, the buffer size or the credentials. -/
theorem C62_program (E : Env σ) (p : Prog α) (s : St σ) :
    (p.run E s).2.cli.uid = s.cli.uid ∧ (p.run E s).2.cli.useUnicode = s.cli.useUnicode ∧ (p.run E s).2.cli.maxSmbSize = s.cli.maxSmbSize ∧
      (p.run E s).2.cli.auth = s.cli.auth := by
  obtain ⟨ops, os, _, h2⟩ := run_history E p s
  have h := C62_stable E ops s
  rw [h2] at h
  exact h

/-- **C10** The life of a connection that a program uses: as for a history; `os` are the outcomes that the program saw. -/
theorem C10_program (E : Env σ) (log : σ → List Bytes) (hlog : Logs E.V log) (auth : Auth) (w : World σ) (p : Prog α) {s : St σ}
    {o : Out Error Unit} (h : setupConnection E { cli := .init auth, w } = (o, s)) :
    ∃ ops os, ∃ A : List (Option Bytes), p.Follows ops os (p.run E s).1 ∧
      log (p.run E s).2.w.srv = log w.srv ++ A.filterMap id ∧
      A.countP Option.isNone ≤ failures [o] + failures os ∧
      (∀ i q, A[i]? = some (some q) → midOf q = some (i % 65536)) ∧
      ((A.take 65536).filterMap id).Pairwise (fun q r => midOf q ≠ midOf r) := by
  obtain ⟨ops, os, h1, h2⟩ := run_history E p s
  obtain ⟨A, a1, a2, a3, a4, _⟩ := C10_ids E log hlog auth w ops s _ o os h h2
  exact ⟨ops, os, A, h1, a1, a2, a3, a4⟩

/-- **C73** Two clients in the same session, with other credentials, hash functions, times and random numbers: a program has the same result,
and everything on the wire is the same. -/
theorem C73_program (E E' : Env σ) (hV : E'.V = E.V) (hc : E'.checked = E.checked) : ∀ (p : Prog α) (s s' : St σ), SameSession s s' →
    (p.run E s).1 = (p.run E' s').1 ∧ SameSession (p.run E s).2 (p.run E' s').2
  | .done _, _, _, h => ⟨rfl, h⟩
  | .call op next, s, s', h => by
    obtain ⟨h1, h2⟩ := C73_call E E' hV hc op s s' h
    have := C73_program E E' hV hc (next (runOp E op s).1) _ _ h2
    rw [Prog.run, Prog.run, ← h1]
    exact this

/-- **C74** A program does the same in a release build as in a debug build, unless a call crashes the debug build. -/
theorem C74_program (E : Env σ) (p : Prog α) (s : St σ) : p.run E.release s = p.run E s ∨
    ∃ ops os, p.Follows ops os (p.run E s).1 ∧ (runOps E ops s).1 = os ∧ .panic ∈ os := by
  induction p generalizing s with
  | done x => exact .inl rfl
  | call op next ih =>
    obtain ⟨ops, os, h1, h2⟩ := run_history E (next (runOp E op s).1) (runOp E op s).2
    rcases C74_call E op s with h | ⟨h, _⟩
    · rcases ih (runOp E op s).1 (runOp E op s).2 with h' | ⟨ops', os', k1, k2, k3⟩
      · refine .inl ?_
        rw [Prog.run, Prog.run, h]
        exact h'
      · exact .inr ⟨op :: ops', (runOp E op s).1 :: os', .call k1, by rw [runOps, ← k2], List.mem_cons_of_mem _ k3⟩
    · exact .inr ⟨op :: ops, (runOp E op s).1 :: os, .call h1, by rw [runOps, h2], by rw [h]; exact List.mem_cons_self⟩

/-- **C77** Whatever the server does, a program sends at most one request per call that fails, plus one for every 39 bytes that were received. -/
theorem C77_program {E : Env σ} {log : σ → List Bytes} {fed : σ → Bytes} (hlog : Logs E.V log) (hf : Feeds E.V fed) (p : Prog α) (s : St σ) :
    ∃ ops os new said, p.Follows ops os (p.run E s).1 ∧ (runOps E ops s).1 = os ∧ log (p.run E s).2.w.srv = log s.w.srv ++ new ∧
      fed (p.run E s).2.w.srv = fed s.w.srv ++ said ∧ 39 * new.length ≤ 39 * failures os + s.w.inbox.flatten.length + said.length := by
  obtain ⟨ops, os, h1, h2⟩ := run_history E p s
  obtain ⟨new, said, h3, h4, h5⟩ := C77_calls hlog hf s ops
  rw [h2] at h3 h4 h5
  exact ⟨ops, os, new, said, h1, by rw [h2], h3, h4, h5⟩

/-- **C03** Keep-alives between packets, in any number, change nothing about any program. -/
theorem C03_program (E : Env σ) (V' : Server σ') (R : σ → σ' → Prop) (hV : NoisyServer (fun _ => False) E.V V' R) (p : Prog α)
    (s : St σ) (s' : St σ') (hc : s.cli = s'.cli) (hw : NoisyWire (fun _ => False) R s.w s'.w) :
    (p.run E s).1 = (p.run (E.withV V') s').1 ∧ (p.run E s).2.cli = (p.run (E.withV V') s').2.cli ∧
      NoisyWire (fun _ => False) R (p.run E s).2.w (p.run (E.withV V') s').2.w := by
  obtain ⟨ops, os, h1, h2⟩ := run_history E p s
  obtain ⟨h3, h4, h5⟩ := C03_operations E V' R hV ops s s' hc hw
  rw [h2] at h3 h4 h5
  rw [follows_run h1 h3.symm]
  exact ⟨rfl, h4, h5⟩

/-- **C12** Nor do replies with multiplex ids that no request of the program has. -/
theorem C12_program (E : Env σ) (V' : Server σ') (R : σ → σ' → Prop) (P : Nat → Prop) (hV : NoisyServer P E.V V' R)
    (log : σ → List Bytes) (hlog : Logs E.V log) (p : Prog α) (s : St σ) (s' : St σ') (hc : s.cli = s'.cli) (hw : NoisyWire P R s.w s'.w)
    (hP : ∀ q, Sent log s.w.srv (p.run E s).2.w.srv q → ∀ m, midOf q = some m → ¬ P m) :
    (p.run E s).1 = (p.run (E.withV V') s').1 ∧ (p.run E s).2.cli = (p.run (E.withV V') s').2.cli ∧
      NoisyWire P R (p.run E s).2.w (p.run (E.withV V') s').2.w := by
  obtain ⟨ops, os, h1, h2⟩ := run_history E p s
  obtain ⟨h3, h4, h5⟩ := C12_foreign_replies E V' R P hV log hlog ops s s' hc hw (by rw [h2]; exact hP)
  rw [h2] at h3 h4 h5
  rw [follows_run h1 h3.symm]
  exact ⟨rfl, h4, h5⟩

/-- **C61** (partial: as long as the multiplex ids do not wrap around, see `C61_violated`; a build with overflow checks panics instead of wrapping.) Nor
do late replies to requests made before. -/
theorem C61_program_partial (E : Env σ) (V' : Server σ') (R : σ → σ' → Prop) (log : σ → List Bytes) (hlog : Logs E.V log) (p : Prog α) (s : St σ)
    (s' : St σ') (hV : NoisyServer (fun m => m < s.cli.mid.toNat) E.V V' R) (hc : s.cli = s'.cli)
    (hw : NoisyWire (fun m => m < s.cli.mid.toNat) R s.w s'.w) 
    (hwrap : E.checked = true ∨ ∀ ops os, p.Follows ops os (p.run E s).1 → (runOps E ops s).1 = os →
      s.cli.mid.toNat + ((log (p.run E s).2.w.srv).length - (log s.w.srv).length) + os.countP (fun o => !o.isOk) ≤ 65536) :
    (p.run E s).1 = (p.run (E.withV V') s').1 ∧ (p.run E s).2.cli = (p.run (E.withV V') s').2.cli ∧
      NoisyWire (fun m => m < s.cli.mid.toNat) R (p.run E s).2.w (p.run (E.withV V') s').2.w := by
  obtain ⟨ops, os, h1, h2⟩ := run_history E p s
  obtain ⟨h3, h4, h5⟩ := C61_late_replies_partial E V' R log hlog s s' hV ops hc hw
    (hwrap.imp_right fun h => by have := h ops os h1 (by rw [h2]); rw [h2]; exact this)
  rw [h2] at h3 h4 h5
  rw [follows_run h1 h3.symm]
  exact ⟨rfl, h4, h5⟩

/-- **C95 (partial)** Nor does a party on the way that only cuts the bytes into other pieces. Missing: parties that change bytes (`C95_violated`). -/
theorem C95_program_partial (E : Env σ) {B : Between τ} (h : OnlyCuts B) (p : Prog α) (s : St σ) (s' : St (σ × τ)) (hc : s.cli = s'.cli)
    (hw : SameWire (fun v v' => v'.1 = v) s.w s'.w) :
    (p.run E s).1 = (p.run (E.withV (behind E.V B)) s').1 ∧ (p.run E s).2.cli = (p.run (E.withV (behind E.V B)) s').2.cli ∧
      SameWire (fun v v' => v'.1 = v) (p.run E s).2.w (p.run (E.withV (behind E.V B)) s').2.w := by
  obtain ⟨ops, os, h1, h2⟩ := run_history E p s
  obtain ⟨h3, h4, h5⟩ := C95_cuts_partial E h ops s s' hc hw
  rw [h2] at h3 h4 h5
  rw [follows_run h1 h3.symm]
  exact ⟨rfl, h4, h5⟩

namespace Demo

/-- A program that depends on an outcome: it removes a directory if it could not unmount. -/
def tidy : Prog Bool := .call (.umount share) fun o => match o with
  | .ok _ => .done true
  | _ => .call (.rmdir share ['a']) fun _ => .done false

/-- The calls that it may make. -/
def Tidies (op : Op) : Prop := op = .umount share ∨ op = .rmdir share ['a']

theorem tidy_only : tidy.Only Tidies := by
  refine ⟨.inl rfl, fun o => ?_⟩
  cases o <;> first | trivial | exact ⟨.inr rfl, fun _ => trivial⟩

/-- non-vacuity of `C59_program`: with a server that does not answer, the program sends a packet that removes a directory, and the theorem says
that no packet deletes a file. -/
example : (∃ q, Sent Prod.snd (st []).w.srv (tidy.run (env true) (st [])).2.w.srv q ∧ cmdOf q = some comRmdir) ∧
    ∀ q, Sent Prod.snd (st []).w.srv (tidy.run (env true) (st [])).2.w.srv q → cmdOf q ≠ some comDelete := by
  have h : (tidy.run (env true) (st [])).2.w.srv.2 = [] ++ [_, _] := rfl
  refine ⟨⟨_, ⟨_, h, .tail _ (.head _)⟩, by decide +kernel⟩, fun q hq hc => ?_⟩
  obtain ⟨op, rfl | rfl, c, h1, h2⟩ := C59_program (env true) Prod.snd (logs_logged _) tidy_only (st []) hq <;>
    · rw [hc] at h2; simp only [Option.some.injEq] at h2; subst h2; simp [codes, comDelete, comTreeDisconnect, comRmdir] at h1

/-- non-vacuity of `C62_program` and `C77_program`. -/
example : (tidy.run (env true) (st [])).2.cli.uid = 0x1234 ∧ (tidy.run (env true) (st [])).1 = false :=
  ⟨(C62_program (env true) tidy (st [])).1, rfl⟩

/-- non-vacuity of `C10_program`: after a login that failed, the program goes on with the next ids. -/
example : ∃ (o : Out Error Unit) (s : St (List (List Bytes) × List Bytes)),
    setupConnection (env true) { cli := .init defaultAuth, w := (st []).w } = (o, s) ∧
    (tidy.run (env true) s).2.w.srv.2.map midOf = [some 0, some 1, some 2] := ⟨_, _, rfl, by decide +kernel⟩

/-- non-vacuity of `C73_program`: another password. -/
example : (tidy.run (env true) (st [])).1 = (tidy.run (env true) { st [] with cli := { (st []).cli with auth := defaultAuth } }).1 :=
  (C73_program (env true) (env true) rfl rfl tidy _ _ ⟨rfl, rfl, rfl, rfl⟩).1

/-- non-vacuity of `C12_program` and `C61_program_partial`: a keep-alive and a late reply before the one that the program waits for. -/
example : let r := message (reply .TreeDisconnect 7 [] []); let late := message (reply .Read 3 [] [])
    (tidy.run ((env true).withV script) { st [[r]] with w := { (st [[r]]).w with srv := [[keepAlive, late, r]] } }).1 = true := by
  intro r late
  have h := (C61_program_partial (env true) script _ Prod.snd (logs_logged _) tidy (st [[r]])
    { st [[r]] with w := { (st [[r]]).w with srv := [[keepAlive, late, r]] } } (noise _) rfl
    ⟨rfl, rfl, alike_noisy _ _ (.keepAlive (.reply (reply .Read 3 [] []) (by decide) ((C13_accepted_iff _).mp ⟨_, _, rfl⟩) 3 (by decide +kernel) (by decide)
      (.same 0 (reply .TreeDisconnect 7 [] []) (by decide) .done))), .done⟩ (.inl rfl)).1
  rw [← h]
  decide +kernel

/-- non-vacuity of `C74_program`: both cases occur. -/
example : (tidy.run (env true).release (st [])).1 = (tidy.run (env true) (st [])).1 ∧
    (runOp (env true) (.umount share) { st [] with cli := { (st []).cli with mid := 65535 } }).1 = .panic := ⟨rfl, rfl⟩

end Demo

end Cifs
