import Verif.Props.Contents
import Verif.Lemmas.LoggedContents
import Verif.Spec.Logged
/-! # C97: what files contain does not show in the log -/

namespace Cifs
open Spec

variable {σ σ' α : Type} {R : UInt8 → UInt8 → Prop}

/-- **C97** The lines that the login and a call log are the same. -/
theorem C97_log (E : Env σ) {V' : Server σ'} {rel : σ → σ' → Prop} (hV : OtherContents R E.V V' rel) {s : St σ} {s' : St σ'} (hc : s.cli = s'.cli)
    (hw : OtherWire R rel s.w s'.w) (l : Log) :
    (Logged.setupConnection E (s, l)).2.2 = (Logged.setupConnection (E.withV V') (s', l)).2.2 ∧
      ∀ op, (Logged.runOp E op (s, l)).2.2 = (Logged.runOp (E.withV V') op (s', l)).2.2 :=
  ⟨(Logged.duet_setupConnection hV s s' l ⟨hc, hw⟩).2.2, fun op => (Logged.duet_runOp hV op s s' l ⟨hc, hw⟩).2.2⟩

/-- **C97** The same for programs that do not look into files. -/
theorem C97_log_program (E : Env σ) {V' : Server σ'} {rel : σ → σ' → Prop} (hV : OtherContents R E.V V' rel) {p p' : Prog α} (hp : Heedless R p p') :
    ∀ {s : St σ} {s' : St σ'} (_ : s.cli = s'.cli) (_ : OtherWire R rel s.w s'.w) (l : Log),
      (p.logged E (s, l)).2.2 = (p'.logged (E.withV V') (s', l)).2.2 := by
  induction hp with
  | done x => intro s s' hc hw l; rfl
  | call op next next' _ ih =>
    intro s s' hc hw l
    obtain ⟨h1, h2, h3⟩ := Logged.duet_runOp hV op s s' l ⟨hc, hw⟩
    unfold Prog.logged
    rcases hr : Logged.runOp E op (s, l) with ⟨o, s1, l1⟩
    rcases hr' : Logged.runOp (E.withV V') op (s', l) with ⟨o', s1', l1'⟩
    rw [hr, hr'] at h1 h2 h3
    dsimp only at h1 h2 h3 ⊢
    subst h3
    refine ih o o' ?_ h2.cli h2.wire l1
    cases h1 with
    | ok h =>
      cases h with
      | same h v => exact .same _
      | bytes h he => exact .bytes he
    | _ => exact .same _

namespace Demo

/-- non-vacuity: a program that downloads a file of three bytes; the log tells how long the packets are, and it is the same for every file of this length. -/
example (x y z : UInt8) : (heedless.logged ((env true).withV script) ({ cli := cli, w := { (st []).w with srv := threeBytes [x, y, z] } }, [])).2.2.length = 16 := by
  have h := C97_log_program (env true) (V' := script) (rel := fun a b => Alike (SamePackets fun _ _ => True) a.1 b) (others _) (heedless_self _)
    (s := st (threeBytes [1, 2, 3])) (s' := { cli := cli, w := { (st []).w with srv := threeBytes [x, y, z] } }) rfl
    ⟨rfl, rfl, three_same (.cons trivial (.cons trivial (.cons trivial .nil))), .done⟩ []
  rw [← h]
  decide +kernel

end Demo

end Cifs
