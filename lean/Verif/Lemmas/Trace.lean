import Verif.Spec.Log
import Verif.Lemmas.Client
import Verif.Lemmas.Fields
/-! # What a run sends: frames, multiplex ids, client state -/

namespace Cifs
open Spec

variable {σ : Type}

/-- The client with another multiplex counter. -/
def Cli.withMid (c : Cli) (m : UInt16) : Cli := { c with mid := m }

@[simp] theorem Cli.withMid_mid (c : Cli) (m : UInt16) : (c.withMid m).mid = m := rfl
@[simp] theorem Cli.withMid_withMid (c : Cli) (m m' : UInt16) : (c.withMid m).withMid m' = c.withMid m' := rfl
@[simp] theorem Cli.withMid_self (c : Cli) : c.withMid c.mid = c := rfl

/-- A run that sent the frames `fs` and made `n` further attempts (at most one, and none if it returned a value) that were not sent
completely. `Q c f` says what is known about a frame `f` sent by a client in state `c`. -/
def Trace (checked : Bool) (log : σ → List Bytes) (Q : Cli → Bytes → Prop) (b : Bool) (s s' : St σ) : Prop :=
  ∃ (fs : List Bytes) (n : Nat), n ≤ 1 ∧ (b = true → n = 0) ∧
    log s'.w.srv = log s.w.srv ++ fs.map message ∧
    s'.cli = s.cli.withMid (s.cli.mid + UInt16.ofNat (fs.length + n)) ∧
    (checked = true → s.cli.mid.toNat + (fs.length + n) ≤ 65535) ∧
    ∀ i f, fs[i]? = some f → Q (s.cli.withMid (s.cli.mid + UInt16.ofNat i)) f

theorem ofNat_add16 (m : UInt16) (a b : Nat) : m + UInt16.ofNat a + UInt16.ofNat b = m + UInt16.ofNat (a + b) := by
  apply UInt16.toNat_inj.mp; simp; omega

theorem toNat_add16 (m : UInt16) (a : Nat) (h : m.toNat + a ≤ 65535) : (m + UInt16.ofNat a).toNat = m.toNat + a := by
  simp; omega

theorem Trace.ignores (checked : Bool) (log : σ → List Bytes) (Q : Cli → Bytes → Prop) : Ignores (Trace checked log Q) where
  reads := by
    intro b s ib
    refine ⟨[], 0, by omega, fun _ => rfl, by simp, ?_, ?_, by simp⟩
    · simp
    · intro _; have := s.cli.mid.toNat_lt; simp; omega
  trans := by
    rintro x a b c ⟨fs, n, h1, h2, h3, h4, h5, h6⟩ ⟨fs', n', g1, g2, g3, g4, g5, g6⟩
    have hn := h2 rfl; subst hn
    simp only [Nat.add_zero] at h4 h5
    refine ⟨fs ++ fs', n', g1, g2, ?_, ?_, ?_, ?_⟩
    · rw [g3, h3]; simp
    · rw [g4, h4]; simp only [Cli.withMid_mid, Cli.withMid_withMid, ofNat_add16, List.length_append, Nat.add_assoc]
    · intro hc
      have e1 := h5 hc; have e2 := g5 hc
      rw [h4, Cli.withMid_mid, toNat_add16 _ _ e1] at e2
      simp; omega
    · intro i f hi
      by_cases hlt : i < fs.length
      · rw [List.getElem?_append_left hlt] at hi; exact h6 i f hi
      · rw [List.getElem?_append_right (by omega)] at hi
        have := g6 _ _ hi
        rw [h4] at this
        simp only [Cli.withMid_mid, Cli.withMid_withMid, ofNat_add16] at this
        rwa [show fs.length + (i - fs.length) = i by omega] at this

theorem Trace.send (E : Env σ) (log : σ → List Bytes) (hlog : Logs E.V log) (m : Msg) (Q : Cli → Bytes → Prop)
    (hQ : ∀ c f, requestFrame c m = .ok f → f.length ≤ maxPayload → Q c f) : RespO (Trace E.checked log Q) (send E m) := by
  intro s
  have hlt := s.cli.mid.toNat_lt
  have hb : s.bump.cli = s.cli.withMid (s.cli.mid + UInt16.ofNat (0 + 1)) := rfl
  rcases send_cases E m s with ⟨_, _, h⟩ | ⟨hne, h⟩
  · rw [h]; exact (Trace.ignores _ _ _).refl _ _
  · have hck : E.checked = true → s.cli.mid.toNat + (0 + 1) ≤ 65535 := by
      intro hc
      have : s.cli.mid.toNat ≠ 65535 := fun h => hne ⟨hc, h⟩
      omega
    have failed : ∀ (s' : St σ), s'.cli = s.bump.cli → s'.w.srv = s.w.srv → Trace E.checked log Q false s s' := by
      intro s' e1 e2
      exact ⟨[], 1, by omega, by simp, by simp [e2], by rw [e1, hb]; rfl, hck, by simp⟩
    rcases h with ⟨e, _, h⟩ | ⟨_, h⟩ | ⟨f, _, _, h⟩ | ⟨f, hf, hl, ws, p, q, hpq, h⟩
    · rw [h]; exact failed _ rfl rfl
    · rw [h]; exact failed _ rfl rfl
    · rw [h]; exact failed _ rfl rfl
    · rcases h with ⟨rfl, _, h⟩ | ⟨e, h⟩ | h
      · rw [h]
        rw [List.append_nil] at hpq
        refine ⟨[f], 0, by omega, fun _ => rfl, ?_, hb, hck, ?_⟩
        · show log (E.V.react s.w.srv p).1 = _
          rw [hlog, ← hpq, be24_packet]; rfl
        · intro i g hi
          match i, hi with
          | 0, hi => simp at hi; subst hi; simpa using hQ _ _ hf hl
      · rw [h]; exact failed _ rfl rfl
      · rw [h]; exact failed _ rfl rfl

/-- One operation. -/
theorem runOp_trace (E : Env σ) (log : σ → List Bytes) (hlog : Logs E.V log) (op : Op) (s : St σ) :
    Trace E.checked log (fun c f => f.length ≤ maxPayload ∧ ∃ m, op.sends m ∧ requestFrame c m = .ok f)
      (runOp E op s).1.isOk s (runOp E op s).2 :=
  runOp_resp (Trace.ignores _ _ _) E op
    (fun m hm => Trace.send E log hlog m _ (fun _ _ hf hl => ⟨hl, m, hm, hf⟩)) s

end Cifs
