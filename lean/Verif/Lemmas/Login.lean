import Verif.Lemmas.Mids
/-! # What login sends -/

namespace Cifs
open Spec

variable {σ : Type}

/-- The messages of a login. -/
def LoginMsg (m : Msg) : Prop := m = negotiateMsg ∨ ∃ x : SessionSetupMsg, m = x.msg

/-- What every login message and every change of the client fields respects, login respects. -/
theorem setup_resp {R : Bool → St σ → St σ → Prop} (h : Ignores R) (E : Env σ)
    (hmod : ∀ f : Cli → Cli, (∀ c, (f c).mid = c.mid) → RespO R (modifyCli f : CM σ Unit))
    (hs : ∀ m, LoginMsg m → RespO R (send E m)) : RespO R (setupConnection E) := by
  have hsetup : ∀ (m : SessionSetupMsg), RespO R (command E m.msg SessionSetupReply.reply) := fun m =>
    RespO.command h E _ _ (hs _ (.inr ⟨m, rfl⟩))
  have hres : ∀ {ε α : Type} (g : ε → Error) (r : Res ε α), RespO R (M.ofRes g r : CM σ α) := by
    intro ε α g r s; cases r <;> exact h.refl _ s
  have hget : RespO R (getCli : CM σ Cli) := fun s => h.refl _ s
  refine RespO.bind h (RespO.command h E _ _ (hs _ (.inl rfl))) fun setup => ?_
  refine RespO.bind h (hmod _ (fun _ => rfl)) fun _ => ?_
  split
  · refine RespO.bind h hget fun c => ?_
    refine RespO.bind h (hres _ _) fun i => ?_
    refine RespO.bind h (hsetup _) fun r => ?_
    refine RespO.bind h (hmod _ (fun _ => rfl)) fun _ => ?_
    refine RespO.bind h (hres _ _) fun ch => ?_
    refine RespO.bind h (hres _ _) fun t => ?_
    refine RespO.bind h (hres _ _) fun t => ?_
    refine RespO.bind h (hsetup _) fun r => ?_
    exact RespO.pure h _
  · refine RespO.bind h hget fun c => ?_
    refine RespO.bind h (hres _ _) fun i => ?_
    refine RespO.bind h (hsetup _) fun r => ?_
    exact hmod _ (fun _ => rfl)

/-- What is sent is built from messages satisfying `L`. -/
def Built (log : σ → List Bytes) (L : Msg → Prop) (s s' : St σ) : Prop :=
  ∃ fs : List Bytes, log s'.w.srv = log s.w.srv ++ fs.map message ∧ ∀ f ∈ fs, ∃ c m, L m ∧ requestFrame c m = .ok f

theorem Built.ignores (log : σ → List Bytes) (L : Msg → Prop) : Ignores (fun _ => Built (σ := σ) log L) where
  reads := fun _ s ib => ⟨[], by simp, by simp⟩
  trans := by
    rintro x a b c ⟨fs, h1, h2⟩ ⟨gs, g1, g2⟩
    refine ⟨fs ++ gs, by rw [g1, h1]; simp, ?_⟩
    intro f hf
    rcases List.mem_append.mp hf with hf | hf
    · exact h2 f hf
    · exact g2 f hf

theorem Built.send (E : Env σ) (log : σ → List Bytes) (hlog : Logs E.V log) (L : Msg → Prop) (m : Msg) (hm : L m) :
    RespO (fun _ => Built log L) (send E m) := by
  intro s
  obtain ⟨fs, n, _, _, h3, _, _, h6⟩ := Trace.send E log hlog m (fun c f => requestFrame c m = .ok f) (fun _ _ h _ => h) s
  refine ⟨fs, h3, fun f hf => ?_⟩
  obtain ⟨i, hi, rfl⟩ := List.mem_iff_getElem.mp hf
  exact ⟨_, m, hm, h6 i _ (List.getElem?_eq_getElem hi)⟩

/-- Every packet sent during login is built from a login message. -/
theorem setup_sent {E : Env σ} {log : σ → List Bytes} (hlog : Logs E.V log) {s : St σ} {pkt : Bytes}
    (h : Sent log s.w.srv (setupConnection E s).2.w.srv pkt) :
    ∃ c m p d, LoginMsg m ∧ m.body (requestInfo c m) = .ok (p, d) ∧ (m.params p).length / 2 < 256 ∧ d.length < 65536 ∧
      pkt = message (frameOf (requestInfo c m) (m.params p) d) := by
  obtain ⟨fs, h1, h2⟩ := setup_resp (Built.ignores log LoginMsg) E (fun f _ s => ⟨[], by simp [modifyCli], by simp⟩)
    (fun m hm => Built.send E log hlog LoginMsg m hm) s
  obtain ⟨new, e, hp⟩ := h
  rw [h1] at e
  rw [← List.append_cancel_left e] at hp
  obtain ⟨f, hf, rfl⟩ := List.mem_map.mp hp
  obtain ⟨c, m, hm, hfr⟩ := h2 f hf
  obtain ⟨p, d, hb, h1, h2, e3⟩ := requestFrame_ok hfr
  exact ⟨c, m, p, d, hm, hb, h1, h2, by rw [e3]⟩

/-- Login parameter blocks have even length. -/
theorem login_even {m : Msg} (hm : LoginMsg m) {i : Info} {p d : Bytes} (hb : m.body i = .ok (p, d)) : (m.params p).length % 2 = 0 := by
  rcases hm with rfl | ⟨x, rfl⟩
  · cases hb; rfl
  · have hp : x.msg.params p = [0xff, 0, 0, 0] ++ p := rfl
    rw [hp]
    simp only [SessionSetupMsg.msg] at hb
    cases hl : x.lengths with
    | err e => rw [hl] at hb; cases hb
    | panic => rw [hl] at hb; cases hb
    | ok l =>
      rw [hl, Res.ok_bind] at hb
      cases hb
      have : l.length % 2 = 0 := by
        unfold SessionSetupMsg.lengths at hl
        cases hx : x.mode with
        | Classic u dm sec =>
          simp only [hx, tryInto] at hl
          split at hl
          · rw [Res.ok_bind] at hl; cases hl; simp
          · cases hl
        | Extended bl =>
          simp only [hx, tryInto] at hl
          split at hl
          · rw [Res.ok_bind] at hl; cases hl; simp
          · cases hl
      simp; omega

end Cifs
