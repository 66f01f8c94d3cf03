import Verif.Spec.Blind
import Verif.Lemmas.Alike
import Verif.Lemmas.Ntlm
/-! # Two logins with different passwords -/

namespace Cifs
open Spec

variable {σ α : Type} {R : σ → σ → Prop}

/-- The same client but for the password, and a connection on which packets of the same lengths were sent. -/
structure Blind (R : σ → σ → Prop) (s s' : St σ) : Prop where
  cli : s'.cli = { s.cli with auth := { s.cli.auth with password := s'.cli.auth.password } }
  bytes : s.w.inbox.flatten = s'.w.inbox.flatten
  wsched : s.w.wsched = s'.w.wsched
  srv : R s.w.srv s'.w.srv
  out : s.w.out.length = s'.w.out.length

theorem Blind.net {s s' : St σ} (h : Blind R s s') {w w' : World σ} (h1 : w.inbox.flatten = w'.inbox.flatten) (h2 : w.wsched = w'.wsched)
    (h3 : R w.srv w'.srv) (h4 : w.out.length = w'.out.length) : Blind R { s with w } { s' with w := w' } := ⟨h.cli, h1, h2, h3, h4⟩

theorem Blind.modify {s s' : St σ} (h : Blind R s s') (f : Cli → Cli)
    (hf : ∀ c p, f { c with auth := { c.auth with password := p } } = { f c with auth := { (f c).auth with password := p } })
    (ha : ∀ c, (f c).auth.password = c.auth.password) :
    Blind R { s with cli := f s.cli } { s' with cli := f s'.cli } := by
  refine ⟨?_, h.bytes, h.wsched, h.srv, h.out⟩
  show f s'.cli = { f s.cli with auth := { (f s.cli).auth with password := (f s'.cli).auth.password } }
  rw [ha]
  conv => lhs; rw [h.cli]
  exact hf _ _

/-- Frames of the same length, or the same failure. -/
def SameSize : Res SmbError Bytes → Res SmbError Bytes → Prop
  | .ok f, .ok f' => f.length = f'.length
  | .err e, .err e' => e = e'
  | .panic, .panic => True
  | _, _ => False

theorem writeLoop_size (ws : List WriteEv) {b b' o o' : Bytes} (hb : b.length = b'.length) (ho : o.length = o'.length) :
    (writeLoop ws b o).1 = (writeLoop ws b' o').1 ∧ (writeLoop ws b o).2.1 = (writeLoop ws b' o').2.1 ∧
      (writeLoop ws b o).2.2.length = (writeLoop ws b' o').2.2.length := by
  induction ws generalizing b b' o o' with
  | nil => exact ⟨rfl, rfl, by simp [writeLoop, hb, ho]⟩
  | cons ev ws ih =>
    unfold writeLoop
    by_cases h : b = []
    · have h' : b' = [] := by subst h; exact List.eq_nil_of_length_eq_zero hb.symm
      rw [if_pos h, if_pos h']; exact ⟨rfl, rfl, ho⟩
    · have h' : b' ≠ [] := by rintro rfl; exact h (List.eq_nil_of_length_eq_zero hb)
      rw [if_neg h, if_neg h']
      cases ev with
      | accept n => exact ih (by simp [hb]) (by simp [hb, ho])
      | fail e => exact ⟨rfl, rfl, ho⟩
      | block => exact ⟨rfl, rfl, ho⟩

theorem sendMessage_size {V : Server σ} (hV : Deaf V R) {f f' : Bytes} (hf : f.length = f'.length) {w w' : World σ}
    (h1 : w.inbox.flatten = w'.inbox.flatten) (h2 : w.wsched = w'.wsched) (h3 : R w.srv w'.srv) (h4 : w.out.length = w'.out.length) :
    (sendMessage V f w).1 = (sendMessage V f' w').1 ∧ (sendMessage V f w).2.inbox.flatten = (sendMessage V f' w').2.inbox.flatten ∧
    (sendMessage V f w).2.wsched = (sendMessage V f' w').2.wsched ∧ R (sendMessage V f w).2.srv (sendMessage V f' w').2.srv ∧
    (sendMessage V f w).2.out.length = (sendMessage V f' w').2.out.length := by
  rw [sendMessage_eq, sendMessage_eq, hf]
  by_cases hl : f'.length > MAX_FRAME_LENGTH
  · rw [if_pos hl, if_pos hl]; exact ⟨rfl, h1, h2, h3, h4⟩
  · rw [if_neg hl, if_neg hl]
    have hp : (0x00 :: (be24 f'.length ++ f)).length = (0x00 :: (be24 f'.length ++ f')).length := by simp [hf]
    generalize (0x00 :: (be24 f'.length ++ f)) = p at hp
    generalize (0x00 :: (be24 f'.length ++ f')) = p' at hp
    obtain ⟨e1, e2, e3⟩ := writeLoop_size w.wsched hp h4
    unfold writeExactly
    rw [← h2]
    rcases hw : writeLoop w.wsched p w.out with ⟨r, ws, out⟩
    rcases hw' : writeLoop w.wsched p' w'.out with ⟨r', ws', out'⟩
    rw [hw, hw'] at e1 e2 e3
    dsimp only at e1 e2 e3
    subst e1 e2
    cases r with
    | done =>
      exact ⟨rfl, by rw [List.flatten_append, List.flatten_append, h1, hV.bytes _ _ _ _ h3 hp], rfl, hV.state _ _ _ _ h3 hp, e3⟩
    | failed e => exact ⟨rfl, h1, rfl, h3, e3⟩
    | blocked => exact ⟨rfl, h1, rfl, h3, e3⟩

theorem blind_send {E : Env σ} (hV : Deaf E.V R) (m m' : Msg)
    (hm : ∀ {s s' : St σ}, Blind R s s' → SameSize (requestFrame s.cli m) (requestFrame s'.cli m')) :
    Twin (fun _ => False) (Blind R) (send E m) (send E m') := by
  intro s s' h
  right
  have hmid : s'.cli.mid = s.cli.mid := by rw [h.cli]
  have hs := hm h
  unfold Cifs.send
  rw [hmid]
  by_cases hc : E.checked = true ∧ s.cli.mid.toNat = 65535
  · rw [if_pos hc, if_pos hc]; exact ⟨rfl, h⟩
  · rw [if_neg hc, if_neg hc]
    have hb := h.modify (fun c => { c with mid := s.cli.mid + 1 }) (fun _ _ => rfl) (fun _ => rfl)
    cases hf : requestFrame s.cli m <;> cases hf' : requestFrame s'.cli m' <;> rw [hf, hf'] at hs <;>
      first | exact hs.elim | skip
    · rename_i f f'
      dsimp only [SameSize] at hs
      dsimp only [M.bind, liftNet]
      obtain ⟨e1, e2, e3, e4, e5⟩ := sendMessage_size hV hs h.bytes h.wsched h.srv h.out
      rcases hq : sendMessage E.V f s.w with ⟨o, w⟩
      rcases hq' : sendMessage E.V f' s'.w with ⟨o', w'⟩
      rw [hq, hq'] at e1 e2 e3 e4 e5
      dsimp only at e1 e2 e3 e4 e5
      subst e1
      have hn := hb.net e2 e3 e4 e5
      cases o <;> exact ⟨rfl, hn⟩
    · dsimp only [SameSize] at hs
      rw [hs]; exact ⟨rfl, hb⟩
    · exact ⟨rfl, hb⟩

theorem blind_recv {E : Env σ} (hV : Deaf E.V R) (T : Reply α) (mid : UInt16) : Twin (fun _ => False) (Blind R) (recv E T mid) (recv E T mid) := by
  intro s s' h
  obtain ⟨ib, h1, h2⟩ := recv_flatC E T mid s
  obtain ⟨ib', h1', h2'⟩ := recv_flatC E T mid s'
  have hf : s'.w.flat = s.w.flat := h.bytes.symm
  rw [← hV.tail _ _ h.srv, hf] at h1' h2'
  rw [h2, h2']
  exact .inr ⟨rfl, h.cli, by show ib.flatten = ib'.flatten; rw [h1, h1'], h.wsched, h.srv, h.out⟩

theorem blind_command {E : Env σ} (hV : Deaf E.V R) (m m' : Msg) (T : Reply α)
    (hm : ∀ {s s' : St σ}, Blind R s s' → SameSize (requestFrame s.cli m) (requestFrame s'.cli m')) :
    Twin (fun _ => False) (Blind R) (command E m T) (command E m' T) :=
  Twin.bind (blind_send hV m m' hm) (fun mid => blind_recv hV T mid)

theorem SameSize.refl (r : Res SmbError Bytes) : SameSize r r := by cases r <;> simp [SameSize]

theorem Blind.info {s s' : St σ} (h : Blind R s s') (m : Msg) : requestInfo s'.cli m = requestInfo s.cli m := by
  rw [h.cli]; rfl

theorem blind_same {s s' : St σ} (h : Blind R s s') (m : Msg) : SameSize (requestFrame s.cli m) (requestFrame s'.cli m) := by
  have : requestFrame s'.cli m = requestFrame s.cli m := by unfold requestFrame; rw [h.info]
  rw [this]; exact SameSize.refl _

theorem body_size {c c' : Cli} {m m' : Msg} (hi : requestInfo c' m' = requestInfo c m) (ha : m'.andx = m.andx)
    (hb : ∀ i, (∃ p d p' d', m.body i = .ok (p, d) ∧ m'.body i = .ok (p', d') ∧ p.length = p'.length ∧ d.length = d'.length) ∨
      (∃ e, m.body i = .err e ∧ m'.body i = .err e)) : SameSize (requestFrame c m) (requestFrame c' m') := by
  rw [requestFrame_eq, requestFrame_eq, hi]
  rcases hb (requestInfo c m) with ⟨p, d, p', d', h1, h2, h3, h4⟩ | ⟨e, h1, h2⟩
  · rw [h1, h2]
    dsimp only [Res.bind]
    have hl : (m'.params p').length = (m.params p).length := by simp [Msg.params, ha, h3]
    rw [hl, ← h4]
    split
    · split
      · show (frameOf _ _ _).length = (frameOf _ _ _).length
        simp only [frameOf, List.length_append, hl, ← h4]
        simp [hl, h4]
      · exact rfl
    · exact rfl
  · rw [h1, h2]; exact rfl

theorem auth_size {s s' : St σ} (h : Blind R s s') (user domain : Str) {b b' : Bytes} (hl : b.length = b'.length) :
    SameSize (requestFrame s.cli (SessionSetupMsg.withAuth user domain b).msg) (requestFrame s'.cli (SessionSetupMsg.withAuth user domain b').msg) := by
  refine body_size (by rw [h.cli]; rfl) rfl (fun i => ?_)
  simp only [SessionSetupMsg.msg, SessionSetupMsg.withAuth, SessionSetupMsg.lengths, SessionSetupMsg.dataBlock, tryInto, hl]
  by_cases hb : b'.length < 65536
  · left
    simp only [if_pos hb]
    exact ⟨_, _, _, _, rfl, rfl, rfl, by simp [hl]⟩
  · right
    simp only [if_neg hb]
    exact ⟨_, rfl, rfl⟩

theorem blob_size {s s' : St σ} (h : Blind R s s') {b b' : Bytes} (hl : b.length = b'.length) :
    SameSize (requestFrame s.cli (SessionSetupMsg.withBlob b).msg) (requestFrame s'.cli (SessionSetupMsg.withBlob b').msg) := by
  refine body_size (by rw [h.cli]; rfl) rfl (fun i => ?_)
  simp only [SessionSetupMsg.msg, SessionSetupMsg.withBlob, SessionSetupMsg.lengths, SessionSetupMsg.dataBlock, tryInto, hl]
  by_cases hb : b'.length < 65536
  · left
    simp only [if_pos hb]
    exact ⟨_, _, _, _, rfl, rfl, rfl, by simp [hl]⟩
  · right
    simp only [if_neg hb]
    exact ⟨_, rfl, rfl⟩

end Cifs
