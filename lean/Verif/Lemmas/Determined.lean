import Verif.Lemmas.Answer
import Verif.Spec.Login
/-! # The bytes on the wire determine the replies -/

namespace Cifs

open Spec

variable {σ : Type}

theorem delivers_det {b f f' r r' : Bytes} (h : Delivers b f r) (h' : Delivers b f' r') : f = f' ∧ r = r' := by
  have e := (flatMsg_delivers .eof h).symm.trans (flatMsg_delivers .eof h')
  simp only [Prod.mk.injEq, Out.ok.injEq] at e
  exact e

theorem awaits_det {mid : Nat} {b f f' r r' : Bytes} (h : Awaits mid b f r) (h' : Awaits mid b f' r') : f = f' ∧ r = r' := by
  obtain ⟨b1, hs, hd, hg, hm⟩ := h
  obtain ⟨b2, hs', hd', hg', hm'⟩ := h'
  have key : b1 = b2 := by
    induction hs with
    | done b =>
      cases hs' with
      | done => rfl
      | skip k kg m km kne ks =>
        obtain ⟨e, _⟩ := delivers_det hd k
        subst e; rw [hm] at km; exact absurd (Option.some.inj km).symm kne
    | skip k kg m km kne ks ih =>
      cases hs' with
      | done =>
        obtain ⟨e, _⟩ := delivers_det hd' k
        subst e; rw [hm'] at km; exact absurd (Option.some.inj km).symm kne
      | skip l lg n ln lne ls =>
        obtain ⟨_, e⟩ := delivers_det k l
        subst e; exact ih hd ls
  subst key
  exact delivers_det hd hd'

theorem round_det {V : Server σ} {v v' v'' : σ} {b p f f' b' b'' : Bytes} (h : Round V v b p f v' b') (h' : Round V v b p f' v'' b'') :
    f = f' ∧ v' = v'' ∧ b' = b'' := by
  obtain ⟨e, mid, hm, ha⟩ := h
  obtain ⟨e', mid', hm', ha'⟩ := h'
  rw [hm] at hm'; cases hm'
  obtain ⟨a, c⟩ := awaits_det ha ha'
  exact ⟨a, e.trans e'.symm, c⟩

theorem replyBody_det {p ps ds ps' ds' : Bytes} (h : ReplyBody p ps ds) (h' : ReplyBody p ps' ds') : ps = ps' ∧ ds = ds' := by
  obtain ⟨a, n, b, c⟩ := h
  obtain ⟨a', n', b', c'⟩ := h'
  rw [a] at a'; cases a'
  rw [b] at b'; cases b'
  rw [c] at c'; cases c'
  exact ⟨rfl, rfl⟩

theorem negotiateRound_det {V : Server σ} {v v1 v2 : σ} {b p ps ps' ds ds' b1 b2 : Bytes} (h : NegotiateRound V v b p ps ds v1 b1)
    (h' : NegotiateRound V v b p ps' ds' v2 b2) : ps = ps' ∧ ds = ds' ∧ v1 = v2 ∧ b1 = b2 := by
  obtain ⟨_, f, r, _, _, rb, _⟩ := h
  obtain ⟨_, f', r', _, _, rb', _⟩ := h'
  obtain ⟨e1, e2, e3⟩ := round_det r r'
  subst e1
  obtain ⟨e4, e5⟩ := replyBody_det rb rb'
  exact ⟨e4, e5, e2, e3⟩

theorem setupRound_det {V : Server σ} {v v1 v2 : σ} {b p ps ps' ds ds' b1 b2 : Bytes} {st st' uid uid' : Nat}
    (h : SetupRound V v b p st uid ps ds v1 b1) (h' : SetupRound V v b p st' uid' ps' ds' v2 b2) :
    st = st' ∧ uid = uid' ∧ ps = ps' ∧ ds = ds' ∧ v1 = v2 ∧ b1 = b2 := by
  obtain ⟨f, r, _, s, u, rb⟩ := h
  obtain ⟨f', r', _, s', u', rb'⟩ := h'
  obtain ⟨e1, e2, e3⟩ := round_det r r'
  subst e1
  obtain ⟨e4, e5⟩ := replyBody_det rb rb'
  rw [s] at s'; rw [u] at u'
  exact ⟨Option.some.inj s', Option.some.inj u', e4, e5, e2, e3⟩

theorem loggedIn_det {V : Server σ} {user domain : Str} {v v1 v2 : σ} {b ps ps' b1 b2 : Bytes} {packets : List Bytes} {st st' uid uid' : Nat}
    (h : LoggedIn V user domain v b packets ps st uid v1 b1) (h' : LoggedIn V user domain v b packets ps' st' uid' v2 b2) :
    ps = ps' ∧ st = st' ∧ uid = uid' ∧ v1 = v2 ∧ b1 = b2 := by
  cases h with
  | classic h hx hl hc hr =>
    cases h' with
    | classic k kx kl kc kr =>
      obtain ⟨rfl, rfl, rfl, rfl⟩ := negotiateRound_det h k
      obtain ⟨rfl, rfl, rfl, rfl, rfl, rfl⟩ := setupRound_det hr kr
      exact ⟨rfl, rfl, rfl, rfl, rfl⟩
  | extended h hx he hr he' hu hr' =>
    cases h' with
    | extended k kx ke kr ke' ku kr' =>
      obtain ⟨rfl, rfl, rfl, rfl⟩ := negotiateRound_det h k
      obtain ⟨rfl, rfl, rfl, rfl, rfl, rfl⟩ := setupRound_det hr kr
      obtain ⟨rfl, _, rfl, rfl, rfl, rfl⟩ := setupRound_det hr' kr'
      exact ⟨rfl, rfl, rfl, rfl, rfl⟩

end Cifs
