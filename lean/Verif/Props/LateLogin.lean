import Verif.Props.Late
import Verif.Props.Between
import Verif.Props.Alike
/-!
# Calls that are given up, after a login (C98)
-/

namespace Cifs
open Spec

variable {σ A α : Type}

/-- The build with overflow checks. -/
def Env.debug (E : Env σ) : Env σ := { E with checked := true }

section
variable {E : Env σ} {password : Str → Str → Option Str} {room : Nat} {fresh : σ → Prop} {asked : Bool → σ → Prop}
  {challenged : Bool → Nat → Bytes → Nat → σ → Prop} {legacy : Bool → Bytes → σ → Prop} {inside : Bool → Nat → σ → Prop} {outside : σ → Prop}

/-- **C98** The same for a program that logs in first. -/
theorem C98_login (hD : Doorkeeper E.V (fun _ => True) E.C.hashes E.C.des password room fresh asked challenged legacy inside outside) {n : Nat} {s : St σ}
    (hr : Ready E (fun _ => True) (n + 3) s) (hm : s.cli.mid.toNat + (n + 3) ≤ 65535) (hs : fresh s.w.srv)
    (fit : NamesFit s.cli.auth.user s.cli.auth.workstation s.cli.auth.domain room)
    (h0 : 0 ≤ E.now) (h1 : 10 * (E.now / 1000) < 2 ^ 64) (hp : password s.cli.auth.user s.cli.auth.domain = some s.cli.auth.password)
    {Does : A → Call → Answer → A → Prop} {rel : Nat → A → σ → Prop} {a : A}
    (hi : ∀ unicode uid v, inside unicode uid v → ImplementsLate E.V unicode uid Does rel ∧ rel 0 a v) (p : Prog α) (hw : p.Within n) :
    ∃ x a' s1 s' m, setupConnection E s = (.ok (), s1) ∧ p.RunsLate Does s1.cli.useUnicode a x a' ∧ p.run E s1 = (x, s') ∧ rel m a' s'.w.srv := by
  obtain ⟨s1, h2, h3, _, h4⟩ := C69_right (E := E.debug) (s := s) hD ⟨hr.writes, hr.unread, hr.ids, fun _ => hm⟩ hs fit h0 h1 hp
  have h2' : setupConnection E s = (.ok (), s1) := by
    cases hc : E.checked with
    | true => rw [show E = E.debug by cases E; cases hc; rfl]; exact h2
    | false =>
      rcases C74_login E.debug s with h | ⟨h, _⟩
      · rw [show E = E.debug.release by cases E; cases hc; rfl, h]; exact h2
      · rw [h2] at h; cases h
  obtain ⟨h5, h6⟩ := hi _ _ _ h4
  obtain ⟨x, a', s', m, h7, h8, h9⟩ := C98_program (E := E) p h5 n a
    ⟨h3.writes, h3.unread.weaken fun _ _ => trivial, h3.enough rfl, 0, Nat.zero_le _, h6⟩ hw
  exact ⟨x, a', s1, s', m, h2', h7, h8, h9⟩

end

/-- A device that holds nothing back before the end of the login leaves the door as it is. -/
theorem delayed_door {V : Server σ} {own : Nat → Prop} {H : NtlmHashes} {des : Bytes → Bytes → Bytes} {password : Str → Str → Option Str} {room : Nat} {fresh : σ → Prop}
    {asked : Bool → σ → Prop} {challenged : Bool → Nat → Bytes → Nat → σ → Prop} {legacy : Bool → Bytes → σ → Prop} {inside : Bool → Nat → σ → Prop}
    {outside : σ → Prop} (hD : Doorkeeper V own H des password room fresh asked challenged legacy inside outside) (hold : σ → Bytes → Bool)
    (hh : ∀ v req, OfLogin req → hold v req = false) :
    Doorkeeper (delayed V hold) own H des password room (fun v => fresh v.1 ∧ v.2 = []) (fun u v => asked u v.1 ∧ v.2 = [])
      (fun u f c i v => challenged u f c i v.1 ∧ v.2 = []) (fun u c v => legacy u c v.1 ∧ v.2 = []) (fun u i v => inside u i v.1 ∧ v.2 = [])
      (fun v => outside v.1 ∧ v.2 = []) := by
  have login : ∀ {req : Bytes}, OfLogin req → ∀ v, (delayed V hold).react (v, []) req = (((V.react v req).1, []), (V.react v req).2) := by
    intro req h v
    simp [delayed, hh v req h]
  refine ⟨?_, ?_, ?_, ?_⟩
  · rintro ⟨v, _⟩ req ⟨hv, rfl⟩ hq
    have hl := login (.inl hq.1) v
    obtain ⟨f, ps, ds, u, h1, h2, h3, h4⟩ := hD.greets v req hv hq
    refine ⟨f, ps, ds, u, serves_congr (by rw [hl]) h1, h2, h3, ?_⟩
    rw [hl]
    rcases h4 with ⟨h4, h5⟩ | ⟨h4, c, more, h5, h6, h7, h8⟩
    · exact .inl ⟨h4, h5, rfl⟩
    · exact .inr ⟨h4, c, more, h5, h6, h7, h8, rfl⟩
  · rintro u ⟨v, _⟩ req blob flags d w ⟨hv, rfl⟩ hq hn
    have hl := login (.inr hq.1) v
    obtain ⟨f, uid, m, tg, fl, c, info, h1, h2, h3, h4, h5⟩ := hD.challenges u v req blob flags d w hv hq hn
    exact ⟨f, uid, m, tg, fl, c, info, serves_congr (by rw [hl]) h1, h2, h3, h4, by rw [hl]; exact ⟨h5, rfl⟩⟩
  · rintro u flags c uid ⟨v, _⟩ req blob ⟨hv, rfl⟩ hq hu
    have hl := login (.inr hq.1) v
    obtain ⟨h1, h2⟩ := hD.checks u flags c uid v req blob hv hq hu
    refine ⟨fun h => ?_, fun h => ?_⟩
    · obtain ⟨f, uid', h3, h4, h5⟩ := h1 h
      exact ⟨f, uid', serves_congr (by rw [hl]) h3, h4, by rw [hl]; exact ⟨h5, rfl⟩⟩
    · obtain ⟨f, st, h3, h4, h5⟩ := h2 h
      exact ⟨f, st, serves_congr (by rw [hl]) h3, h4, by rw [hl]; exact ⟨h5, rfl⟩⟩
  · rintro u c ⟨v, _⟩ req r us d ⟨hv, rfl⟩ hq
    have hl := login (.inr hq.1) v
    obtain ⟨h1, h2⟩ := hD.checksLegacy u c v req r us d hv hq
    refine ⟨fun h => ?_, fun h => ?_⟩
    · obtain ⟨f, uid', h3, h4, h5⟩ := h1 h
      exact ⟨f, uid', serves_congr (by rw [hl]) h3, h4, by rw [hl]; exact ⟨h5, rfl⟩⟩
    · obtain ⟨f, st, h3, h4, h5⟩ := h2 h
      exact ⟨f, st, serves_congr (by rw [hl]) h3, h4, by rw [hl]; exact ⟨h5, rfl⟩⟩

namespace Demo

/-- The shop with a door, and behind the door with a device that holds back the answers to requests to delete. -/
noncomputable def slowGuarded (extended : Bool) : Server (Site (Option Bytes) × List Bytes) := delayed (guarded extended) (fun _ req => cmdOf req = some 0x06)

noncomputable def slowDoorEnv (extended : Bool) : Env (Site (Option Bytes) × List Bytes) := { env true with V := slowGuarded extended, C := Crypto.real }

def atSlowDoor : St (Site (Option Bytes) × List Bytes) :=
  { cli := .init (person "me".toList "secret".toList), w := { inbox := [], wsched := [.accept 9], out := [], srv := (.fresh (some [1, 2, 3]), []) } }

theorem atSlowDoor_ready (extended : Bool) (n : Nat) (hn : n ≤ 65535) : Ready (slowDoorEnv extended) (fun _ => True) n atSlowDoor :=
  ⟨by intro ev he; simp [atSlowDoor] at he; subst he; exact ⟨_, rfl⟩, .nil, fun _ _ => trivial, fun _ => by simp [atSlowDoor, Cli.init]; omega⟩

theorem holds_no_login {req : Bytes} (h : OfLogin req) : decide (cmdOf req = some 0x06) = false := by
  rcases h with h | h <;> rw [h] <;> decide

theorem haste_within (share : Share) : (haste share).Within 2 := ⟨by simp [cost], fun _ => ⟨by simp [cost], fun _ => trivial⟩⟩

/-- non-vacuity of `C98_login`: the user logs in, and whether they wait for the answer to the deletion or give it up, the file is gone. -/
example (extended : Bool) (share : Share) : ∃ x s1 s', setupConnection (slowDoorEnv extended) atSlowDoor = (.ok (), s1) ∧
    (haste share).run (slowDoorEnv extended) s1 = (x, s') ∧ s'.w.srv.1 = .inside none ∧
    (x.1 = .ok .unit ∨ x.1 = .pending) ∧ (x.2 = .err (.ServerError (.Known .NAME_NOT_FOUND)) ∨ x.2 = .pending) := by
  obtain ⟨hD, hi⟩ := (C69_possible (fun _ => True) Crypto.real.hashes Crypto.real.des accounts extended [1, 2, 3, 4, 5, 6, 7, 8] 100 shop rfl
    shop_speakable).choose_spec
  have hd := delayed_door (hD (some [1, 2, 3])) (fun _ req => decide (cmdOf req = some 0x06)) (fun _ _ h => holds_no_login h)
  obtain ⟨s1, h1, h2, _, h3⟩ := C69_right (E := slowDoorEnv extended) (s := atSlowDoor) hd (atSlowDoor_ready extended (2 + 3) (by decide)) ⟨rfl, rfl⟩
    (person_fits (by decide) (by decide +kernel) (by decide +kernel))
    (show (0 : Int) ≤ 13370000000000000000 by decide) (show (10 : Int) * (13370000000000000000 / 1000) < 2 ^ 64 by decide) rfl
  obtain ⟨x, a', s1', s', m, k1, k2, k3, k4, _⟩ := C98_login (E := slowDoorEnv extended) (s := atSlowDoor) (n := 2) hd
    (atSlowDoor_ready extended (2 + 3) (by decide)) (by simp [atSlowDoor, Cli.init]) ⟨rfl, rfl⟩ (person_fits (by decide) (by decide +kernel) (by decide +kernel))
    (show (0 : Int) ≤ 13370000000000000000 by decide) (show (10 : Int) * (13370000000000000000 / 1000) < 2 ^ 64 by decide) rfl
    (Does := fun a c r a' => shop a c = (r, a')) (rel := fun m a v => v.1 = .inside a ∧ Foreign (m ≤ ·) v.2.flatten) (a := some [1, 2, 3])
    (by
      rintro u uid v ⟨⟨rfl, rfl, hv⟩, hv'⟩
      exact ⟨C98_delayed (C98_prompt hi) (fun _ req => decide (cmdOf req = some 0x06)), hv, by rw [hv']; exact .nil⟩)
    (haste share) (haste_within share)
  rw [h1] at k1
  cases k1
  rw [h3.1.1] at k2
  obtain ⟨q1, q2, rfl⟩ := haste_runs k2
  exact ⟨x, s1, s', h1, k3, k4, q1, q2⟩

end Demo

end Cifs
