import Verif.Props.Numbers
import Verif.Props.Gate
/-!
# The numbers of a server mean nothing to the client: from the login on (C96)

`C96_program` speaks about two sessions that have begun. Here they begin with a login each: the two servers may have other accounts, ask with or
without extended security, with other challenges, and give out other user ids.
-/

namespace Cifs
open Spec

variable {σ σ' A B α : Type}

section
variable {E : Env σ} {E' : Env σ'} {own own' : Nat → Prop} {rel : A → σ → Prop} {rel' : B → σ' → Prop}
  {password password' : Str → Str → Option Str} {room room' : Nat}
  {fresh : σ → Prop} {asked : Bool → σ → Prop} {challenged : Bool → Nat → Bytes → Nat → σ → Prop} {legacy : Bool → Bytes → σ → Prop}
  {inside : Bool → Nat → σ → Prop} {outside : σ → Prop}
  {fresh' : σ' → Prop} {asked' : Bool → σ' → Prop} {challenged' : Bool → Nat → Bytes → Nat → σ' → Prop} {legacy' : Bool → Bytes → σ' → Prop}
  {inside' : Bool → Nat → σ' → Prop} {outside' : σ' → Prop}
  {ρ : Renaming} {same : A → B → Prop} {step : A → Call → Answer × A} {step' : B → Call → Answer × B}

/-- **C96** Two servers with doors of their own and the same service behind them, but for the numbers, and a client at each of them with the
password of its account: both get in, and programs that are alike have the same result. -/
theorem C96_login (hD : Doorkeeper E.V own E.C.hashes E.C.des password room fresh asked challenged legacy inside outside)
    (hD' : Doorkeeper E'.V own' E'.C.hashes E'.C.des password' room' fresh' asked' challenged' legacy' inside' outside')
    (hs : SameService ρ same step step') {u : Bool} {a : A} {b : B} (hab : same a b)
    (hi : ∀ unicode uid v, inside unicode uid v →
      unicode = u ∧ Implements E.V own unicode uid (fun a c r a' => step a c = (r, a')) rel ∧ rel a v)
    (hi' : ∀ unicode uid v, inside' unicode uid v →
      unicode = u ∧ Implements E'.V own' unicode uid (fun a c r a' => step' a c = (r, a')) rel' ∧ rel' b v)
    {n n' : Nat} {s : St σ} {s' : St σ'} (hr : Ready E own (n + 3) s) (hr' : Ready E' own' (n' + 3) s') (hf : fresh s.w.srv) (hf' : fresh' s'.w.srv)
    (fit : NamesFit s.cli.auth.user s.cli.auth.workstation s.cli.auth.domain room)
    (fit' : NamesFit s'.cli.auth.user s'.cli.auth.workstation s'.cli.auth.domain room')
    (h0 : 0 ≤ E.now) (h1 : 10 * (E.now / 1000) < 2 ^ 64) (h0' : 0 ≤ E'.now) (h1' : 10 * (E'.now / 1000) < 2 ^ 64)
    (hpw : password s.cli.auth.user s.cli.auth.domain = some s.cli.auth.password)
    (hpw' : password' s'.cli.auth.user s'.cli.auth.domain = some s'.cli.auth.password)
    {p p' : Prog α} (hp : ρ.Alike p p') (hw : p.Within n) (hw' : p'.Within n') :
    ∃ t t', setupConnection E s = (.ok (), t) ∧ setupConnection E' s' = (.ok (), t') ∧ (p.run E t).1 = (p'.run E' t').1 ∧
      ∃ a1 b1, same a1 b1 ∧ rel a1 (p.run E t).2.w.srv ∧ rel' b1 (p'.run E' t').2.w.srv := by
  obtain ⟨t, k1, k2, _, k3⟩ := C69_right hD hr hf fit h0 h1 hpw
  obtain ⟨t', k1', k2', _, k3'⟩ := C69_right hD' hr' hf' fit' h0' h1' hpw'
  obtain ⟨q1, q2, q3⟩ := hi _ _ _ k3
  obtain ⟨q1', q2', q3'⟩ := hi' _ _ _ k3'
  exact ⟨t, t', k1, k1', C96_program hs hp q2 q2' (q1'.trans q1.symm) k2 k2' hw hw' q3 q3' hab⟩

end

namespace Demo

/-- Another server with the same accounts, which does without extended security, has another challenge, another user id, and the shop with other
numbers behind the door. -/
noncomputable def branch : Server (Site (Option Bytes)) :=
  (C69_possible (fun _ => True) Crypto.real.hashes Crypto.real.des accounts false [8, 7, 6, 5, 4, 3, 2, 1] 77 (renumbered mirror mirror shop) rfl
    (renumbered_speakable shop_speakable)).choose

/-- The environment of a client of the other server: a build without overflow checks. -/
noncomputable def branchEnv : Env (Site (Option Bytes)) := { env false with V := branch, C := Crypto.real }

theorem atDoor_branch (a : Auth) (n : Nat) : Ready branchEnv (fun _ => True) n (atDoor a) :=
  ⟨by intro ev he; simp [atDoor] at he; subst he; exact ⟨_, rfl⟩, .nil, fun _ _ => trivial, fun h => by cases h⟩

/-- non-vacuity of `C96_login`: the same program at both servers. -/
example (share : Share) : ∃ t t', setupConnection (doorEnv true) (atDoor (person "me".toList "secret".toList)) = (.ok (), t) ∧
    setupConnection branchEnv (atDoor (person "me".toList "secret".toList)) = (.ok (), t') ∧
    ((look share).run (doorEnv true) t).1 = ((look (mirror.share share)).run branchEnv t').1 := by
  obtain ⟨hD, hi⟩ := (C69_possible (fun _ => True) Crypto.real.hashes Crypto.real.des accounts true [1, 2, 3, 4, 5, 6, 7, 8] 100 shop rfl
    shop_speakable).choose_spec
  obtain ⟨hD', hi'⟩ := (C69_possible (fun _ => True) Crypto.real.hashes Crypto.real.des accounts false [8, 7, 6, 5, 4, 3, 2, 1] 77
    (renumbered mirror mirror shop) rfl (renumbered_speakable shop_speakable)).choose_spec
  obtain ⟨t, t', h1, h2, h3, _⟩ := C96_login (E := doorEnv true) (E' := branchEnv) (rel := fun a v => v = .inside a) (rel' := fun a v => v = .inside a)
    (s := atDoor (person "me".toList "secret".toList)) (s' := atDoor (person "me".toList "secret".toList)) (n := 5) (n' := 5) (u := true)
    (hD (some [1, 2, 3])) (hD' (some [1, 2, 3])) (renumbered_same mirror_back shop) rfl
    (by rintro _ _ _ ⟨rfl, rfl, rfl⟩; exact ⟨rfl, hi, rfl⟩) (by rintro _ _ _ ⟨rfl, rfl, rfl⟩; exact ⟨rfl, hi', rfl⟩)
    (atDoor_ready true _ 8 (by decide)) (atDoor_branch _ 8) rfl rfl
    (person_fits (by decide) (by decide +kernel) (by decide +kernel)) (person_fits (by decide) (by decide +kernel) (by decide +kernel))
    (show (0 : Int) ≤ 13370000000000000000 by decide) (show (10 : Int) * (13370000000000000000 / 1000) < 2 ^ 64 by decide)
    (show (0 : Int) ≤ 13370000000000000000 by decide) (show (10 : Int) * (13370000000000000000 / 1000) < 2 ^ 64 by decide) rfl rfl
    (look_alike mirror share) (look_within _) (look_within _)
  exact ⟨t, t', h1, h2, h3⟩

end Demo

end Cifs
