import Verif.Lemmas.Alike
import Verif.Props.Connect
import Verif.Props.Consumed
import Verif.Props.LoginCause
/-!
# What does not matter

C73: after the login, credentials, hash functions, clock and random numbers play no part. C74: debug and release builds behave alike.
-/

namespace Cifs
open Spec

variable {σ : Type}

/-! ## C73 -/

theorem calls_pair {E E' : Env σ} (hV : E'.V = E.V) (hc : E'.checked = E.checked) : Pair (fun _ => False) E E' SameSession where
  server := hV
  profile := .inl hc
  alike := id
  wire := fun _ h => ⟨rfl, h.uid, h.mid, h.unicode⟩
  next := fun h => ⟨h.wire, h.uid, by simp only [St.bump, h.mid], h.unicode⟩

/-- **C73** Two clients on the same connection in the same session, but with other credentials, another announced buffer size, other hash
functions, another time and other random numbers: every call ends alike, and everything on the wire is the same. -/
theorem C73_call (E E' : Env σ) (hV : E'.V = E.V) (hc : E'.checked = E.checked) (op : Op) (s s' : St σ) (h : SameSession s s') :
    (runOp E op s).1 = (runOp E' op s').1 ∧ SameSession (runOp E op s).2 (runOp E' op s').2 := by
  rcases Twin.runOp (calls_pair hV hc) op s s' h with ⟨h, _⟩ | h
  · exact h.elim
  · exact h

/-- **C73** The same for any history of calls. -/
theorem C73_calls (E E' : Env σ) (hV : E'.V = E.V) (hc : E'.checked = E.checked) (ops : List Op) (s s' : St σ) (h : SameSession s s') :
    (runOps E ops s).1 = (runOps E' ops s').1 ∧ SameSession (runOps E ops s).2 (runOps E' ops s').2 := by
  induction ops generalizing s s' with
  | nil => exact ⟨rfl, h⟩
  | cons op ops ih =>
    obtain ⟨h1, h2⟩ := C73_call E E' hV hc op s s' h
    obtain ⟨h3, h4⟩ := ih _ _ h2
    exact ⟨by simp only [runOps]; rw [h1, h3], h4⟩

/-- The same session with another user, and what a call sends and returns there. -/
example : SameSession (Demo.st [[message (Demo.given 7 [1, 2])]])
      { Demo.st [[message (Demo.given 7 [1, 2])]] with cli := { Demo.cli with auth := ⟨['r'], ['w'], ['d'], ['p']⟩, maxSmbSize := 9 } } ∧
    (runOp (Demo.env true) (.read Demo.handle 0) (Demo.st [[message (Demo.given 7 [1, 2])]])).1 = .ok (.bytes [1, 2]) :=
  ⟨⟨rfl, rfl, rfl, rfl⟩, by decide +kernel⟩

/-- The session itself does matter: another login sends something else. -/
example : (runOp (Demo.env true) (.read Demo.handle 0) (Demo.st [])).2.w.out ≠
    (runOp (Demo.env true) (.read Demo.handle 0) { Demo.st [] with cli := { Demo.cli with uid := 0x4321 } }).2.w.out := by
  decide +kernel

/-! ## C74 -/

theorem profile_pair (E : Env σ) : Pair (fun s => s.cli.mid.toNat = 65535) E E.release Eq where
  server := rfl
  profile := .inr ⟨rfl, fun _ h => h⟩
  alike := by rintro s _ rfl; exact ⟨rfl, rfl, rfl, rfl⟩
  wire := by rintro s _ w rfl; rfl
  next := by rintro s _ rfl; rfl

/-- **C74** A call does the same in a release build as in a debug build, except where the debug build crashes because all multiplex ids
are used up. -/
theorem C74_call (E : Env σ) (op : Op) (s : St σ) :
    runOp E.release op s = runOp E op s ∨ ((runOp E op s).1 = .panic ∧ (runOp E op s).2.cli.mid.toNat = 65535) := by
  rcases Twin.runOp (profile_pair E) op s s rfl with ⟨h1, h2⟩ | ⟨h1, h2⟩
  · exact .inr ⟨h2, h1⟩
  · exact .inl (Prod.ext h1.symm h2.symm)

/-- **C74** If no call of a history crashes the debug build, the release build does the same. -/
theorem C74_calls (E : Env σ) (ops : List Op) (s : St σ) (h : ∀ o ∈ (runOps E ops s).1, o ≠ .panic) :
    runOps E.release ops s = runOps E ops s := by
  induction ops generalizing s with
  | nil => rfl
  | cons op ops ih =>
    have h1 : runOp E.release op s = runOp E op s := by
      rcases C74_call E op s with h1 | ⟨h1, _⟩
      · exact h1
      · exact absurd h1 (h _ (by simp [runOps]))
    simp only [runOps]
    rw [h1, ih _ (fun o ho => h o (by simp only [runOps]; exact List.mem_cons_of_mem _ ho))]

/-- **C74** The same for a login. There, the debug build may also crash because of the time: before 1601, or more than 58000 years later. -/
theorem C74_login (E : Env σ) (s : St σ) :
    setupConnection E.release s = setupConnection E s ∨
      ((setupConnection E s).1 = .panic ∧ ((setupConnection E s).2.cli.mid.toNat = 65535 ∨ ClockFails true E.now)) := by
  rcases Twin.login E s s rfl with ⟨h1, h2⟩ | ⟨h1, h2⟩
  · exact .inr ⟨h2, h1⟩
  · exact .inl (Prod.ext h1.symm h2.symm)

/-- **C74** Opening a connection: the builds behave alike unless the time cannot be written. -/
theorem C74_open (E : Env σ) (dial : Dial σ) (port : Option UInt16) (auth : Option Auth) (hc : ¬ ClockFails true E.now) :
    openCifs E.release dial port auth = openCifs E dial port auth := by
  have key : ∀ a (w : World σ), setupConnection E.release { cli := .init a, w } = setupConnection E { cli := .init a, w } := by
    intro a w
    rcases C74_login E { cli := .init a, w } with h | ⟨_, h | h⟩
    · exact h
    · have := Upto.login E { cli := .init a, w } (by show (0 : UInt16).toNat + 3 ≤ 65535; decide)
      have e : (⟨.init a, w⟩ : St σ).cli.mid.toNat = 0 := rfl
      omega
    · exact absurd h hc
  unfold openCifs
  simp only [key]
  rfl

/-- A login and a call that do not crash; the time of the demo is one that can be written. -/
example : ¬ ClockFails true (Demo.env true).now ∧ (Demo.env true).checked = true ∧
    (openCifs (Demo.env true) (Demo.dial (Demo.modern (.Known .SUCCESS))) none none).outcome = .ok () ∧
    ∀ o ∈ (runOps (Demo.env true) [.read Demo.handle 0] (Demo.st [[message (Demo.given 7 [1, 2])]])).1, o ≠ .panic :=
  ⟨by unfold ClockFails; decide +kernel, rfl, Demo.modern_opens _ (.inl rfl), by decide +kernel⟩

/-- Both exceptions exist: the release build goes on where the debug build crashes. -/
example : (runOp (Demo.env true) (.read Demo.handle 0) { Demo.st [] with cli := { Demo.cli with mid := 65535 } }).1 = .panic ∧
    (runOp (Demo.env true).release (.read Demo.handle 0) { Demo.st [] with cli := { Demo.cli with mid := 65535 } }).1 ≠ .panic ∧
    (setupConnection { Demo.env true with now := -1000 } (Demo.loginSt defaultAuth (Demo.modern (.Known .SUCCESS)))).1 = .panic ∧
    (setupConnection { Demo.env false with now := -1000 } (Demo.loginSt defaultAuth (Demo.modern (.Known .SUCCESS)))).1 = .ok () := by
  refine ⟨by decide +kernel, by decide +kernel, by decide +kernel, by decide +kernel⟩

end Cifs
