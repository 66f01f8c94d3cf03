import Verif.Spec.Between
import Verif.Props.Gate
import Verif.Props.Streams
/-!
# Whether changes on the way are noticed (C95)

They are not. The login proves the password of the user to the server, but nothing that comes after it proves anything to the client: the
client neither asks for signatures nor looks at them. A party on the way that lets the login pass is the server from then on.
-/

namespace Cifs
open Spec

variable {σ τ A α : Type}

/-! ## Parties that only cut -/

theorem sameBytes_behind {V : Server σ} {B : Between τ} (h : OnlyCuts B) : SameBytes V (behind V B) (fun v v' => v'.1 = v) where
  state := by rintro a a' p rfl; rfl
  bytes := by rintro a a' p rfl; exact (h _ _ _).symm
  tail := by rintro a a' rfl; rfl

/-- **C95 (partial)** A party that only cuts the bytes into other pieces has no influence: the connection is opened, or not, as without it,
and it is left in the same state. Missing: parties that change bytes (`C95_violated`). -/
theorem C95_cuts_open_partial (E : Env σ) {B : Between τ} (h : OnlyCuts B) (dial : Dial σ) (t : UInt16 → τ) (port : Option UInt16) (auth : Option Auth) :
    let E' := E.withV (behind E.V B)
    let dial' : Dial (σ × τ) := fun p => (dial p).map fun w => { inbox := w.inbox, wsched := w.wsched, out := w.out, srv := (w.srv, t p) }
    (openCifs E dial port auth).outcome = (openCifs E' dial' port auth).outcome ∧ (openCifs E dial port auth).ports = (openCifs E' dial' port auth).ports ∧
    ((openCifs E dial port auth).state = none ∧ (openCifs E' dial' port auth).state = none ∨
      ∃ s s', (openCifs E dial port auth).state = some s ∧ (openCifs E' dial' port auth).state = some s' ∧
        SameWire (fun v v' => v'.1 = v) s.w s'.w ∧ s.cli = s'.cli) := by
  intro E' dial'
  refine C01_open E (behind E.V B) (fun v v' => v'.1 = v) (sameBytes_behind h) dial dial' (fun p => ?_) port auth
  cases hd : dial p with
  | error e => exact .inl ⟨e, rfl, by simp only [dial', hd]; rfl⟩
  | ok w => exact .inr ⟨w, { inbox := w.inbox, wsched := w.wsched, out := w.out, srv := (w.srv, t p) }, rfl, by simp only [dial', hd]; rfl, rfl, rfl, rfl, rfl⟩

/-- **C95 (partial)** And every history of calls has the same results. -/
theorem C95_cuts_partial (E : Env σ) {B : Between τ} (h : OnlyCuts B) (ops : List Op) (s : St σ) (s' : St (σ × τ)) (hc : s.cli = s'.cli)
    (hw : SameWire (fun v v' => v'.1 = v) s.w s'.w) :
    (runOps E ops s).1 = (runOps (E.withV (behind E.V B)) ops s').1 ∧ (runOps E ops s).2.cli = (runOps (E.withV (behind E.V B)) ops s').2.cli ∧
      SameWire (fun v v' => v'.1 = v) (runOps E ops s).2.w (runOps (E.withV (behind E.V B)) ops s').2.w :=
  C01_history E _ _ (sameBytes_behind h) ops s s' hc hw

/-! ## A party that takes over -/

section
variable {V : Server σ} {W : Server τ} {own : Nat → Prop}

theorem hijacker_login {req : Bytes} (h : OfLogin req) (v : σ) (t : τ) :
    (behind V (hijacker W)).react (v, t) req = (((V.react v req).1, t), (V.react v req).2) := by
  simp only [behind, hijacker, if_pos h]

theorem hijacker_later {req : Bytes} (h : ¬ OfLogin req) (v : σ) (t : τ) :
    (behind V (hijacker W)).react (v, t) req = (((V.react v req).1, (W.react t req).1), (W.react t req).2) := by
  simp only [behind, hijacker, if_neg h]

theorem serves_congr {V : Server σ} {W : Server τ} {v : σ} {w : τ} {req f : Bytes} (e : (W.react w req).2 = (V.react v req).2) (h : Serves V own v req f) :
    Serves W own w req f := by
  obtain ⟨b, a, h1, h2⟩ := h
  exact ⟨b, a, by rw [e]; exact h1, h2⟩

theorem call_ofLogin {unicode : Bool} {req : Bytes} {c : Call} (h : IsCall unicode req c) : ¬ OfLogin req := by
  rintro (h' | h') <;> (cases c <;> rw [h.1] at h' <;> simp at h')

/-- Through the party, the door is that of the server. -/
theorem hijacker_door {H : NtlmHashes} {des : Bytes → Bytes → Bytes} {password : Str → Str → Option Str} {room : Nat} {fresh : σ → Prop}
    {asked : Bool → σ → Prop} {challenged : Bool → Nat → Bytes → Nat → σ → Prop} {legacy : Bool → Bytes → σ → Prop} {inside : Bool → Nat → σ → Prop}
    {outside : σ → Prop} (hD : Doorkeeper V own H des password room fresh asked challenged legacy inside outside) (t : τ) :
    Doorkeeper (behind V (hijacker W)) own H des password room (fun v => fresh v.1 ∧ v.2 = t) (fun u v => asked u v.1 ∧ v.2 = t)
      (fun u f c i v => challenged u f c i v.1 ∧ v.2 = t) (fun u c v => legacy u c v.1 ∧ v.2 = t) (fun u i v => inside u i v.1 ∧ v.2 = t)
      (fun v => outside v.1 ∧ v.2 = t) where
  greets := by
    rintro ⟨v, _⟩ req ⟨hv, rfl⟩ hq
    have hl := hijacker_login (V := V) (W := W) (req := req) (.inl hq.1) v
    obtain ⟨f, ps, ds, u, h1, h2, h3, h4⟩ := hD.greets v req hv hq
    refine ⟨f, ps, ds, u, serves_congr (by rw [hl]) h1, h2, h3, ?_⟩
    rw [hl]
    rcases h4 with ⟨h4, h5⟩ | ⟨h4, c, more, h5, h6, h7, h8⟩
    · exact .inl ⟨h4, h5, rfl⟩
    · exact .inr ⟨h4, c, more, h5, h6, h7, h8, rfl⟩
  challenges := by
    rintro u ⟨v, _⟩ req blob flags d w ⟨hv, rfl⟩ hq hn
    have hl := hijacker_login (V := V) (W := W) (req := req) (.inr hq.1) v
    obtain ⟨f, uid, m, tg, fl, c, info, h1, h2, h3, h4, h5⟩ := hD.challenges u v req blob flags d w hv hq hn
    exact ⟨f, uid, m, tg, fl, c, info, serves_congr (by rw [hl]) h1, h2, h3, h4, by rw [hl]; exact ⟨h5, rfl⟩⟩
  checks := by
    rintro u flags c uid ⟨v, _⟩ req blob ⟨hv, rfl⟩ hq hu
    have hl := hijacker_login (V := V) (W := W) (req := req) (.inr hq.1) v
    obtain ⟨h1, h2⟩ := hD.checks u flags c uid v req blob hv hq hu
    refine ⟨fun h => ?_, fun h => ?_⟩
    · obtain ⟨f, uid', h3, h4, h5⟩ := h1 h
      exact ⟨f, uid', serves_congr (by rw [hl]) h3, h4, by rw [hl]; exact ⟨h5, rfl⟩⟩
    · obtain ⟨f, st, h3, h4, h5⟩ := h2 h
      exact ⟨f, st, serves_congr (by rw [hl]) h3, h4, by rw [hl]; exact ⟨h5, rfl⟩⟩
  checksLegacy := by
    rintro u c ⟨v, _⟩ req r us d ⟨hv, rfl⟩ hq
    have hl := hijacker_login (V := V) (W := W) (req := req) (.inr hq.1) v
    obtain ⟨h1, h2⟩ := hD.checksLegacy u c v req r us d hv hq
    refine ⟨fun h => ?_, fun h => ?_⟩
    · obtain ⟨f, uid', h3, h4, h5⟩ := h1 h
      exact ⟨f, uid', serves_congr (by rw [hl]) h3, h4, by rw [hl]; exact ⟨h5, rfl⟩⟩
    · obtain ⟨f, st, h3, h4, h5⟩ := h2 h
      exact ⟨f, st, serves_congr (by rw [hl]) h3, h4, by rw [hl]; exact ⟨h5, rfl⟩⟩

/-- And behind the door there is the service of the party. -/
theorem hijacker_implements {unicode : Bool} {uid : Nat} {Does : A → Call → Answer → A → Prop} {rel : A → τ → Prop}
    (h : Implements W own unicode uid Does rel) : Implements (behind V (hijacker W)) own unicode uid Does (fun a v => rel a v.2) := by
  rintro a ⟨v, t⟩ req c ha hc hu
  have hl := hijacker_later (V := V) (W := W) (call_ofLogin hc) v t
  obtain ⟨r, a', h1, h2, h3⟩ := h a t req c ha hc hu
  exact ⟨r, a', h1, answers_congr (by rw [hl]) h2, by rw [hl]; exact h3⟩

end

/-- **C95 (violated)** Let `step` be any service, with answers of which each can be said in a reply. There is a party on the way with which the
following happens at every server with accounts that chooses the Unicode setting `u`. The user logs in with their password, and the server
lets them in: the server is the genuine one, and it has heard a genuine login. Then every program gets to see what `step` says, whatever the
server says to the same requests. So a user may be shown any file at all. -/
theorem C95_violated (own : Nat → Prop) (u : Bool) (step : A → Call → Answer × A) (hstep : ∀ a c, Speakable c (step a c).1) :
    ∃ B : Between A, ∀ (σ : Type) (E : Env σ) (password : Str → Str → Option Str) (room : Nat) (fresh : σ → Prop) (asked : Bool → σ → Prop)
      (challenged : Bool → Nat → Bytes → Nat → σ → Prop) (legacy : Bool → Bytes → σ → Prop) (inside : Bool → Nat → σ → Prop) (outside : σ → Prop),
      Doorkeeper E.V own E.C.hashes E.C.des password room fresh asked challenged legacy inside outside → (∀ unicode uid v, inside unicode uid v → unicode = u) →
      ∀ (n : Nat) (s : St (σ × A)), Ready (E.withV (behind E.V B)) own (n + 3) s → fresh s.w.srv.1 →
        NamesFit s.cli.auth.user s.cli.auth.workstation s.cli.auth.domain room → 0 ≤ E.now → 10 * (E.now / 1000) < 2 ^ 64 →
        password s.cli.auth.user s.cli.auth.domain = some s.cli.auth.password →
        ∃ s1, setupConnection (E.withV (behind E.V B)) s = (.ok (), s1) ∧ s1.cli.useUnicode = u ∧ inside u s1.cli.uid.toNat s1.w.srv.1 ∧
          ∀ (α : Type) (p : Prog α), p.Within n → ∃ x a' s', p.Runs (fun a c r a' => step a c = (r, a')) u s.w.srv.2 x a' ∧
            p.run (E.withV (behind E.V B)) s1 = (x, s') ∧ s'.w.srv.2 = a' := by
  refine ⟨hijacker (serverOf own u step), fun σ E password room fresh asked challenged legacy inside outside hD hu n s hr hs fit h0 h1 hp => ?_⟩
  obtain ⟨s1, h2, h3, _, h4, h5⟩ := C69_right (E := E.withV (behind E.V (hijacker (serverOf own u step)))) (hijacker_door hD s.w.srv.2) hr ⟨hs, rfl⟩ fit h0 h1 hp
  have hu' := hu _ _ _ h4
  refine ⟨s1, h2, hu', by rw [← hu']; exact h4, fun α p hw => ?_⟩
  have hi := hijacker_implements (V := E.V) (serverOf_implements own u step (fun a c => speakable_tellable own u (hstep a c)) s1.cli.uid.toNat)
  obtain ⟨x, a', s', h7, h8, h9⟩ := C66_program (E := E.withV (behind E.V (hijacker (serverOf own u step)))) p (by rw [hu']; exact hi) n s.w.srv.2 h3 hw h5.symm
  exact ⟨x, a', s', by rw [← hu']; exact h7, h8, h9.symm⟩

/-! ## Examples -/

namespace Demo

/-- non-vacuity of `C95_cuts_open_partial` and `C95_cuts_partial`: a party that delivers single bytes. -/
example : OnlyCuts (τ := Unit) ⟨fun t _ said => (t, said.flatten.map fun b => [b])⟩ := by
  intro t req said
  show (said.flatten.map fun b => [b]).flatten = said.flatten
  induction said.flatten with
  | nil => rfl
  | cons b l ih => rw [List.map_cons, List.flatten_cons, ih]; rfl

/-- One that changes bytes is none of these. -/
example (W : Server Unit) (h : (W.react () []).2.flatten = [1]) : ¬ OnlyCuts (hijacker W) := by
  intro hc
  have := hc () [] []
  rw [show (hijacker W).step () [] [] = W.react () [] by
    simp only [hijacker, if_neg (show ¬ OfLogin [] by decide)], h] at this
  cases this

/-- About to log in at a server without a file; somebody on the way would show one. -/
def onTheWay (a : Auth) : St (Site (Option Bytes) × Option Bytes) :=
  { cli := .init a, w := { inbox := [], wsched := [.accept 9], out := [], srv := (.fresh none, some [1, 2, 3]) } }

/-- `C95_violated`: a party for which a user, with the right password and the real hash functions, is let in by a server without any file, and then
downloads `[1, 2, 3]`. -/
example (extended : Bool) (share : Share) : ∃ (B : Between (Option Bytes)) (s1 s' : St (Site (Option Bytes) × Option Bytes)),
    setupConnection ((doorEnv extended).withV (behind (guarded extended) B)) (onTheWay (person "me".toList "secret".toList)) = (.ok (), s1) ∧
    s1.w.srv.1 = .inside none ∧
    (visit share).run ((doorEnv extended).withV (behind (guarded extended) B)) s1 =
      ((.ok (.bytes [1, 2, 3]), .ok .unit, .err (.ServerError (.Known .NAME_NOT_FOUND))), s') := by
  obtain ⟨B, hB⟩ := C95_violated (fun _ => True) true shop shop_speakable
  obtain ⟨hD, _⟩ := (C69_possible (fun _ => True) Crypto.real.hashes Crypto.real.des accounts extended [1, 2, 3, 4, 5, 6, 7, 8] 100 shop rfl
    shop_speakable).choose_spec
  obtain ⟨s1, h1, h2, ⟨_, _, h3⟩, h4⟩ := hB _ (doorEnv extended) accounts 4 _ _ _ _ _ _ (hD none) (fun _ _ _ h => h.1) 21
    (onTheWay (person "me".toList "secret".toList))
    ⟨by intro ev he; simp [onTheWay] at he; subst he; exact ⟨_, rfl⟩, .nil, fun _ _ => trivial, fun _ => by simp [onTheWay, Cli.init]⟩ rfl
    (person_fits (by decide) (by decide +kernel) (by decide +kernel))
    (show (0 : Int) ≤ 13370000000000000000 by decide) (show (10 : Int) * (13370000000000000000 / 1000) < 2 ^ 64 by decide) rfl
  obtain ⟨x, a', s', h5, h6, _⟩ := h4 _ (visit share) (by simp [visit, Prog.Within, cost])
  exact ⟨B, s1, s', h1, h3, by rw [← visit_runs h5]; exact h6⟩

end Demo

end Cifs
