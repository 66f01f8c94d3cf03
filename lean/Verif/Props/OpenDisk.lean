import Verif.Props.GateOpen
import Verif.Props.Copy
/-!
# A file system behind a connection that is opened in any way (C80, C92)

`C80_session_partial` and `C92_session` for connections to a port of the user's choice, to port 445 or, if that fails, to port 139; with the
credentials of the user or the default ones.
-/

namespace Cifs
open Spec

variable {σ α : Type} {E : Env σ} {own : Nat → Prop} {password : Str → Str → Option Str} {room : Nat} {fresh : σ → Prop} {asked : Bool → σ → Prop}
  {challenged : Bool → Nat → Bytes → Nat → σ → Prop} {legacy : Bool → Bytes → σ → Prop} {inside : Bool → Nat → σ → Prop} {outside : σ → Prop}
  {look : Volume → Str → List DirInfo} {rel : Store → σ → Prop}

/-- With the password of the account, a connection is opened in a session with the user id and the Unicode setting of the server. -/
theorem open_inside (hD : Doorkeeper E.V own E.C.hashes E.C.des password room fresh asked challenged legacy inside outside)
    {auth : Option Auth} {user pw domain workstation : Str} (ha : Presents auth user pw domain workstation)
    {dial : Dial σ} {port : Option UInt16} {ports : List UInt16}
    (hr : Reached E.V dial (netbiosName workstation) (fun v b => fresh v ∧ Foreign own b) port ports)
    (fit : NamesFit user workstation domain room) (h0 : 0 ≤ E.now) (h1 : 10 * (E.now / 1000) < 2 ^ 64) (hp : password user domain = some pw)
    {n : Nat} (ids : ∀ i < n + 3, own (i % 65536)) (enough : E.checked = true → n + 3 ≤ 65535) :
    ∃ s, openCifs E dial port auth = { outcome := .ok (), state := some s, ports := ports } ∧ Ready E own n s ∧
      inside s.cli.useUnicode s.cli.uid.toNat s.w.srv := by
  obtain ⟨o, s, v, sent, last, k1, -, -, k2, -, ⟨rfl, k3, -⟩ | ⟨_, -, -, -, k3⟩⟩ := C69_open hD ha hr fit h0 h1 ids enough
  · exact ⟨s, k1, k2, k3⟩
  · exact absurd hp k3

/-- **C80** (partial, as `C80_operation_partial`) From the outside, however the connection is made: a program that opens a connection to a server
with a door, under an account with the right password, sees the file system behind it. -/
theorem C80_open_partial (hD : Doorkeeper E.V own E.C.hashes E.C.des password room fresh asked challenged legacy inside outside)
    {auth : Option Auth} {user pw domain workstation : Str} (ha : Presents auth user pw domain workstation)
    {dial : Dial σ} {port : Option UInt16} {ports : List UInt16}
    (hr : Reached E.V dial (netbiosName workstation) (fun v b => fresh v ∧ Foreign own b) port ports)
    (fit : NamesFit user workstation domain room) (h0 : 0 ≤ E.now) (h1 : 10 * (E.now / 1000) < 2 ^ 64) (hp : password user domain = some pw)
    {n : Nat} (ids : ∀ i < n + 3, own (i % 65536)) (enough : E.checked = true → n + 3 ≤ 65535) {a : Store}
    (hi : ∀ unicode uid v, inside unicode uid v → Implements E.V own unicode uid (FileSystem look) rel ∧ rel a v) {p : Prog α} (hw : p.Within n)
    {Q : α → Store → Prop} (he : ∀ unicode, p.Ensures look unicode Q a) :
    ∃ s x a' s', openCifs E dial port auth = { outcome := .ok (), state := some s, ports := ports } ∧
      p.run E s = (x, s') ∧ Q x a' ∧ rel a' s'.w.srv := by
  obtain ⟨s, k1, k2, k3⟩ := open_inside hD ha hr fit h0 h1 hp ids enough
  obtain ⟨h5, h6⟩ := hi _ _ _ k3
  obtain ⟨x, a', s', h7, h8, h9, _⟩ := C80_program_partial h5 n k2 hw h6 (he _)
  exact ⟨s, x, a', s', k1, h7, h8, h9⟩

/-- **C92** From the outside, however the connection is made: a program that opens a connection under an account with the right password, mounts a
volume and copies a directory has the files below it; the file system is as it was. -/
theorem C92_open (hD : Doorkeeper E.V own E.C.hashes E.C.des password room fresh asked challenged legacy inside outside)
    {auth : Option Auth} {user pw domain workstation : Str} (ha : Presents auth user pw domain workstation)
    {dial : Dial σ} {port : Option UInt16} {ports : List UInt16}
    (hr : Reached E.V dial (netbiosName workstation) (fun v b => fresh v ∧ Foreign own b) port ports)
    (fit : NamesFit user workstation domain room) (h0 : 0 ≤ E.now) (h1 : 10 * (E.now / 1000) < 2 ^ 64) (hp : password user domain = some pw)
    {keep : Str → Bool} (hk : Keeping keep) {vol : Volume} {k d : Nat} {volume path : Str}
    (ids : ∀ i < (k + 1) * copySteps keep look vol (d + 1) path + 5, own (i % 65536))
    (enough : E.checked = true → (k + 1) * copySteps keep look vol (d + 1) path + 5 ≤ 65535) {a : Store}
    (hi : ∀ unicode uid v, inside unicode uid v → Implements E.V own unicode uid (FileSystem look) rel ∧ rel a v)
    (hfit : ∀ unicode, Fits unicode (.mount volume [])) (hd : a.disk (backslashed volume) = some vol) (hm : ∃ i, i < 65536 ∧ a.mounted i = none)
    (ho : ∀ t, ∃ i, i < 65536 ∧ a.opened t i = none) (hsr : ∀ t, ∃ i, i < 65536 ∧ a.searches t i = none) (hc : Copyable look vol k d path) :
    ∃ s files s', openCifs E dial port auth = { outcome := .ok (), state := some s, ports := ports } ∧
      (fetchTree keep k volume (d + 1) path).run E s = (some files, s') ∧ (∀ p contents, (p, contents) ∈ files ↔ vol.Has path p contents) ∧
      (files.map (·.1)).Nodup ∧ rel a s'.w.srv := by
  obtain ⟨s, k1, k2, k3⟩ := open_inside hD ha hr fit h0 h1 hp (n := (k + 1) * copySteps keep look vol (d + 1) path + 2) ids enough
  obtain ⟨h5, h6⟩ := hi _ _ _ k3
  obtain ⟨x, m, a', s', h7, ⟨-, rfl, y, rfl, h8, h9⟩, h10, -⟩ :=
    ensuresIn_run h5 _ k2 h6 (by have := fetchTree_ensures (unicode := s.cli.useUnicode) hk (hfit _) hd hm ho hsr hc 0; rwa [Nat.zero_add] at this)
  exact ⟨s, y, s', k1, h7, h8, h9, h10⟩

namespace Demo

/-- non-vacuity of `C80_open_partial`: without a port, with the real hash functions; both kinds of login. -/
example (extended : Bool) : ∃ (V : Server (Site Store)) (s1 : St (Site Store)),
    openCifs { env true with V := V, C := Crypto.real } (fun _ => .ok { inbox := [], wsched := [.accept 9], out := [], srv := .fresh someStore })
      none (some (person "me".toList "secret".toList)) = { outcome := .ok (), state := some s1, ports := [445] } ∧
    (tour.run { env true with V := V, C := Crypto.real } s1).1 =
      [.ok (.bytes [1, 2, 3]), .ok .unit, .err (.ServerError (.Known .NAME_NOT_FOUND)), .ok (.entries [someRecord.info]), .ok .unit] := by
  obtain ⟨step, h1, h2⟩ := serve_files someLook_fits
  obtain ⟨V, hD, hi⟩ := C69_possible (fun _ => True) Crypto.real.hashes Crypto.real.des accounts extended [1, 2, 3, 4, 5, 6, 7, 8] 100 step rfl h1
  obtain ⟨s1, x, a', s', h3, h4, h5, -⟩ := C80_open_partial (E := { env true with V := V, C := Crypto.real }) (hD someStore)
    (.inl (show some (person "me".toList "secret".toList) = _ from rfl))
    (dial := fun _ => .ok { inbox := [], wsched := [.accept 9], out := [], srv := .fresh someStore }) (port := none) (ports := [445])
    (.direct rfl (by intro ev he; simp at he; subst he; exact ⟨_, rfl⟩) ⟨rfl, .nil⟩)
    (person_fits (by decide) (by decide +kernel) (by decide +kernel)) (show (0 : Int) ≤ 13370000000000000000 by decide)
    (show (10 : Int) * (13370000000000000000 / 1000) < 2 ^ 64 by decide) rfl (n := 33) (fun _ _ => trivial) (fun _ => by decide)
    (a := someStore) (rel := fun a v => v = .inside a ∧ a.Sound)
    (fun unicode uid v h => by
      obtain ⟨rfl, rfl, rfl⟩ := h
      exact ⟨serve_implements h2 hi, rfl, someStore_sound⟩) tour_within tour_someStore
  refine ⟨V, s1, h3, ?_⟩
  rw [h4]
  exact h5

/-- non-vacuity of `C92_open`: the same for a copy, on a port of the user's choice. -/
example (extended : Bool) : ∃ (V : Server (Site Store)) (s1 s' : St (Site Store)) (files : Files),
    openCifs { env true with V := V, C := Crypto.real } (fun _ => .ok { inbox := [], wsched := [.accept 9], out := [], srv := .fresh (twigsStore false) })
      (some 4450) (some (person "me".toList "secret".toList)) = { outcome := .ok (), state := some s1, ports := [4450] } ∧
    (fetchTree (fun n => decide (Leads n)) 9 ['/', 'v'] 3 []).run { env true with V := V, C := Crypto.real } s1 = (some files, s') ∧
    (Spec.inside [] ['a'], [1]) ∈ files ∧ (Spec.inside (Spec.inside [] ['s']) ['b'], [2, 3]) ∈ files ∧ s'.w.srv = .inside (twigsStore false) := by
  obtain ⟨step, h1, h2⟩ := serve_files twigs_fits
  obtain ⟨V, hD, hi⟩ := C69_possible (fun _ => True) Crypto.real.hashes Crypto.real.des accounts extended [1, 2, 3, 4, 5, 6, 7, 8] 100 step rfl h1
  obtain ⟨s1, files, s', h3, h4, h5, -, h6, -⟩ := C92_open (E := { env true with V := V, C := Crypto.real }) (hD (twigsStore false))
    (.inl (show some (person "me".toList "secret".toList) = _ from rfl))
    (dial := fun _ => .ok { inbox := [], wsched := [.accept 9], out := [], srv := .fresh (twigsStore false) }) (port := some 4450) (ports := [4450])
    (.raw rfl (by intro ev he; simp at he; subst he; exact ⟨_, rfl⟩) ⟨rfl, .nil⟩)
    (person_fits (by decide) (by decide +kernel) (by decide +kernel)) (show (0 : Int) ≤ 13370000000000000000 by decide)
    (show (10 : Int) * (13370000000000000000 / 1000) < 2 ^ 64 by decide) rfl
    keeping_leads (look := twigsLook) (vol := twigs) (k := 9) (d := 2) (path := []) (volume := ['/', 'v'])
    (fun _ _ => trivial) (fun _ => by decide +kernel) (a := twigsStore false) (rel := fun a v => v = .inside a ∧ a.Sound)
    (fun unicode uid v h => by
      obtain ⟨rfl, rfl, rfl⟩ := h
      exact ⟨serve_implements h2 hi, rfl, twigsStore_sound _⟩)
    (fun unicode => by cases unicode <;> show mountLength _ _ _ < 65536 <;> decide +kernel)
    (by rw [show backslashed ['/', 'v'] = ['\\', 'v'] by decide +kernel]; rfl) ⟨0, by decide, rfl⟩
    (fun _ => ⟨0, by decide, rfl⟩) (fun _ => ⟨0, by decide, rfl⟩) twigs_copyable
  exact ⟨V, s1, s', files, h3, h4, (h5 _ _).mpr twigs_has.1, (h5 _ _).mpr twigs_has.2, h6⟩

end Demo

end Cifs
