import Verif.Props.Fetch
import Verif.Props.Fresh
/-!
# Opening a connection to a server with accounts (C69, C99)

The login of `C69_login` as a part of `open`: the connection is made as C07 says, on either port, with or without a session request, and the
credentials are those that the user gave or the default ones.
-/

namespace Cifs
open Spec

variable {σ A α : Type}

section
variable {E : Env σ} {own : Nat → Prop} {password : Str → Str → Option Str} {room : Nat} {fresh : σ → Prop} {asked : Bool → σ → Prop}
  {challenged : Bool → Nat → Bytes → Nat → σ → Prop} {legacy : Bool → Bytes → σ → Prop} {inside : Bool → Nat → σ → Prop} {outside : σ → Prop}

/-- **C69** Opening a connection to such a server, if it can be reached, comes to an end: either the user is let in, or the server's refusal is
reported. -/
theorem C69_open (hD : Doorkeeper E.V own E.C.hashes E.C.des password room fresh asked challenged legacy inside outside)
    {auth : Option Auth} {user pw domain workstation : Str} (ha : Presents auth user pw domain workstation)
    {dial : Dial σ} {port : Option UInt16} {ports : List UInt16}
    (hr : Reached E.V dial (netbiosName workstation) (fun v b => fresh v ∧ Foreign own b) port ports)
    (fit : NamesFit user workstation domain room) (h0 : 0 ≤ E.now) (h1 : 10 * (E.now / 1000) < 2 ^ 64)
    {n : Nat} (ids : ∀ i < n + 3, own (i % 65536)) (enough : E.checked = true → n + 3 ≤ 65535) :
    ∃ o s v sent last, openCifs E dial port auth = { outcome := o, state := some s, ports := ports } ∧ fresh v ∧ sent.length ≤ 2 ∧ Ready E own n s ∧
      s.w.srv = (E.V.react (afterAll E.V v sent) last).1 ∧
      Decided E.C.hashes E.C.des (password user domain) challenged legacy (inside s.cli.useUnicode s.cli.uid.toNat) outside user domain pw
        (afterAll E.V v sent) last o s.w.srv := by
  obtain ⟨w, g1, g2, g3, g4⟩ := reached_dialled (a := { user, password := pw, domain, workstation }) hr
  have hready : Ready E own (n + 3) { cli := .init { user, password := pw, domain, workstation }, w } :=
    ⟨g2, g4, fun i hi => by simpa [Cli.init] using ids i hi, fun hc => by simpa [Cli.init] using enough hc⟩
  obtain ⟨o, s, sent, last, k1, k2, k3, -, -, k4, k5⟩ := C69_login hD hready g3 fit h0 h1
  refine ⟨o, s, w.srv, sent, last, ?_, g3, k2, k3, k4, k5⟩
  rw [openCifs_eq, presents_getD ha, g1]
  simp only [finishOpen, k1]

/-- **C69** With the password of the account, the connection is opened, and every program then runs as it would with the service behind the
door. -/
theorem C69_open_right (hD : Doorkeeper E.V own E.C.hashes E.C.des password room fresh asked challenged legacy inside outside)
    {auth : Option Auth} {user pw domain workstation : Str} (ha : Presents auth user pw domain workstation)
    {dial : Dial σ} {port : Option UInt16} {ports : List UInt16}
    (hr : Reached E.V dial (netbiosName workstation) (fun v b => fresh v ∧ Foreign own b) port ports)
    (fit : NamesFit user workstation domain room) (h0 : 0 ≤ E.now) (h1 : 10 * (E.now / 1000) < 2 ^ 64) (hp : password user domain = some pw)
    {Does : A → Call → Answer → A → Prop} {rel : A → σ → Prop} {a : A}
    (hi : ∀ unicode uid v, inside unicode uid v → Implements E.V own unicode uid Does rel ∧ rel a v)
    {n : Nat} (ids : ∀ i < n + 3, own (i % 65536)) (enough : E.checked = true → n + 3 ≤ 65535) (p : Prog α) (hw : p.Within n) :
    ∃ s x a' s', openCifs E dial port auth = { outcome := .ok (), state := some s, ports := ports } ∧ p.Runs Does s.cli.useUnicode a x a' ∧
      p.run E s = (x, s') ∧ rel a' s'.w.srv := by
  obtain ⟨o, s, v, sent, last, k1, -, -, k2, -, ⟨rfl, k3, -⟩ | ⟨_, -, -, -, k3⟩⟩ := C69_open hD ha hr fit h0 h1 ids enough
  · obtain ⟨h5, h6⟩ := hi _ _ _ k3
    obtain ⟨x, a', s', h7, h8, h9⟩ := C66_program p h5 n a k2 hw h6
    exact ⟨s, x, a', s', k1, h7, h8, h9⟩
  · exact absurd hp k3

/-- **C69** Without an account, opening fails with the status of the refusal, and the server has let nobody in. -/
theorem C69_open_refused (hD : Doorkeeper E.V own E.C.hashes E.C.des password room fresh asked challenged legacy inside outside)
    {auth : Option Auth} {user pw domain workstation : Str} (ha : Presents auth user pw domain workstation)
    {dial : Dial σ} {port : Option UInt16} {ports : List UInt16}
    (hr : Reached E.V dial (netbiosName workstation) (fun v b => fresh v ∧ Foreign own b) port ports)
    (fit : NamesFit user workstation domain room) (h0 : 0 ≤ E.now) (h1 : 10 * (E.now / 1000) < 2 ^ 64) (hp : password user domain = none)
    (ids : ∀ i < 3, own i) :
    ∃ status s, status ≠ 0 ∧ outside s.w.srv ∧
      openCifs E dial port auth = { outcome := .err (.ServerError (Status.ofU32 status)), state := some s, ports := ports } := by
  obtain ⟨o, s, v, sent, last, k1, -, -, -, -, ⟨-, -, w, k3, -⟩ | ⟨status, rfl, k2, k3, -⟩⟩ := C69_open hD ha hr fit h0 h1 (n := 0)
    (fun i hi => by have e : i % 65536 = i := by omega
                    rw [e]; exact ids i hi) (fun _ => by decide)
  · rw [hp] at k3; cases k3
  · exact ⟨status, s, k2, k3, k1⟩

/-- **C69** With a wrong password, or without an account, opening fails with the status of the refusal, and the server has let nobody in; unless
the response in the last request, which is the last that the client has written, is right for the password of the account as well. -/
theorem C69_open_wrong (hD : Doorkeeper E.V own E.C.hashes E.C.des password room fresh asked challenged legacy inside outside)
    {auth : Option Auth} {user pw domain workstation : Str} (ha : Presents auth user pw domain workstation)
    {dial : Dial σ} {port : Option UInt16} {ports : List UInt16}
    (hr : Reached E.V dial (netbiosName workstation) (fun v b => fresh v ∧ Foreign own b) port ports)
    (fit : NamesFit user workstation domain room) (h0 : 0 ≤ E.now) (h1 : 10 * (E.now / 1000) < 2 ^ 64) (hp : password user domain ≠ some pw)
    (ids : ∀ i < 3, own i) :
    ∃ s v before sent last, (openCifs E dial port auth).state = some s ∧ fresh v ∧ s.w.out = before ++ (sent ++ [last]).flatten ∧
      ((∃ status, status ≠ 0 ∧ outside s.w.srv ∧
          openCifs E dial port auth = { outcome := .err (.ServerError (Status.ofU32 status)), state := some s, ports := ports }) ∨
        ∃ pw', pw' ≠ pw ∧ password user domain = some pw' ∧
          BothRight E.C.hashes E.C.des challenged legacy user domain pw' pw (afterAll E.V v sent) last) := by
  obtain ⟨w, g1, g2, g3, g4⟩ := reached_dialled (a := { user, password := pw, domain, workstation }) hr
  have hready : Ready E own (0 + 3) { cli := .init { user, password := pw, domain, workstation }, w } :=
    ⟨g2, g4, fun i hi => by
      have : i % 65536 = i := by omega
      simpa [Cli.init, this] using ids i hi, fun _ => by simp [Cli.init]⟩
  obtain ⟨o, s, sent, last, k1, -, -, -, k2, -, k3⟩ := C69_login hD hready g3 fit h0 h1
  have e : openCifs E dial port auth = { outcome := o, state := some s, ports := ports } := by
    rw [openCifs_eq, presents_getD ha, g1]
    simp only [finishOpen, k1]
  refine ⟨s, w.srv, w.out, sent, last, by rw [e], g3, k2, ?_⟩
  obtain ⟨-, -, pw', j1, j2⟩ | ⟨status, rfl, j1, j2, -⟩ := k3
  · exact .inr ⟨pw', fun h => hp (j1.trans (by rw [h])), j1, j2⟩
  · exact .inl ⟨status, j1, j2, e⟩

/-- **C99** (partial, for the same URIs as `C99_fetch_partial`.) With a wrong password in the URI, fetching the file reports the refusal; with the
same exception. -/
theorem C99_wrong_partial {K : CharClass} {c : CifsConfig} (hc : c.parts.Valid K) (hu : ¬ LooksLikeUser K c) {auth : Auth}
    (hauth : auth = (account c).getD defaultAuth)
    (hD : Doorkeeper E.V own E.C.hashes E.C.des password room fresh asked challenged legacy inside outside) {net : Net σ} {ports : List UInt16}
    (hr : Reached E.V (net c.hostname) (netbiosName auth.workstation) (fun v b => fresh v ∧ Foreign own b) c.port ports)
    (fit : NamesFit auth.user auth.workstation auth.domain room) (h0 : 0 ≤ E.now) (h1 : 10 * (E.now / 1000) < 2 ^ 64)
    (hp : password auth.user auth.domain ≠ some auth.password) (ids : ∀ i < 3, own i) (k : Nat) :
    ∃ s v before sent last, (openCifs E (net c.hostname) c.port (account c)).state = some s ∧ fresh v ∧
      s.w.out = before ++ (sent ++ [last]).flatten ∧
      ((∃ status, status ≠ 0 ∧ outside s.w.srv ∧ fetch K E net k c.parts.text =
          some { host := c.hostname, ports := ports, account := account c, outcome := .err (.ServerError (Status.ofU32 status)) }) ∨
        ∃ pw, pw ≠ auth.password ∧ password auth.user auth.domain = some pw ∧
          BothRight E.C.hashes E.C.des challenged legacy auth.user auth.domain pw auth.password (afterAll E.V v sent) last) := by
  obtain ⟨w, g1, g2, g3, g4⟩ := reached_dialled hr
  have hready : Ready E own (0 + 3) { cli := .init auth, w } :=
    ⟨g2, g4, fun i hi => by
      have : i % 65536 = i := by omega
      simpa [Cli.init, this] using ids i hi, fun _ => by simp [Cli.init]⟩
  obtain ⟨o, s, sent, last, k1, -, -, -, k2, -, k3⟩ := C69_login hD hready g3 fit h0 h1
  have e : openCifs E (net c.hostname) c.port (account c) = { outcome := o, state := some s, ports := ports } := by
    rw [openCifs_eq, ← hauth, g1]
    simp only [finishOpen, k1]
  refine ⟨s, w.srv, w.out, sent, last, by rw [e], g3, k2, ?_⟩
  obtain ⟨-, -, pw, j1, j2⟩ | ⟨status, rfl, j1, j2, -⟩ := k3
  · exact .inr ⟨pw, fun h => hp (j1.trans (by rw [h])), j1, j2⟩
  · refine .inl ⟨status, j1, j2, ?_⟩
    rw [fetch, (C56_partial K c hc).mpr hu, Option.map_some]
    simp only [e]

end

namespace Demo

/-- non-vacuity of `C69_open_right` and `C69_open`: on port 445, with and without extended security. -/
example (extended : Bool) (share : Share) : ∃ s x s',
    openCifs (doorEnv extended) (fun _ => .ok (atDoor (person "me".toList "secret".toList)).w) none (some (person "me".toList "secret".toList)) =
      { outcome := .ok (), state := some s, ports := [445] } ∧
    (visit share).run (doorEnv extended) s = (x, s') := by
  obtain ⟨hD, hi⟩ := (C69_possible (fun _ => True) Crypto.real.hashes Crypto.real.des accounts extended [1, 2, 3, 4, 5, 6, 7, 8] 100 shop rfl
    shop_speakable).choose_spec
  obtain ⟨o, s, v, sent, last, h1, -, -, -, -, ⟨rfl, -⟩ | ⟨_, -, -, -, h2⟩⟩ := C69_open (E := doorEnv extended) (n := 21) (hD (some [1, 2, 3]))
    (.inl (show some (person "me".toList "secret".toList) = _ from rfl))
    (dial := fun _ => .ok (atDoor (person "me".toList "secret".toList)).w) (port := none) (ports := [445])
    (.direct rfl (by intro ev he; simp [atDoor] at he; subst he; exact ⟨_, rfl⟩) ⟨rfl, .nil⟩)
    (person_fits (by decide) (by decide +kernel) (by decide +kernel)) (show (0 : Int) ≤ 13370000000000000000 by decide)
    (show (10 : Int) * (13370000000000000000 / 1000) < 2 ^ 64 by decide) (fun _ _ => trivial) (fun _ => by decide)
  · exact ⟨s, _, _, h1, rfl⟩
  · exact absurd rfl h2

/-- non-vacuity of `C69_open_refused`: an account that does not exist, on a port of the user's choice. -/
example (extended : Bool) : ∃ status s, status ≠ 0 ∧
    openCifs (doorEnv extended) (fun _ => .ok (atDoor (person "me".toList "secret".toList)).w) (some 4450) (some (person "you".toList "secret".toList)) =
      { outcome := .err (.ServerError (Status.ofU32 status)), state := some s, ports := [4450] } := by
  obtain ⟨hD, hi⟩ := (C69_possible (fun _ => True) Crypto.real.hashes Crypto.real.des accounts extended [1, 2, 3, 4, 5, 6, 7, 8] 100 shop rfl
    shop_speakable).choose_spec
  obtain ⟨status, s, h1, -, h2⟩ := C69_open_refused (E := doorEnv extended) (hD (some [1, 2, 3]))
    (.inl (show some (person "you".toList "secret".toList) = _ from rfl))
    (dial := fun _ => .ok (atDoor (person "me".toList "secret".toList)).w) (port := some 4450) (ports := [4450])
    (.raw rfl (by intro ev he; simp [atDoor] at he; subst he; exact ⟨_, rfl⟩) ⟨rfl, .nil⟩)
    (person_fits (by decide) (by decide +kernel) (by decide +kernel)) (show (0 : Int) ≤ 13370000000000000000 by decide)
    (show (10 : Int) * (13370000000000000000 / 1000) < 2 ^ 64 by decide) (by decide) (fun _ _ => trivial)
  exact ⟨status, s, h1, h2⟩

/-- non-vacuity of `C69_open_wrong`: the wrong password, with the real hash function and the real cipher. -/
example : ∃ status s, status ≠ 0 ∧
    openCifs (doorEnv false) (fun _ => .ok (atDoor (person "me".toList "secret".toList)).w) none (some (person "me".toList "guess".toList)) =
      { outcome := .err (.ServerError (Status.ofU32 status)), state := some s, ports := [445] } := by
  obtain ⟨hD, hi⟩ := (C69_possible (fun _ => True) Crypto.real.hashes Crypto.real.des accounts false [1, 2, 3, 4, 5, 6, 7, 8] 100 shop rfl
    shop_speakable).choose_spec
  obtain ⟨s, v, before, sent, last, -, -, -, ⟨status, h1, -, h2⟩ | ⟨pw', -, h, hb⟩⟩ := C69_open_wrong (E := doorEnv false) (hD (some [1, 2, 3]))
    (.inl (show some (person "me".toList "guess".toList) = _ from rfl))
    (dial := fun _ => .ok (atDoor (person "me".toList "secret".toList)).w) (port := none) (ports := [445])
    (.direct rfl (by intro ev he; simp [atDoor] at he; subst he; exact ⟨_, rfl⟩) ⟨rfl, .nil⟩)
    (person_fits (by decide) (by decide +kernel) (by decide +kernel)) (show (0 : Int) ≤ 13370000000000000000 by decide)
    (show (10 : Int) * (13370000000000000000 / 1000) < 2 ^ 64 by decide) (by decide) (fun _ _ => trivial)
  · exact ⟨status, s, h1, h2⟩
  · refine False.elim ?_
    rw [show accounts "me".toList "home".toList = some "secret".toList by decide] at h
    cases h
    cases hb with
    | extended hc => cases hc.2.2.2.2.2
    | classic hc hq hp hp' =>
      obtain ⟨_, rfl, _⟩ := hc
      have e := (classic_response (C := Crypto.real) (a := person "me".toList "secret".toList) rfl hp).trans
        (classic_response (C := Crypto.real) (a := person "me".toList "guess".toList) rfl hp').symm
      revert e
      decide +kernel

/-- non-vacuity of `C99_wrong_partial`: a host on which the account has another password. -/
example (K : CharClass) : ∃ (V : Server (Site Store)) (net : Net (Site Store)) (status : UInt32), status ≠ 0 ∧
    fetch K { env true with V := V, C := Crypto.real } net 10 (pointer ['a']).parts.text =
      some { host := "host".toList, ports := [445], account := account (pointer ['a']), outcome := .err (.ServerError (Status.ofU32 status)) } := by
  obtain ⟨step, h1, h2⟩ := serve_files someLook_fits
  obtain ⟨V, hD, hi⟩ := C69_possible (fun _ => True) Crypto.real.hashes Crypto.real.des (fun _ _ => some "guess".toList) false
    [1, 2, 3, 4, 5, 6, 7, 8] 100 step rfl h1
  obtain ⟨s, v, before, sent, last, -, -, -, ⟨status, h3, -, h4⟩ | ⟨pw', -, h, hb⟩⟩ := C99_wrong_partial (K := K)
    (E := { env true with V := V, C := Crypto.real }) (c := pointer ['a']) (pointer_valid K)
    (fun h => by cases h.1) (auth := { user := "me".toList, password := "secret".toList, domain := "home".toList, workstation := "ANONYMOUS".toList }) rfl
    (hD hostStore) (net := fun _ _ => .ok { inbox := [], wsched := [.accept 9], out := [], srv := .fresh hostStore })
    (.direct rfl (by intro ev he; simp at he; subst he; exact ⟨_, rfl⟩) ⟨rfl, .nil⟩) pointer_names
    (show (0 : Int) ≤ 13370000000000000000 by decide) (show (10 : Int) * (13370000000000000000 / 1000) < 2 ^ 64 by decide) (by decide)
    (fun _ _ => trivial) 10
  · exact ⟨V, _, status, h3, h4⟩
  · refine False.elim ?_
    cases h
    cases hb with
    | extended hc => cases hc.2.2.2.2.2
    | classic hc hq hp hp' =>
      obtain ⟨_, rfl, _⟩ := hc
      have e := (classic_response (C := Crypto.real) (a := person "me".toList "guess".toList) rfl hp).trans
        (classic_response (C := Crypto.real) (a := person "me".toList "secret".toList) rfl hp').symm
      revert e
      decide +kernel

end Demo

end Cifs
