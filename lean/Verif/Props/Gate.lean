import Verif.Props.Door
import Verif.Model.Crypto
/-!
# Passwords, and what happens behind the door (C69)

The two corollaries of `C69_login` for the right and for a wrong password; programs that log in first; and a server, for any accounts and
any service, that satisfies the assumptions.
-/

namespace Cifs
open Spec

variable {σ A α : Type}

section
variable {E : Env σ} {own : Nat → Prop} {password : Str → Str → Option Str} {room : Nat} {fresh : σ → Prop} {asked : Bool → σ → Prop}
  {challenged : Bool → Nat → Bytes → Nat → σ → Prop} {legacy : Bool → Bytes → σ → Prop} {inside : Bool → Nat → σ → Prop} {outside : σ → Prop}

/-- **C69** With the password of the account, the login succeeds. -/
theorem C69_right (hD : Doorkeeper E.V own E.C.hashes E.C.des password room fresh asked challenged legacy inside outside) {n : Nat} {s : St σ}
    (hr : Ready E own (n + 3) s) (hs : fresh s.w.srv) (fit : NamesFit s.cli.auth.user s.cli.auth.workstation s.cli.auth.domain room)
    (h0 : 0 ≤ E.now) (h1 : 10 * (E.now / 1000) < 2 ^ 64) (hp : password s.cli.auth.user s.cli.auth.domain = some s.cli.auth.password) :
    ∃ s', setupConnection E s = (.ok (), s') ∧ Ready E own n s' ∧ s'.cli.auth = s.cli.auth ∧ inside s'.cli.useUnicode s'.cli.uid.toNat s'.w.srv := by
  obtain ⟨o, s', sent, last, h2, _, h3, h4, _, _, ⟨rfl, h5, _⟩ | ⟨_, _, _, _, h5⟩⟩ := C69_login hD hr hs fit h0 h1
  · exact ⟨s', h2, h3, h4, h5⟩
  · exact absurd hp h5

/-- **C69** With another one, or for an account that does not exist, it fails, and the client reports the status of the refusal; unless the
response that it sends is right for both passwords. -/
theorem C69_wrong (hD : Doorkeeper E.V own E.C.hashes E.C.des password room fresh asked challenged legacy inside outside) {n : Nat} {s : St σ}
    (hr : Ready E own (n + 3) s) (hs : fresh s.w.srv) (fit : NamesFit s.cli.auth.user s.cli.auth.workstation s.cli.auth.domain room)
    (h0 : 0 ≤ E.now) (h1 : 10 * (E.now / 1000) < 2 ^ 64)
    (hp : ∀ pw sent last, password s.cli.auth.user s.cli.auth.domain = some pw → (setupConnection E s).2.w.out = s.w.out ++ (sent ++ [last]).flatten →
      ¬ BothRight E.C.hashes E.C.des challenged legacy s.cli.auth.user s.cli.auth.domain pw s.cli.auth.password (afterAll E.V s.w.srv sent) last) :
    ∃ status s', setupConnection E s = (.err (.ServerError (Status.ofU32 status)), s') ∧ status ≠ 0 ∧ Ready E own n s' ∧ outside s'.w.srv := by
  obtain ⟨o, s', sent, last, h2, _, h3, _, h4, _, ⟨_, _, pw, h5, h6⟩ | ⟨status, rfl, h5, h6, _⟩⟩ := C69_login hD hr hs fit h0 h1
  · exact absurd h6 (hp pw sent last h5 (by rw [h2]; exact h4))
  · exact ⟨status, s', h2, h5, h3, h6⟩

/-- **C69** A program that logs in first, with the right password, runs as it would with the service behind the door. -/
theorem C69_program (hD : Doorkeeper E.V own E.C.hashes E.C.des password room fresh asked challenged legacy inside outside) {n : Nat} {s : St σ}
    (hr : Ready E own (n + 3) s) (hs : fresh s.w.srv) (fit : NamesFit s.cli.auth.user s.cli.auth.workstation s.cli.auth.domain room)
    (h0 : 0 ≤ E.now) (h1 : 10 * (E.now / 1000) < 2 ^ 64) (hp : password s.cli.auth.user s.cli.auth.domain = some s.cli.auth.password)
    {Does : A → Call → Answer → A → Prop} {rel : A → σ → Prop} {a : A}
    (hi : ∀ unicode uid v, inside unicode uid v → Implements E.V own unicode uid Does rel ∧ rel a v) (p : Prog α) (hw : p.Within n) :
    ∃ x a' s1 s', setupConnection E s = (.ok (), s1) ∧ p.Runs Does s1.cli.useUnicode a x a' ∧ p.run E s1 = (x, s') ∧ rel a' s'.w.srv := by
  obtain ⟨s1, h2, h3, _, h4⟩ := C69_right hD hr hs fit h0 h1 hp
  obtain ⟨h5, h6⟩ := hi _ _ _ h4
  obtain ⟨x, a', s', h7, h8, h9⟩ := C66_program p h5 n a h3 hw h6
  exact ⟨x, a', s1, s', h2, h7, h8, h9⟩

end

/-! ## There are such servers -/

/-- The states of a server with a door, with the state of the service behind it. -/
inductive Site (A : Type) where
  | fresh (a : A)
  | asked (a : A)
  | challenged (a : A)
  | legacy (a : A)
  | inside (a : A)
  | outside (a : A)

namespace Gate

/-- A reply that assigns a user id. -/
def replyAs (req : Bytes) (cmd : Cmd) (status : Status) (uid : UInt16) (ps ds : Bytes) : Bytes :=
  frameOf { Demo.replyInfo req cmd status with uid := uid } ps ds

theorem replyAs_genuine (req : Bytes) (cmd : Cmd) (st : Status) (uid : UInt16) (ps ds : Bytes) (hm : ∃ m, midOf req = some m) :
    Genuine (replyAs req cmd st uid ps ds) ∧ midOf (message (replyAs req cmd st uid ps ds)) = midOf req := by
  refine ⟨⟨by rw [replyAs, Demo.frame_body_length]; omega, frame_magic _ _ _, ⟨cmd.code.toNat, ?_, frame_cmd _ _ _⟩, _, frame_flags1 _ _ _,
    by show (0x98 : UInt8).toNat / 128 % 2 = 1; decide⟩, ?_⟩
  · cases cmd <;> decide
  · obtain ⟨m, hm⟩ := hm
    rw [replyAs, frame_mid, hm]
    have : m < 65536 := u16At_small hm
    simp [Demo.replyInfo, hm]
    omega

theorem replyAs_body (req : Bytes) (cmd : Cmd) (st : Status) (uid : UInt16) (ps ds : Bytes) (h : ps.length / 2 < 256) (he : ps.length % 2 = 0)
    (hd : ds.length < 65536) : ReplyBody (message (replyAs req cmd st uid ps ds)) ps ds := by
  refine ⟨frame_params _ _ _ h he, _, frame_byteCount _ _ _ h he hd, ?_⟩
  obtain ⟨hh, hl, e⟩ := frame_split37 { Demo.replyInfo req cmd st with uid := uid } ps ds
  rw [replyAs, e, ← List.append_assoc, ← List.append_assoc]
  have := sliceAt_mid (hh ++ ps ++ putU16 (UInt16.ofNat ds.length)) ds [] (39 + ps.length) ds.length (by simp [hl]; omega) rfl
  simpa using this

theorem replyAs_serves {V : Server σ} {v : σ} (own : Nat → Prop) {req : Bytes} (hm : ∃ m, midOf req = some m) {cmd : Cmd} {st : Status} {uid : UInt16}
    {ps ds : Bytes} (hv : (V.react v req).2 = [message (replyAs req cmd st uid ps ds)]) (hp : ps.length ≤ 100) (hd : ds.length < 65536) :
    Serves V own v req (replyAs req cmd st uid ps ds) := by
  have hg := replyAs_genuine req cmd st uid ps ds hm
  exact ⟨[], [], by simp [hv], .nil, .nil, Demo.frame_short _ _ _ hp hd, hg.1, hg.2⟩

theorem params_mid {p ps : Bytes} (h : paramsOf p = some ps) : ∃ m, midOf p = some m := by
  unfold paramsOf at h
  cases hw : wordCountOf p with
  | none => rw [hw] at h; cases h
  | some n => exact Demo.has_mid hw

/-- A challenge message with this challenge. -/
def challengeMsg (c : Bytes) : Bytes :=
  NTLMSSP_MAGIC ++ putU32 2 ++ (putU16 2 ++ putU16 2 ++ putU32 48) ++ putU32 1 ++ c ++ zeros 8 ++
    (putU16 4 ++ putU16 4 ++ putU32 50) ++ [65, 0] ++ [0, 0, 0, 0]

theorem challengeMsg_length {c : Bytes} (h : c.length = 8) : (challengeMsg c).length = 54 := by
  simp [challengeMsg, h, NTLMSSP_MAGIC, putU16, putU32, zeros]

theorem is_challengeMsg {c : Bytes} (h : c.length = 8) : IsNtlmChallenge (challengeMsg c) ['A'] 1 c [0, 0, 0, 0] := by
  match c, h with
  | [a, b, c, d, e, f, g, i], _ =>
    exact ⟨⟨rfl, rfl⟩, ⟨48, [65, 0], ⟨rfl, rfl, rfl⟩, by unfold NtlmText; rw [if_pos (by decide)]; exact utf16le_encode ['A']⟩, rfl, rfl, 50, rfl, rfl, rfl⟩

section
variable (own : Nat → Prop) (H : NtlmHashes) (des : Bytes → Bytes → Bytes) (password : Str → Str → Option Str) (extended : Bool) (challenge : Bytes)
  (uid : UInt16) (step : A → Call → Answer × A)

/-- The reply to the negotiation. -/
def greeting (req : Bytes) : Bytes :=
  replyAs req .Negotiate (.Known .SUCCESS) 0 (Demo.negotiateParams 0 (if extended then 0x8000f3fd else 0xf3fd) 8) challenge

open Classical in
/-- A server with accounts, with or without extended security, that offers the service `step` to those who log in. -/
noncomputable def gate : Server (Site A) where
  react := fun v req =>
    match v with
    | .fresh a => (if extended then .asked a else .legacy a, [message (greeting extended challenge req)])
    | .asked a => (.challenged a,
        [message (replyAs req .SessionSetup (.Known .MORE_PROCESSING) uid [0xff, 0, 0, 0, 0, 0, 54, 0] (challengeMsg challenge))])
    | .challenged a =>
      if ∃ blob, IsExtendedSetup req blob ∧ NtlmAccepts H password 1 challenge blob
      then (.inside a, [message (replyAs req .SessionSetup (.Known .SUCCESS) uid [0xff, 0, 0, 0, 0, 0, 0, 0] [])])
      else (.outside a, [message (replyAs req .SessionSetup (.ofU32 0xC000006D) uid [] [])])
    | .legacy a =>
      if ClassicAccepts H.md4 des password challenge req
      then (.inside a, [message (replyAs req .SessionSetup (.Known .SUCCESS) uid [0xff, 0, 0, 0, 0, 0] [])])
      else (.outside a, [message (replyAs req .SessionSetup (.ofU32 0xC000006D) uid [] [])])
    | .inside a => (.inside ((serverOf own true step).react a req).1, ((serverOf own true step).react a req).2)
    | .outside a => (.outside a, [])
  tail := fun _ => .eof

theorem extended_unique {p b b' : Bytes} (h : IsExtendedSetup p b) (h' : IsExtendedSetup p b') : b = b' := by
  obtain ⟨_, ps, h1, _, _, h2, _, _, h3⟩ := h
  obtain ⟨_, ps', h1', _, _, h2', _, _, h3'⟩ := h'
  cases Option.some.inj (h1.symm.trans h1')
  have hl := Option.some.inj (h2.symm.trans h2')
  have he := Option.some.inj (h3.symm.trans h3')
  rw [List.append_assoc, List.append_assoc] at he
  exact (List.append_inj he hl).1

theorem denied_rejects (req : Bytes) : Rejects (replyAs req .SessionSetup (.ofU32 0xC000006D) uid [] []) 0xC000006D :=
  ⟨frame_cmd _ _ _, by rw [replyAs, frame_status]; show some (Status.ofU32 0xC000006D).toU32.toNat = _; rw [C16_roundtrip], by decide, by decide⟩

theorem granted_admits (req ps : Bytes) (hp : ps.length % 2 = 0 ∧ ps.length ≤ 8) (hx : LastAndX ps ∧ 6 ≤ ps.length) (hb : ∀ n, u16At ps 6 = some n → n ≤ 0) :
    Admits (replyAs req .SessionSetup (.Known .SUCCESS) uid ps []) uid.toNat :=
  ⟨ps, [], ⟨frame_cmd _ _ _, by rw [replyAs, frame_status]; rfl, replyAs_body _ _ _ _ _ _ (by omega) hp.1 (by decide)⟩, frame_uid _ _ _, hx.1, hx.2, hb⟩

end

end Gate

open Gate

/-- **C69** There is such a server for any accounts, any 8 byte challenge and any user id, with and without extended security, and with any
service behind the door. -/
theorem C69_possible (own : Nat → Prop) (H : NtlmHashes) (des : Bytes → Bytes → Bytes) (password : Str → Str → Option Str) (extended : Bool)
    (challenge : Bytes) (uid : UInt16) (step : A → Call → Answer × A) (hc : challenge.length = 8) (h : ∀ a c, Speakable c (step a c).1) :
    ∃ V : Server (Site A),
      (∀ a, Doorkeeper V own H des password 4 (· = .fresh a) (fun u v => u = true ∧ v = .asked a ∧ extended = true)
        (fun u flags c id v => u = true ∧ flags = 1 ∧ c = challenge ∧ id = uid.toNat ∧ v = .challenged a ∧ extended = true)
        (fun u c v => u = true ∧ c = challenge ∧ v = .legacy a ∧ extended = false)
        (fun u id v => u = true ∧ id = uid.toNat ∧ v = .inside a) (· = .outside a)) ∧
      Implements V own true uid.toNat (fun a c r a' => step a c = (r, a')) (fun a v => v = .inside a) := by
  refine ⟨gate own H des password extended challenge uid step, fun a => ⟨?_, ?_, ?_, ?_⟩, ?_⟩
  · rintro _ req rfl hq
    refine ⟨greeting extended challenge req, _, challenge, true,
      replyAs_serves own (params_mid hq.2.1) rfl (by cases extended <;> decide) (by rw [hc]; decide),
      ⟨⟨frame_cmd _ _ _, by rw [greeting, replyAs, frame_status]; rfl, replyAs_body _ _ _ _ _ _ (by cases extended <;> decide) (by cases extended <;> decide)
        (by rw [hc]; decide)⟩, by cases extended <;> decide, by cases extended <;> decide, 8, by cases extended <;> decide, by rw [hc]; decide⟩, ?_, ?_⟩
    · simp only [true_iff]
      cases extended
      · exact ⟨0xf3fd, by decide, by decide⟩
      · exact ⟨0x8000f3fd, by decide, by decide⟩
    · cases extended
      · refine .inr ⟨?_, challenge, [], by decide, by simp, hc, rfl, rfl, rfl, rfl⟩
        rintro ⟨n, h1, h2⟩
        have : n = 0xf3fd := Option.some.inj (h1.symm.trans (by decide))
        subst this
        revert h2; decide
      · exact .inl ⟨⟨0x8000f3fd, by decide, by decide⟩, rfl, rfl, rfl⟩
  · rintro _ _ req blob flags domain workstation ⟨rfl, rfl, hx⟩ hq _
    have hl := challengeMsg_length hc
    refine ⟨_, uid.toNat, challengeMsg challenge, ['A'], 1, challenge, [0, 0, 0, 0],
      replyAs_serves own (params_mid hq.2.choose_spec.1) (cmd := .SessionSetup) (st := .Known .MORE_PROCESSING) (uid := uid)
        (ps := [0xff, 0, 0, 0, 0, 0, 54, 0]) (ds := challengeMsg challenge) rfl (by decide) (by omega),
      ⟨frame_cmd _ _ _, by rw [replyAs, frame_status]; rfl, frame_uid _ _ _, [0xff, 0, 0, 0, 0, 0, 54, 0], [], ?_, ⟨rfl, by decide⟩, by rw [hl]; rfl⟩, is_challengeMsg hc, by decide, rfl, rfl, rfl, rfl, rfl, hx⟩
    rw [List.append_nil]
    exact replyAs_body _ _ _ _ _ _ (by decide) rfl (by omega)
  · rintro _ _ challenge _ _ req blob ⟨rfl, rfl, rfl, rfl, rfl, _⟩ hq _
    have hm := params_mid hq.2.choose_spec.1
    refine ⟨fun ha => ?_, fun ha => ?_⟩
    · have hr : (gate own H des password extended challenge uid step).react (.challenged a) req =
          (.inside a, [message (replyAs req .SessionSetup (.Known .SUCCESS) uid [0xff, 0, 0, 0, 0, 0, 0, 0] [])]) := if_pos ⟨blob, hq, ha⟩
      refine ⟨_, uid.toNat, replyAs_serves own hm (congrArg Prod.snd hr) (by decide) (by decide), granted_admits uid req _ ⟨rfl, by decide⟩
        ⟨⟨rfl, by decide⟩, by decide⟩ (fun n hn => ?_), rfl, rfl, congrArg Prod.fst hr⟩
      have hn : some 0 = some n := hn
      cases hn; decide
    · have hr : (gate own H des password extended challenge uid step).react (.challenged a) req =
          (.outside a, [message (replyAs req .SessionSetup (.ofU32 0xC000006D) uid [] [])]) :=
        if_neg (fun ⟨b, hb, hx⟩ => ha (extended_unique hq hb ▸ hx))
      exact ⟨_, _, replyAs_serves own hm (congrArg Prod.snd hr) (by decide) (by decide), denied_rejects uid req, congrArg Prod.fst hr⟩
  · rintro _ challenge _ req response user domain ⟨rfl, rfl, rfl, _⟩ hq
    have hm := params_mid hq.2.choose_spec.choose_spec.choose_spec.1
    refine ⟨fun ha => ?_, fun ha => ?_⟩
    · have hr : (gate own H des password extended challenge uid step).react (.legacy a) req =
          (.inside a, [message (replyAs req .SessionSetup (.Known .SUCCESS) uid [0xff, 0, 0, 0, 0, 0] [])]) := if_pos ha
      refine ⟨_, uid.toNat, replyAs_serves own hm (congrArg Prod.snd hr) (by decide) (by decide), granted_admits uid req _ ⟨rfl, by decide⟩
        ⟨⟨rfl, by decide⟩, by decide⟩ (fun n hn => ?_), rfl, rfl, congrArg Prod.fst hr⟩
      have hn : none = some n := hn
      cases hn
    · have hr : (gate own H des password extended challenge uid step).react (.legacy a) req =
          (.outside a, [message (replyAs req .SessionSetup (.ofU32 0xC000006D) uid [] [])]) := if_neg ha
      exact ⟨_, _, replyAs_serves own hm (congrArg Prod.snd hr) (by decide) (by decide), denied_rejects uid req, congrArg Prod.fst hr⟩
  · rintro a _ req c rfl hq hu
    obtain ⟨r, a', h1, h2, h3⟩ := serverOf_implements own true step (fun a c => speakable_tellable own true (h a c)) uid.toNat a a req c rfl hq hu
    exact ⟨r, a', h1, answers_congr rfl h2, congrArg Site.inside h3.symm⟩

/-! ## An example -/

namespace Demo

/-- One account. -/
def accounts : Str → Str → Option Str := fun user domain => if user = "me".toList ∧ domain = "home".toList then some "secret".toList else none

/-- A user of this name, at home. -/
def person (user password : Str) : Auth := { user, workstation := "box".toList, domain := "home".toList, password }

/-- A server with this account, and the shop behind the door. -/
noncomputable def guarded (extended : Bool) : Server (Site (Option Bytes)) :=
  (C69_possible (fun _ => True) Crypto.real.hashes Crypto.real.des accounts extended [1, 2, 3, 4, 5, 6, 7, 8] 100 shop rfl shop_speakable).choose

/-- The environment of a client of this server. -/
noncomputable def doorEnv (extended : Bool) : Env (Site (Option Bytes)) := { env true with V := guarded extended, C := Crypto.real }

/-- About to log in there. -/
def atDoor (a : Auth) : St (Site (Option Bytes)) := { cli := .init a, w := { inbox := [], wsched := [.accept 9], out := [], srv := .fresh (some [1, 2, 3]) } }

theorem atDoor_ready (extended : Bool) (a : Auth) (n : Nat) (hn : n ≤ 65535) : Ready (doorEnv extended) (fun _ => True) n (atDoor a) :=
  ⟨by intro ev he; simp [atDoor] at he; subst he; exact ⟨_, rfl⟩, .nil, fun _ _ => trivial, fun _ => by simp [atDoor, Cli.init]; omega⟩

theorem text_short {flags : Nat} {s : Str} {b : Bytes} (h : NtlmText flags s b) (h1 : (encodeUtf16le s).length ≤ 8) (h2 : (utf8Bytes s).length ≤ 8) :
    b.length ≤ 8 := by
  unfold NtlmText at h
  split at h
  · rw [utf16le_unique h]; exact h1
  · rw [h]; exact h2

theorem person_fits {user : Str} (h0 : '\x00' ∉ user) (h1 : (encodeUtf16le user).length ≤ 8) (h2 : (utf8Bytes user).length ≤ 8) :
    NamesFit user "box".toList "home".toList 4 := by
  refine ⟨by decide +kernel, fun flags d u w hd hu hw => ?_, fun u d hu hd => ?_, h0, by decide⟩
  · have := text_short hd (by decide +kernel) (by decide +kernel)
    have := text_short hw (by decide +kernel) (by decide +kernel)
    have := text_short hu h1 h2
    omega
  · rw [utf16le_unique hu, utf16le_unique hd]
    have : (encodeUtf16le "home".toList).length ≤ 8 := by decide +kernel
    omega

/-- non-vacuity of `C69_right` and `C69_program`: with the right password, and with the real hash functions, the program sees the file. -/
example (extended : Bool) (share : Share) : ∃ x s1 s', setupConnection (doorEnv extended) (atDoor (person "me".toList "secret".toList)) = (.ok (), s1) ∧
    (visit share).run (doorEnv extended) s1 = (x, s') ∧ x = (.ok (.bytes [1, 2, 3]), .ok .unit, .err (.ServerError (.Known .NAME_NOT_FOUND))) := by
  obtain ⟨hD, hi⟩ := (C69_possible (fun _ => True) Crypto.real.hashes Crypto.real.des accounts extended [1, 2, 3, 4, 5, 6, 7, 8] 100 shop rfl
    shop_speakable).choose_spec
  obtain ⟨s1, h1, h2, _, h3, h4, h5⟩ := C69_right (E := doorEnv extended) (s := atDoor (person "me".toList "secret".toList)) (hD (some [1, 2, 3]))
    (atDoor_ready extended _ (21 + 3) (by decide)) rfl (person_fits (by decide) (by decide +kernel) (by decide +kernel)) (show (0 : Int) ≤ 13370000000000000000 by decide) (show (10 : Int) * (13370000000000000000 / 1000) < 2 ^ 64 by decide) rfl
  exact ⟨_, s1, _, h1, rfl, visit_shop h3 (rel := fun a v => v = .inside a) (by rw [h4]; exact hi) h2 h5 share⟩

/-- non-vacuity of `C69_wrong`: an account that does not exist. -/
example (extended : Bool) : ∃ status s', setupConnection (doorEnv extended) (atDoor (person "you".toList "secret".toList)) =
    (.err (.ServerError (Status.ofU32 status)), s') ∧ status ≠ 0 := by
  obtain ⟨hD, hi⟩ := (C69_possible (fun _ => True) Crypto.real.hashes Crypto.real.des accounts extended [1, 2, 3, 4, 5, 6, 7, 8] 100 shop rfl
    shop_speakable).choose_spec
  obtain ⟨status, s', h1, h2, _⟩ := C69_wrong (E := doorEnv extended) (n := 0) (s := atDoor (person "you".toList "secret".toList)) (hD (some [1, 2, 3]))
    (atDoor_ready extended _ 3 (by decide)) rfl (person_fits (by decide) (by decide +kernel) (by decide +kernel))
    (show (0 : Int) ≤ 13370000000000000000 by decide) (show (10 : Int) * (13370000000000000000 / 1000) < 2 ^ 64 by decide)
    (fun pw _ _ h => by
      have h : accounts "you".toList "home".toList = some pw := h
      rw [show accounts "you".toList "home".toList = none by decide] at h; cases h)
  exact ⟨status, s', h1, h2⟩

theorem classic_response {C : Crypto} {a : Auth} {c r : Bytes} (hc : c.length = 8) (h : ClassicProves C.md4 C.des a.password c r) :
    (ntlmv1Authenticate C a c : Res SmbError Bytes) = .ok r := by
  obtain ⟨k1, k2, k3, q1, q2, q3, h1, _⟩ := C52_response C a c hc
  obtain ⟨p, k1', k2', k3', hp, q1', q2', q3', rfl⟩ := h
  rw [utf16le_unique hp] at q1' q2' q3'
  rw [h1, C52_key_unique _ _ _ q1 q1', C52_key_unique _ _ _ q2 q2', C52_key_unique _ _ _ q3 q3']

/-- non-vacuity of `C69_wrong`: the wrong password, with the real hash function and the real cipher. -/
example : ∃ status s', setupConnection (doorEnv false) (atDoor (person "me".toList "guess".toList)) =
    (.err (.ServerError (Status.ofU32 status)), s') ∧ status ≠ 0 := by
  obtain ⟨hD, hi⟩ := (C69_possible (fun _ => True) Crypto.real.hashes Crypto.real.des accounts false [1, 2, 3, 4, 5, 6, 7, 8] 100 shop rfl
    shop_speakable).choose_spec
  obtain ⟨status, s', h1, h2, _⟩ := C69_wrong (E := doorEnv false) (n := 0) (s := atDoor (person "me".toList "guess".toList)) (hD (some [1, 2, 3]))
    (atDoor_ready false _ 3 (by decide)) rfl (person_fits (by decide) (by decide +kernel) (by decide +kernel))
    (show (0 : Int) ≤ 13370000000000000000 by decide) (show (10 : Int) * (13370000000000000000 / 1000) < 2 ^ 64 by decide)
    (fun pw _ _ h _ hb => by
      have h : accounts "me".toList "home".toList = some pw := h
      rw [show accounts "me".toList "home".toList = some "secret".toList by decide] at h
      cases h
      cases hb with
      | extended hc => cases hc.2.2.2.2.2
      | classic hc hq hp hp' =>
        obtain ⟨_, rfl, _⟩ := hc
        have e := (classic_response (C := Crypto.real) (a := person "me".toList "secret".toList) rfl hp).trans
          (classic_response (C := Crypto.real) (a := person "me".toList "guess".toList) rfl hp').symm
        revert e
        decide +kernel)
  exact ⟨status, s', h1, h2⟩

end Demo

end Cifs
