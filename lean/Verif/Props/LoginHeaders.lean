import Verif.Spec.LoginHeaders
import Verif.Props.Ntlm
import Verif.Props.Requests
import Verif.Props.Streams
/-!
# The packets of a login: their headers (C65), the first NTLM message (C49), the names in the legacy request (C28)
-/

namespace Cifs
open Spec

variable {σ : Type}

theorem login_header {c : Cli} {m : Msg} {fr : Bytes} (hf : m.fixHeader = id) (h : requestFrame c m = .ok fr) :
    IsRequestHeader (message fr) c.uid.toNat 0xffff c.useUnicode ∧ midOf (message fr) = some c.mid.toNat := by
  obtain ⟨p, d, hb, h1, h2, rfl⟩ := requestFrame_ok h
  rw [requestInfo_id c m hf]
  refine ⟨⟨?_, ?_, ?_, ?_, ?_, ?_, ?_, ?_, ?_⟩, ?_⟩
  · rw [frame_magic]; rfl
  · rw [frame_status]; rfl
  · rw [frame_flags1]; rfl
  · rw [frame_flags2]; cases c.useUnicode <;> rfl
  · rw [frame_pidHigh]; exact congrArg some (by decide : (65279 : UInt32).toNat / 65536 = 0)
  · rw [frame_pidLow]; rfl
  · rw [frame_signature]
  · rw [frame_uid]
  · rw [frame_tid]; rfl
  · rw [frame_mid]

/-! ## C65 -/

/-- **C65** Whatever the server does, every packet of a login has a complete header: the protocol's magic, status zero, the client's flags, no
tree, no signature; the multiplex ids are in sequence; the user id is the one the client had until the server assigns one; the Unicode flag
is, after the negotiation, as the server offers it. -/
theorem C65_headers {E : Env σ} {log : σ → List Bytes} (hlog : Logs E.V log) (s : St σ) :
    ∃ ps, log (setupConnection E s).2.w.srv = log s.w.srv ++ ps ∧
      LoginHeaders E.V s.w.srv s.w.inbox.flatten s.cli.uid.toNat s.cli.useUnicode s.cli.mid ps := by
  obtain ⟨ps, hps, hf⟩ := setup_flow hlog s
  refine ⟨ps, hps, ?_⟩
  have second : ∀ {v : ServerSetup} {s1 : St σ} {x : SessionSetupMsg} {fr' : Bytes}, s1.cli = s.bump.cli →
      requestFrame (s1.cli.configured v) x.msg = .ok fr' →
      IsRequestHeader (message fr') s.cli.uid.toNat 0xffff (Capabilities.contains v.capabilities Capabilities.UNICODE) ∧
        midOf (message fr') = some (s.cli.mid + 1).toNat := by
    intro v s1 x fr' e h'
    rw [e] at h'
    exact login_header (m := x.msg) rfl h'
  cases hf with
  | none => exact .nothing
  | one h => exact .one (login_header rfl h).1 (login_header rfl h).2
  | classic h run hx hs h' =>
    obtain ⟨fr, ps, ds, g1, g2, g3, g4⟩ := negotiated run
    rw [h] at g1; cases g1
    exact .two (login_header rfl h).1 (login_header rfl h).2 g2 (offers_unicode g3) (second g4 h').1 (second g4 h').2
  | extended h run hx hb h' =>
    obtain ⟨fr, ps, ds, g1, g2, g3, g4⟩ := negotiated run
    rw [h] at g1; cases g1
    exact .two (login_header rfl h).1 (login_header rfl h).2 g2 (offers_unicode g3) (second g4 h').1 (second g4 h').2
  | @response _ _ _ _ _ v s1 s2 r ch time h run hx hb h' run' hch ht hb' h'' =>
    obtain ⟨fr, ps, ds, g1, g2, g3, g4⟩ := negotiated run
    rw [h] at g1; cases g1
    obtain ⟨fr', st, ps', ds', k1, k2, k3, _, _, k6⟩ := set_up run'
    have k1 : requestFrame _ _ = _ := k1
    have e := h'.symm.trans k1
    cases e
    have e1 : s2.cli.useUnicode = Capabilities.contains v.capabilities Capabilities.UNICODE := by rw [k6]; rfl
    have e2 : s2.cli.mid = s.cli.mid + 2 := by
      rw [k6]; show s1.cli.mid + 1 = _
      rw [g4]; show s.cli.mid + 1 + 1 = _
      rw [UInt16.add_assoc]; rfl
    obtain ⟨l1, l2⟩ := login_header (m := (SessionSetupMsg.withBlob _).msg) rfl h''
    have l1 : IsRequestHeader _ r.uid.toNat 0xffff s2.cli.useUnicode := l1
    have l2 : midOf _ = some s2.cli.mid.toNat := l2
    rw [e1] at l1
    rw [e2] at l2
    exact .three (login_header rfl h).1 (login_header rfl h).2 g2 (offers_unicode g3) (second g4 h').1 (second g4 h').2 k3 l1 l2

/-! ## C49 -/

/-- The flags of the first NTLM message: Unicode (bit 0), OEM (1), request target (2), NTLM (9), domain (12) and workstation (13) supplied. -/
def C49_flags : Nat := 2 ^ 0 + 2 ^ 1 + 2 ^ 2 + 2 ^ 9 + 2 ^ 12 + 2 ^ 13

/-- **C49** On the wire: if a login comes to its second packet, and the server offers extended security, that packet carries the first NTLM
message, with the client's domain and workstation. -/
theorem C49_login {E : Env σ} {log : σ → List Bytes} (hlog : Logs E.V log) (s : St σ) :
    ∃ packets, log (setupConnection E s).2.w.srv = log s.w.srv ++ packets ∧ ∀ p p' more, packets = p :: p' :: more →
      ∃ ps ds v' b', NegotiateRound E.V s.w.srv s.w.inbox.flatten p ps ds v' b' ∧
        (OffersExtended ps → ∃ m, IsExtendedSetup p' m ∧
          IsNtlmNegotiate m C49_flags (utf8Bytes s.cli.auth.domain) (utf8Bytes s.cli.auth.workstation)) := by
  obtain ⟨ps, hps, hf⟩ := setup_flow hlog s
  refine ⟨ps, hps, ?_⟩
  have init : ∀ {blob : Bytes}, ntlmInit ntlmInitFlags s.cli.auth.domain s.cli.auth.workstation = .ok blob →
      IsNtlmNegotiate blob C49_flags (utf8Bytes s.cli.auth.domain) (utf8Bytes s.cli.auth.workstation) := by
    intro blob hb
    by_cases hl : (utf8Bytes s.cli.auth.domain).length < 65536 ∧ (utf8Bytes s.cli.auth.workstation).length < 65536
    · obtain ⟨m, h1, h2⟩ := (C49_negotiate ntlmInitFlags _ _).1 hl
      rw [hb] at h1; cases h1
      exact h2
    · rw [(C49_negotiate ntlmInitFlags _ _).2 hl] at hb; cases hb
  intro p p' more he
  subst he
  generalize hq : p :: p' :: more = q at hf
  cases hf with
  | none => cases hq
  | one h => cases hq
  | classic h run hx hs h' =>
    cases hq
    obtain ⟨fr, ps, ds, g1, g2, g3, g4⟩ := negotiated run
    rw [h] at g1; cases g1
    exact ⟨_, _, _, _, g2, fun hx' => absurd hx' (extended_excl g3 hx)⟩
  | extended h run hx hb h' =>
    cases hq
    obtain ⟨fr, ps, ds, g1, g2, g3, g4⟩ := negotiated run
    rw [h] at g1; cases g1
    exact ⟨_, _, _, _, g2, fun _ => ⟨_, (is_extended h').1, init hb⟩⟩
  | response h run hx hb h' run' hch ht hb' h'' =>
    cases hq
    obtain ⟨fr, ps, ds, g1, g2, g3, g4⟩ := negotiated run
    rw [h] at g1; cases g1
    exact ⟨_, _, _, _, g2, fun _ => ⟨_, (is_extended h').1, init hb⟩⟩

/-! ## C28 -/

/-- **C28 is violated** at login, too: if the server offers neither Unicode nor extended security, the request with the legacy response says
that it is not Unicode and carries the user's name in UTF-16, which for a non-empty ASCII name is not the name in the other encoding. -/
theorem C28_violated_login {E : Env σ} {log : σ → List Bytes} (hlog : Logs E.V log) (s : St σ) (hn : s.cli.auth.user ≠ [])
    (ha : ∀ c ∈ s.cli.auth.user, c.toNat < 128) :
    ∃ packets, log (setupConnection E s).2.w.srv = log s.w.srv ++ packets ∧ ∀ p p', packets = [p, p'] →
      ∃ ps ds v' b', NegotiateRound E.V s.w.srv s.w.inbox.flatten p ps ds v' b' ∧
        (¬ OffersExtended ps → ¬ OffersUnicode ps → unicodeOf p' = some false ∧ ∃ response name more,
          dataOf p' = some (response ++ response ++ [0] ++ name ++ [0, 0] ++ more) ∧ response.length = 24 ∧
          Utf16le s.cli.auth.user name ∧ name ≠ utf8Bytes s.cli.auth.user) := by
  obtain ⟨ps, hps, hf⟩ := C46_flow hlog s
  obtain ⟨ps', hps', hf'⟩ := C65_headers hlog s
  have e : ps' = ps := List.append_cancel_left (hps'.symm.trans hps)
  subst e
  refine ⟨_, hps, ?_⟩
  intro p p' he
  subst he
  cases hf' with
  | two h hm hr hu h' hm' =>
    refine ⟨_, _, _, _, hr, fun hx hU => ⟨?_, ?_⟩⟩
    · have hu' : _ = false := Bool.eq_false_iff.mpr (fun h => hU (hu.mp h))
      rw [unicodeOf, h'.flags2, hu']; rfl
    · cases hf with
      | classic g gx gl g' =>
        obtain ⟨_, _, u, d, _, _, _, _, _, _, _, g1, g2, g3⟩ := g'
        refine ⟨_, u, d ++ [0, 0] ++ emptyNames p', by rw [g3]; simp only [List.append_assoc], gl, g1, ?_⟩
        intro e
        have hl := congrArg List.length e
        obtain ⟨l1, l2⟩ := ascii_lengths _ ha
        rw [utf16le_unique g1, length_utf16le, l1, l2] at hl
        exact hn (List.length_eq_zero_iff.mp (by omega))
      | extended g gx g' => exact absurd ((negotiateRound_det g hr).1 ▸ gx) hx

namespace Demo

/-- A server that offers neither Unicode nor extended security. -/
def plain : List Bytes :=
  [replyWith .Negotiate (.Known .SUCCESS) 0 0 (negotiateParams 0 0xf3f9 8) [1, 2, 3, 4, 5, 6, 7, 8],
   replyWith .SessionSetup (.Known .SUCCESS) 100 1 [0xff, 0, 0, 0, 0, 0] []]

/-- C65, C49: a login of three packets, the last under the user id assigned. -/
example : let packets := (setupConnection (env true) (loginSt defaultAuth (modern (.Known .SUCCESS)))).2.w.srv.2
    packets.map uidOf = [some 0, some 0, some 100] ∧ packets.map midOf = [some 0, some 1, some 2] ∧
      packets.map unicodeOf = [some true, some true, some true] := by decide +kernel

/-- C28: a login of two packets, the second not in Unicode. -/
example : let packets := (setupConnection (env true) (loginSt { defaultAuth with user := "me".toList } plain)).2.w.srv.2
    packets.map unicodeOf = [some true, some false] ∧
      packets.map (fun p => (dataOf p).map (fun d => (d.drop 49).take 6)) = [some [], some [0x6d, 0, 0x65, 0, 0, 0]] := by decide +kernel

end Demo

/-! ## Calls without their optional argument: C24, C22 -/

/-- Every kind of change. -/
def C24_everything : Nat := 2 ^ 12 - 1

/-- **C24** `notify` without a filter: the request asks for every kind of change. -/
theorem C24_notify_all {E : Env σ} {log : σ → List Bytes} (hlog : Logs E.V log) (handle : Handle) (s : St σ) (p : Bytes)
    (h : Sent log s.w.srv (notify E handle s).2.w.srv p) :
    ∃ setup, IsNtTransact p 4 setup [] [] ∧ IsNotify setup C24_everything handle.fid.toNat ∧ tidOf p = some handle.tid.toNat := by
  have e : (runOp E (.notify handle NotifyMode.all) s).2 = (notify E handle s).2 := by
    show (M.bind (notify E handle) _ s).2 = _
    unfold M.bind
    rcases notify E handle s with ⟨o, s1⟩
    cases o <;> rfl
  rw [← e] at h
  exact C24_notify hlog handle NotifyMode.all s p h

example : ∃ p, Sent Prod.snd (Demo.st []).w.srv (notify (Demo.env true) Demo.handle (Demo.st [])).2.w.srv p ∧
    ∃ setup, IsNtTransact p 4 setup [] [] ∧ IsNotify setup C24_everything 0x4002 ∧ tidOf p = some 0x0801 := by
  have h : Sent Prod.snd (Demo.st []).w.srv (notify (Demo.env true) Demo.handle (Demo.st [])).2.w.srv _ := ⟨_, rfl, .head _⟩
  exact ⟨_, h, C24_notify_all (logs_logged _) _ _ _ h⟩

/-- **C22** `mount` without a password: the request carries the empty one, which is a single zero byte. -/
theorem C22_mount_open {E : Env σ} {log : σ → List Bytes} (hlog : Logs E.V log) (path : Str) (s : St σ) (p : Bytes)
    (h : Sent log s.w.srv (mount E path s).2.w.srv p) : IsTreeConnect p s.cli.useUnicode [0] (backslashed path) := by
  have e : (runOp E (.mount path []) s).2 = (mount E path s).2 := by
    show (M.bind (mount E path) _ s).2 = _
    unfold M.bind
    rcases mount E path s with ⟨o, s1⟩
    cases o <;> rfl
  rw [← e] at h
  exact C22_mount hlog path [] s p h

example : ∃ p, Sent Prod.snd (Demo.st []).w.srv (mount (Demo.env true) ['a'] (Demo.st [])).2.w.srv p ∧ IsTreeConnect p true [0] (backslashed ['a']) := by
  have h : Sent Prod.snd (Demo.st []).w.srv (mount (Demo.env true) ['a'] (Demo.st [])).2.w.srv _ := ⟨_, rfl, .head _⟩
  exact ⟨_, h, C22_mount_open (logs_logged _) _ _ _ h⟩

theorem wrapped_call {α : Type} {m : CM σ α} {f : α → Val} (hf : ∀ a b, f a = f b → a = b) (E : Env σ) {op : Op} (h : runOp E op = M.map' f m)
    {s s' : St σ} (hs : (runOps E [op] s).1 = (runOps E [op] s').1 ∧ (runOps E [op] s).2.w.out = (runOps E [op] s').2.w.out ∧
      (runOps E [op] s).2.w.srv = (runOps E [op] s').2.w.srv) :
    (m s).1 = (m s').1 ∧ (m s).2.w.out = (m s').2.w.out ∧ (m s).2.w.srv = (m s').2.w.srv := by
  simp only [runOps, h, M.map', M.bind] at hs
  revert hs
  rcases m s with ⟨o, s1⟩
  rcases m s' with ⟨o', s1'⟩
  cases o <;> cases o' <;> simp
  exact fun h1 h2 h3 => ⟨hf _ _ h1, h2, h3⟩

/-- **C51** The same for the two calls that leave an argument out: what they do does not depend on the credentials; in particular, mounting
without a password does not use the one of the login. -/
theorem C51_without (E : Env σ) (path : Str) (handle : Handle) (s : St σ) (a : Auth) :
    let s' := { s with cli := { s.cli with auth := a } }
    ((mount E path s).1 = (mount E path s').1 ∧ (mount E path s).2.w.out = (mount E path s').2.w.out ∧
      (mount E path s).2.w.srv = (mount E path s').2.w.srv) ∧
    ((notify E handle s).1 = (notify E handle s').1 ∧ (notify E handle s).2.w.out = (notify E handle s').2.w.out ∧
      (notify E handle s).2.w.srv = (notify E handle s').2.w.srv) := by
  intro s'
  exact ⟨wrapped_call (fun a b h => by cases h; rfl) E (op := .mount path []) rfl (C51_afterwards E _ s a),
    wrapped_call (fun a b h => by cases h; rfl) E (op := .notify handle NotifyMode.all) rfl (C51_afterwards E _ s a)⟩

/-- non-vacuity: a mount without password that sends something, with other credentials. -/
example : ∃ s' : St _, s'.cli.auth ≠ (Demo.st []).cli.auth ∧ (mount (Demo.env true) "x".toList (Demo.st [])).2.w.out ≠ [] ∧
    (mount (Demo.env true) "x".toList (Demo.st [])).2.w.out = (mount (Demo.env true) "x".toList s').2.w.out :=
  ⟨{ Demo.st [] with cli := { (Demo.st []).cli with auth := ⟨"a".toList, "b".toList, "c".toList, "d".toList⟩ } }, by decide +kernel, by decide +kernel,
    (C51_without (Demo.env true) _ Demo.handle _ _).1.2.1⟩

end Cifs
