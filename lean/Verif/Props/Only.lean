import Verif.Lemmas.Said
import Verif.Lemmas.Short
/-!
# Values come only from replies that hold them (C30, C31, C32)
-/

namespace Cifs
open Spec

variable {σ : Type}

/-- **C30** A handle is returned only if the reply is that of a file or a directory that was opened, and holds this handle. -/
theorem C30_only {E : Env σ} {log : σ → List Bytes} (hlog : Logs E.V log) {op : Op}
    (hop : (∃ share path, op = .openfile share path) ∨ ∃ share path, op = .opendir share path) {s : St σ} {handle : Handle}
    (hv : (runOp E op s).1 = .ok (.handle handle)) :
    ∃ f ps ds tid, Answered E log op s f ps ds ∧ LastAndX ps ∧ tidOf (message f) = some tid ∧ IsOpenReply ps tid handle := by
  have key : ∃ f ps ds i a, Answered E log op s f ps ds ∧ Info.parse f = .ok (i, f.drop 32) ∧ Handle.reply.make i ps ds = .ok a ∧
      Val.handle handle = Val.handle a := by
    rcases hop with ⟨share, path, rfl⟩ | ⟨share, path, rfl⟩
    · exact answered_of_ok Handle.reply Val.handle hlog rfl (fun _ _ => rfl) rfl hv
    · exact answered_of_ok Handle.reply Val.handle hlog rfl (fun _ _ => rfl) rfl hv
  obtain ⟨f, ps, ds, i, a, h1, hp, hm, e⟩ := key
  cases e
  obtain ⟨h2, h3⟩ := (make_open i ps ds handle).mp hm
  exact ⟨f, ps, ds, _, h1, h2, (C17_read f i _ hp).2.2.2.2.2.2.2.1, h3⟩

/-- **C31** A share is returned only if the reply holds it. -/
theorem C31_only {E : Env σ} {log : σ → List Bytes} (hlog : Logs E.V log) {path password : Str} {s : St σ} {share : Share}
    (hv : (runOp E (.mount path password) s).1 = .ok (.share share)) :
    ∃ f ps ds unicode, Answered E log (.mount path password) s f ps ds ∧ LastAndX ps ∧ 6 ≤ ps.length ∧ unicodeOf (message f) = some unicode ∧
      tidOf (message f) = some share.tid.toNat ∧ IsRights ps 6 share.accessRights ∧ IsRights ps 10 share.guestRights ∧
      IsTreeConnectData unicode ps ds share.service share.filesystem := by
  obtain ⟨f, ps, ds, i, a, h1, hp, hm, e⟩ := answered_of_ok Share.reply Val.share hlog rfl (fun _ _ => rfl) rfl hv
  cases e
  have hb := h1
  obtain ⟨_, _, _, hc, hcs, hst, hb⟩ := hb
  have hc : cmdOf (message f) = some Share.reply.cmd.code.toNat := by rw [hc, List.mem_singleton.mp hcs]; rfl
  obtain ⟨ps', ds', u, k1, k2⟩ := accept_mount_said hp ((accept_iff Share.reply (by decide) hp share).mpr ⟨ps, ds, ⟨hc, hst, hb⟩, hm⟩)
  obtain ⟨rfl, rfl⟩ := replyBody_det hb k1.2.2
  exact ⟨f, ps, ds, u, h1, k2⟩

/-- What a single command returns comes from a reply. -/
theorem replied_of_ok {α : Type} {E : Env σ} {log : σ → List Bytes} (hlog : Logs E.V log) {m : Msg} (hk : KeepsMid m) (R : Reply α) {s : St σ} {a : α}
    (hv : (command E m R s).1 = .ok a) :
    ∃ f ps ds st i, Replied E log (command E m R) s R.cmd.code.toNat st f ps ds ∧ (st = 0 ∨ (st = moreProcessing ∧ R.cmd = .SessionSetup)) ∧
      Info.parse f = .ok (i, f.drop 32) ∧ R.make i ps ds = .ok a := by
  rcases hx : command E m R s with ⟨o, s'⟩
  rw [hx] at hv
  cases hv
  obtain ⟨fr, f, i, h1, h2, h3, hp, ha, _⟩ := command_ok hk R hx
  obtain ⟨g1, g2, g3⟩ := accept_ok ha
  have hr := C17_read f i _ hp
  have hg := (C13_accepted_iff f).mp ⟨_, _, hp⟩
  obtain ⟨st, hst, hs⟩ : ∃ st, (st = 0 ∨ (st = moreProcessing ∧ R.cmd = .SessionSetup)) ∧ statusOf (message f) = some st := by
    rcases g2 with h | ⟨h, h'⟩
    · exact ⟨0, .inl rfl, by rw [hr.2.2.1, h]; rfl⟩
    · exact ⟨_, .inr ⟨rfl, h'⟩, by rw [hr.2.2.1, h]; rfl⟩
  by_cases hb : ∃ ps ds, ReplyBody (message f) ps ds
  · obtain ⟨ps, ds, hb⟩ := hb
    rw [parse_body R i hg.1 hb] at g3
    refine ⟨f, ps, ds, st, i, ⟨message fr, _, _, ?_, h3, by rw [hr.2.1, g1], hs, hb⟩, hst, hp, ?_⟩
    · rw [hx, h3.1, hlog]
    · cases hm : R.make i ps ds <;> rw [hm] at g3 <;> cases g3
      rfl
  · rw [parse_short R i hg.1 hb] at g3; cases g3

/-- **C32** Negotiation returns parameters of the session only if the reply holds them: it has status 0 and chooses the one dialect that was offered. -/
theorem C32_only_negotiate {E : Env σ} {log : σ → List Bytes} (hlog : Logs E.V log) {s : St σ} {v : ServerSetup} (hv : (negotiate E s).1 = .ok v) :
    ∃ f ps ds, Replied E log (negotiate E) s 0x72 0 f ps ds ∧ 34 ≤ ps.length ∧ u16At ps 0 = some 0 ∧ IsNegotiateReply ps ds v := by
  obtain ⟨f, ps, ds, st, i, h1, h2, hp, hm⟩ := replied_of_ok hlog keeps_negotiate ServerSetup.reply hv
  rcases h2 with rfl | ⟨_, h⟩
  · refine ⟨f, ps, ds, h1, ?_⟩
    rw [make_plain ServerSetup.reply rfl i] at hm
    have hm : ServerSetup.create { info := i, parameter := ps, data := ds, dataOffset := 35 + ps.length } = .ok v := hm
    rcases ServerSetup.create_cases i ps ds (35 + ps.length) with ⟨h3, h4, w, h5, h6⟩ | ⟨e, h3⟩ | ⟨_, _, _, h3⟩
    · rw [h5] at hm; cases hm; exact ⟨h3, h4, h6⟩
    · rw [h3] at hm; cases hm
    · rw [h3] at hm; cases hm
  · cases h

/-- **C32** A step of the login goes on only with a reply of status 0 or "more processing required", and with what this reply holds. -/
theorem C32_only_session {E : Env σ} {log : σ → List Bytes} (hlog : Logs E.V log) {s : St σ} {step : CM σ SessionSetupReply}
    (hstep : (∃ blob, step = sessionSetupNtlmv2 E blob) ∨ ∃ user domain secret, step = sessionSetup E user domain secret) {v : SessionSetupReply}
    (hv : (step s).1 = .ok v) :
    ∃ f ps ds st uid, Replied E log step s 0x73 st f ps ds ∧ (st = 0 ∨ st = moreProcessing) ∧ LastAndX ps ∧ uidOf (message f) = some uid ∧
      IsSessionReply ps ds uid v := by
  have key : ∃ f ps ds st i, Replied E log step s 0x73 st f ps ds ∧ (st = 0 ∨ (st = moreProcessing ∧ SessionSetupReply.reply.cmd = .SessionSetup)) ∧
      Info.parse f = .ok (i, f.drop 32) ∧ SessionSetupReply.reply.make i ps ds = .ok v := by
    rcases hstep with ⟨blob, rfl⟩ | ⟨user, domain, secret, rfl⟩
    · exact replied_of_ok hlog (keeps_setup _) SessionSetupReply.reply hv
    · exact replied_of_ok hlog (keeps_setup _) SessionSetupReply.reply hv
  obtain ⟨f, ps, ds, st, i, h1, h2, hp, hm⟩ := key
  have hx := make_andx_ok SessionSetupReply.reply rfl i hm
  rw [make_andx SessionSetupReply.reply rfl i hx.1 hx.2] at hm
  have hm : SessionSetupReply.create { info := i, parameter := ps.drop 4, data := ds, dataOffset := 35 + ps.length } = .ok v := hm
  refine ⟨f, ps, ds, st, i.uid.toNat, h1, h2.imp id And.left, hx, (C17_read f i _ hp).2.2.2.2.2.2.2.2.1, ?_⟩
  rcases SessionSetupReply.create_cases i ps ds (35 + ps.length) with ⟨_, _, w, h5, h6⟩ | ⟨_, h3⟩
  · rw [h5] at hm; cases hm; exact h6
  · rw [h3] at hm; cases hm

namespace Demo

/-- The value of an outcome, if it is one. -/
def valueOf {ε α : Type} : Out ε α → Option α
  | .ok a => some a
  | _ => none

theorem valueOf_some {ε α : Type} {o : Out ε α} (h : (valueOf o).isSome = true) : ∃ a, o = .ok a := by
  cases o <;> first | exact ⟨_, rfl⟩ | cases h

end Demo

/-- Such values are returned: a handle, a share, a dialect, and two steps of a login. -/
example : ∃ h, (openfile (Demo.env true) Demo.share ['a'] (Demo.st (Demo.answer (Demo.reply .Create 7 (Demo.openParams 0) [])))).1 = .ok h :=
  Demo.valueOf_some (by decide +kernel)

example : ∃ s, (mountPassword (Demo.env true) ['a'] [] (Demo.st (Demo.answer Demo.mountReply))).1 = .ok s :=
  Demo.valueOf_some (by decide +kernel)

example : ∃ v, (negotiate (Demo.env true) (Demo.st (Demo.answer (Demo.reply .Negotiate 7 (Demo.negotiateParams 0 0x8000f3fd 0) [1, 2, 3])))).1 = .ok v :=
  Demo.valueOf_some (by decide +kernel)

example : (∃ v, (sessionSetupNtlmv2 (Demo.env true) [1, 2] (Demo.st (Demo.answer Demo.moreReply))).1 = .ok v) ∧
    ∃ v, (sessionSetup (Demo.env true) ['u'] ['d'] [1, 2] (Demo.st (Demo.answer Demo.moreReply))).1 = .ok v :=
  ⟨Demo.valueOf_some (by decide +kernel), Demo.valueOf_some (by decide +kernel)⟩

end Cifs
