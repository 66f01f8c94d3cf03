import Verif.Spec.Crash
import Verif.Lemmas.Panic
import Verif.Lemmas.Flow
import Verif.Lemmas.Short
import Verif.Lemmas.Determined
import Verif.Props.Codec
/-! # When a single request panics -/

namespace Cifs
open Spec

variable {σ : Type}

/-- Which replies make the code after the receive loop panic. -/
theorem accept_bad {α : Type} (R : Reply α) {f : Bytes} {i : Info} (hp : Info.parse f = .ok (i, f.drop 32)) :
    accept R i (f.drop 32) = .panic ↔
      BadReply R.cmd.code.toNat (fun st => st = 0 ∨ st = moreProcessing ∧ R.cmd = .SessionSetup) (fun ps ds => R.make i ps ds = .panic) f := by
  have hr := C17_read f i _ hp
  have hg := (C13_accepted_iff f).mp ⟨_, _, hp⟩
  unfold BadReply
  rw [hr.2.1, hr.2.2.1]
  unfold accept
  by_cases hc : i.cmd = R.cmd
  · rw [if_neg (by simpa using hc)]
    by_cases hs : i.status = .Known .SUCCESS ∨ i.status = .Known .MORE_PROCESSING ∧ i.cmd = .SessionSetup
    · rw [if_pos hs]
      have hst : ∃ st, some i.status.toU32.toNat = some st ∧ (st = 0 ∨ st = moreProcessing ∧ R.cmd = .SessionSetup) := by
        rcases hs with hs | ⟨hs, h⟩
        · exact ⟨_, rfl, .inl (by rw [hs]; rfl)⟩
        · exact ⟨_, rfl, .inr ⟨by rw [hs]; rfl, hc ▸ h⟩⟩
      by_cases hb : ∃ ps ds, ReplyBody (message f) ps ds
      · obtain ⟨ps, ds, hb⟩ := hb
        rw [parse_body R i hg.1 hb]
        constructor
        · intro h
          refine ⟨by rw [hc], hst, .inr ⟨ps, ds, hb, ?_⟩⟩
          cases hm : R.make i ps ds <;> rw [hm] at h <;> first | exact hm | cases h
        · rintro ⟨_, _, h | ⟨ps', ds', hb', h⟩⟩
          · exact absurd ⟨ps, ds, hb⟩ h
          · rw [← parse_body R i hg.1 hb, parse_body R i hg.1 hb', h]; rfl
      · rw [parse_short R i hg.1 hb]
        exact ⟨fun _ => ⟨by rw [hc], hst, .inl hb⟩, fun _ => rfl⟩
    · rw [if_neg hs]
      constructor
      · intro h; cases h
      · rintro ⟨_, ⟨st, h, h' | ⟨h', hR⟩⟩, _⟩
        · subst h'
          exact absurd (.inl (status_zero (parse_status hp) (Option.some.inj h))) hs
        · subst h'
          exact absurd (.inr ⟨parse_status_more hp (hr.2.2.1.trans h), hc.trans hR⟩) hs
  · rw [if_pos hc]
    constructor
    · intro h; cases h
    · rintro ⟨h, _⟩
      exact absurd (code_inj (Option.some.inj h)) hc

/-- Everything that can happen in a command whose request can be built: the request is not sent; or it is, and there is a reply, which
decides; or there is none. -/
theorem command_full {α : Type} {E : Env σ} {log : σ → List Bytes} (hlog : Logs E.V log) {m : Msg} (hk : KeepsMid m) (R : Reply α) {s : St σ}
    (hb : requestFrame s.cli m ≠ .panic) (hm : ¬ (E.checked = true ∧ s.cli.mid.toNat = 65535)) :
    (log (command E m R s).2.w.srv = log s.w.srv ∧ (command E m R s).1 ≠ .panic ∧ ∀ a, (command E m R s).1 ≠ .ok a) ∨
    ∃ fr, requestFrame s.cli m = .ok fr ∧ log (command E m R s).2.w.srv = log s.w.srv ++ [message fr] ∧
      ((∃ f i, Round E.V s.w.srv s.w.inbox.flatten (message fr) f (command E m R s).2.w.srv (command E m R s).2.w.inbox.flatten ∧
          Info.parse f = .ok (i, f.drop 32) ∧ (command E m R s).1 = (accept R i (f.drop 32)).out) ∨
        ((∀ f v' b', ¬ Round E.V s.w.srv s.w.inbox.flatten (message fr) f v' b') ∧ (command E m R s).1 ≠ .panic ∧
          ∀ a, (command E m R s).1 ≠ .ok a)) := by
  by_cases h : ∀ mid, (send E m s).1 ≠ .ok mid
  · left
    obtain ⟨h1, h2⟩ := command_unsent R h
    refine ⟨by rw [h2, (send_fails h).1], ?_, h1⟩
    have hp : (send E m s).1 ≠ .panic := by
      rcases send_cases E m s with ⟨h1, h2, _⟩ | ⟨_, ⟨e, _, h2⟩ | ⟨h1, _⟩ | ⟨f, _, _, h2⟩ | ⟨f, _, _, ws, p, q, _, ⟨_, _, h2⟩ | ⟨e, h2⟩ | h2⟩⟩
      · exact absurd ⟨h1, h2⟩ hm
      · rw [h2]; simp
      · exact absurd h1 hb
      all_goals rw [h2]; simp
    show (M.bind (send E m) (fun mid => recv E R mid) s).1 ≠ .panic
    rcases hs : send E m s with ⟨o, s1⟩
    rw [hs] at h hp
    simp only [M.bind, hs]
    cases o <;> simp at h hp ⊢
  · right
    have h' : ∃ mid, (send E m s).1 = .ok mid := by
      rcases hs : (send E m s).1 with mid | e | _ | _ | _
      · exact ⟨mid, rfl⟩
      all_goals exact absurd (fun mid => by rw [hs]; simp) h
    obtain ⟨mid, hmid⟩ := h'
    have hs : send E m s = (.ok mid, (send E m s).2) := by rw [← hmid]
    generalize (send E m s).2 = s1 at hs
    obtain ⟨fr, h3, _, h5, _, h6, h7⟩ := send_ok_inv hs
    obtain ⟨ib, e1, e2⟩ := command_eq R hs
    refine ⟨fr, h3, by rw [e2, St.setInbox_srv, h6, hlog], ?_⟩
    have hfm := requestFrame_mid hk h3
    by_cases hr : ∃ f rest, Awaits s.cli.mid.toNat s1.w.flat f rest
    · left
      obtain ⟨f, rest, ha⟩ := hr
      obtain ⟨i, ib', hp, hib, ho⟩ := command_round R hs ha
      refine ⟨f, i, ⟨by rw [ho, St.setInbox_srv, h6], s.cli.mid.toNat, hfm, ?_⟩, hp, by rw [ho]⟩
      rw [← h7]
      have : (command E m R s).2.w.inbox.flatten = rest := by rw [ho]; exact hib
      rw [this]; exact ha
    · right
      refine ⟨?_, ?_⟩
      · rintro f v' b' ⟨_, mid', hm', ha⟩
        rw [hfm] at hm'
        cases hm'
        exact hr ⟨f, b', by rw [h7]; exact ha⟩
      · rw [e2]
        rw [flatReply_eq]
        have hnp := flatNext_no_panic (E.V.tail s1.w.srv) mid s1.w.flat
        rcases hn : flatNext (E.V.tail s1.w.srv) mid s1.w.flat with ⟨o, b1⟩
        rw [hn] at hnp
        cases o with
        | ok p =>
          obtain ⟨f, ha, _⟩ := awaits_of_flatNext _ _ _ _ (Nat.lt_succ_self _) _ _ hn
          exact absurd ⟨f, b1, h5 ▸ ha⟩ hr
        | err e => rw [M.bind_err hn]; simp
        | panic => exact absurd rfl hnp
        | pending => rw [M.bind_pending hn]; simp
        | running => rw [M.bind_running hn]; simp

/-- A command panics exactly if there is a bad reply to its request. -/
theorem command_crash {α : Type} {E : Env σ} {log : σ → List Bytes} (hlog : Logs E.V log) {m : Msg} (hk : KeepsMid m) (R : Reply α) {s : St σ}
    (hb : requestFrame s.cli m ≠ .panic) (hm : ¬ (E.checked = true ∧ s.cli.mid.toNat = 65535)) {bad : Bytes → Prop}
    (hbad : ∀ f i, Info.parse f = .ok (i, f.drop 32) → (accept R i (f.drop 32) = .panic ↔ bad f)) :
    (command E m R s).1 = .panic ↔ ∃ p f v' b', log (command E m R s).2.w.srv = log s.w.srv ++ [p] ∧
      Round E.V s.w.srv s.w.inbox.flatten p f v' b' ∧ bad f := by
  rcases command_full hlog hk R hb hm with ⟨h1, h2, _⟩ | ⟨fr, h1, h2, ⟨f, i, h3, h4, h5⟩ | ⟨h3, h4, _⟩⟩
  · refine ⟨fun h => absurd h h2, ?_⟩
    rintro ⟨p, f, v', b', h3, _⟩
    rw [h1] at h3
    have := congrArg List.length h3
    simp at this
  · rw [h5]
    have e : (accept R i (f.drop 32)).out = .panic ↔ bad f := by
      rw [← hbad f i h4]
      cases accept R i (f.drop 32) <;> simp [Res.out]
    rw [e]
    constructor
    · intro h; exact ⟨_, f, _, _, h2, h3, h⟩
    · rintro ⟨p, f', v', b', h6, h7, h8⟩
      rw [h2] at h6
      have : p = message fr := (List.singleton_inj.mp (List.append_cancel_left h6)).symm
      subst this
      rw [(round_det h3 h7).1]; exact h8
  · refine ⟨fun h => absurd h h4, ?_⟩
    rintro ⟨p, f', v', b', h6, h7, _⟩
    rw [h2] at h6
    have : p = message fr := (List.singleton_inj.mp (List.append_cancel_left h6)).symm
    subst this
    exact absurd h7 (h3 _ _ _)

/-- What a sequence does, if its first part does not succeed. -/
theorem M.bind_stuck {ε S α β : Type} {m : M ε S α} {f : α → M ε S β} {s : S} (h : ∀ a, (m s).1 ≠ .ok a) :
    (((m >>= f) s).1 = .panic ↔ (m s).1 = .panic) ∧ ((m >>= f) s).2 = (m s).2 := by
  rcases hm : m s with ⟨o, s1⟩
  rw [hm] at h
  cases o with
  | ok a => exact absurd rfl (h a)
  | err e => rw [M.bind_err hm]; simp
  | panic => rw [M.bind_panic hm]; simp
  | pending => rw [M.bind_pending hm]; simp
  | running => rw [M.bind_running hm]; simp

/-! ## The requests of a login -/

theorem requestFrame_no_panic {c : Cli} {m : Msg} (h : m.body (requestInfo c m) ≠ .panic) : requestFrame c m ≠ .panic := by
  rw [requestFrame_eq]
  cases hb : m.body (requestInfo c m) with
  | ok pd =>
    rw [Res.bind_ok]
    split
    · split <;> simp
    · simp
  | err e => simp [Res.bind]
  | panic => exact absurd hb h

theorem tryInto_no_panic {ε : Type} (b n : Nat) (e : ε) : tryInto b n e ≠ .panic := by
  unfold tryInto
  split <;> simp

theorem setup_no_panic (c : Cli) (x : SessionSetupMsg) : requestFrame c x.msg ≠ .panic := by
  refine requestFrame_no_panic ?_
  have hl : x.lengths ≠ .panic := by
    unfold SessionSetupMsg.lengths tryInto
    split <;> split <;> simp [Bind.bind, Res.bind]
  simp only [SessionSetupMsg.msg]
  cases h : x.lengths with
  | ok l => simp [Bind.bind, Res.bind]
  | err e => simp [Bind.bind, Res.bind]
  | panic => exact absurd h hl

theorem negotiate_no_panic (c : Cli) : requestFrame c negotiateMsg ≠ .panic :=
  requestFrame_no_panic (by simp [negotiateMsg])

theorem negotiate_bad {f : Bytes} {i : Info} (hp : Info.parse f = .ok (i, f.drop 32)) :
    accept ServerSetup.reply i (f.drop 32) = .panic ↔ BadReply 0x72 (· = 0) BadNegotiate f := by
  rw [accept_bad _ hp]
  have e : ∀ ps ds, ServerSetup.reply.make i ps ds = .panic ↔ BadNegotiate ps ds := by
    intro ps ds
    rw [make_plain ServerSetup.reply rfl i]
    show ServerSetup.create _ = _ ↔ _
    rcases ServerSetup.create_cases i ps ds (35 + ps.length) with ⟨h1, _, v, e, _⟩ | ⟨e', e⟩ | ⟨h1, h2, h3, e⟩
    · rw [e]; simp [BadNegotiate]; omega
    · rw [e]
      refine ⟨fun h => (by cases h), fun ⟨h1, h2, h3⟩ => ?_⟩
      rw [ServerSetup.create_short i ds (35 + ps.length) h1 h2 h3] at e
      cases e
    · rw [e]; simp [BadNegotiate, h1, h2, h3]
  unfold BadReply
  simp only [e]
  refine and_congr Iff.rfl (and_congr (exists_congr fun st => and_congr Iff.rfl ?_) Iff.rfl)
  constructor
  · rintro (h | ⟨_, h⟩)
    · exact h
    · cases h
  · exact .inl

/-- When a negotiation panics. -/
theorem negotiate_crash {E : Env σ} {log : σ → List Bytes} (hlog : Logs E.V log) {s : St σ} (hm : ¬ (E.checked = true ∧ s.cli.mid.toNat = 65535)) :
    (negotiate E s).1 = .panic ↔ ∃ p f v' b', log (negotiate E s).2.w.srv = log s.w.srv ++ [p] ∧
      Round E.V s.w.srv s.w.inbox.flatten p f v' b' ∧ BadReply 0x72 (· = 0) BadNegotiate f :=
  command_crash hlog keeps_negotiate ServerSetup.reply (negotiate_no_panic _) hm fun _ _ hp => negotiate_bad hp

theorem setup_bad {f : Bytes} {i : Info} (hp : Info.parse f = .ok (i, f.drop 32)) :
    accept SessionSetupReply.reply i (f.drop 32) = .panic ↔ BadReply 0x73 SetupAccepted BadSetup f := by
  rw [accept_bad _ hp]
  have e : ∀ ps ds, SessionSetupReply.reply.make i ps ds = .panic ↔ BadSetup ps ds := by
    intro ps ds
    rw [andx_panic SessionSetupReply.reply rfl i]
    refine or_congr Iff.rfl (and_congr Iff.rfl ?_)
    show SessionSetupReply.create _ = _ ↔ _
    rcases SessionSetupReply.create_cases i ps ds (35 + ps.length) with ⟨h1, h2, v, e, _⟩ | ⟨h1, e⟩
    · rw [e]
      refine ⟨fun h => (by cases h), ?_⟩
      rintro (h | ⟨n, h3, h4⟩)
      · omega
      · have := h2 n h3; omega
    · rw [e]; simp [h1]
  unfold BadReply
  simp only [e]
  refine and_congr Iff.rfl (and_congr (exists_congr fun st => and_congr Iff.rfl ?_) Iff.rfl)
  unfold SetupAccepted
  constructor
  · rintro (h | ⟨h, _⟩)
    · exact .inl h
    · exact .inr h
  · rintro (h | h)
    · exact .inl h
    · exact .inr ⟨h, rfl⟩

/-- When a session setup panics. -/
theorem setup_crash {E : Env σ} {log : σ → List Bytes} (hlog : Logs E.V log) {s : St σ} (x : SessionSetupMsg)
    (hm : ¬ (E.checked = true ∧ s.cli.mid.toNat = 65535)) :
    (command E x.msg SessionSetupReply.reply s).1 = .panic ↔ ∃ p, log (command E x.msg SessionSetupReply.reply s).2.w.srv = log s.w.srv ++ [p] ∧
      SetupCrash E.V s.w.srv s.w.inbox.flatten p := by
  rw [command_crash hlog (keeps_setup x) SessionSetupReply.reply (setup_no_panic _ _) hm (bad := BadReply 0x73 SetupAccepted BadSetup)
    fun f i hp => setup_bad hp]
  constructor
  · rintro ⟨p, f, v', b', h1, h2, h3⟩; exact ⟨p, h1, f, v', b', h2, h3⟩
  · rintro ⟨p, h1, f, v', b', h2, h3⟩; exact ⟨p, f, v', b', h1, h2, h3⟩

/-! ## Local steps of a login -/

theorem ntlmv1_panic (C : Crypto) (a : Auth) (ch : Bytes) : (ntlmv1Authenticate C a ch : Res SmbError Bytes) = .panic → ch.length ≠ 8 := by
  intro h h8
  obtain ⟨_, _, _, _, _, _, e, _⟩ := C52_response C a ch h8
  rw [h] at e; cases e

theorem writeEntries_no_panic (o : Nat) (l : List PacketEntry) : writeEntries o l ≠ .panic := by
  induction l with
  | nil => simp [writeEntries]
  | cons e l ih =>
    cases e with
    | Binary d =>
      unfold writeEntries
      cases h : writeEntries o l <;> simp_all [Bind.bind, Res.bind]
    | Buffer b =>
      unfold writeEntries
      have hb : b.write o ≠ .panic := by
        unfold NtlmBuffer.write tryInto
        dsimp only
        split <;> split <;> split <;> simp [Bind.bind, Res.bind]
      cases hw : b.write o with
      | ok w => cases h : writeEntries o l <;> simp_all [Bind.bind, Res.bind]
      | err e => simp [Bind.bind, Res.bind]
      | panic => exact absurd hw hb

theorem packet_no_panic (p : Packet) : p.toBytes ≠ .panic := by
  unfold Packet.toBytes
  have := writeEntries_no_panic p.baseLen p.entries
  cases h : writeEntries p.baseLen p.entries <;> simp_all [Bind.bind, Res.bind]

theorem ntlmInit_no_panic (fl : UInt32) (d w : Str) : ntlmInit fl d w ≠ .panic := packet_no_panic _

theorem response_no_panic (C : Crypto) (m : ChallengeMsg) (a : Auth) (t : UInt64) (r : Bytes) : m.response C a t r ≠ .panic := packet_no_panic _

end Cifs
