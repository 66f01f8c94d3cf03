import Verif.Lemmas.Answer
import Verif.Lemmas.DemoReplies
/-!
# Properties about replies: which reply counts (C12, C13), its type (C14) and status (C15)
-/

namespace Cifs
open Spec

variable {σ σ' : Type}

/-! ## C12 -/

/-- **C12** An operation with a single reply: the result depends only on the first reply that carries the multiplex id of the request. Two
calls of any such operation of the same kind - in whatever environments, states and multiplex ids, and whatever foreign replies come
before - whose own reply has the same bytes have the same result. The bytes after that reply stay unread. -/
theorem C12_own_reply {E : Env σ} {E' : Env σ'} {log : σ → List Bytes} {log' : σ' → List Bytes} (hlog : Logs E.V log) (hlog' : Logs E'.V log')
    {op : Op} (ho : oneReply op = true) {s : St σ} {s' : St σ'} {f rest rest' : Bytes} (h : Exchange E log op s f rest)
    (h' : Exchange E' log' op s' f rest') :
    (runOp E op s).1 = (runOp E' op s').1 ∧ (runOp E op s).2.w.inbox.flatten = rest ∧ (runOp E' op s').2.w.inbox.flatten = rest' := by
  obtain ⟨i, hp, h1, h2, _⟩ := exchange_eq hlog ho h
  obtain ⟨i', hp', h1', h2', _⟩ := exchange_eq hlog' ho h'
  rw [hp] at hp'
  cases hp'
  exact ⟨by rw [h1, h1'], h2, h2'⟩

/-! ## C13 -/

/-- **C13** If the next message that is not a reply to another request is no genuine reply, the call fails with a header error. -/
theorem C13_call {E : Env σ} {log : σ → List Bytes} (hlog : Logs E.V log) {op : Op} (hs : single op = true) {s : St σ} {f rest : Bytes}
    (h : Garbled E log op s f rest) :
    ((runOp E op s).1 = .err (.SMBError .InvalidHeader) ∧ ¬ (32 ≤ f.length ∧ magicOf (message f) = some smbMagic)) ∨
    (∃ c : UInt8, (runOp E op s).1 = .err (.SMBError (.InvalidCommand c)) ∧ cmdOf (message f) = some c.toNat ∧ c.toNat ∉ knownCodes) ∨
    ((runOp E op s).1 = .err (.SMBError .ReplyExpected) ∧ ∃ n, flags1Of (message f) = some n ∧ n / 128 % 2 = 0) := by
  obtain ⟨req, mid, b', h1, h2, h3, h4, h5⟩ := h
  obtain ⟨fr, s1, e1, e2, e3, e4, e5, e6, e7⟩ := single_send E log hlog op hs s req h1
  rw [e3, requestFrame_mid (sends_keepsMid (first_sent op hs)) e1] at h2
  have h2 := Option.some.inj h2
  subst h2
  rw [← e7] at h3
  obtain ⟨e, hp, hn⟩ := flatNext_garbled (E.V.tail s1.w.srv) s.cli.mid h3 h4 h5
  have ho := single_next_err hs e4 hn
  by_cases hm : 32 ≤ f.length ∧ magicOf (message f) = some smbMagic
  · rcases (C13_rejected f).2 h5 hm.1 hm.2 with ⟨c, hc, hk, hp'⟩ | ⟨n, hn', hb, hp'⟩
    · rw [hp] at hp'; cases hp'
      exact .inr (.inl ⟨c, ho, hc, hk⟩)
    · rw [hp] at hp'; cases hp'
      exact .inr (.inr ⟨ho, n, hn', hb⟩)
  · have hp' := (C13_rejected f).1.mpr hm
    rw [hp] at hp'; cases hp'
    exact .inl ⟨ho, hm⟩

/-! ## C14 -/

/-- **C14** A reply with the right multiplex id but another command code is reported as unexpected; nothing else of it counts. -/
theorem C14_unexpected {E : Env σ} {log : σ → List Bytes} (hlog : Logs E.V log) {op : Op} (hs : single op = true) {s : St σ} {f rest : Bytes}
    (h : Exchange E log op s f rest) (c : Nat) (hc : cmdOf (message f) = some c) (hne : c ∉ codes op) :
    ∃ want got : Cmd, (runOp E op s).1 = .err (.UnexpectedReply want got) ∧ codes op = [want.code.toNat] ∧ got.code.toNat = c := by
  obtain ⟨s1, i, _, _, hp, _⟩ := exchange_send hlog hs h
  have hci := (C17_read f i _ hp).2.1
  rw [hc] at hci
  have hci := Option.some.inj hci
  rw [codes_first op hs] at hne
  refine ⟨op.first.cmd, i.cmd, exchange_wrong_cmd hlog hs h i hp ?_, codes_first op hs, hci.symm⟩
  rintro he
  rw [hci, he] at hne
  simp at hne

/-! ## C15 -/

/-- **C15** A reply of the right type with a status other than 0 makes the call fail with a server error carrying exactly that status. -/
theorem C15_status {E : Env σ} {log : σ → List Bytes} (hlog : Logs E.V log) {op : Op} (hs : single op = true) {s : St σ} {f rest : Bytes}
    (h : Exchange E log op s f rest) (c : Nat) (hc : cmdOf (message f) = some c) (hin : c ∈ codes op) (n : Nat)
    (hn : statusOf (message f) = some n) (h0 : n ≠ 0) :
    ∃ st : UInt32, (runOp E op s).1 = .err (.ServerError (Status.ofU32 st)) ∧ st.toNat = n := by
  obtain ⟨s1, i, _, _, hp, _⟩ := exchange_send hlog hs h
  have hr := C17_read f i _ hp
  have hci := hr.2.1
  rw [hc] at hci
  have hci := Option.some.inj hci
  have hst := hr.2.2.1
  rw [hn] at hst
  have hst := Option.some.inj hst
  rw [codes_first op hs, hci] at hin
  obtain ⟨st, hi⟩ := parse_status hp
  rw [hi, C16_roundtrip] at hst
  refine ⟨st, hi ▸ exchange_bad_status hlog hs h i hp (code_inj (by simpa using hin)) ?_, hst.symm⟩
  intro he
  have := C16_roundtrip st
  rw [← hi, he] at this
  rw [← this] at hst
  exact h0 hst

/-- **C15** A call that succeeds received, to its request, a reply of the right type with status 0. -/
theorem C15_success {E : Env σ} {log : σ → List Bytes} (hlog : Logs E.V log) {op : Op} (hs : single op = true) {s : St σ} {v : Val}
    (hv : (runOp E op s).1 = .ok v) :
    ∃ f rest c, Exchange E log op s f rest ∧ cmdOf (message f) = some c ∧ c ∈ codes op ∧ statusOf (message f) = some 0 := by
  obtain ⟨f, rest, i, hx, hp, hc, hst⟩ := exchange_of_ok hlog hs hv
  have hr := C17_read f i _ hp
  refine ⟨f, rest, _, hx, hr.2.1, ?_, ?_⟩
  · rw [codes_first op hs, hc]; simp
  · rw [hr.2.2.1, hst]; rfl

example : (runOp (Demo.env true) (.umount Demo.share) (Demo.st (Demo.answer (Demo.reply .TreeDisconnect 7 [] [])))).1 = .ok .unit := by decide +kernel

namespace Demo

/-- `umount` is answered, after a late reply to a read, by an error status; `delete` by the reply to a `rmdir`. -/
example : (∃ r, Exchange (env true) Prod.snd (.umount share) (st (answer r)) r [] ∧ cmdOf (message r) = some comTreeDisconnect ∧
      statusOf (message r) = some 0xc0000022) ∧
    ∃ r, Exchange (env true) Prod.snd (.delete share ['a']) (st (answer r)) r [] ∧ cmdOf (message r) = some comRmdir := by
  refine ⟨⟨{ Info.default .TreeDisconnect with flags1 := 0x98, mid := 7, status := .Known .ACCESS_DENIED : Info }.write ++ [0, 0, 0], ?_,
    by decide +kernel, by decide +kernel⟩, ⟨reply .Rmdir 7 [] [], ?_, by decide +kernel⟩⟩
  · exact exchange _ rfl (by decide +kernel) _ (by decide +kernel) (by decide +kernel)
  · exact exchange _ rfl (by decide +kernel) _ (by decide +kernel) (by decide +kernel)

/-- A garbled answer. -/
example : Garbled (env true) Prod.snd (.umount share) (st (answer [1, 2, 3])) [1, 2, 3] [] := by
  have h := sent (.umount share) rfl (by decide +kernel) [1, 2, 3]
  obtain ⟨req, h1, h2, h3⟩ := h
  refine ⟨req, 7, _, h1, h2, h3, ?_, fun hg => absurd hg.1 (by decide)⟩
  have := Delivers.message [1, 2, 3] [] (by decide)
  simpa using this

end Demo

end Cifs
