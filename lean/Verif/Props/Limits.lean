import Verif.Props.Store
import Verif.Props.Login
import Verif.Props.Transport
import Verif.Props.Ntlm
/-!
# What the client asks for, it can take (C83)

Requests say how much the reply may bring: a read request the number of bytes ([MS-CIFS] 2.2.4.42.1 MaxCountOfBytesToReturn), a transaction the
sizes of the two blocks (2.2.4.46.1, 2.2.4.62.1 MaxParameterCount and MaxDataCount), a session setup the size of every message (2.2.4.53.1
MaxBufferSize).
-/

namespace Cifs
open Spec

variable {σ : Type}

/-- The value is an answer to the call within the limits that the request states. -/
def C83_Within (req : Bytes) : Call → Val → Prop
  | .read .., .bytes b => ∃ ps n, paramsOf req = some ps ∧ u16At ps 10 = some n ∧ b.length ≤ n
  | .notify .., .changes l => ∃ ps n b, paramsOf req = some ps ∧ u32At ps 11 = some n ∧ Changes b l ∧ b.length ≤ n
  | .findFirst .., .first r => ∃ ps m n P D, paramsOf req = some ps ∧ u16At ps 4 = some m ∧ u16At ps 6 = some n ∧
      FirstPage P D r.sid.toNat r.done r.info ∧ P.length ≤ m ∧ D.length ≤ n
  | .findNext .., .next r => ∃ ps m n P D, paramsOf req = some ps ∧ u16At ps 4 = some m ∧ u16At ps 6 = some n ∧
      NextPage P D r.done r.info ∧ P.length ≤ m ∧ D.length ≤ n
  | _, _ => False

theorem within_speakable {unicode : Bool} {req : Bytes} {c : Call} {x : Val} (hc : IsCall unicode req c) (h : C83_Within req c x) :
    Speakable c (.value x) := by
  cases c <;> cases x <;> first | exact h.elim | skip
  · obtain ⟨ps, n, h1, h2, h3⟩ := h
    exact Nat.lt_of_le_of_lt h3 (u16At_small h2)
  · obtain ⟨ps, n, b, h1, h2, h3, h4⟩ := h
    obtain ⟨_, _, _, ht, _⟩ := hc
    obtain ⟨ps', k1, _, k2, _⟩ := ht.limits
    cases h1.symm.trans k1
    cases h2.symm.trans k2
    exact ⟨b, h3, by omega⟩
  · obtain ⟨ps, m, n, P, D, h1, h2, h3, h4, h5, h6⟩ := h
    obtain ⟨_, _, _, ht, _⟩ := hc
    obtain ⟨ps', k1, k2, k3, _⟩ := ht.limits
    cases h1.symm.trans k1
    cases h2.symm.trans k2
    cases h3.symm.trans k3
    exact ⟨P, D, h4, by omega, by omega⟩
  · obtain ⟨ps, m, n, P, D, h1, h2, h3, h4, h5, h6⟩ := h
    obtain ⟨_, _, _, ht, _⟩ := hc
    obtain ⟨ps', k1, k2, k3, _⟩ := ht.limits
    cases h1.symm.trans k1
    cases h2.symm.trans k2
    cases h3.symm.trans k3
    exact ⟨P, D, h4, by omega, by omega⟩

/-- **C83** A call that reads, searches or waits for changes sends a request, and whatever answer is within the limits that this request states,
there are replies that bring it, and the client, when it gets them, returns exactly this answer. -/
theorem C83_taken (cli : Cli) {op : Op} {c : Call} (hc : callOf op = some c) (hf : Fits cli.useUnicode op) :
    ∃ req, IsCall cli.useUnicode req c ∧ ∀ (own : Nat → Prop) (x : Val), C83_Within req c x → ∃ segs : List Bytes,
      ∀ {σ : Type} (E : Env σ) (log : σ → List Bytes) (s : St σ), Logs E.V log → s.cli = cli → Ready E own 1 s → (E.V.react s.w.srv req).2 = segs →
        (runOp E op s).1 = .ok x ∧ log (runOp E op s).2.w.srv = log s.w.srv ++ [req] := by
  obtain ⟨fr, hr⟩ := first_fits cli op hf
  have hi := isCall_first hc hr
  refine ⟨message fr, hi, fun own x hx => ?_⟩
  obtain ⟨segs, hs⟩ := speakable_tellable own _ (within_speakable hi hx) _ hi
  refine ⟨segs, fun E log s hlog he hd ht => ?_⟩
  subst he
  obtain ⟨s', h1, _, h3, _⟩ := answer_serves hc hd hr (answers_congr (by rw [ht]; rfl) hs)
  rw [h1]
  refine ⟨rfl, ?_⟩
  show log s'.w.srv = _
  rw [h3]; exact hlog _ _

/-- Not vacuous: there is a session in which a read returns the most that its request asks for. -/
example : ∃ (n : Nat) (V : Server Unit) (s : St (Unit × List Bytes)), 0 < n ∧ Ready { Demo.env true with V := logged V } (fun _ => True) 1 s ∧
    (runOp { Demo.env true with V := logged V } (.read Demo.handle 7) s).1 = .ok (.bytes (List.replicate n 1)) := by
  obtain ⟨req, h1, h2⟩ := C83_taken Demo.cli (op := .read Demo.handle 7) rfl trivial
  obtain ⟨ps, k1, _, _, _, ⟨n, k2, k3, _⟩, _⟩ := h1.2.2.fields
  obtain ⟨segs, h3⟩ := h2 (fun _ => True) (.bytes (List.replicate n 1)) ⟨ps, n, k1, k2, by simp⟩
  have hr : Ready { Demo.env true with V := logged (mute segs) } (fun _ => True) 1
      (⟨Demo.cli, ⟨[], [], [], ((), [])⟩⟩ : St (Unit × List Bytes)) := ⟨nofun, .nil, fun _ _ => trivial, fun _ => by decide⟩
  exact ⟨n, mute segs, _, k3, hr, (h3 _ Prod.snd _ (logs_logged _) rfl hr rfl).1⟩

/-- Nor for a search. -/
example : ∃ req, IsCall true req (.findFirst 5 ['*']) ∧ C83_Within req (.findFirst 5 ['*']) (.first ⟨0x1234, true, []⟩) := by
  obtain ⟨req, h1, _⟩ := C83_taken Demo.cli (op := .findFirst { Demo.share with tid := 5 } ['*']) rfl (by show utf16Len ['*'] ≤ 32725; decide +kernel)
  have h1 : IsCall true req (.findFirst 5 ['*']) := h1
  obtain ⟨_, _, _, ht, _⟩ := id h1
  obtain ⟨ps, k1, k2, k3, _⟩ := ht.limits
  exact ⟨req, h1, ps, 10, 65535, [0x34, 0x12, 0, 0, 1, 0, 0, 0, 0, 0], [], k1, k2, k3,
    ⟨⟨by decide, rfl, rfl, 1, rfl, by simp⟩, .none, .inl rfl⟩, by decide, by decide⟩

/-- **C83** A read request never asks for more than fits a reply, be it padded or not: for any content that is not longer, and either padding, there
is a reply of which the client takes the content. -/
theorem C83_padding {req : Bytes} {fid offset n : Nat} {ps : Bytes} (hr : IsRead req fid offset) (hp : paramsOf req = some ps) (hn : u16At ps 10 = some n)
    (content pad : Bytes) (hc : content.length ≤ n) (hl : pad.length ≤ 1) : ∃ f qs, f.length ≤ maxPayload ∧ Genuine f ∧ midOf (message f) = midOf req ∧
      Succeeds f 0x2e qs (pad ++ content) ∧ LastAndX qs ∧ u16At qs 10 = some content.length ∧ Yields f content := by
  obtain ⟨qs, k1, _, _, _, ⟨max, k2, _, k3⟩, _⟩ := hr.fields
  cases hp.symm.trans k1
  cases hn.symm.trans k2
  have hd : (pad ++ content).length < 65536 := by simp only [List.length_append]; omega
  have hs := Demo.reply_succeeds req .Read (Demo.readParams content.length) (pad ++ content) (by show 24 / 2 < 256; decide) (by show 24 % 2 = 0; rfl) hd
  have hu : u16At (Demo.readParams content.length) 10 = some content.length := by
    unfold Demo.readParams; wire
    simp; omega
  have hx : LastAndX (Demo.readParams content.length) := ⟨rfl, by show 4 ≤ 24; decide⟩
  have hg := Demo.reply_genuine req .Read (.Known .SUCCESS) (Demo.readParams content.length) (pad ++ content) (Demo.has_mid hr.words)
  exact ⟨_, _, Demo.frame_short _ _ _ (by show 24 ≤ 100; decide) hd, hg.1, hg.2, hs, hx, hu, _, pad, hs, hx, hl, hu⟩

/-- **C83** It could not ask for more: one byte more, and a padded reply would be too long. -/
theorem C83_most (E : Env σ) (log : σ → List Bytes) (hlog : Logs E.V log) (file : Handle) (offset : UInt64) (s : St σ) (p : Bytes)
    (h : Sent log s.w.srv (runOp E (.read file offset) s).2.w.srv p) :
    ∃ ps n, paramsOf p = some ps ∧ u16At ps 10 = some n ∧
      ¬ ∃ f qs pad content, content.length = n + 1 ∧ pad.length = 1 ∧ ReplyBody (message f) qs (pad ++ content) := by
  obtain ⟨k, b, d, hb, _, rfl⟩ := single_frame hlog rfl h
  cases hb
  rw [show (Op.read file offset).first = readMsg file.tid file.fid offset from rfl, params_read]
  refine ⟨_, SMB_READ_MAX.toNat, frame_params _ _ _ (by show 24 / 2 < 256; decide) (by show 24 % 2 = 0; rfl), ?_, ?_⟩
  · wire
  · rintro ⟨f, qs, pad, content, h1, h2, _, m, h3, h4⟩
    have hm : m < 65536 := by
      unfold byteCountOf at h3
      cases hw : wordCountOf (message f) with
      | none => rw [hw] at h3; cases h3
      | some q => rw [hw] at h3; exact u16At_small h3
    have := (sliceAt_length h4).2
    simp only [List.length_append, h1, h2] at this
    have : SMB_READ_MAX.toNat = 65534 := rfl
    omega

example : ∃ p, Sent Prod.snd (Demo.st []).w.srv (runOp (Demo.env true) (.read Demo.handle 0x123456789) (Demo.st [])).2.w.srv p ∧
    IsRead p 0x4002 0x123456789 := by
  have h : Sent Prod.snd (Demo.st []).w.srv (runOp (Demo.env true) (.read Demo.handle 0x123456789) (Demo.st [])).2.w.srv _ := ⟨_, rfl, .head _⟩
  exact ⟨_, h, (C20_read (logs_logged _) _ _ _ _ h).1⟩

/-- **C83** Every session setup of a login says how long messages to the client may be, and the client receives every message that is not longer, and
nothing of what follows. -/
theorem C83_login {E : Env σ} {log : σ → List Bytes} (hlog : Logs E.V log) (s : St σ) (p : Bytes)
    (h : Sent log s.w.srv (setupConnection E s).2.w.srv p) (hc : cmdOf p = some 0x73) :
    ∃ ps n, paramsOf p = some ps ∧ u16At ps 4 = some n ∧ ∀ {τ : Type} (V : Server τ) (w : World τ) (f rest : Bytes), f.length ≤ n →
      w.inbox.flatten = message f ++ rest → (recvMessage V w).1 = .ok f ∧ (recvMessage V w).2.inbox.flatten = rest := by
  have key : ∀ ps, paramsOf p = some ps → sliceAt ps 0 14 = some setupWords → ∃ ps n, paramsOf p = some ps ∧ u16At ps 4 = some n ∧
      ∀ {τ : Type} (V : Server τ) (w : World τ) (f rest : Bytes), f.length ≤ n →
      w.inbox.flatten = message f ++ rest → (recvMessage V w).1 = .ok f ∧ (recvMessage V w).2.inbox.flatten = rest := by
    intro ps h1 h2
    refine ⟨ps, 65535, h1, ?_, fun V w f rest hf hw => ?_⟩
    · obtain ⟨r, rfl, _⟩ := sliceAt_zero_some h2
      unfold setupWords
      simp only [List.cons_append, List.nil_append]
      rfl
    · rw [C04_delivers_exactly, hw]
      exact .message _ _ (by show f.length ≤ 0x1ffff; omega)
  have classic : ∀ r u d, IsClassicSetup p r u d → ∃ ps, paramsOf p = some ps ∧ sliceAt ps 0 14 = some setupWords :=
    fun _ _ _ ⟨_, ps, _, _, h1, _, h2, _⟩ => ⟨ps, h1, h2⟩
  have extended : ∀ b, IsExtendedSetup p b → ∃ ps, paramsOf p = some ps ∧ sliceAt ps 0 14 = some setupWords :=
    fun _ ⟨_, ps, h1, _, h2, _⟩ => ⟨ps, h1, h2⟩
  have negotiate : ¬ IsNegotiate p := by
    intro h
    have := h.1
    rw [hc] at this
    cases this
  obtain ⟨new, hn, hp⟩ := h
  obtain ⟨ps, hps, hl⟩ := C46_flow hlog s
  cases List.append_cancel_left (hn.symm.trans hps)
  suffices h : ∃ ps, paramsOf p = some ps ∧ sliceAt ps 0 14 = some setupWords from
    let ⟨ps, h1, h2⟩ := h
    key ps h1 h2
  cases hl with
  | nothing => cases hp
  | negotiate h =>
    cases hp with
    | head => exact absurd h negotiate
    | tail _ hp => cases hp
  | classic h hx hl h' =>
    cases hp with
    | head => exact absurd h.1 negotiate
    | tail _ hp => cases hp with
      | head => exact classic _ _ _ h'
      | tail _ hp => cases hp
  | extended h hx h' =>
    cases hp with
    | head => exact absurd h.1 negotiate
    | tail _ hp => cases hp with
      | head => exact extended _ h'
      | tail _ hp => cases hp
  | response h hx h' hr h'' hu =>
    cases hp with
    | head => exact absurd h.1 negotiate
    | tail _ hp => cases hp with
      | head => exact extended _ h'
      | tail _ hp => cases hp with
        | head => exact extended _ h''
        | tail _ hp => cases hp

example : ∃ p, Sent Prod.snd (Demo.loginSt defaultAuth (Demo.modern (.Known .SUCCESS))).w.srv
    (setupConnection (Demo.env true) (Demo.loginSt defaultAuth (Demo.modern (.Known .SUCCESS)))).2.w.srv p ∧ cmdOf p = some 0x73 := by
  have h : (setupConnection (Demo.env true) (Demo.loginSt defaultAuth (Demo.modern (.Known .SUCCESS)))).2.w.srv.2.map cmdOf =
      [some 0x72, some 0x73, some 0x73] := by decide +kernel
  have hm : some 0x73 ∈ (setupConnection (Demo.env true) (Demo.loginSt defaultAuth (Demo.modern (.Known .SUCCESS)))).2.w.srv.2.map cmdOf := by
    rw [h]; exact .tail _ (.head _)
  obtain ⟨p, h1, h2⟩ := List.mem_map.mp hm
  exact ⟨p, ⟨_, (List.nil_append _).symm, h1⟩, h2⟩

end Cifs
