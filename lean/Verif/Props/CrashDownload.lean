import Verif.Lemmas.Crash
import Verif.Lemmas.DemoFiles
import Verif.Props.Crash
import Verif.Props.Download
/-!
# Properties about hostile servers during a download (C38)
-/

namespace Cifs
open Spec

variable {σ : Type}

theorem M.bind_assoc' {ε S α β γ : Type} (m : M ε S α) (f : α → M ε S β) (g : β → M ε S γ) :
    (m >>= f) >>= g = m >>= fun a => f a >>= g := by
  funext s
  simp only [M.bind_apply, M.bind]
  rcases m s with ⟨o, s1⟩
  cases o <;> rfl

/-- When a command and what follows it panic: the reply to the command is bad, or it is good and what follows panics. -/
theorem crash_step {α β : Type} {E : Env σ} {log : σ → List Bytes} (hlog : Logs E.V log) {m : Msg} (hk : KeepsMid m) (R : Reply α) {s : St σ}
    (hb : requestFrame s.cli m ≠ .panic) (hm : ¬ (E.checked = true ∧ s.cli.mid.toNat = 65535)) {bad : Bytes → Prop} {good : Bytes → α → Prop}
    (hbad : ∀ f i, Info.parse f = .ok (i, f.drop 32) → (accept R i (f.drop 32) = .panic ↔ bad f))
    (hgood : ∀ f i a, Info.parse f = .ok (i, f.drop 32) → (accept R i (f.drop 32) = .ok a ↔ good f a))
    (k : α → CM σ β) (C : α → σ → Bytes → List Bytes → Prop)
    (hk' : ∀ a s1, command E m R s = (.ok a, s1) → (∃ l, log (k a s1).2.w.srv = log s1.w.srv ++ l) ∧
      ((k a s1).1 = .panic ↔ ∃ l, log (k a s1).2.w.srv = log s1.w.srv ++ l ∧ C a s1.w.srv s1.w.inbox.flatten l)) :
    ((command E m R >>= k) s).1 = .panic ↔ ∃ l, log ((command E m R >>= k) s).2.w.srv = log s.w.srv ++ l ∧
      ((∃ p f v' b', l = [p] ∧ Round E.V s.w.srv s.w.inbox.flatten p f v' b' ∧ bad f) ∨
        ∃ p f v' b' a l', l = p :: l' ∧ Round E.V s.w.srv s.w.inbox.flatten p f v' b' ∧ good f a ∧ C a v' b' l') := by
  have hfull := command_full hlog hk R hb hm
  have hcr := command_crash hlog hk R hb hm hbad
  rcases hx : command E m R s with ⟨o, s1⟩
  rw [hx] at hfull hcr
  by_cases ho : ∃ a, o = .ok a
  · obtain ⟨a, rfl⟩ := ho
    rw [M.bind_ok hx]
    obtain ⟨⟨l0, hl0⟩, hc⟩ := hk' a s1 hx
    rcases hfull with ⟨_, _, h⟩ | ⟨fr, h1, h2, ⟨f, i, h3, h4, h5⟩ | ⟨_, _, h⟩⟩
    · exact absurd rfl (h a)
    · simp only at h2 h3 h5
      have hacc : accept R i (f.drop 32) = .ok a := by
        cases e : accept R i (f.drop 32) with
        | ok x => rw [e] at h5; simpa [Res.out] using h5.symm
        | err x => rw [e] at h5; cases h5
        | panic => rw [e] at h5; cases h5
      rw [hc]
      constructor
      · rintro ⟨l, k1, k2⟩
        exact ⟨message fr :: l, by rw [k1, h2]; simp, .inr ⟨_, f, _, _, a, l, rfl, h3, (hgood f i a h4).mp hacc, k2⟩⟩
      · have first : ∀ p l, log (k a s1).2.w.srv = log s.w.srv ++ p :: l → p = message fr ∧ log (k a s1).2.w.srv = log s1.w.srv ++ l := by
          intro p l hl
          have : p :: l = message fr :: l0 := sent_append hl (by rw [hl0, h2]; simp)
          injection this with e1 e2
          exact ⟨e1, by rw [hl0, e2]⟩
        rintro ⟨l, k1, ⟨p, f', v', b', rfl, k2, k3⟩ | ⟨p, f', v', b', a', l', rfl, k2, k3, k4⟩⟩
        · obtain ⟨rfl, _⟩ := first _ _ k1
          obtain ⟨rfl, _, _⟩ := round_det h3 k2
          rw [(hbad f i h4).mpr k3] at hacc; cases hacc
        · obtain ⟨rfl, k1'⟩ := first _ _ k1
          obtain ⟨rfl, rfl, rfl⟩ := round_det h3 k2
          rw [(hgood f i a' h4).mpr k3] at hacc; cases hacc
          exact ⟨l', k1', k4⟩
    · exact absurd rfl (h a)
  · have hno : ∀ a, (command E m R s).1 ≠ .ok a := by rw [hx]; exact fun a h => ho ⟨a, h⟩
    obtain ⟨e1, e2⟩ := M.bind_stuck (f := k) hno
    rw [e1, e2, hx]
    show o = .panic ↔ _
    rw [show (o = .panic ↔ _) from hcr]
    constructor
    · rintro ⟨p, f, v', b', k1, k2, k3⟩
      exact ⟨[p], k1, .inl ⟨p, f, v', b', rfl, k2, k3⟩⟩
    · rintro ⟨l, k1, ⟨p, f', v', b', rfl, k2, k3⟩ | ⟨p, f', v', b', a', l', rfl, k2, k3, k4⟩⟩
      · exact ⟨p, f', v', b', k1, k2, k3⟩
      · exfalso
        simp only at k1
        rcases hfull with ⟨h, _, _⟩ | ⟨fr, h1, h2, ⟨f, i, h3, h4, h5⟩ | ⟨h, _, _⟩⟩
        · simp only at h
          rw [h] at k1
          have := congrArg List.length k1
          simp at this
        · have : p :: l' = [message fr] := sent_append k1 h2
          injection this with e1 e2
          subst e1
          obtain ⟨rfl, _, _⟩ := round_det h3 k2
          rw [(hgood f i a' h4).mpr k3] at h5
          exact ho ⟨a', h5⟩
        · have : p :: l' = [message fr] := sent_append k1 h2
          injection this with e1 e2
          subst e1
          exact h _ _ _ k2

/-- Which replies of the type `c` make a command panic. -/
theorem bad_reply {α : Type} (R : Reply α) (hR : R.cmd ≠ .SessionSetup) {bad : Bytes → Bytes → Prop}
    (hbad : ∀ i ps ds, R.make i ps ds = .panic ↔ bad ps ds) (f : Bytes) (i : Info) (hp : Info.parse f = .ok (i, f.drop 32)) :
    accept R i (f.drop 32) = .panic ↔ BadReply R.cmd.code.toNat (· = 0) bad f := by
  rw [accept_bad R hp]
  unfold BadReply
  simp only [hbad]
  refine and_congr Iff.rfl (and_congr (exists_congr fun st => and_congr Iff.rfl ?_) Iff.rfl)
  exact ⟨fun h => h.elim id (fun h => absurd h.2 hR), .inl⟩

theorem bad_open (f : Bytes) (i : Info) (hp : Info.parse f = .ok (i, f.drop 32)) :
    accept Handle.reply i (f.drop 32) = .panic ↔ BadReply 0xa2 (· = 0) BadOpen f :=
  bad_reply Handle.reply (by decide) (fun i ps ds => by
    rw [andx_panic Handle.reply rfl i]
    exact or_congr Iff.rfl (and_congr Iff.rfl (Handle.create_panic i ps ds (35 + ps.length)))) f i hp

theorem bad_read (f : Bytes) (i : Info) (hp : Info.parse f = .ok (i, f.drop 32)) :
    accept readReply i (f.drop 32) = .panic ↔ BadReply 0x2e (· = 0) BadRead f :=
  bad_reply readReply (by decide) (fun i ps ds => by
    rw [andx_panic readReply rfl i]
    exact or_congr Iff.rfl (and_congr Iff.rfl (readCreate_panic i ps ds (35 + ps.length)))) f i hp

theorem bad_close (f : Bytes) (i : Info) (hp : Info.parse f = .ok (i, f.drop 32)) :
    accept closeReply i (f.drop 32) = .panic ↔ BadReply 0x04 (· = 0) (fun _ _ => False) f :=
  bad_reply closeReply (by decide) (fun i ps ds => by
    rw [make_plain closeReply rfl i]
    simp [closeReply]) f i hp

/-- What follows the opening of a file. -/
def downloadRest (E : Env σ) (file : Handle) (k : Nat) (data : Bytes) : CM σ Bytes :=
  downloadLoop E file k data >>= fun data => close E file >>= fun _ => pure data

theorem rest_more (E : Env σ) (file : Handle) (k : Nat) (data : Bytes) (h : data.length < file.size.toNat) :
    downloadRest E file (k + 1) data = command E (readMsg file.tid file.fid (UInt64.ofNat data.length)) readReply >>= fun chunk =>
      downloadRest E file k (data ++ chunk) := by
  show (downloadLoop E file (k + 1) data >>= _) = _
  rw [downloadLoop, if_pos h]
  exact M.bind_assoc' _ _ _

theorem rest_close (E : Env σ) (file : Handle) (k : Nat) (data : Bytes) (h : ¬ data.length < file.size.toNat) :
    downloadRest E file (k + 1) data = command E (closeMsg file.tid file.fid) closeReply >>= fun _ => pure data := by
  show (downloadLoop E file (k + 1) data >>= _) = _
  rw [downloadLoop, if_neg h]
  rfl

theorem rest_grows {E : Env σ} {log : σ → List Bytes} (hlog : Logs E.V log) (file : Handle) (k : Nat) : ∀ (data : Bytes) (s : St σ),
    ∃ l, log (downloadRest E file k data s).2.w.srv = log s.w.srv ++ l := by
  induction k with
  | zero => intro data s; exact ⟨[], by rw [List.append_nil]; rfl⟩
  | succ k ih =>
    intro data s
    by_cases h : data.length < file.size.toNat
    · rw [rest_more E file k data h]
      refine M.bind_state (fun s' : St σ => ∃ l, log s'.w.srv = log s.w.srv ++ l) (command_grows hlog _ _ _) ?_
      intro a s1 h1
      have := command_grows hlog (readMsg file.tid file.fid (UInt64.ofNat data.length)) readReply s
      rw [h1] at this
      exact grows_trans this (ih _ _)
    · rw [rest_close E file k data h]
      refine M.bind_state (fun s' : St σ => ∃ l, log s'.w.srv = log s.w.srv ++ l) (command_grows hlog _ _ _) ?_
      intro a s1 h1
      have := command_grows hlog (closeMsg file.tid file.fid) closeReply s
      rw [h1] at this
      exact this

theorem first_not_panic {c : Cli} {m : Msg} (h : ∃ fr, requestFrame c m = .ok fr) : requestFrame c m ≠ .panic := by
  obtain ⟨fr, h⟩ := h
  rw [h]; simp

/-- When the reading of an open file panics. -/
theorem rest_crash {E : Env σ} {log : σ → List Bytes} (hlog : Logs E.V log) (file : Handle) (k : Nat) : ∀ (data : Bytes) (s : St σ),
    (E.checked = true → s.cli.mid.toNat + k ≤ 65535) → ((downloadRest E file k data s).1 = .panic ↔
      ∃ l, log (downloadRest E file k data s).2.w.srv = log s.w.srv ++ l ∧ ReadingCrash E.V file s.w.srv s.w.inbox.flatten data l) := by
  induction k with
  | zero =>
    intro data s _
    have e : downloadRest E file 0 data s = (.running, s) := rfl
    rw [e]
    refine ⟨fun h => (by cases h), ?_⟩
    rintro ⟨l, h1, h2⟩
    have : l = [] := by simpa using h1
    subst this
    cases h2
  | succ k ih =>
    intro data s hm
    have hm' : ¬ (E.checked = true ∧ s.cli.mid.toNat = 65535) := by
      rintro ⟨h1, h2⟩
      have := hm h1
      omega
    by_cases h : data.length < file.size.toNat
    · rw [rest_more E file k data h]
      have := crash_step hlog (keepsMid_setTid _ _ rfl) readReply (m := readMsg file.tid file.fid (UInt64.ofNat data.length)) (s := s)
        (first_not_panic (first_fits s.cli (.read file _) trivial)) hm' bad_read (fun f i a hp => accept_read hp a)
        (fun chunk => downloadRest E file k (data ++ chunk)) (fun chunk v b l => ReadingCrash E.V file v b (data ++ chunk) l) (by
          intro a s1 h1
          refine ⟨rest_grows hlog _ _ _ _, ih _ _ ?_⟩
          intro hc
          obtain ⟨_, _, _, _, _, _, _, _, h2⟩ := command_ok (keepsMid_setTid _ _ rfl) readReply h1
          rw [h2]
          have := hm hc
          show (s.cli.mid + 1).toNat + k ≤ 65535
          rw [UInt16.toNat_add]
          show (s.cli.mid.toNat + 1) % 65536 + k ≤ 65535
          omega)
      rw [this]
      refine exists_congr fun l => and_congr Iff.rfl ?_
      constructor
      · rintro (⟨p, f, v', b', rfl, k2, k3⟩ | ⟨p, f, v', b', a, l', rfl, k2, k3, k4⟩)
        · exact .read h k2 k3
        · exact .more h k2 k3 k4
      · intro hc
        cases hc with
        | read _ hr hf => exact .inl ⟨_, _, _, _, rfl, hr, hf⟩
        | more _ hr hf hs => exact .inr ⟨_, _, _, _, _, _, rfl, hr, hf, hs⟩
        | close hl => omega
    · rw [rest_close E file k data h]
      have := crash_step hlog (keepsMid_setTid _ _ rfl) closeReply (m := closeMsg file.tid file.fid) (s := s)
        (first_not_panic (first_fits s.cli (.close file) trivial)) hm' bad_close (good := fun f _ => Closes f) (fun f i a hp => accept_close hp)
        (fun _ => pure data) (fun _ _ _ _ => False) (by
          intro a s1 h1
          refine ⟨⟨[], by rw [List.append_nil]; rfl⟩, fun h => (by cases h), ?_⟩
          rintro ⟨_, _, h⟩
          exact h.elim)
      rw [this]
      refine exists_congr fun l => and_congr Iff.rfl ?_
      constructor
      · rintro (⟨p, f, v', b', rfl, k2, k3⟩ | ⟨p, f, v', b', a, l', rfl, k2, k3, k4⟩)
        · exact .close (by omega) k2 k3
        · exact k4.elim
      · intro hc
        cases hc with
        | read hl => exact absurd hl h
        | more hl => exact absurd hl h
        | close _ hr hf => exact .inl ⟨_, _, _, _, rfl, hr, hf⟩

/-- **C38** (partial: the property fails; this is exactly when.) A download of a file with a name that is not too long, on a connection with
enough multiplex ids left, panics if and only if one of the replies is bad. -/
theorem C38_download_partial {E : Env σ} {log : σ → List Bytes} (hlog : Logs E.V log) (k : Nat) (share : Share) (path : Str) (s : St σ)
    (hp : Fits s.cli.useUnicode (.openfile share path)) (hm : E.checked = true → s.cli.mid.toNat + k < 65535) :
    (runOp E (.download k share path) s).1 = .panic ↔ ∃ l, log (runOp E (.download k share path) s).2.w.srv = log s.w.srv ++ l ∧
      DownloadCrash E.V s.w.srv s.w.inbox.flatten l := by
  obtain ⟨e1, _, _, e4⟩ := runOp_download E k share path s
  rw [e4, e1]
  have := crash_step hlog (keepsMid_setTid _ _ rfl) Handle.reply (m := (OpenMsg.fileRo share.tid (sanitizePath path)).msg) (s := s)
    (first_not_panic (first_fits s.cli (.openfile share path) hp)) (by rintro ⟨h1, h2⟩; have := hm h1; omega) bad_open
    (fun f i a hp => accept_open hp a)
    (fun file => downloadRest E file k []) (fun file v b l => ReadingCrash E.V file v b [] l) (by
      intro a s1 h1
      refine ⟨rest_grows hlog _ _ _ _, rest_crash hlog a k [] s1 ?_⟩
      intro hc
      obtain ⟨_, _, _, _, _, _, _, _, h2⟩ := command_ok (keepsMid_setTid _ _ rfl) Handle.reply h1
      rw [h2]
      have := hm hc
      show (s.cli.mid + 1).toNat + k ≤ 65535
      rw [UInt16.toNat_add]
      show (s.cli.mid.toNat + 1) % 65536 + k ≤ 65535
      omega)
  have e : download E k share path = command E (OpenMsg.fileRo share.tid (sanitizePath path)).msg Handle.reply >>= fun file =>
    downloadRest E file k [] := rfl
  rw [e, this]
  refine exists_congr fun l => and_congr Iff.rfl ?_
  constructor
  · rintro (⟨p, f, v', b', rfl, k2, k3⟩ | ⟨p, f, v', b', a, l', rfl, k2, k3, k4⟩)
    · exact .unopened k2 k3
    · exact .opened k2 k3 k4
  · intro hc
    cases hc with
    | unopened hr hf => exact .inl ⟨_, _, _, _, rfl, hr, hf⟩
    | opened hr hf hs => exact .inr ⟨_, _, _, _, _, _, rfl, hr, hf, hs⟩

namespace Demo

/-- Servers that crash a download: with a reply to the request to open the file that is cut short, to the second request to read, and to the
request to close the file. -/
def crashingFiles : List (List Bytes) :=
  [[reply .Create 7 ((sizeParams 9).take 66) []],
   [reply .Create 7 (sizeParams 9) [], reply .Read 8 (readParams 3) [1, 2, 3], reply .Read 9 ((readParams 3).take 10) [4, 5, 6]],
   [reply .Create 7 (sizeParams 0) [], (reply .Close 8 [] []).take 33]]

/-- non-vacuity: each of them crashes the client in the way described. -/
example : ∀ answers ∈ crashingFiles, ∃ l, l.length = answers.length ∧ DownloadCrash (env true).V (st (answers.map fun r => [message r])).w.srv [] l := by
  intro answers h
  have key : ∀ answers ∈ crashingFiles, isPanic (runOp (env true) (.download 5 share ['a']) (st (answers.map fun r => [message r]))).1 = true ∧
      (runOp (env true) (.download 5 share ['a']) (st (answers.map fun r => [message r]))).2.w.srv.2.length = answers.length := by decide +kernel
  obtain ⟨k1, k2⟩ := key answers h
  obtain ⟨l, h1, h2⟩ := (C38_download_partial (E := env true) (log := Prod.snd) (logs_logged _) 5 share ['a'] (st (answers.map fun r => [message r]))
    (by show utf16Len ['a'] ≤ nameLimit; decide) (fun _ => (by show 7 + 5 < 65535; omega))).mp (isPanic_of k1)
  exact ⟨l, by rw [← k2, h1]; rfl, h2⟩

end Demo

end Cifs
