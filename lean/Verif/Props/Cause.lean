import Verif.Lemmas.CauseSearch
import Verif.Props.Said
/-!
# C71: every outcome has its cause
-/

namespace Cifs

open Spec

variable {σ : Type}

/-! ## The request -/

theorem frame_treeConnect_text (c : Cli) (path password : Str) (h : 65536 ≤ mountLength c.useUnicode path password) :
    requestFrame c (treeConnectMsg path password) = .err (.CreatePacket (tooLongText (.mount path password))) := by
  have hd := length_treeConnectData c.useUnicode path password
  simp only [mountLength, utf8Bytes_eq] at h
  rw [requestFrame_eq, body_treeConnect_eq]
  simp only [tooLongText]
  by_cases hp : (passwordField password).length < 65536
  · rw [if_pos hp, requestInfo_unicode _ _ rfl, Res.bind_ok]
    rw [if_pos (by rw [params_treeConnect]; simp), if_neg (by dsimp only; rw [hd]; omega), if_neg (by omega)]
  · rw [if_neg hp, if_pos (by omega)]; rfl

theorem first_text (c : Cli) (op : Op) (h : ¬ Fits c.useUnicode op) (hp : ¬ Panics op) :
    requestFrame c op.first = .err (.CreatePacket (tooLongText op)) := by
  have hs := utf16Len_backslashed
  simp only [backslashed_eq] at hs
  cases op
  case mount a b =>
    refine frame_treeConnect_text c (sanitizePath a) b ?_
    have : mountLength c.useUnicode (sanitizePath a) b = mountLength c.useUnicode a b := by
      simp only [mountLength, hs, utf8Len_sanitize]
    rw [this]; exact Nat.not_lt.mp h
  case openfile => exact frame_open_long c _ (by show _ < utf16Len (sanitizePath _); rw [hs]; exact Nat.not_le.mp h)
  case opendir => exact frame_open_long c _ (by show _ < utf16Len (sanitizePath _); rw [hs]; exact Nat.not_le.mp h)
  case download => exact frame_open_long c _ (by show _ < utf16Len (sanitizePath _); rw [hs]; exact Nat.not_le.mp h)
  case delete => exact frame_delete_long c _ _ (by rw [hs]; exact Nat.not_le.mp h)
  case rmdir => exact frame_rmdir_long c _ _ (by rw [hs]; exact Nat.not_le.mp h)
  case findFirst s n =>
    obtain ⟨sp, h1, h2⟩ := length_findFirst (sanitizePath n) (FileAttr.HIDDEN ||| FileAttr.SYSTEM ||| FileAttr.DIRECTORY)
    simp only [Fits, Panics] at h hp
    exact (frame_transact2 c s.tid _ sp h1 rfl).2.2 (by rw [h2, hs]; omega)
  case list b s n =>
    obtain ⟨sp, h1, h2⟩ := length_findFirst (sanitizePath n) (FileAttr.HIDDEN ||| FileAttr.SYSTEM ||| FileAttr.DIRECTORY)
    simp only [Fits, Panics] at h hp
    exact (frame_transact2 c s.tid _ sp h1 rfl).2.2 (by rw [h2, hs]; omega)
  case findNext s i n =>
    obtain ⟨sp, h1, h2⟩ := length_findNext i n
    simp only [Fits, Panics] at h hp
    exact (frame_transact2 c s.tid _ sp h1 rfl).2.2 (by rw [h2]; omega)
  all_goals exact absurd trivial h

/-- The result of writing, in terms of the first trouble. -/
theorem writeLoop_trouble (ws : List WriteEv) (buf out : Bytes) :
    (writeLoop ws buf out).1 = .done ∨ (∃ e, (writeLoop ws buf out).1 = .failed e ∧ WriteTrouble ws (some e)) ∨
      ((writeLoop ws buf out).1 = .blocked ∧ WriteTrouble ws none) := by
  induction ws generalizing buf out with
  | nil => exact .inl rfl
  | cons ev ws ih =>
    simp only [writeLoop]
    split
    · exact .inl rfl
    · cases ev with
      | fail e => exact .inr (.inl ⟨e, rfl, .fail e ws⟩)
      | block => exact .inr (.inr ⟨rfl, .block ws⟩)
      | accept n =>
        rcases ih (buf.drop n) (out ++ buf.take n) with h | ⟨e, h, ht⟩ | ⟨h, ht⟩
        · exact .inl h
        · exact .inr (.inl ⟨e, h, .accept n ht⟩)
        · exact .inr (.inr ⟨h, .accept n ht⟩)

theorem writeTrouble_det {ws : List WriteEv} {x y : Option IoErr} (h : WriteTrouble ws x) (h' : WriteTrouble ws y) : x = y := by
  induction h with
  | fail e ws => cases h'; rfl
  | block ws => cases h'; rfl
  | accept n _ ih => cases h' with | accept _ h' => exact ih h'

theorem runOp_send_pending (E : Env σ) (op : Op) (s s' : St σ) (h : send E op.first s = (.pending, s')) :
    runOp E op s = (.pending, s') := by
  obtain ⟨k, hk⟩ := runOp_starts E op
  rw [hk]; exact M.bind_pending h

/-- A request that fits is written, or the first trouble stops the operation. -/
theorem fits_sent (E : Env σ) (op : Op) (s : St σ) (hx : ¬ Exhausted E s) (hf : Fits s.cli.useUnicode op) :
    (∃ s1, send E op.first s = (.ok s.cli.mid, s1)) ∨
      ∃ x, WriteTrouble s.w.wsched x ∧ (runOp E op s).1 = stopped (x.map fun e => .NetBios (.IoError e)) ∧ (runOp E op s).2.w.srv = s.w.srv := by
  obtain ⟨f, hf⟩ := first_fits s.cli op hf
  have hl := requestFrame_length hf
  have hs : send E op.first s = M.bind (liftNet (sendMessage E.V f)) (fun _ => pure s.cli.mid) s.bump := by
    simp only [Exhausted] at hx
    unfold send; rw [if_neg hx, hf]; rfl
  simp only [M.bind, liftNet_eq, sendMessage_eq, be24_packet] at hs
  rw [if_neg (by simp only [MAX_FRAME_LENGTH]; omega)] at hs
  simp only [writeExactly] at hs
  have ht := writeLoop_trouble s.w.wsched (packet 0 f) s.w.out
  rcases hw : writeLoop s.w.wsched (packet 0 f) s.w.out with ⟨r, ws, out⟩
  rw [hw] at ht
  have hw' : writeLoop s.bump.w.wsched (packet 0 f) s.bump.w.out = (r, ws, out) := hw
  rw [hw'] at hs
  rcases ht with h | ⟨e, h, ht⟩ | ⟨h, ht⟩ <;> cases h
  · exact .inl ⟨_, hs⟩
  · refine .inr ⟨some e, ht, ?_⟩
    rw [runOp_send_err E op s _ _ hs]
    exact ⟨rfl, rfl⟩
  · refine .inr ⟨none, ht, ?_⟩
    rw [runOp_send_pending E op s _ hs]
    exact ⟨rfl, rfl⟩

/-! ## A whole call -/

theorem callOf_single {op : Op} {c : Call} (hc : callOf op = some c) : single op = true := by
  cases op <;> first | rfl | cases hc

theorem oneReply_or {op : Op} {c : Call} (hc : callOf op = some c) : (oneReply op = true) ∨ (oneReply op = false ∧ op.isFind = true) := by
  cases op <;> first | (exact .inl rfl) | (exact .inr ⟨rfl, rfl⟩) | cases hc

theorem ends_sound {E : Env σ} {log : σ → List Bytes} (hlog : Logs E.V log) {op : Op} {c : Call} (hc : callOf op = some c) {s : St σ}
    {o : Out Error Val} (h : Ends E log op c s o) : (runOp E op s).1 = o := by
  have hs := callOf_single hc
  cases h with
  | exhausted h =>
    simp only [Exhausted] at h
    rw [runOp_send_panic E op s s (by unfold send; rw [if_pos h])]
  | long hx hf hp =>
    rw [runOp_send_err E op s _ _ (send_unbuilt E op.first s _ hx (first_text s.cli op hf hp))]
  | offset hx hp =>
    rw [runOp_send_panic E op s _ (send_unbuilt_panic E op.first s hx (first_panics s.cli op hp))]
  | unsent hx hf hl h =>
    rcases fits_sent E op s hx hf with ⟨s1, h1⟩ | ⟨x, ht, h1, _⟩
    · obtain ⟨f, _, _, _, _, e5, _⟩ := send_ok_inv h1
      obtain ⟨ib, hr⟩ := runOp_single E op hs s
      rw [hr, h1, St.setInbox_srv, e5, hlog] at hl
      have := congrArg List.length hl
      simp at this
    · rw [h1, writeTrouble_det ht h]
  | @silent req mid x ho hl hm h =>
    obtain ⟨fr, s1, e1, e2, e3, e4, e5, e6, e7⟩ := single_send E log hlog op hs s req hl
    rw [e3, requestFrame_mid (sends_keepsMid (first_sent op hs)) e1] at hm
    cases hm
    rw [← e7, ← e6] at h
    obtain ⟨ib, _, i2⟩ := runOp_oneReply E op ho s s1 _ e4
    rw [i2, noReply_flat h]
    cases x <;> rfl
  | reply ho hf h =>
    obtain ⟨i, hp, he, _⟩ := exchange_eq hlog ho hf
    rw [he]
    exact ((means_iff hc ho hp _).mp h).symm
  | @search req mid o ho hl hm h =>
    have hfd : op.isFind = true := by
      rcases oneReply_or hc with h' | h'
      · rw [h'] at ho; cases ho
      · exact h'.2
    obtain ⟨fr, s1, e1, e2, e3, e4, e5, e6, e7⟩ := single_send E log hlog op hs s req hl
    rw [e3, requestFrame_mid (sends_keepsMid (first_sent op hs)) e1] at hm
    cases hm
    rw [← e7, ← e6] at h
    obtain ⟨ib, _, i2⟩ := runOp_find E op hfd s s1 _ e4
    rw [i2]
    exact ((finds_iff hfd _ _ _ _).mp h).symm

theorem ends_total {E : Env σ} {log : σ → List Bytes} (hlog : Logs E.V log) {op : Op} {c : Call} (hc : callOf op = some c) (s : St σ) :
    Ends E log op c s (runOp E op s).1 := by
  have hs := callOf_single hc
  have of : ∀ {o}, Ends E log op c s o → Ends E log op c s (runOp E op s).1 := fun h => (ends_sound hlog hc h) ▸ h
  by_cases hx : Exhausted E s
  · exact of (.exhausted hx)
  by_cases hp : Panics op
  · exact of (.offset hx hp)
  by_cases hf : Fits s.cli.useUnicode op
  · rcases fits_sent E op s hx hf with ⟨s1, h1⟩ | ⟨x, ht, _, h2⟩
    · obtain ⟨f, e1, e2, _, e4, e5, e6⟩ := send_ok_inv h1
      have hl : log (runOp E op s).2.w.srv = log s.w.srv ++ [message f] := by
        obtain ⟨ib, hr⟩ := runOp_single E op hs s
        rw [hr, h1, St.setInbox_srv, e5, hlog]
      have hm : midOf (message f) = some s.cli.mid.toNat := requestFrame_mid (sends_keepsMid (first_sent op hs)) e1
      rcases oneReply_or hc with ho | ⟨ho, hfd⟩
      · rcases reply_cases (E.V.tail (E.V.react s.w.srv (message f)).1) s.cli.mid.toNat _
            (s.w.inbox.flatten ++ (E.V.react s.w.srv (message f)).2.flatten) (Nat.lt_succ_self _) with ⟨g, rest, ha⟩ | ⟨x, hn⟩
        · have he : Exchange E log op s g rest := ⟨message f, _, hl, hm, ha⟩
          obtain ⟨i, hpi, hr, _⟩ := exchange_eq hlog ho he
          exact .reply ho he ((means_iff hc ho hpi _).mpr hr)
        · exact of (.silent ho hl hm hn)
      · refine .search ho hl hm ((finds_iff hfd _ _ _ _).mpr ?_)
        obtain ⟨ib, _, i2⟩ := runOp_find E op hfd s s1 _ h1
        rw [i2, e5, e6]
    · exact of (.unsent hx hf (by rw [h2]) ht)
  · exact of (.long hx hf hp)

/-- **C71.** Every outcome of a call that is made of one request has exactly the causes given by `Ends`: the outcome is a value, a particular
error, a crash or waiting if and only if the arguments, the connection and the bytes of the server are as described there. -/
theorem C71_call (E : Env σ) (log : σ → List Bytes) (hlog : Logs E.V log) (op : Op) (c : Call) (hc : callOf op = some c) (s : St σ)
    (o : Out Error Val) : (runOp E op s).1 = o ↔ Ends E log op c s o :=
  ⟨fun h => h ▸ ends_total hlog hc s, ends_sound hlog hc⟩

namespace Demo

/-- Outcomes of several kinds, by computation, and so, with `C71_call`, their causes: no answer; too big a packet; a packet of an unknown type; a
reply that is no reply; a reply of another type; a reply that is too short; a chained reply; a write that fails; one that blocks. -/
example : (runOp (env true) (.umount share) (st [])).1 = .err (.NetBios (.IoError .unexpectedEof)) ∧
    (runOp (env true) (.umount share) (st [[[0, 2, 0, 0]]])).1 = .err (.NetBios .FrameTooBig) ∧
    (runOp (env true) (.umount share) (st [[[7, 0], [0, 0]]])).1 = .err (.NetBios (.InvalidFrameType 7)) ∧
    (runOp (env true) (.umount share) (st (answer [1, 2, 3]))).1 = .err (.SMBError .InvalidHeader) ∧
    (runOp (env true) (.umount share) (st (answer (reply .Close 7 [] [])))).1 = .err (.UnexpectedReply .TreeDisconnect .Close) ∧
    (runOp (env true) (.read handle 0) (st (answer (reply .Read 7 [] [])))).1 = .panic ∧
    (runOp (env true) (.read handle 0) (st (answer (reply .Read 7 (0x2e :: List.replicate 23 0) [])))).1 =
      .err (.SMBError (.Unsupported "AndX chaining is currently not supported")) ∧
    (runOp (env true) (.umount share) { st [] with w := { (st []).w with wsched := [.accept 3, .fail (.os 32)] } }).1 =
      .err (.NetBios (.IoError (.os 32))) ∧
    (runOp (env true) (.umount share) { st [] with w := { (st []).w with wsched := [.accept 3, .block] } }).1 = .pending := by
  decide +kernel

/-- A cause, given directly: a call that is answered by a reply of another type. -/
example : Ends (env true) Prod.snd (.umount share) (.umount 0x0801) (st (answer (reply .Close 7 [] []))) (.err (.UnexpectedReply .TreeDisconnect .Close)) :=
  .reply rfl (exchange _ rfl (by decide +kernel) _ (by decide +kernel) (by decide +kernel))
    (.declined (.other (want := .TreeDisconnect) (got := .Close) rfl (by decide +kernel) (by decide)))

/-- Another one: a socket that fails. -/
example : Ends (env true) Prod.snd (.umount share) (.umount 0x0801) { st [] with w := { (st []).w with wsched := [.accept 3, .fail (.os 32)] } }
    (.err (.NetBios (.IoError (.os 32)))) :=
  .unsent (x := some (.os 32)) (fun h => absurd h.2 (by decide)) trivial (by decide +kernel) (.accept 3 (.fail _ _))

end Demo

/-! ## Downloads and listings -/

section
variable {E : Env σ} {log : σ → List Bytes}

theorem makes_iff (hlog : Logs E.V log) {op : Op} {c : Call} (hc : callOf op = some c) {s s' : St σ} {o : Out Error Val} :
    Makes E log op s o s' ↔ runOp E op s = (o, s') := by
  constructor
  · rintro ⟨⟨c', hc', h⟩, h'⟩
    exact Prod.ext (ends_sound hlog hc' h) h'
  · intro h
    exact ⟨⟨c, hc, (C71_call E log hlog op c hc s o).mp (by rw [h])⟩, by rw [h]⟩

/-- A call in front of something: it goes on with its value, or that is all. -/
theorem call_then {β γ : Type} {op : Op} {m : CM σ β} {g : β → Val} (hop : runOp E op = M.map' g m) (f : β → CM σ γ) (g' : γ → Val) (s : St σ) :
    (∃ b s1, runOp E op s = (.ok (g b), s1) ∧ M.map' g' (m >>= f) s = M.map' g' (f b) s1) ∨
      ∃ o s1, Fails o ∧ runOp E op s = (o, s1) ∧ M.map' g' (m >>= f) s = (o, s1) := by
  rcases h : m s with ⟨ob, s1⟩
  cases ob with
  | ok b => exact .inl ⟨b, s1, by rw [hop]; exact map'_ok h, map'_congr (M.bind_ok h)⟩
  | err e => exact .inr ⟨.err e, s1, (fun _ h => by cases h), by rw [hop]; exact map'_err h, map'_err (M.bind_err h)⟩
  | panic => exact .inr ⟨.panic, s1, (fun _ h => by cases h), by rw [hop]; exact map'_panic h, map'_panic (M.bind_panic h)⟩
  | pending =>
    refine .inr ⟨.pending, s1, (fun _ h => by cases h), ?_, ?_⟩
    · rw [hop]; unfold M.map' M.bind; rw [h]
    · unfold M.map' M.bind; rw [M.bind_pending h]
  | running =>
    refine .inr ⟨.running, s1, (fun _ h => by cases h), ?_, ?_⟩
    · rw [hop]; unfold M.map' M.bind; rw [h]
    · unfold M.map' M.bind; rw [M.bind_running h]

theorem fetching_iff (hlog : Logs E.V log) (h : Handle) (k : Nat) : ∀ (data : Bytes) (s s' : St σ) (o : Out Error Val),
    M.map' Val.bytes (downloadLoop E h k data >>= fun d => close E h >>= fun _ => pure d) s = (o, s') ↔ Fetching E log h k data s o s' := by
  induction k with
  | zero => exact fun data s s' o => ⟨fun h => by cases h; exact .budget _ _, fun h => by cases h; rfl⟩
  | succ k ih =>
    intro data s s' o
    rw [show (downloadLoop E h (k + 1) data) = (if data.length < h.size.toNat then
      read E h (UInt64.ofNat data.length) >>= fun chunk => downloadLoop E h k (data ++ chunk) else pure data) from rfl]
    have hread : ∀ s o s', Makes E log (.read h (UInt64.ofNat data.length)) s o s' ↔ runOp E (.read h (UInt64.ofNat data.length)) s = (o, s') :=
      fun s o s' => makes_iff hlog rfl
    have hclose : ∀ s o s', Makes E log (.close h) s o s' ↔ runOp E (.close h) s = (o, s') := fun s o s' => makes_iff hlog rfl
    by_cases hl : data.length < h.size.toNat
    · rw [if_pos hl, M.bind_assoc']
      rcases call_then (E := E) (op := .read h (UInt64.ofNat data.length)) (g := Val.bytes) rfl
          (fun chunk => downloadLoop E h k (data ++ chunk) >>= fun d => close E h >>= fun _ => pure d) Val.bytes s with ⟨b, s1, h1, h2⟩ | ⟨o1, s1, ho, h1, h2⟩
      · rw [h2, ih]
        constructor
        · exact fun hs => .chunk hl ((hread _ _ _).mpr h1) hs
        · intro hs
          cases hs with
          | unread _ hr hn => rw [hread, h1] at hr; cases hr; exact absurd rfl (hn _)
          | chunk _ hr hs => rw [hread, h1] at hr; cases hr; exact hs
          | unclosed hl' => omega
          | closed hl' => omega
      · rw [h2]
        constructor
        · intro e; cases e; exact .unread hl ((hread _ _ _).mpr h1) ho
        · intro hs
          cases hs with
          | unread _ hr hn => rw [hread, h1] at hr; exact hr
          | chunk _ hr hs => rw [hread, h1] at hr; cases hr; exact absurd rfl (ho _)
          | unclosed hl' => omega
          | closed hl' => omega
    · rw [if_neg hl]
      show M.map' Val.bytes (close E h >>= fun _ => pure data) s = (o, s') ↔ _
      rcases call_then (E := E) (op := .close h) (g := fun _ => Val.unit) rfl (fun _ => pure data) Val.bytes s with ⟨b, s1, h1, h2⟩ | ⟨o1, s1, ho, h1, h2⟩
      · rw [h2]
        constructor
        · intro e; cases e; exact .closed (by omega) ((hclose _ _ _).mpr h1)
        · intro hs
          cases hs with
          | unread hl' => omega
          | chunk hl' => omega
          | unclosed _ hr hn => rw [hclose, h1] at hr; cases hr; exact absurd rfl (hn _)
          | closed _ hr => rw [hclose, h1] at hr; cases hr; rfl
      · rw [h2]
        constructor
        · intro e; cases e; exact .unclosed (by omega) ((hclose _ _ _).mpr h1) ho
        · intro hs
          cases hs with
          | unread hl' => omega
          | chunk hl' => omega
          | unclosed _ hr hn => rw [hclose, h1] at hr; exact hr
          | closed _ hr => rw [hclose, h1] at hr; cases hr; exact absurd rfl (ho _)

theorem paging_iff (hlog : Logs E.V log) (share : Share) (sid : UInt16) (k : Nat) : ∀ (got : List DirInfo) (s s' : St σ) (o : Out Error Val),
    M.map' Val.entries (listLoop E share sid k got) s = (o, s') ↔ Paging E log share sid k got s o s' := by
  induction k with
  | zero => exact fun got s s' o => ⟨fun h => by cases h; exact .budget _ _, fun h => by cases h; rfl⟩
  | succ k ih =>
    intro got s s' o
    rw [listLoop]
    cases hlast : got.getLast? with
    | none =>
      cases List.getLast?_eq_none_iff.mp hlast
      exact ⟨fun h => by cases h; exact .empty _ _, fun h => by
        cases h with
        | empty => rfl
        | failed hl => cases hl
        | ended hl => cases hl
        | more hl => cases hl⟩
    | some last =>
      have hnext : ∀ s o s', Makes E log (.findNext share sid last.filename) s o s' ↔ runOp E (.findNext share sid last.filename) s = (o, s') :=
        fun s o s' => makes_iff hlog rfl
      dsimp only
      rcases call_then (E := E) (op := .findNext share sid last.filename) (g := Val.next) rfl
          (fun reply => if reply.done then pure (got ++ reply.info) else listLoop E share sid k (got ++ reply.info)) Val.entries s with
        ⟨⟨done, page⟩, s1, h1, h2⟩ | ⟨o1, s1, ho, h1, h2⟩
      · rw [h2]
        cases done with
        | true =>
          constructor
          · intro e; cases e; exact .ended hlast ((hnext _ _ _).mpr h1)
          · intro hs
            cases hs with
            | empty => cases hlast
            | failed hl hr hn => rw [hlast] at hl; cases hl; rw [hnext, h1] at hr; cases hr; exact absurd rfl (hn _)
            | ended hl hr => rw [hlast] at hl; cases hl; rw [hnext, h1] at hr; cases hr; rfl
            | more hl hr => rw [hlast] at hl; cases hl; rw [hnext, h1] at hr; cases hr
        | false =>
          show M.map' Val.entries (listLoop E share sid k (got ++ page)) s1 = (o, s') ↔ _
          rw [ih]
          constructor
          · exact fun hs => .more hlast ((hnext _ _ _).mpr h1) hs
          · intro hs
            cases hs with
            | empty => cases hlast
            | failed hl hr hn => rw [hlast] at hl; cases hl; rw [hnext, h1] at hr; cases hr; exact absurd rfl (hn _)
            | ended hl hr => rw [hlast] at hl; cases hl; rw [hnext, h1] at hr; cases hr
            | more hl hr hs => rw [hlast] at hl; cases hl; rw [hnext, h1] at hr; cases hr; exact hs
      · rw [h2]
        constructor
        · intro e; cases e; exact .failed hlast ((hnext _ _ _).mpr h1) ho
        · intro hs
          cases hs with
          | empty => cases hlast
          | failed hl hr hn => rw [hlast] at hl; cases hl; rw [hnext, h1] at hr; exact hr
          | ended hl hr => rw [hlast] at hl; cases hl; rw [hnext, h1] at hr; cases hr; exact absurd rfl (ho _)
          | more hl hr => rw [hlast] at hl; cases hl; rw [hnext, h1] at hr; cases hr; exact absurd rfl (ho _)

end

/-- **C71.** The outcome of a download is that of the first of its calls that gives no value, which has it for the cause given by `Ends`, or the
bytes read. -/
theorem C71_download (E : Env σ) (log : σ → List Bytes) (hlog : Logs E.V log) (k : Nat) (share : Share) (path : Str) (s s' : St σ)
    (o : Out Error Val) : runOp E (.download k share path) s = (o, s') ↔ DownloadEnds E log k share path s o s' := by
  have hopen : ∀ s o s', Makes E log (.openfile share path) s o s' ↔ runOp E (.openfile share path) s = (o, s') := fun s o s' => makes_iff hlog rfl
  show M.map' Val.bytes (openfile E share path >>= fun file => downloadLoop E file k [] >>= fun d => close E file >>= fun _ => pure d) s = _ ↔ _
  rcases call_then (E := E) (op := .openfile share path) (g := Val.handle) rfl
      (fun file => downloadLoop E file k [] >>= fun d => close E file >>= fun _ => pure d) Val.bytes s with ⟨h, s1, h1, h2⟩ | ⟨o1, s1, ho, h1, h2⟩
  · rw [h2, fetching_iff hlog]
    constructor
    · exact fun hs => .opened ((hopen _ _ _).mpr h1) hs
    · intro hs
      cases hs with
      | unopened hr hn => rw [hopen, h1] at hr; cases hr; exact absurd rfl (hn _)
      | opened hr hs => rw [hopen, h1] at hr; cases hr; exact hs
  · rw [h2]
    constructor
    · intro e; cases e; exact .unopened ((hopen _ _ _).mpr h1) ho
    · intro hs
      cases hs with
      | unopened hr hn => rw [hopen, h1] at hr; exact hr
      | opened hr hs => rw [hopen, h1] at hr; cases hr; exact absurd rfl (ho _)

/-- **C71.** The outcome of a listing is that of the first of its calls that gives no value, which has it for the cause given by `Ends`, or the
entries received; or there is a crash because the server announces more but has sent no name to go on with. -/
theorem C71_list (E : Env σ) (log : σ → List Bytes) (hlog : Logs E.V log) (k : Nat) (share : Share) (pattern : Str) (s s' : St σ)
    (o : Out Error Val) : runOp E (.list k share pattern) s = (o, s') ↔ ListingEnds E log k share pattern s o s' := by
  have hfirst : ∀ s o s', Makes E log (.findFirst share pattern) s o s' ↔ runOp E (.findFirst share pattern) s = (o, s') :=
    fun s o s' => makes_iff hlog rfl
  show M.map' Val.entries (findFirst E share pattern >>= fun reply =>
    if reply.done then pure reply.info else listLoop E share reply.sid k reply.info) s = _ ↔ _
  rcases call_then (E := E) (op := .findFirst share pattern) (g := Val.first) rfl
      (fun reply => if reply.done then pure reply.info else listLoop E share reply.sid k reply.info) Val.entries s with
    ⟨r, s1, h1, h2⟩ | ⟨o1, s1, ho, h1, h2⟩
  · rw [h2]
    cases hd : r.done with
    | true =>
      rw [if_pos rfl]
      constructor
      · intro e; cases e; exact .ended hd ((hfirst _ _ _).mpr h1)
      · intro hs
        cases hs with
        | failed hr hn => rw [hfirst, h1] at hr; cases hr; exact absurd rfl (hn _)
        | ended hd' hr => rw [hfirst, h1] at hr; cases hr; rfl
        | more hd' hr => rw [hfirst, h1] at hr; cases hr; rw [hd] at hd'; cases hd'
    | false =>
      rw [if_neg (by decide), paging_iff hlog]
      constructor
      · exact fun hs => .more hd ((hfirst _ _ _).mpr h1) hs
      · intro hs
        cases hs with
        | failed hr hn => rw [hfirst, h1] at hr; cases hr; exact absurd rfl (hn _)
        | ended hd' hr => rw [hfirst, h1] at hr; cases hr; rw [hd] at hd'; cases hd'
        | more hd' hr hs => rw [hfirst, h1] at hr; cases hr; exact hs
  · rw [h2]
    constructor
    · intro e; cases e; exact .failed ((hfirst _ _ _).mpr h1) ho
    · intro hs
      cases hs with
      | failed hr hn => rw [hfirst, h1] at hr; exact hr
      | ended hd' hr => rw [hfirst, h1] at hr; cases hr; exact absurd rfl (ho _)
      | more hd' hr hs => rw [hfirst, h1] at hr; cases hr; exact absurd rfl (ho _)

/-- A download that fails at its first call, at its second call, and one that succeeds. -/
example : (runOp (Demo.env true) (.download 9 Demo.share ['a']) (Demo.st [])).1 = .err (.NetBios (.IoError .unexpectedEof)) ∧
    (runOp (Demo.fileEnv true 2 (fun _ => none)) (.download 9 Demo.share ['a']) Demo.fileSt).1 = .err (.ServerError (.Known .ACCESS_DENIED)) ∧
    (runOp (Demo.fileEnv true 2 (Demo.chunksOf [1, 2] 1)) (.download 9 Demo.share ['a']) Demo.fileSt).1 = .ok (.bytes [1, 2]) := by
  decide +kernel

/-- A listing that fails at its first call. -/
example : (runOp (Demo.env true) (.list 9 Demo.share ['*']) (Demo.st (Demo.answer (Demo.reply .Close 7 [] [])))).1 =
    .err (.UnexpectedReply .Transact2 .Close) := by decide +kernel

end Cifs
