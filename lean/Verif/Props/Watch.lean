import Verif.Spec.Watch
import Verif.Props.Notify
import Verif.Props.Streams
import Verif.Props.Download
/-!
# Watching a directory without missing a change (C86)
-/

namespace Cifs
open Spec

variable {σ : Type} {E : Env σ}

/-! ## One call -/

theorem watchRequest {c : Cli} {h : Handle} {what : UInt32} {fr : Bytes} (hf : requestFrame c (transactMsg h.tid (notifySetup h.fid what false)) = .ok fr) :
    WatchRequest (message fr) h := by
  obtain ⟨p, d, hb, _, _, rfl⟩ := requestFrame_ok hf
  obtain ⟨setup, h1, h2⟩ := is_transact _ _ _ _ p d hb
  exact ⟨by rw [frame_cmd]; rfl, by rw [frame_tid]; rfl, setup, _, h1, h2⟩

theorem accept_tells {f : Bytes} {m : Nat} {l : List News} {i : Info} (hp : Info.parse f = .ok (i, f.drop 32)) (h : TellsChanges f m l) :
    accept (transactReply notificationParse) i (f.drop 32) = .ok l := by
  obtain ⟨_, _, _, ps, ds, pb, db, h1, h2, h3⟩ := h
  refine (accept_iff (transactReply notificationParse) (by decide) hp l).mpr ⟨ps, ds, h1, ?_⟩
  rw [make_plain _ rfl i]
  exact ((notify_create i ps ds).1 l).mpr ⟨pb, db, h2, h3⟩

theorem foreign_mono {own own' : Nat → Prop} {b : Bytes} (h : Foreign own b) (ho : ∀ m, own' m → own m) : Foreign own' b := by
  induction h with
  | nil => exact .nil
  | keepAlive _ ih => exact .keepAlive ih
  | reply hl hg m hm hn _ ih => exact .reply hl hg m hm (fun h => hn (ho m h)) ih

theorem tidings_foreign {own : Nat → Prop} {b : Bytes} {rs : List (Nat × List News)} (h : Tidings b rs) (hr : ∀ r ∈ rs, ¬ own r.1) : Foreign own b := by
  induction h with
  | nil => exact .nil
  | keepAlive _ ih => exact .keepAlive (ih hr)
  | reply hf _ ih => exact .reply hf.1 hf.2.1 _ hf.2.2.1 (hr _ (.head _)) (ih fun r h => hr r (.tail _ h))

/-- The last of the replies. -/
theorem tidings_last {b : Bytes} {rs rs0 : List (Nat × List News)} {m : Nat} {l : List News} (h : Tidings b rs) (e : rs = rs0 ++ [(m, l)]) :
    ∃ b0 f b1, b = b0 ++ message f ++ b1 ∧ Tidings b0 rs0 ∧ TellsChanges f m l ∧ Tidings b1 [] := by
  induction h generalizing rs0 with
  | nil => cases rs0 <;> cases e
  | keepAlive _ ih =>
    obtain ⟨b0, f, b1, h1, h2, h3⟩ := ih e
    exact ⟨_, f, b1, by rw [h1]; simp only [List.append_assoc], .keepAlive h2, h3⟩
  | @reply b f m' l' rs hf h ih =>
    cases rs0 with
    | nil =>
      cases e
      exact ⟨[], f, b, rfl, .nil, hf, h⟩
    | cons r rs0 =>
      cases e
      obtain ⟨b0, f', b1, h1, h2, h3⟩ := ih rfl
      exact ⟨_, f', b1, by rw [h1]; simp only [List.append_assoc], .reply hf h2, h3⟩

theorem flatNext_nothing {own : Nat → Prop} {b : Bytes} (h : Foreign own b) (mid : UInt16) (ho : own mid.toNat) : flatNext .blocked mid b = (.pending, []) := by
  induction h with
  | nil => rfl
  | keepAlive _ ih => rw [flatNext_keepalive]; exact ih
  | reply hl hg m hm hn _ ih => rw [flatNext_foreign _ mid _ _ hl hg m hm (fun e => hn (e ▸ ho))]; exact ih

/-- A session that is about to make `n` calls to be told about changes. -/
structure C86_Ready (waiting : σ → List Nat) (n : Nat) (s : St σ) : Prop where
  writes : Accepting s.w.wsched
  unread : Foreign (s.cli.mid.toNat ≤ ·) s.w.inbox.flatten
  earlier : ∀ m ∈ waiting s.w.srv, m < s.cli.mid.toNat
  enough : s.cli.mid.toNat + n ≤ 65535

/-- One call: it gets the answer to its own request if the server gives it in time, and otherwise nothing at all. -/
theorem watch_step {h : Handle} {waiting : σ → List Nat} {reported : σ → List News} (hw : Watches E.V h waiting reported) (what : UInt32) (n : Nat) (s : St σ)
    (hr : C86_Ready waiting (n + 1) s) :
    ∃ bs : List (List News), C86_Ready waiting n (runOp E (.notify h what) s).2 ∧
      bs.length + (waiting (runOp E (.notify h what) s).2.w.srv).length = (waiting s.w.srv).length + 1 ∧
      reported (runOp E (.notify h what) s).2.w.srv = reported s.w.srv ++ bs.flatten ∧
      ((runOp E (.notify h what) s).1 = .pending ∧ waiting (runOp E (.notify h what) s).2.w.srv ≠ [] ∨
        ∃ l, bs[(waiting s.w.srv).length]? = some l ∧ (runOp E (.notify h what) s).1 = .ok (.changes l)) := by
  obtain ⟨fr, hf⟩ := first_fits s.cli (.notify h what) trivial
  have hm : midOf (message fr) = some s.cli.mid.toNat := requestFrame_mid (sends_keepsMid (op := .notify h what) rfl) hf
  obtain ⟨rs, h1, h2, h3⟩ := hw.answers s.w.srv (message fr) _ (watchRequest hf) hm
  have hc : ¬ (E.checked = true ∧ s.cli.mid.toNat = 65535) := by have := hr.enough; omega
  obtain ⟨ws, g1, g2⟩ := send_ok E _ s fr hc hf (C26_fits hf) hr.writes
  have hmid : s.bump.cli.mid.toNat = s.cli.mid.toNat + 1 := by
    have := hr.enough
    simp [St.bump]; omega
  have hlen : rs.length + (waiting (E.V.react s.w.srv (message fr)).1).length = (waiting s.w.srv).length + 1 := by
    have := congrArg List.length h2
    simp at this; omega
  have hearlier : ∀ m ∈ waiting (E.V.react s.w.srv (message fr)).1, m < s.cli.mid.toNat + 1 := by
    intro m hmem
    have : m ∈ waiting s.w.srv ++ [s.cli.mid.toNat] := by rw [h2]; exact List.mem_append_right _ hmem
    rcases List.mem_append.mp this with h | h
    · have := hr.earlier m h; omega
    · cases List.mem_singleton.mp h; omega
  refine ⟨rs.map Prod.snd, ?_⟩
  by_cases hn : waiting (E.V.react s.w.srv (message fr)).1 = []
  · -- all requests are answered, this one last
    rw [hn, List.append_nil] at h2
    obtain ⟨rs0, r, hrs⟩ : ∃ rs0 r, rs = rs0 ++ [r] := by
      rcases List.eq_nil_or_concat rs with h | ⟨rs0, r, h⟩
      · rw [h] at h2; simp at h2
      · exact ⟨rs0, r, by rw [h, List.concat_eq_append]⟩
    subst hrs
    rw [List.map_append, List.map_singleton] at h2
    obtain ⟨e1, e2⟩ := List.append_inj' h2 rfl
    obtain ⟨m, l⟩ := r
    cases e2
    obtain ⟨b0, f, b1, hb, t0, t1, t2⟩ := tidings_last h1 rfl
    have hb0 : Foreign (s.cli.mid.toNat ≤ ·) b0 := tidings_foreign t0 (by
      intro r hrm
      have : r.1 ∈ waiting s.w.srv := by rw [e1]; exact List.mem_map_of_mem hrm
      have := hr.earlier _ this
      omega)
    obtain ⟨rest, k1, k2⟩ := serves_awaits hr.unread ⟨b0, b1, hb, hb0, tidings_foreign t2 (by simp), t1.1, t1.2.1, t1.2.2.1.trans hm.symm⟩ hm (Nat.le_refl _)
    obtain ⟨s', c1, c2, c3, c4, c5⟩ := command_served E _ (transactReply notificationParse) hr.writes hc hf k2 (fun i hp => accept_tells hp t1)
    have hrun : runOp E (.notify h what) s = (.ok (.changes l), s') := M.bind_ok c1
    rw [hrun]
    dsimp only
    rw [c3]
    refine ⟨⟨c5, ?_, ?_, ?_⟩, ?_, ?_, .inr ⟨l, ?_, rfl⟩⟩
    · rw [c4, c2]
      refine foreign_mono k1 fun m hm => ?_
      rw [hmid] at hm; omega
    · rw [c3, c2, hmid]; exact hearlier
    · rw [c2, hmid]; have := hr.enough; omega
    · rw [List.length_map]; exact hlen
    · rw [h3, List.flatMap_def]
    · have hl : (waiting s.w.srv).length = (rs0.map Prod.snd).length := by rw [e1, List.length_map, List.length_map]
      rw [hl, List.map_append, List.getElem?_append_right (Nat.le_refl _), Nat.sub_self]; rfl
  · -- this request is still waiting
    have hall : ∀ r ∈ rs, ¬ s.cli.mid.toNat ≤ r.1 := by
      obtain ⟨w0, m, hwm⟩ : ∃ w0 m, waiting (E.V.react s.w.srv (message fr)).1 = w0 ++ [m] := by
        rcases List.eq_nil_or_concat (waiting (E.V.react s.w.srv (message fr)).1) with h | ⟨w0, m, h⟩
        · exact absurd h hn
        · exact ⟨w0, m, by rw [h, List.concat_eq_append]⟩
      rw [hwm, ← List.append_assoc] at h2
      obtain ⟨e1, e2⟩ := List.append_inj' h2 rfl
      intro r hrm hle
      have : r.1 ∈ waiting s.w.srv := by rw [e1]; exact List.mem_append_left _ (List.mem_map_of_mem hrm)
      have := hr.earlier _ this
      omega
    have hfo := foreign_append hr.unread (tidings_foreign h1 hall)
    obtain ⟨ib, k1, k2⟩ := runOp_oneReply E (.notify h what) rfl s _ _ g2
    have hflat : (s.w.inbox ++ (E.V.react s.w.srv (message fr)).2).flatten = s.w.inbox.flatten ++ (E.V.react s.w.srv (message fr)).2.flatten := List.flatten_append
    have hnone : flatNext (E.V.tail (E.V.react s.w.srv (message fr)).1) s.cli.mid (s.w.inbox ++ (E.V.react s.w.srv (message fr)).2).flatten = (.pending, []) := by
      rw [hw.stays, hflat]
      exact flatNext_nothing hfo s.cli.mid (Nat.le_refl _)
    rw [show ∀ x, World.flat x = x.inbox.flatten from fun _ => rfl] at k1 k2
    rw [hnone] at k1 k2
    rw [k2]
    refine ⟨⟨g1, ?_, ?_, ?_⟩, ?_, ?_, .inl ⟨rfl, hn⟩⟩
    · show Foreign _ ib.flatten
      rw [k1]; exact .nil
    · show ∀ m ∈ waiting (E.V.react s.w.srv (message fr)).1, m < s.bump.cli.mid.toNat
      rw [hmid]; exact hearlier
    · show s.bump.cli.mid.toNat + n ≤ 65535
      rw [hmid]; have := hr.enough; omega
    · rw [List.length_map]; exact hlen
    · show reported (E.V.react s.w.srv (message fr)).1 = _
      rw [h3, List.flatMap_def]

/-! ## Any number of calls -/

/-- **C86** The server's answers belong to the calls in the order in which these were made, the ones that were given up before first. Each call
returns the answer that belongs to it, or it was given up, and then nobody is told. -/
theorem C86_answers {h : Handle} {waiting : σ → List Nat} {reported : σ → List News} (hw : Watches E.V h waiting reported) (whats : List UInt32)
    (s : St σ) (hr : C86_Ready waiting whats.length s) :
    ∃ bs : List (List News),
      bs.length + (waiting (runOps E (whats.map (.notify h)) s).2.w.srv).length = (waiting s.w.srv).length + whats.length ∧
      reported (runOps E (whats.map (.notify h)) s).2.w.srv = reported s.w.srv ++ bs.flatten ∧
      ∀ i < whats.length, (runOps E (whats.map (.notify h)) s).1[i]? = some .pending ∨
        ∃ l, bs[(waiting s.w.srv).length + i]? = some l ∧ (runOps E (whats.map (.notify h)) s).1[i]? = some (.ok (.changes l)) := by
  induction whats generalizing s with
  | nil => exact ⟨[], by simp [runOps], by simp [runOps], by simp⟩
  | cons what whats ih =>
    obtain ⟨bs, h1, h2, h3, h4⟩ := watch_step hw what whats.length s hr
    obtain ⟨bs', k1, k2, k3⟩ := ih _ h1
    refine ⟨bs ++ bs', ?_, ?_, ?_⟩
    · simp only [List.map_cons, runOps, List.length_append, List.length_cons]
      omega
    · simp only [List.map_cons, runOps]
      rw [k2, h3, List.flatten_append, List.append_assoc]
    · intro i hi
      simp only [List.map_cons, runOps]
      cases i with
      | zero =>
        rcases h4 with h4 | ⟨l, h4, h5⟩
        · exact .inl (by rw [h4.1]; rfl)
        · refine .inr ⟨l, ?_, by rw [h5]; rfl⟩
          have := (List.getElem?_eq_some_iff.mp h4).1
          rw [Nat.add_zero, List.getElem?_append_left this]
          exact h4
      | succ i =>
        rcases k3 i (by simpa using hi) with k3 | ⟨l, k3, k4⟩
        · exact .inl (by rw [List.getElem?_cons_succ]; exact k3)
        · refine .inr ⟨l, ?_, by rw [List.getElem?_cons_succ]; exact k4⟩
          rw [List.getElem?_append_right (by omega), ← k3]
          congr 1
          omega

theorem runOps_length (E : Env σ) (ops : List Op) (s : St σ) : (runOps E ops s).1.length = ops.length := by
  induction ops generalizing s with
  | nil => rfl
  | cons op ops ih => simp only [runOps, List.length_cons, ih]

theorem told_all : ∀ (os : List (Out Error Val)) (bs : List (List News)), os.length = bs.length →
    (∀ i < os.length, ∃ l, bs[i]? = some l ∧ os[i]? = some (.ok (.changes l))) → told os = bs.flatten
  | [], bs, hl, _ => by cases bs with | nil => rfl | cons b bs => cases hl
  | o :: os, [], hl, _ => by cases hl
  | o :: os, b :: bs, hl, h => by
    obtain ⟨l, h1, h2⟩ := h 0 (by simp)
    cases h1
    cases h2
    have := told_all os bs (by simpa using hl) (fun i hi => h (i + 1) (by simpa using hi))
    show b ++ told os = _
    rw [this]; rfl

theorem told_some : ∀ (os : List (Out Error Val)) (bs : List (List News)),
    (∀ i < os.length, os[i]? = some .pending ∨ ∃ l, bs[i]? = some l ∧ os[i]? = some (.ok (.changes l))) → (told os).Sublist bs.flatten
  | [], bs, _ => List.nil_sublist _
  | o :: os, [], h => by
    rcases h 0 (by simp) with h0 | ⟨l, h0, _⟩
    · cases h0
      exact told_some os [] (fun i hi => (h (i + 1) (by simpa using hi)).imp id fun ⟨l, hl, _⟩ => by cases hl)
    · cases h0
  | o :: os, b :: bs, h => by
    have ih := told_some os bs (fun i hi => h (i + 1) (by simpa using hi))
    rcases h 0 (by simp) with h0 | ⟨l, h0, h1⟩
    · cases h0
      exact ih.trans (List.sublist_append_right _ _)
    · cases h0
      cases h1
      exact List.Sublist.append (List.Sublist.refl _) ih

/-- **C86** Whatever is given up: what a program is told did happen, is told in the order in which the server reports it, and is told once. -/
theorem C86_order {h : Handle} {waiting : σ → List Nat} {reported : σ → List News} (hw : Watches E.V h waiting reported) (whats : List UInt32)
    (s : St σ) (hr : C86_Ready waiting whats.length s) :
    ∃ new, reported (runOps E (whats.map (.notify h)) s).2.w.srv = reported s.w.srv ++ new ∧
      (told (runOps E (whats.map (.notify h)) s).1).Sublist new := by
  obtain ⟨bs, h1, h2, h3⟩ := C86_answers hw whats s hr
  refine ⟨_, h2, ?_⟩
  have := told_some (runOps E (whats.map (.notify h)) s).1 (bs.drop (waiting s.w.srv).length) (fun i hi => by
    rw [runOps_length, List.length_map] at hi
    rw [List.getElem?_drop]
    exact h3 i hi)
  refine this.trans ?_
  conv => rhs; rw [← List.take_append_drop (waiting s.w.srv).length bs]
  rw [List.flatten_append]
  exact List.sublist_append_right _ _

/-- The property: a program that watches a directory is told every change that the server reports. -/
def C86_Complete (E : Env σ) (h : Handle) (waiting : σ → List Nat) (reported : σ → List News) : Prop :=
  ∀ (whats : List UInt32) (s : St σ), C86_Ready waiting whats.length s → waiting s.w.srv = [] →
    reported (runOps E (whats.map (.notify h)) s).2.w.srv = reported s.w.srv ++ told (runOps E (whats.map (.notify h)) s).1

/-- **C86, partial.** A program that never gives up a call is told every change that the server reports. -/
theorem C86_complete_partial {h : Handle} {waiting : σ → List Nat} {reported : σ → List News} (hw : Watches E.V h waiting reported)
    (whats : List UInt32) (s : St σ) (hr : C86_Ready waiting whats.length s) (h0 : waiting s.w.srv = [])
    (hp : .pending ∉ (runOps E (whats.map (.notify h)) s).1) :
    reported (runOps E (whats.map (.notify h)) s).2.w.srv = reported s.w.srv ++ told (runOps E (whats.map (.notify h)) s).1 := by
  obtain ⟨bs, h1, h2, h3⟩ := C86_answers hw whats s hr
  rw [h0, List.length_nil, Nat.zero_add] at h1
  have h4 : ∀ i < whats.length, ∃ l, bs[i]? = some l ∧ (runOps E (whats.map (.notify h)) s).1[i]? = some (.ok (.changes l)) := by
    intro i hi
    rcases h3 i hi with h | ⟨l, h, h'⟩
    · exact absurd (List.mem_of_getElem? h) hp
    · exact ⟨l, by rw [h0] at h; simpa using h, h'⟩
  have hl : bs.length = whats.length := by
    rcases Nat.eq_zero_or_pos whats.length with h | h
    · omega
    · obtain ⟨l, h5, _⟩ := h4 (whats.length - 1) (by omega)
      have := (List.getElem?_eq_some_iff.mp h5).1
      omega
  rw [h2, told_all _ bs (by rw [runOps_length, List.length_map, hl]) (by rw [runOps_length, List.length_map]; exact h4)]

/-- **C86** Once a call was given up, a program that calls again and again is told nothing any more, if the server never answers more requests at a
time than it gets: each answer belongs to a request that the client has forgotten. -/
theorem C86_behind {h : Handle} {waiting : σ → List Nat} {reported : σ → List News} (hw : Watches E.V h waiting reported)
    (hb : ∀ v req, WatchRequest req h → (waiting v).length ≤ (waiting (E.V.react v req).1).length) (whats : List UInt32)
    (s : St σ) (hr : C86_Ready waiting whats.length s) (h0 : waiting s.w.srv ≠ []) :
    (runOps E (whats.map (.notify h)) s).1 = whats.map fun _ => .pending := by
  induction whats generalizing s with
  | nil => rfl
  | cons what whats ih =>
    obtain ⟨bs, h1, h2, h3, h4⟩ := watch_step hw what whats.length s hr
    have hle : (waiting s.w.srv).length ≤ (waiting (runOp E (.notify h what) s).2.w.srv).length := by
      have hsnd : (runOp E (.notify h what) s).2 = (command E (Op.notify h what).first (transactReply notificationParse) s).2 := by
        show (M.map' Val.changes (command E (Op.notify h what).first (transactReply notificationParse)) s).2 = _
        unfold M.map' M.bind
        rcases command E (Op.notify h what).first (transactReply notificationParse) s with ⟨o, s1⟩
        cases o <;> rfl
      rw [hsnd]
      rcases command_srv E (Op.notify h what).first (transactReply notificationParse) s with ⟨_, e⟩ | ⟨fr, _, hf, _, e, _⟩
      · rw [e]; exact Nat.le_refl _
      · rw [e]; exact hb _ _ (watchRequest hf)
    have hpos : 0 < (waiting s.w.srv).length := List.length_pos_iff.mpr h0
    simp only [List.map_cons, runOps]
    rw [ih _ h1 (List.ne_nil_of_length_pos (by omega))]
    rcases h4 with h4 | ⟨l, h4, _⟩
    · rw [h4.1]
    · have := (List.getElem?_eq_some_iff.mp h4).1
      omega

/-! ## There are such servers -/

/-- A directory in which something happens: the multiplex ids of the requests that wait, the changes that were told, and what the server is going to
tell next (each time before the following request comes, one answer for each of these actions on the file `a`). -/
structure C86_Dir where
  ids : List UInt16
  reported : List News
  plan : List (List NotifyAction)

/-- The record about an action on the file `a`. -/
def C86_record (x : NotifyAction) : Bytes := C33_records [⟨['a'], [0x61, 0], x, []⟩]

/-- The reply to the request with this multiplex id, about this action. -/
def C86_reply (mid : UInt16) (x : NotifyAction) : Bytes :=
  frameOf { Info.default .Transact with flags1 := 0x98, mid := mid } (Demo.notifyParams 14) (0 :: C86_record x)

/-- The server. It gives at most `most` answers at a time. -/
def C86_server (most : Nat) : Server C86_Dir where
  react := fun v req =>
    let all := v.ids ++ [UInt16.ofNat ((midOf req).getD 0)]
    let now := (v.plan.headD []).take (min most all.length)
    ({ ids := all.drop now.length, reported := v.reported ++ now.map fun x => (['a'], x), plan := v.plan.tail },
      (all.zip now).map fun p => message (C86_reply p.1 p.2))
  tail := fun _ => .blocked

/-- The multiplex ids of the requests that wait. -/
def C86_Dir.waiting (v : C86_Dir) : List Nat := v.ids.map UInt16.toNat

theorem reply_tells (mid : UInt16) (x : NotifyAction) : TellsChanges (C86_reply mid x) mid.toNat [(['a'], x)] := by
  have hl : (0 :: C86_record x).length = 15 := by cases x <;> rfl
  have hp : (Demo.notifyParams 14).length = 36 := rfl
  refine ⟨?_, ⟨?_, frame_magic _ _ _, ⟨Cmd.Transact.code.toNat, by decide, frame_cmd _ _ _⟩, _, frame_flags1 _ _ _, by show (0x98 : UInt8).toNat / 128 % 2 = 1; decide⟩,
    frame_mid _ _ _, Demo.notifyParams 14, 0 :: C86_record x, C86_record x, [], ?_, ?_, ?_⟩
  · exact Demo.frame_short _ _ _ (by rw [hp]; decide) (by rw [hl]; decide)
  · rw [C86_reply, Demo.frame_body_length]; omega
  · refine ⟨frame_cmd _ _ _, by rw [C86_reply, frame_status]; rfl, frame_params _ _ _ (by rw [hp]; decide) (by rw [hp]), _,
      frame_byteCount _ _ _ (by rw [hp]; decide) (by rw [hp]) (by rw [hl]; decide), ?_⟩
    obtain ⟨hh, hl', e⟩ := frame_split37 { Info.default .Transact with flags1 := 0x98, mid := mid } (Demo.notifyParams 14) (0 :: C86_record x)
    rw [C86_reply, e, ← List.append_assoc, ← List.append_assoc]
    have := sliceAt_mid (hh ++ Demo.notifyParams 14 ++ putU16 (UInt16.ofNat (0 :: C86_record x).length)) (0 :: C86_record x) []
      (39 + (Demo.notifyParams 14).length) (0 :: C86_record x).length (by simp [hl']; omega) rfl
    simpa using this
  · exact ⟨14, 0, 14, 72, 0, 0, 0, by decide +kernel, by decide +kernel, by decide +kernel, by decide +kernel, by decide +kernel, by decide +kernel,
      by decide +kernel, by decide +kernel, by decide, by decide, .inr ⟨by decide, by decide +kernel, by cases x <;> decide +kernel⟩, .inl ⟨rfl, rfl⟩⟩
  · exact C33_all [⟨['a'], [0x61, 0], x, []⟩] (by
      intro r hr
      cases List.mem_singleton.mp hr
      exact utf16le_encode ['a']) (by
      intro r hr
      cases List.mem_singleton.mp hr
      show 12 + 2 + 0 < 2 ^ 32
      decide)

theorem zip_tidings : ∀ (ids : List UInt16) (now : List NotifyAction), now.length ≤ ids.length →
    ∃ rs, Tidings ((ids.zip now).map fun p => message (C86_reply p.1 p.2)).flatten rs ∧
      ids.map UInt16.toNat = rs.map Prod.fst ++ (ids.drop now.length).map UInt16.toNat ∧ rs.flatMap Prod.snd = now.map fun x => (['a'], x)
  | ids, [], _ => ⟨[], by cases ids <;> exact .nil, by simp, rfl⟩
  | [], x :: now, h => by simp at h
  | m :: ids, x :: now, h => by
    obtain ⟨rs, h1, h2, h3⟩ := zip_tidings ids now (by simpa using h)
    refine ⟨(m.toNat, [(['a'], x)]) :: rs, .reply (reply_tells m x) h1, ?_, ?_⟩
    · simp only [List.map_cons, List.length_cons, List.drop_succ_cons, List.cons_append, h2]
    · simp only [List.flatMap_cons, h3, List.map_cons]; rfl

/-- **C86** There are such servers, whatever happens in the directory. -/
theorem C86_possible (most : Nat) (h : Handle) : Watches (C86_server most) h C86_Dir.waiting C86_Dir.reported := by
  refine ⟨fun v req m _ hm => ?_, fun _ => rfl⟩
  obtain ⟨rs, h1, h2, h3⟩ := zip_tidings (v.ids ++ [UInt16.ofNat ((midOf req).getD 0)])
    ((v.plan.headD []).take (min most (v.ids ++ [UInt16.ofNat ((midOf req).getD 0)]).length)) (by rw [List.length_take]; omega)
  refine ⟨rs, h1, ?_, ?_⟩
  · refine Eq.trans ?_ h2
    have : m < 65536 := u16At_small hm
    rw [List.map_append, hm]
    simp only [C86_Dir.waiting, List.map_cons, List.map_nil, Option.getD_some]
    rw [UInt16.toNat_ofNat_of_lt' (by simpa [UInt16.size] using this)]
  · show v.reported ++ _ = _
    rw [h3]

/-- The environment with such a server. -/
def C86_env (checked : Bool) (most : Nat) : Env C86_Dir where
  V := C86_server most
  C := Demo.crypto
  checked := checked
  now := 13370000000000000000
  random := [1, 2, 3, 4, 5, 6, 7, 8]
  random_len := rfl

/-- A session with it. -/
def C86_st (plan : List (List NotifyAction)) : St C86_Dir :=
  { cli := Demo.cli, w := { inbox := [], wsched := [.accept 3, .accept 10], out := [], srv := ⟨[], [], plan⟩ } }

theorem watch_ready (plan : List (List NotifyAction)) : C86_Ready C86_Dir.waiting 3 (C86_st plan) := by
  refine ⟨?_, .nil, (fun m hm => by cases hm), by show 7 + 3 ≤ 65535; decide⟩
  intro ev hev
  rcases List.mem_cons.mp hev with rfl | hev
  · exact ⟨_, rfl⟩
  · cases List.mem_singleton.mp hev; exact ⟨_, rfl⟩

/-- Nobody gives up: all changes are told. -/
example : let r := runOps (C86_env true 9) ([4095, 4095, 4095].map (.notify Demo.handle)) (C86_st [[.ADDED], [.MODIFIED], [.REMOVED]])
    r.1 = [.ok (.changes [(['a'], .ADDED)]), .ok (.changes [(['a'], .MODIFIED)]), .ok (.changes [(['a'], .REMOVED)])] ∧
      .pending ∉ r.1 ∧ r.2.w.srv.reported = told r.1 := by
  decide +kernel

/-- **C86 is violated.** The first call is given up. When the file was added, the server tells so in its answer to that call, and nobody is told; the
second call returns what happened then. -/
theorem C86_violated : ¬ ∀ (E : Env C86_Dir) (h : Handle) (waiting : C86_Dir → List Nat) (reported : C86_Dir → List News),
    Watches E.V h waiting reported → C86_Complete E h waiting reported := by
  intro hall
  have := hall (C86_env true 9) Demo.handle _ _ (C86_possible _ _) [4095, 4095, 4095] (C86_st [[], [.ADDED, .REMOVED], [.ADDED]]) (watch_ready _) rfl
  revert this
  decide +kernel

/-- What the program sees: a call that it gives up, then a file that vanishes without ever having been there. -/
example : (runOps (C86_env true 9) ([4095, 4095, 4095].map (.notify Demo.handle)) (C86_st [[], [.ADDED, .REMOVED], [.ADDED]])).1 =
    [.pending, .ok (.changes [(['a'], .REMOVED)]), .ok (.changes [(['a'], .ADDED)])] := by
  decide +kernel

/-- After giving up once, always one answer behind. -/
example : (runOps (C86_env true 1) ([4095, 4095, 4095].map (.notify Demo.handle)) (C86_st [[], [.ADDED], [.REMOVED]])).1 = [.pending, .pending, .pending] ∧
    (runOps (C86_env true 1) ([4095, 4095, 4095].map (.notify Demo.handle)) (C86_st [[], [.ADDED], [.REMOVED]])).2.w.srv.reported =
      [(['a'], .ADDED), (['a'], .REMOVED)] := by
  decide +kernel

/-- The hypothesis of `C86_behind` can be met. -/
example (v : C86_Dir) (req : Bytes) : v.waiting.length ≤ ((C86_server 1).react v req).1.waiting.length := by
  show (v.ids.map UInt16.toNat).length ≤ (((v.ids ++ [UInt16.ofNat ((midOf req).getD 0)]).drop _).map UInt16.toNat).length
  simp only [List.length_map, List.length_drop, List.length_append, List.length_take, List.length_cons, List.length_nil]
  omega

end Cifs
