import Verif.Props.CrashListing
import Verif.Props.Endings
import Verif.Props.Ids
import Verif.Props.Said
/-! # C79: do listings end? -/

namespace Cifs
open Spec

variable {σ : Type} {E : Env σ} {log : σ → List Bytes}

/-! ## The budget -/

theorem listLoop_budget (E : Env σ) (share : Share) (sid : UInt16) (j : Nat) : ∀ (k : Nat) (got : List DirInfo) (s : St σ),
    (listLoop E share sid k got s).1 ≠ .running → listLoop E share sid (k + j) got s = listLoop E share sid k got s := by
  intro k
  induction k with
  | zero => intro got s h; exact absurd rfl h
  | succ k ih =>
    intro got s h
    rw [show k + 1 + j = k + j + 1 by omega]
    rw [listLoop] at h ⊢
    rw [listLoop]
    cases hl : got.getLast? with
    | none => rfl
    | some last =>
      rw [hl] at h
      dsimp only at h ⊢
      rcases hr : findNext E share sid last.filename s with ⟨o, s1⟩
      rcases out_cases o with ⟨reply, rfl⟩ | ho
      · rw [M.bind_ok hr] at h ⊢
        rw [M.bind_ok hr]
        by_cases hd : reply.done = true
        · rw [if_pos hd, if_pos hd]
        · rw [if_neg hd] at h ⊢
          rw [if_neg hd]
          exact ih _ _ h
      · rw [M.bind_fails hr ho, M.bind_fails hr ho]

/-- The budget is a device of the model: a listing that ends within `k` rounds takes the same course with any larger budget. -/
theorem C79_budget (k k' : Nat) (hk : k ≤ k') (share : Share) (pattern : Str) (s : St σ)
    (h : (runOp E (.list k share pattern) s).1 ≠ .running) : runOp E (.list k' share pattern) s = runOp E (.list k share pattern) s := by
  obtain ⟨j, rfl⟩ : ∃ j, k' = k + j := ⟨k' - k, by omega⟩
  have hd : list E (k + j) share pattern s = list E k share pattern s := by
    have h' : (list E k share pattern s).1 ≠ .running := fun e => h ((runOp_list E k share pattern s).2.2.1.mpr e)
    have e : ∀ k, list E k share pattern = (findFirst E share pattern >>= fun reply =>
      if reply.done then pure reply.info else listLoop E share reply.sid k reply.info) := fun _ => rfl
    rw [e] at h' ⊢
    rw [e]
    rcases hop : findFirst E share pattern s with ⟨o, s1⟩
    rcases out_cases o with ⟨reply, rfl⟩ | ho
    · rw [M.bind_ok hop] at h' ⊢
      rw [M.bind_ok hop]
      by_cases hd : reply.done = true
      · rw [if_pos hd, if_pos hd]
      · rw [if_neg hd] at h' ⊢
        rw [if_neg hd]
        exact listLoop_budget E share reply.sid j k _ s1 h'
    · rw [M.bind_fails hop ho, M.bind_fails hop ho]
  show M.map' _ _ _ = M.map' _ _ _
  rw [map_outcome, map_outcome, hd]

example : runOp (Demo.dirEnv true 5 Demo.twoPages) (.list 100 Demo.share ['*']) Demo.dirSt =
    runOp (Demo.dirEnv true 5 Demo.twoPages) (.list 1 Demo.share ['*']) Demo.dirSt :=
  C79_budget 1 100 (by decide) _ _ _ (by
    obtain ⟨ds, h⟩ := Demo.isEntries_of (o := (runOp (Demo.dirEnv true 5 Demo.twoPages) (.list 1 Demo.share ['*']) Demo.dirSt).1) (by decide +kernel)
    rw [h]; exact nofun)

/-! ## What a long listing has received -/

theorem continuing_mono {V : Server σ} {quit quit' : Prop} (hq : quit → quit') {tid sid : Nat} {v v' : σ} {b : Bytes} {got : List DirInfo}
    {reqs : List Bytes} {pages : List (List DirInfo)} {r : Option (List DirInfo)} (h : Continuing V quit tid sid v b got reqs pages r v') :
    Continuing V quit' tid sid v b got reqs pages r v' := by
  induction h with
  | stop h => exact .stop (hq h) _ _ _
  | long h1 h2 => exact .long h1 h2
  | failed h1 h2 h3 => exact .failed h1 h2 h3
  | ended h1 h2 h3 h4 => exact .ended h1 h2 h3 h4
  | more h1 h2 h3 h4 _ ih => exact .more h1 h2 h3 h4 ih

theorem listing_mono {V : Server σ} {quit quit' : Prop} (hq : quit → quit') {tid : Nat} {pattern : Str} {v v' : σ} {b : Bytes} {reqs : List Bytes}
    {sid : Option Nat} {pages : List (List DirInfo)} {r : Option (List DirInfo)} (h : Listing V quit tid pattern v b reqs sid pages r v') :
    Listing V quit' tid pattern v b reqs sid pages r v' := by
  cases h with
  | none h => exact .none (h.imp hq id) _ _
  | failed h1 h2 => exact .failed h1 h2
  | ended h1 h2 h3 => exact .ended h1 h2 h3
  | more h1 h2 h3 h4 => exact .more h1 h2 h3 (continuing_mono hq h4)

theorem continuing_pages {V : Server σ} {quit : Prop} {tid sid : Nat} {v v' : σ} {b : Bytes} {got : List DirInfo}
    {reqs : List Bytes} {pages : List (List DirInfo)} {r : Option (List DirInfo)} (h : Continuing V quit tid sid v b got reqs pages r v')
    (hr : r = none) : [] ∉ pages := by
  induction h with
  | stop => simp
  | long => simp
  | failed => simp
  | ended => cases hr
  | more _ _ _ hp _ ih =>
    have := hp.2.2
    simp at this
    simp [ih hr, Ne.symm this]

/-- A listing that does not come to its end has got no empty page. -/
theorem listing_pages {V : Server σ} {quit : Prop} {tid : Nat} {pattern : Str} {v v' : σ} {b : Bytes} {reqs : List Bytes}
    {sid : Option Nat} {pages : List (List DirInfo)} (h : Listing V quit tid pattern v b reqs sid pages none v') : [] ∉ pages := by
  cases h with
  | none => simp
  | failed => simp
  | more _ _ hp hs =>
    have := hp.2.2
    simp at this
    simp [continuing_pages hs rfl, Ne.symm this]

theorem entries_length_ge (l : List (List DirInfo)) (h : [] ∉ l) : l.length ≤ l.flatten.length := by
  induction l with
  | nil => simp
  | cons c l ih =>
    have h1 : c ≠ [] := fun e => h (by simp [e])
    have h2 := ih (fun e => h (by simp [e]))
    have : 0 < c.length := List.length_pos_iff.mpr h1
    rw [List.flatten_cons, List.length_append, List.length_cons]; omega

/-- **C79**, as far as it holds (`_partial`: see `C79_violated`): a listing that is not over after `k` rounds has received `k + 1` pages. None of them
is empty, so these are more than `k` entries. -/
theorem C79_partial (hlog : Logs E.V log) (k : Nat) (share : Share) (pattern : Str) (s : St σ) (hrun : (runOp E (.list k share pattern) s).1 = .running) :
    ∃ reqs sid pages, Listing E.V True share.tid.toNat pattern s.w.srv s.w.inbox.flatten reqs (some sid) pages none
        (runOp E (.list k share pattern) s).2.w.srv ∧
      log (runOp E (.list k share pattern) s).2.w.srv = log s.w.srv ++ reqs ∧ pages.length = k + 1 ∧ [] ∉ pages ∧ k < pages.flatten.length := by
  obtain ⟨reqs, sid, pages, r, h1, h2, h3, h4⟩ := C44_course hlog k share pattern s
  obtain ⟨h5, h6⟩ := h4 hrun
  have hr0 : r = none := by
    cases r with
    | none => rfl
    | some d => have := (h3 d).mpr rfl; rw [hrun] at this; cases this
  subst hr0
  cases sid with
  | none => exact absurd rfl h5
  | some sid =>
    have hp := listing_pages h1
    have := entries_length_ge pages hp
    exact ⟨reqs, sid, pages, listing_mono (fun _ => trivial) h1, h2, h6, hp, by omega⟩

/-- **C79** From a server that does not send more than `n` entries in the course of the search, a listing ends within `n` rounds. -/
theorem C79_finite_partial (hlog : Logs E.V log) (n : Nat) (share : Share) (pattern : Str) (s : St σ)
    (hn : ∀ reqs sid pages v', Listing E.V True share.tid.toNat pattern s.w.srv s.w.inbox.flatten reqs (some sid) pages none v' → pages.flatten.length ≤ n)
    (k : Nat) (hk : n ≤ k) : (runOp E (.list k share pattern) s).1 ≠ .running := fun hrun => by
  obtain ⟨reqs, sid, pages, h1, _, _, _, h2⟩ := C79_partial hlog k share pattern s hrun
  have := hn _ _ _ _ h1
  omega

/-- A server that answers with nothing sends no entries, and the listing ends at once. -/
example (checked : Bool) (k : Nat) (s : St (List Bytes)) (hs : s.w.inbox = []) :
    (runOp { V := silent, C := Demo.crypto, checked := checked, now := 0, random := [1, 2, 3, 4, 5, 6, 7, 8], random_len := rfl }
      (.list k Demo.share ['*']) s).1 ≠ .running :=
  C79_finite_partial (log := id) silent_logs 0 _ _ _ (fun reqs sid pages v' h => by
    rw [hs] at h
    have none : ∀ v req P D v' b', ¬ SearchRound silent v [] req P D v' b' := by
      rintro v req P D v' b' ⟨_, mid, l, _, hp, hc, _⟩
      cases hp with
      | nil => exact hc.1 rfl
      | cons h => exact awaits_nil h
    cases h with
    | more _ hr => exact absurd hr (none _ _ _ _ _ _)) k (Nat.zero_le _)

/-! ## Builds with overflow checks -/

theorem send_ids {m : Msg} {s s1 : St σ} {mid : UInt16} (h : send E m s = (.ok mid, s1)) : ¬ (E.checked = true ∧ s.cli.mid.toNat = 65535) := by
  rcases send_cases E m s with ⟨_, _, h'⟩ | ⟨h', _⟩
  · rw [h] at h'; cases h'
  · exact h'

theorem bump_mid {s s1 : St σ} (hc : s1.cli = s.bump.cli) (hE : E.checked = true) (h : ¬ (E.checked = true ∧ s.cli.mid.toNat = 65535)) :
    s1.cli.mid.toNat = s.cli.mid.toNat + 1 := by
  have := s.cli.mid.toNat_lt
  rw [hc]
  refine toNat_add16 _ 1 ?_
  have : s.cli.mid.toNat ≠ 65535 := fun h' => h ⟨hE, h'⟩
  omega

theorem search_mid {α : Type} {tid : UInt16} {c : SubCmd2} {sub : SubReply2 α} {s s1 : St σ} {a : α} (hE : E.checked = true)
    (h : transact2 E tid c sub s = (.ok a, s1)) : s1.cli.mid.toNat = s.cli.mid.toNat + 1 := by
  obtain ⟨mid, s0, h1, _⟩ := M.bind_inv (show (send E (transact2Msg tid c) >>= fun mid => collect E sub mid) s = _ from h)
  exact bump_mid (search_cli h) hE (send_ids h1)

theorem command_mid {α : Type} {m : Msg} (hk : KeepsMid m) {R : Reply α} {s s1 : St σ} {a : α} (hE : E.checked = true)
    (h : command E m R s = (.ok a, s1)) : s1.cli.mid.toNat = s.cli.mid.toNat + 1 := by
  obtain ⟨mid, s0, h1, _⟩ := M.bind_inv (show (send E m >>= fun mid => recv E R mid) s = _ from h)
  obtain ⟨_, _, _, _, _, _, _, _, hc⟩ := command_ok hk R h
  exact bump_mid hc hE (send_ids h1)

theorem listLoop_ids (hE : E.checked = true) (share : Share) (sid : UInt16) (k : Nat) : ∀ (got : List DirInfo) (s : St σ),
    (listLoop E share sid k got s).1 = .running → s.cli.mid.toNat + k ≤ 65535 := by
  induction k with
  | zero => intro got s _; have := s.cli.mid.toNat_lt; omega
  | succ k ih =>
    intro got s h
    rw [listLoop] at h
    cases hl : got.getLast? with
    | none => rw [hl] at h; cases h
    | some last =>
      rw [hl] at h
      dsimp only at h
      rcases hr : findNext E share sid last.filename s with ⟨o, s1⟩
      rcases out_cases o with ⟨reply, rfl⟩ | ho
      · rw [M.bind_ok hr] at h
        have hm := search_mid hE (show transact2 E _ _ _ s = _ from hr)
        by_cases hd : reply.done = true
        · rw [if_pos hd] at h; cases h
        · rw [if_neg hd] at h
          have := ih _ _ h
          omega
      · exfalso
        have hs : (runOp E (.findNext share sid last.filename) s).1 ≠ .running := C08_call E _ rfl s
        rw [M.bind_fails hr ho] at h
        have e : runOp E (.findNext share sid last.filename) s = _ := map_outcome Val.next (findNext E share sid last.filename) s
        rw [e, hr] at hs
        cases o <;> simp_all [Out.recast, Out.Fails]

theorem downloadLoop_ids (hE : E.checked = true) (file : Handle) (k : Nat) : ∀ (data : Bytes) (s : St σ),
    (downloadLoop E file k data s).1 = .running → s.cli.mid.toNat + k ≤ 65535 := by
  induction k with
  | zero => intro got s _; have := s.cli.mid.toNat_lt; omega
  | succ k ih =>
    intro data s h
    by_cases hl : data.length < file.size.toNat
    · rw [downloadLoop, if_pos hl] at h
      rcases hr : read E file (UInt64.ofNat data.length) s with ⟨o, s1⟩
      rcases out_cases o with ⟨chunk, rfl⟩ | ho
      · rw [M.bind_ok hr] at h
        have hm := command_mid (keepsMid_setTid _ _ rfl) hE (show command E _ _ s = _ from hr)
        have := ih _ _ h
        omega
      · exfalso
        have hs : (runOp E (.read file (UInt64.ofNat data.length)) s).1 ≠ .running := C08_call E _ rfl s
        rw [M.bind_fails hr ho] at h
        have e : runOp E (.read file (UInt64.ofNat data.length)) s = _ := map_outcome Val.bytes (read E file (UInt64.ofNat data.length)) s
        rw [e, hr] at hs
        cases o <;> simp_all [Out.recast, Out.Fails]
    · rw [downloadLoop, if_neg hl] at h; cases h

/-- In a build with overflow checks, a listing ends: it makes at most 65535 requests. -/
theorem C79_checked_partial (hE : E.checked = true) (k : Nat) (share : Share) (pattern : Str) (s : St σ) (hk : 65535 ≤ s.cli.mid.toNat + k) :
    (runOp E (.list k share pattern) s).1 ≠ .running := fun hrun => by
  rw [(runOp_list E k share pattern s).2.2.1] at hrun
  have e : list E k share pattern = (findFirst E share pattern >>= fun reply =>
    if reply.done then pure reply.info else listLoop E share reply.sid k reply.info) := rfl
  rw [e] at hrun
  rcases hr : findFirst E share pattern s with ⟨o, s1⟩
  rcases out_cases o with ⟨reply, rfl⟩ | ho
  · rw [M.bind_ok hr] at hrun
    have hm := search_mid hE (show transact2 E _ _ _ s = _ from hr)
    by_cases hd : reply.done = true
    · rw [if_pos hd] at hrun; cases hrun
    · rw [if_neg hd] at hrun
      have := listLoop_ids hE share reply.sid k _ _ hrun
      omega
  · have hs : (runOp E (.findFirst share pattern) s).1 ≠ .running := C08_call E _ rfl s
    rw [M.bind_fails hr ho] at hrun
    have e : runOp E (.findFirst share pattern) s = _ := map_outcome Val.first (findFirst E share pattern) s
    rw [e, hr] at hs
    cases o <;> simp_all [Out.recast, Out.Fails]

/-- In a build with overflow checks, a download ends, whatever the server sends. -/
theorem C41_checked_partial (hE : E.checked = true) (k : Nat) (share : Share) (path : Str) (s : St σ) (hk : 65535 ≤ s.cli.mid.toNat + k) :
    (runOp E (.download k share path) s).1 ≠ .running := fun hrun => by
  rw [(runOp_download E k share path s).2.2.1] at hrun
  have e : download E k share path = (openfile E share path >>= fun file => downloadLoop E file k [] >>= fun data => close E file >>= fun _ => pure data) := rfl
  rw [e] at hrun
  have stops : ∀ {α : Type} (f : α → Val) (op : Op) (m : CM σ α) (s s1 : St σ) (o : Out Error α), runOp E op = M.map' f m → single op = true →
      m s = (o, s1) → o ≠ .running := by
    intro α f op m s s1 o h1 h2 h3 h4
    have hs := C08_call E op h2 s
    rw [h1, map_outcome, h3, h4] at hs
    exact hs rfl
  rcases hr : openfile E share path s with ⟨o, s1⟩
  rcases out_cases o with ⟨file, rfl⟩ | ho
  · rw [M.bind_ok hr] at hrun
    have hm := command_mid (keepsMid_setTid _ _ rfl) hE (show command E _ _ s = _ from hr)
    rcases hl : downloadLoop E file k [] s1 with ⟨o, s2⟩
    rcases out_cases o with ⟨data, rfl⟩ | ho
    · rw [M.bind_ok hl] at hrun
      rcases hc : close E file s2 with ⟨o, s3⟩
      rcases out_cases o with ⟨_, rfl⟩ | ho
      · rw [M.bind_ok hc] at hrun; cases hrun
      · rw [M.bind_fails hc ho] at hrun
        have := stops _ (.close file) _ s2 s3 o rfl rfl hc
        cases o <;> simp_all [Out.recast, Out.Fails]
    · rw [M.bind_fails hl ho] at hrun
      have : (downloadLoop E file k [] s1).1 = .running := by
        rw [hl]
        cases o <;> simp_all [Out.recast, Out.Fails]
      have := downloadLoop_ids hE file k _ _ this
      omega
  · rw [M.bind_fails hr ho] at hrun
    have := stops _ (.openfile share path) _ s s1 o rfl rfl hr
    cases o <;> simp_all [Out.recast, Out.Fails]

example (s : St (Unit × List Bytes)) : (runOp (Demo.fileEnv true 1 (fun _ => some [])) (.download 65535 Demo.share ['a']) s).1 ≠ .running :=
  C41_checked_partial rfl _ _ _ _ (by omega)

/-! ## A server that never comes to the end -/

/-- An entry. -/
def Demo.again : C36_Record := ⟨3, 1, 2, 3, 4, 5, 6, 7, ['a'], [0x61, 0], []⟩

/-- A server that answers each request of a search with one entry, and never marks the last one. -/
def Demo.endlessServer : Server Nat where
  react := fun k req => (k + 1, [message (dirReply req (pageParams 5 [[again], [again], [again]] (min k 1)) (C36_measured [again]))])
  tail := fun _ => .eof

def Demo.endlessEnv (checked : Bool) : Env (Nat × List Bytes) where
  V := logged endlessServer
  C := crypto
  checked := checked
  now := 13370000000000000000
  random := [1, 2, 3, 4, 5, 6, 7, 8]
  random_len := rfl

theorem Demo.reply_page {τ : Type} (V : Server τ) (v : τ × List Bytes) (req P D : Bytes) (hw : ∃ n, wordCountOf req = some n) (hP : P.length ≤ 10)
    (hD : D.length < 65526) (h : (V.react v.1 req).2.flatten = message (dirReply req P D)) : ServesPage (logged V) (fun _ => True) v req P D := by
  obtain ⟨mid, hm⟩ := has_mid hw.choose_spec
  have hg := reply_genuine req .Transact2 (.Known .SUCCESS) (putU16 (UInt16.ofNat P.length) ++ putU16 (UInt16.ofNat D.length)
    ++ putU16 0 ++ putU16 (UInt16.ofNat P.length) ++ putU16 55 ++ putU16 0 ++ putU16 (UInt16.ofNat D.length) ++
    putU16 (UInt16.ofNat (55 + P.length)) ++ putU16 0 ++ [0, 0]) (P ++ D) ⟨mid, hm⟩
  refine ⟨mid, [whole P D], hm, ?_, cuts_whole _ _, fun pre post P' D' e hne hc => ?_⟩
  · have := Brought.cons (own := fun _ => True) (mid := mid) (b := []) (f := dirReply req P D) (rest := [])
      .nil (frame_short _ _ _ (by show 20 ≤ 100; decide) (by simp only [List.length_append]; omega)) hg.1 (hg.2.trans hm)
      (dirReply_brings req _ _ (by omega) (by omega)) (.nil .nil)
    show Brought _ mid (V.react v.1 req).2.flatten _
    rw [h]
    simpa using this
  · cases pre with
    | nil => exact hc.1 rfl
    | cons x pre =>
      simp at e
      exact hne e.2.2

theorem Demo.again_fits : again.Fits :=
  ⟨by decide, by decide, by decide, by decide, by decide, by decide, (decode_ok_iff () _ _).mp (by decide +kernel)⟩

/-- The entry that the server sends again and again. -/
def Demo.endlessEntries : List DirInfo := [again].map C36_Record.info

theorem Demo.endless_first (v : Nat × List Bytes) (hv : v.1 = 0) (req : Bytes) (hw : ∃ n, wordCountOf req = some n) :
    ∃ P D, ServesPage (logged endlessServer) (fun _ => True) v req P D ∧ FirstPage P D 5 false endlessEntries := by
  refine ⟨pageParams 5 [[again], [again], [again]] 0, C36_measured [again], reply_page _ _ _ _ _ hw (by decide) (by decide +kernel) ?_,
    pageParams_first 5 [[again], [again], [again]] _ rfl (by decide), listed_zero (measured_listed (C37_all _ ((by simpa using again_fits)))), .inr (by simp [endlessEntries])⟩
  rw [hv]
  exact List.append_nil _

theorem Demo.endless_next (v : Nat × List Bytes) (hv : 0 < v.1) (req : Bytes) (hw : ∃ n, wordCountOf req = some n) :
    ∃ P D, ServesPage (logged endlessServer) (fun _ => True) v req P D ∧ NextPage P D false endlessEntries := by
  refine ⟨pageParams 5 [[again], [again], [again]] 1, C36_measured [again], reply_page _ _ _ _ _ hw (by decide) (by decide +kernel) ?_,
    pageParams_next 5 [[again], [again], [again]] 1 (by decide) _ rfl (by decide), measured_listed (C37_all _ ((by simpa using again_fits))), .inr (by simp [endlessEntries])⟩
  show ([message (dirReply req (pageParams 5 [[again], [again], [again]] (min v.1 1)) _)]).flatten = _
  rw [Nat.min_eq_right hv]
  exact List.append_nil _

theorem Demo.endless_loop (k : Nat) : ∀ (got : List DirInfo) (s : St (Nat × List Bytes)), 0 < s.w.srv.1 →
    got.getLast? = endlessEntries.getLast? → Accepting s.w.wsched → Foreign (fun _ => True) s.w.inbox.flatten →
    (listLoop (endlessEnv false) share 5 k got s).1 = .running := by
  induction k with
  | zero => intro _ _ _ _ _ _; rfl
  | succ k ih =>
    intro got s hv hg hw hb
    obtain ⟨last, hl, hn⟩ : ∃ last, endlessEntries.getLast? = some last ∧ utf16Len last.filename ≤ 32725 := ⟨_, rfl, by decide +kernel⟩
    obtain ⟨fr, hfr⟩ := first_fits s.cli (.findNext share 5 last.filename) hn
    obtain ⟨_, _, ps, ht, _⟩ := nextRequest hfr
    obtain ⟨P, D, h1, h2⟩ := endless_next s.w.srv hv _ ⟨_, ht.words⟩
    obtain ⟨s1, g1, g2, g3, g4⟩ := transact2_serves (E := endlessEnv false) (n := 0) findNext2Parse ⟨hw, hb, fun _ _ => trivial, nofun⟩ hfr h1
      (((findNext_parse P D).1 { done := _, info := _ }).mpr h2)
    rw [listLoop, hg, hl]
    dsimp only
    rw [M.bind_ok (show findNext _ share 5 last.filename s = _ from g1), if_neg nofun]
    refine ih _ s1 (by rw [g3]; exact Nat.succ_pos _) ?_ g4.writes g4.unread
    rw [List.getLast?_append]; rfl

/-- **C79** is violated: from a server that sends further entries for ever, a listing (in a release build) never ends. -/
theorem C79_violated : ∃ (σ : Type) (E : Env σ) (s : St σ), Accepting s.w.wsched ∧ E.checked = false ∧
    ∀ budget, (runOp E (.list budget Demo.share ['*']) s).1 = .running := by
  refine ⟨_, Demo.endlessEnv false, Demo.dirSt, Demo.accepting_fileSt, rfl, fun k => ?_⟩
  rw [(runOp_list _ _ _ _ _).2.2.1]
  obtain ⟨fr, hfr⟩ := first_fits Demo.dirSt.cli (.findFirst Demo.share ['*']) (by show utf16Len ['*'] ≤ 32725; decide)
  obtain ⟨_, _, ps, ht, _⟩ := firstRequest hfr
  obtain ⟨P, D, h1, h2⟩ := Demo.endless_first Demo.dirSt.w.srv rfl _ ⟨_, ht.words⟩
  obtain ⟨s1, g1, g2, g3, g4⟩ := transact2_serves (E := Demo.endlessEnv false) (n := 0) findFirst2Parse
    ⟨Demo.accepting_fileSt, .nil, fun _ _ => trivial, nofun⟩ hfr h1 (((findFirst_parse P D).1 { sid := 5, done := _, info := _ }).mpr h2)
  have he : list (Demo.endlessEnv false) k Demo.share ['*'] = (findFirst _ Demo.share ['*'] >>= fun reply =>
    if reply.done then pure reply.info else listLoop (Demo.endlessEnv false) Demo.share reply.sid k reply.info) := rfl
  rw [he, M.bind_ok (show findFirst _ _ _ _ = _ from g1), if_neg nofun]
  exact Demo.endless_loop k _ s1 (by rw [g3]; exact Nat.succ_pos _) rfl g4.writes g4.unread

/-- `C79_partial` is about something: a listing that is not over. -/
example : ∃ pages : List (List DirInfo), pages.length = 4 ∧ 3 < pages.flatten.length ∧ ∃ reqs sid v', Listing (Demo.endlessEnv true).V True
    Demo.share.tid.toNat ['*'] (0, []) [] reqs (some sid) pages none v' := by
  obtain ⟨reqs, sid, pages, h1, _, h2, _, h3⟩ := C79_partial (E := Demo.endlessEnv true) (logs_logged _) 3 Demo.share ['*'] Demo.dirSt
    (Demo.isRunning_of (by decide +kernel))
  exact ⟨pages, h2, h3, reqs, sid, _, h1⟩

/-- In a build with overflow checks, the listing ends even then. -/
example (s : St (Nat × List Bytes)) : (runOp (Demo.endlessEnv true) (.list 65535 Demo.share ['*']) s).1 ≠ .running :=
  C79_checked_partial rfl _ _ _ _ (by omega)

end Cifs
