import Verif.Lemmas.Listing
import Verif.Lemmas.DemoFiles
import Verif.Props.Download
import Verif.Props.Entries
/-! # C44, C45: listings -/

namespace Cifs
open Spec

variable {σ : Type} {E : Env σ} {log : σ → List Bytes}

namespace Demo

/-- A reply that brings two blocks in one piece. -/
def dirReply (req P D : Bytes) : Bytes :=
  frameOf (replyInfo req .Transact2 (.Known .SUCCESS)) (putU16 (UInt16.ofNat P.length) ++ putU16 (UInt16.ofNat D.length) ++ putU16 0 ++
    putU16 (UInt16.ofNat P.length) ++ putU16 55 ++ putU16 0 ++ putU16 (UInt16.ofNat D.length) ++ putU16 (UInt16.ofNat (55 + P.length)) ++ putU16 0 ++ [0, 0])
    (P ++ D)

/-- The parameter block of page `k`. -/
def pageParams (sid : UInt16) (rss : List (List C36_Record)) (k : Nat) : Bytes :=
  (if k = 0 then putU16 sid else []) ++ putU16 (UInt16.ofNat ((rss[k]?.getD []).length)) ++ putU16 (if rss.length = k + 1 then 1 else 0) ++ [0, 0, 0, 0]

/-- The directory server. It sends each page in two segments, after a keep-alive. -/
def dirServer (sid : UInt16) (rss : List (List C36_Record)) : Server Nat where
  react := fun k req => (k + 1, [keepAlive ++ (message (dirReply req (pageParams sid rss k) (C36_measured (rss[k]?.getD [])))).take 5,
    (message (dirReply req (pageParams sid rss k) (C36_measured (rss[k]?.getD [])))).drop 5])
  tail := fun _ => .eof

theorem dirReply_brings (req P D : Bytes) (h : P.length + D.length < 65536) (hP : P.length ≤ 60000) : Brings (dirReply req P D) (whole P D) := by
  have hs := reply_succeeds req .Transact2 (putU16 (UInt16.ofNat P.length) ++ putU16 (UInt16.ofNat D.length) ++ putU16 0 ++
    putU16 (UInt16.ofNat P.length) ++ putU16 55 ++ putU16 0 ++ putU16 (UInt16.ofNat D.length) ++ putU16 (UInt16.ofNat (55 + P.length)) ++ putU16 0 ++ [0, 0])
    (P ++ D) (by show 20 / 2 < 256; decide) (by show 20 % 2 = 0; decide) (by simp; omega)
  obtain ⟨h1, h2, h3⟩ := hs
  have ho : ∀ n, n < 65536 → (UInt16.ofNat n).toNat = n := fun n hn => by simp; omega
  refine ⟨h1, h2, _, _, h3, P.length, 55, D.length, 55 + P.length, ?_, ?_, ?_, ?_, ?_, ?_, ?_, ?_, ⟨Nat.le_refl _, ?_⟩, ⟨?_, ?_⟩⟩
  · wire; rw [ho _ (by omega)]; rfl
  · wire; rw [ho _ (by omega)]; rfl
  · wire; rw [ho _ (by omega)]
  · wire; rfl
  · wire; rfl
  · wire; rw [ho _ (by omega)]
  · wire; rw [ho _ (by omega)]
  · wire; rfl
  · exact sliceAt_left _ _ _ rfl
  · show 55 ≤ 55 + P.length; omega
  · show sliceAt (P ++ D) (55 + P.length - 55) D.length = some D
    rw [Nat.add_sub_cancel_left]
    have := sliceAt_mid P D [] P.length D.length rfl rfl
    simpa using this

theorem pageParams_first (sid : UInt16) (rss : List (List C36_Record)) (rs : List C36_Record) (h : rss[0]? = some rs) (hl : rs.length < 65536) :
    IsFirstParams (pageParams sid rss 0) sid.toNat rs.length (rss.length == 1) := by
  have ho : (UInt16.ofNat rs.length).toNat = rs.length := by simp; omega
  refine ⟨by show 10 ≤ 10; decide, ?_, ?_, (if rss.length = 1 then 1 else 0 : UInt16).toNat, ?_, ?_⟩
  all_goals try unfold pageParams
  all_goals try rw [if_pos rfl]
  · wire
  · rw [h, Option.getD_some]; wire; rw [ho]
  · wire
  · by_cases h1 : rss.length = 1 <;> simp [h1]

theorem pageParams_next (sid : UInt16) (rss : List (List C36_Record)) (k : Nat) (hk : 0 < k) (rs : List C36_Record) (h : rss[k]? = some rs)
    (hl : rs.length < 65536) : IsNextParams (pageParams sid rss k) rs.length (rss.length == k + 1) := by
  have ho : (UInt16.ofNat rs.length).toNat = rs.length := by simp; omega
  refine ⟨?_, (if rss.length = k + 1 then 1 else 0 : UInt16).toNat, ?_, ?_⟩
  all_goals try unfold pageParams
  all_goals try rw [if_neg (by omega)]
  · rw [h, Option.getD_some]; wire; rw [ho]
  · wire
  · by_cases h1 : rss.length = k + 1 <;> simp [h1]

theorem measured_length (rs : List C36_Record) : rs.length ≤ (C36_measured rs).length := by
  induction rs with
  | nil => simp [C36_measured]
  | cons r rs ih =>
    have := record_length (64 + r.wide.length + r.pad.length) r
    rw [C36_measured, List.length_append, this, List.length_cons]
    omega

/-- The demo server serves any directory, in any pages that fit a reply and are not empty, except perhaps for the last one. -/
theorem serves_dir (own : Nat → Prop) (sid : UInt16) (rss : List (List C36_Record)) (hf : ∀ rs ∈ rss, ∀ r ∈ rs, r.Fits)
    (hl : ∀ rs ∈ rss, (C36_measured rs).length < 65526) (hne : ∀ k rs, rss[k]? = some rs → rs ≠ [] ∨ rss.length = k + 1) (tid : Nat) (pattern : Str) :
    DirServer (logged (dirServer sid rss)) own tid pattern sid.toNat (rss.map fun rs => rs.map C36_Record.info) (fun k v => v.1 = k) := by
  have serve : ∀ k log req rs, rss[k]? = some rs → (∃ n, wordCountOf req = some n) →
      ServesPage (logged (dirServer sid rss)) own (k, log) req (pageParams sid rss k) (C36_measured rs) := by
    intro k log req rs h hw
    obtain ⟨mid, hm⟩ := has_mid hw.choose_spec
    have hlen := hl rs (List.mem_of_getElem? h)
    have hpl : (pageParams sid rss k).length ≤ 10 := by
      unfold pageParams; by_cases h0 : k = 0 <;> simp [h0, putU16, putLE]
    have hg := reply_genuine req .Transact2 (.Known .SUCCESS) (putU16 (UInt16.ofNat (pageParams sid rss k).length) ++ putU16 (UInt16.ofNat (C36_measured rs).length)
      ++ putU16 0 ++ putU16 (UInt16.ofNat (pageParams sid rss k).length) ++ putU16 55 ++ putU16 0 ++ putU16 (UInt16.ofNat (C36_measured rs).length) ++
      putU16 (UInt16.ofNat (55 + (pageParams sid rss k).length)) ++ putU16 0 ++ [0, 0]) (pageParams sid rss k ++ C36_measured rs) ⟨mid, hm⟩
    refine ⟨mid, [whole (pageParams sid rss k) (C36_measured rs)], hm, ?_, cuts_whole _ _, fun pre post P' D' e hne hc => ?_⟩
    · have := Brought.cons (own := own) (mid := mid) (b := keepAlive ++ []) (f := dirReply req (pageParams sid rss k) (C36_measured rs)) (rest := [])
        (.keepAlive .nil) (frame_short _ _ _ (by show 20 ≤ 100; decide) (by simp only [List.length_append]; omega)) hg.1 (hg.2.trans hm)
        (dirReply_brings req _ _ (by omega) (by omega)) (.nil .nil)
      show Brought own mid (List.flatten [keepAlive ++ (message (dirReply req (pageParams sid rss k) (C36_measured (rss[k]?.getD [])))).take 5,
        (message (dirReply req (pageParams sid rss k) (C36_measured (rss[k]?.getD [])))).drop 5]) _
      rw [h, Option.getD_some]
      simpa using this
    · cases pre with
      | nil => exact hc.1 rfl
      | cons x pre =>
        simp at e
        exact hne e.2.2
  have infos : ∀ (k : Nat) ds, (rss.map fun rs => rs.map C36_Record.info)[k]? = some ds → ∃ rs, rss[k]? = some rs ∧ ds = rs.map C36_Record.info := by
    intro k ds h
    rw [List.getElem?_map] at h
    cases hk : rss[k]? with
    | none => rw [hk] at h; cases h
    | some rs => rw [hk] at h; cases h; exact ⟨rs, rfl, rfl⟩
  constructor
  · rintro ⟨k, log⟩ req ds rfl hq h
    obtain ⟨rs, hrs, rfl⟩ := infos _ _ h
    have hm := List.mem_of_getElem? hrs
    have hlen := measured_length rs
    have := hl rs hm
    obtain ⟨_, _, ps, ht, _⟩ := hq
    refine ⟨_, _, serve 0 log req rs hrs ⟨_, ht.words⟩, ⟨?_, listed_zero (measured_listed (C37_all rs (hf rs hm))), ?_⟩, rfl⟩
    · rw [List.length_map, List.length_map]; exact pageParams_first sid rss rs hrs (by omega)
    · rcases hne 0 rs hrs with h | h
      · right; simpa using h
      · left; simp [h]
  · rintro k ⟨k', log⟩ req ds last rfl hk _ hq h
    obtain ⟨rs, hrs, rfl⟩ := infos _ _ h
    have hm := List.mem_of_getElem? hrs
    have hlen := measured_length rs
    have := hl rs hm
    obtain ⟨_, _, ps, ht, _⟩ := hq
    refine ⟨_, _, serve k' log req rs hrs ⟨_, ht.words⟩, ⟨?_, measured_listed (C37_all rs (hf rs hm)), ?_⟩, rfl⟩
    · rw [List.length_map, List.length_map]; exact pageParams_next sid rss k' hk rs hrs (by omega)
    · rcases hne k' rs hrs with h | h
      · right; simpa using h
      · left; simp [h]

/-- The environment with a directory server. -/
def dirEnv (checked : Bool) (sid : UInt16) (rss : List (List C36_Record)) : Env (Nat × List Bytes) where
  V := logged (dirServer sid rss)
  C := crypto
  checked := checked
  now := 13370000000000000000
  random := [1, 2, 3, 4, 5, 6, 7, 8]
  random_len := rfl

/-- A session with the directory server. -/
def dirSt : St (Nat × List Bytes) := { cli := cli, w := { inbox := [], wsched := [.accept 3, .accept 10], out := [], srv := (0, []) } }

end Demo

theorem runOp_list (E : Env σ) (k : Nat) (share : Share) (pattern : Str) (s : St σ) :
    (runOp E (.list k share pattern) s).2 = (list E k share pattern s).2 ∧
    (∀ d, (runOp E (.list k share pattern) s).1 = .ok (.entries d) ↔ (list E k share pattern s).1 = .ok d) ∧
    ((runOp E (.list k share pattern) s).1 = .running ↔ (list E k share pattern s).1 = .running) ∧
    ((runOp E (.list k share pattern) s).1 = .panic ↔ (list E k share pattern s).1 = .panic) := by
  have e : runOp E (.list k share pattern) s = _ := map_outcome Val.entries (list E k share pattern) s
  rw [e]
  refine ⟨rfl, fun d => ?_, ?_, ?_⟩
  all_goals cases (list E k share pattern s).1 <;> simp

/-! ## C44 -/

/-- **C44** Against a server that serves a directory in pages, with any segmentation and any foreign replies in between, a listing returns the
entries of all pages in order. -/
theorem C44_complete {own : Nat → Prop} {share : Share} {pattern : Str} {sid : UInt16} {pages : List (List DirInfo)} {after : Nat → σ → Prop}
    (hs : DirServer E.V own share.tid.toNat pattern sid.toNat pages after) (hne : pages ≠ []) (hn : ∀ ds ∈ pages, ∀ d ∈ ds, utf16Len d.filename ≤ 32725)
    (hp : utf16Len pattern ≤ 32725) (s : St σ) (ha : after 0 s.w.srv) (hr : Ready E own pages.length s) (budget : Nat) (hb : pages.length ≤ budget + 1) :
    (runOp E (.list budget share pattern) s).1 = .ok (.entries pages.flatten) ∧ after pages.length (runOp E (.list budget share pattern) s).2.w.srv := by
  obtain ⟨s', h1, h2⟩ := served_list hs hne hn hp s ha hr budget hb
  obtain ⟨e1, e2, _⟩ := runOp_list E budget share pattern s
  rw [e1, e2, h1]
  exact ⟨rfl, h2⟩

/-- All directories, in pages of any number of entries each. -/
example (checked : Bool) (sid : UInt16) (rss : List (List C36_Record)) (hne : rss ≠ []) (hl : rss.length < 60000) (hf : ∀ rs ∈ rss, ∀ r ∈ rs, r.Fits)
    (hs : ∀ rs ∈ rss, (C36_measured rs).length < 65526) (h0 : ∀ rs ∈ rss, rs ≠ []) (hn : ∀ rs ∈ rss, ∀ r ∈ rs, utf16Len r.name ≤ 32725) :
    (runOp (Demo.dirEnv checked sid rss) (.list rss.length Demo.share ['*']) Demo.dirSt).1 = .ok (.entries (rss.flatten.map C36_Record.info)) := by
  have h := (C44_complete (E := Demo.dirEnv checked sid rss) (Demo.serves_dir (fun _ => True) sid rss hf hs
    (fun k rs h => .inl (h0 rs (List.mem_of_getElem? h))) Demo.share.tid.toNat ['*']) (by simpa using hne) (by
      intro ds h d hd
      obtain ⟨rs, hrs, rfl⟩ := List.mem_map.mp h
      obtain ⟨r, hr, rfl⟩ := List.mem_map.mp hd
      have := hn rs hrs r hr
      show utf16Len r.name ≤ 32725
      omega) (by decide) Demo.dirSt rfl ⟨Demo.accepting_fileSt, .nil, fun _ _ => trivial, fun _ => by
        rw [List.length_map]
        show (7 : UInt16).toNat + rss.length ≤ 65535
        have : (7 : UInt16).toNat = 7 := rfl
        omega⟩ rss.length (by simp)).1
  rw [h, List.map_flatten]

theorem listing_log {V : Server σ} {log : σ → List Bytes} (hlog : Logs V log) {quit : Prop} {tid : Nat} {pattern : Str} {v v' : σ} {b : Bytes}
    {reqs : List Bytes} {sid : Option Nat} {pages : List (List DirInfo)} {r : Option (List DirInfo)}
    (h : Listing V quit tid pattern v b reqs sid pages r v') : log v' = log v ++ reqs := by
  have loop : ∀ {n : Nat} {v v' : σ} {b : Bytes} {got : List DirInfo} {reqs : List Bytes} {pages : List (List DirInfo)} {r : Option (List DirInfo)},
      Continuing V quit tid n v b got reqs pages r v' → log v' = log v ++ reqs := by
    intro n v v' b got reqs pages r h
    induction h with
    | stop => simp
    | long => simp
    | failed => exact hlog _ _
    | ended hl hq hr => rw [hr.1]; exact hlog _ _
    | more hl hq hr hp hs ih => rw [ih, hr.1, hlog]; simp
  cases h with
  | none => simp
  | failed => exact hlog _ _
  | ended hq hr => rw [hr.1]; exact hlog _ _
  | more hq hr hp hs => rw [loop hs, hr.1, hlog]; simp

/-- **C44** Whatever the server does, a listing follows the course `Listing`, and sends exactly the requests of it: it returns entries if and only
if the course does. It gives up on its own only when the socket takes no data, when it panics (multiplex ids used up, or C25), or when the
budget is used up after as many pages. -/
theorem C44_course (hlog : Logs E.V log) (k : Nat) (share : Share) (pattern : Str) (s : St σ) :
    ∃ reqs sid pages r, Listing E.V (Quits s (runOp E (.list k share pattern) s).1) share.tid.toNat pattern s.w.srv s.w.inbox.flatten
        reqs sid pages r (runOp E (.list k share pattern) s).2.w.srv ∧
      log (runOp E (.list k share pattern) s).2.w.srv = log s.w.srv ++ reqs ∧
      (∀ ds, (runOp E (.list k share pattern) s).1 = .ok (.entries ds) ↔ r = some ds) ∧
      ((runOp E (.list k share pattern) s).1 = .running → sid ≠ none ∧ pages.length = k + 1) := by
  obtain ⟨e1, e2, e3, e4⟩ := runOp_list E k share pattern s
  obtain ⟨reqs, sid, pages, r, h1, h2, h3⟩ := list_course E k share pattern s
  have e : Quits s (runOp E (.list k share pattern) s).1 = Quits s (list E k share pattern s).1 := by
    unfold Quits; rw [e3, e4]
  rw [e, e1]
  exact ⟨reqs, sid, pages, r, h1, listing_log hlog h1, fun d => (e2 d).trans (h2 d), fun h => h3 (e3.mp h)⟩

theorem continuing_request {V : Server σ} {quit : Prop} {tid n : Nat} {v v' : σ} {b : Bytes} {got : List DirInfo} {reqs : List Bytes}
    {pages : List (List DirInfo)} {r : Option (List DirInfo)} (h : Continuing V quit tid n v b got reqs pages r v') (i : Nat) (req : Bytes)
    (hq : reqs[i]? = some req) : ∃ last, (got ++ (pages.take i).flatten).getLast? = some last ∧ NextRequest req tid n last.filename := by
  induction h generalizing i with
  | stop => simp at hq
  | long => simp at hq
  | failed hl hq' =>
    cases i with
    | zero => simp at hq; subst hq; exact ⟨_, by simpa using hl, hq'⟩
    | succ i => simp at hq
  | ended hl hq' =>
    cases i with
    | zero => simp at hq; subst hq; exact ⟨_, by simpa using hl, hq'⟩
    | succ i => simp at hq
  | more hl hq' hr hp hs ih =>
    cases i with
    | zero => simp at hq; subst hq; exact ⟨_, by simpa using hl, hq'⟩
    | succ i =>
      obtain ⟨last, h1, h2⟩ := ih i (by simpa using hq)
      exact ⟨last, by simpa using h1, h2⟩

/-- **C44** In particular: after the first request, each request carries the id of the search and the last name received so far. -/
theorem C44_requests {V : Server σ} {quit : Prop} {tid : Nat} {pattern : Str} {v v' : σ} {b : Bytes} {reqs : List Bytes} {sid : Option Nat}
    {pages : List (List DirInfo)} {r : Option (List DirInfo)} (h : Listing V quit tid pattern v b reqs sid pages r v') :
    (∀ req, reqs[0]? = some req → FirstRequest req tid pattern) ∧ ∀ i req, reqs[i + 1]? = some req →
      ∃ n last, sid = some n ∧ (pages.take (i + 1)).flatten.getLast? = some last ∧ NextRequest req tid n last.filename := by
  cases h with
  | none => simp
  | failed hq => refine ⟨fun req h => ?_, fun i req h => ?_⟩ <;> simp at h; subst h; exact hq
  | ended hq => refine ⟨fun req h => ?_, fun i req h => ?_⟩ <;> simp at h; subst h; exact hq
  | more hq hr hp hs =>
    refine ⟨fun req h => ?_, fun i req h => ?_⟩
    · simp at h; subst h; exact hq
    · obtain ⟨last, h1, h2⟩ := continuing_request hs i req (by simpa using h)
      exact ⟨_, last, rfl, by simpa using h1, h2⟩

theorem continuing_result {V : Server σ} {quit : Prop} {tid n : Nat} {v v' : σ} {b : Bytes} {got ds : List DirInfo} {reqs : List Bytes}
    {pages : List (List DirInfo)} (h : Continuing V quit tid n v b got reqs pages (some ds) v') :
    ds = got ++ pages.flatten ∧ pages.length = reqs.length := by
  generalize hr : some ds = r at h
  induction h with
  | stop => cases hr
  | long => cases hr
  | failed => cases hr
  | ended => cases hr; simp
  | more _ _ _ _ _ ih => obtain ⟨h1, h2⟩ := ih hr; simp [h1, h2]

/-- **C44** Entries that are returned are those of all the pages, in order; each request was answered with a page. -/
theorem C44_result {V : Server σ} {quit : Prop} {tid : Nat} {pattern : Str} {v v' : σ} {b : Bytes} {reqs : List Bytes} {sid : Option Nat}
    {pages : List (List DirInfo)} {ds : List DirInfo} (h : Listing V quit tid pattern v b reqs sid pages (some ds) v') :
    ds = pages.flatten ∧ pages.length = reqs.length := by
  cases h with
  | ended => simp
  | more hq hr hp hs => obtain ⟨h1, h2⟩ := continuing_result hs; simp [h1, h2]

theorem searchRound_det {V : Server σ} {v v1 v2 : σ} {b req P D P' D' b1 b2 : Bytes} (h : SearchRound V v b req P D v1 b1)
    (h' : SearchRound V v b req P' D' v2 b2) : P = P' ∧ D = D' ∧ v1 = v2 ∧ b1 = b2 := by
  obtain ⟨rfl, mid, l, h1, h2, h3, h4⟩ := h
  obtain ⟨rfl, mid', l', k1, k2, k3, k4⟩ := h'
  rw [h1] at k1; cases k1
  have : l = l' ∧ b1 = b2 := by
    rcases pieces_split h2 k2 with ⟨post, rfl, hp⟩ | ⟨post, rfl, hp⟩
    · cases post with
      | nil => cases hp; simp
      | cons x post => exact absurd h3 (k4 _ _ _ _ rfl (by simp))
    · cases post with
      | nil => cases hp; simp
      | cons x post => exact absurd k3 (h4 _ _ _ _ rfl (by simp))
  obtain ⟨rfl, rfl⟩ := this
  obtain ⟨rfl, rfl⟩ := cuts_det h3 k3
  exact ⟨rfl, rfl, rfl, rfl⟩

theorem ended_det {e e' : Nat} {x y : Bool} (h : e = e') (hx : x = true ↔ e ≠ 0) (hy : y = true ↔ e' ≠ 0) : x = y := by
  subst h
  have := hx.trans hy.symm
  cases x <;> cases y <;> simp_all

theorem nextPage_det {P D : Bytes} {e e' : Bool} {ds ds' : List DirInfo} (h : NextPage P D e ds) (h' : NextPage P D e' ds') : e = e' ∧ ds = ds' := by
  obtain ⟨⟨_, n, h1, h2⟩, h3, _⟩ := h
  obtain ⟨⟨_, n', k1, k2⟩, k3, _⟩ := h'
  rw [h1] at k1
  exact ⟨ended_det (Option.some.inj k1) h2 k2, listed_det h3 k3⟩

theorem firstPage_det {P D : Bytes} {sid sid' : Nat} {e e' : Bool} {ds ds' : List DirInfo} (h : FirstPage P D sid e ds) (h' : FirstPage P D sid' e' ds') :
    sid = sid' ∧ e = e' ∧ ds = ds' := by
  obtain ⟨⟨_, h0, _, n, h1, h2⟩, h3, _⟩ := h
  obtain ⟨⟨_, k0, _, n', k1, k2⟩, k3, _⟩ := h'
  rw [h1] at k1
  rw [h0] at k0
  exact ⟨Option.some.inj k0, ended_det (Option.some.inj k1) h2 k2, listed_det h3 k3⟩

theorem continuing_det {V : Server σ} {quit : Prop} {tid n : Nat} {v v1 v2 : σ} {b : Bytes} {got : List DirInfo} {reqs : List Bytes}
    {pages pages' : List (List DirInfo)} {r r' : Option (List DirInfo)} (h : Continuing V quit tid n v b got reqs pages r v1)
    (h' : Continuing V quit tid n v b got reqs pages' r' v2) : pages = pages' ∧ r = r' := by
  induction h generalizing pages' with
  | stop => cases h' <;> exact ⟨rfl, rfl⟩
  | long => cases h' <;> exact ⟨rfl, rfl⟩
  | failed hl hq hn =>
    cases h' with
    | failed => exact ⟨rfl, rfl⟩
    | ended hl' hq' hr hp => exact absurd hp (hn _ _ _ _ _ _ hr)
    | more hl' hq' hr hp => exact absurd hp (hn _ _ _ _ _ _ hr)
  | ended hl hq hr hp =>
    cases h' with
    | failed hl' hq' hn => exact absurd hp (hn _ _ _ _ _ _ hr)
    | ended hl' hq' hr' hp' =>
      obtain ⟨rfl, rfl, rfl, rfl⟩ := searchRound_det hr hr'
      obtain ⟨_, rfl⟩ := nextPage_det hp hp'
      exact ⟨rfl, rfl⟩
    | more hl' hq' hr' hp' =>
      obtain ⟨rfl, rfl, rfl, rfl⟩ := searchRound_det hr hr'
      obtain ⟨h, _⟩ := nextPage_det hp hp'
      cases h
  | more hl hq hr hp hs ih =>
    cases h' with
    | failed hl' hq' hn => exact absurd hp (hn _ _ _ _ _ _ hr)
    | ended hl' hq' hr' hp' =>
      obtain ⟨rfl, rfl, rfl, rfl⟩ := searchRound_det hr hr'
      obtain ⟨h, _⟩ := nextPage_det hp hp'
      cases h
    | more hl' hq' hr' hp' hs' =>
      obtain ⟨rfl, rfl, rfl, rfl⟩ := searchRound_det hr hr'
      obtain ⟨_, rfl⟩ := nextPage_det hp hp'
      obtain ⟨rfl, rfl⟩ := ih hs'
      exact ⟨rfl, rfl⟩

/-- **C44** The course is determined by the requests: what the client makes of them depends only on what the server sends. In particular it
stops at exactly the first page that is marked as the end. -/
theorem C44_unique {V : Server σ} {quit : Prop} {tid : Nat} {pattern : Str} {v v1 v2 : σ} {b : Bytes} {reqs : List Bytes} {sid sid' : Option Nat}
    {pages pages' : List (List DirInfo)} {r r' : Option (List DirInfo)} (h : Listing V quit tid pattern v b reqs sid pages r v1)
    (h' : Listing V quit tid pattern v b reqs sid' pages' r' v2) : sid = sid' ∧ pages = pages' ∧ r = r' := by
  cases h with
  | none => cases h'; exact ⟨rfl, rfl, rfl⟩
  | failed hq hn =>
    cases h' with
    | failed => exact ⟨rfl, rfl, rfl⟩
    | ended hq' hr hp => exact absurd hp (hn _ _ _ _ _ _ _ hr)
    | more hq' hr hp => exact absurd hp (hn _ _ _ _ _ _ _ hr)
  | ended hq hr hp =>
    cases h' with
    | failed hq' hn => exact absurd hp (hn _ _ _ _ _ _ _ hr)
    | ended hq' hr' hp' =>
      obtain ⟨rfl, rfl, rfl, rfl⟩ := searchRound_det hr hr'
      obtain ⟨rfl, _, rfl⟩ := firstPage_det hp hp'
      exact ⟨rfl, rfl, rfl⟩
    | more hq' hr' hp' =>
      obtain ⟨rfl, rfl, rfl, rfl⟩ := searchRound_det hr hr'
      obtain ⟨_, h, _⟩ := firstPage_det hp hp'
      cases h
  | more hq hr hp hs =>
    cases h' with
    | failed hq' hn => exact absurd hp (hn _ _ _ _ _ _ _ hr)
    | ended hq' hr' hp' =>
      obtain ⟨rfl, rfl, rfl, rfl⟩ := searchRound_det hr hr'
      obtain ⟨_, h, _⟩ := firstPage_det hp hp'
      cases h
    | more hq' hr' hp' hs' =>
      obtain ⟨rfl, rfl, rfl, rfl⟩ := searchRound_det hr hr'
      obtain ⟨rfl, _, rfl⟩ := firstPage_det hp hp'
      obtain ⟨rfl, rfl⟩ := continuing_det hs hs'
      exact ⟨rfl, rfl, rfl⟩

/-! ## C45 -/

/-- The loop of `list`, but with any outcome `o` in place of the panic of `result.last().unwrap()` (/repo/src/lib.rs:214). -/
def C45_listLoop (o : Out Error (List DirInfo)) (E : Env σ) (share : Share) (sid : UInt16) : Nat → List DirInfo → CM σ (List DirInfo)
  | 0, _ => fun s => (.running, s)
  | k + 1, result =>
    match result.getLast? with
    | none => fun s => (o, s)
    | some last => do
      let reply ← findNext E share sid last.filename
      if reply.done then pure (result ++ reply.info) else C45_listLoop o E share sid k (result ++ reply.info)

/-- `list` with this loop. -/
def C45_list (o : Out Error (List DirInfo)) (E : Env σ) (budget : Nat) (share : Share) (pattern : Str) : CM σ (List DirInfo) := do
  let reply ← findFirst E share pattern
  if reply.done then pure reply.info else C45_listLoop o E share reply.sid budget reply.info

theorem listLoop_unwraps (o : Out Error (List DirInfo)) (E : Env σ) (share : Share) (sid : UInt16) (k : Nat) : ∀ (got : List DirInfo), got ≠ [] →
    listLoop E share sid k got = C45_listLoop o E share sid k got := by
  induction k with
  | zero => intro _ _; rfl
  | succ k ih =>
    intro got hne
    obtain ⟨last, hl⟩ : ∃ last, got.getLast? = some last := by
      rw [List.getLast?_eq_some_getLast hne]; exact ⟨_, rfl⟩
    rw [listLoop, C45_listLoop, hl]
    dsimp only
    congr 1
    funext reply
    split
    · rfl
    · exact ih _ (by simp [hne])

/-- **C45** The unwrap never panics: it makes no difference what it would do in place of panicking. -/
theorem C45_unwrap (o : Out Error (List DirInfo)) (E : Env σ) (k : Nat) (share : Share) (pattern : Str) (s : St σ) :
    list E k share pattern s = C45_list o E k share pattern s := by
  show (findFirst E share pattern >>= fun reply => _) s = (findFirst E share pattern >>= fun reply => _) s
  rcases hr : findFirst E share pattern s with ⟨o', s1⟩
  rcases out_cases o' with ⟨reply, rfl⟩ | ho
  · rw [M.bind_ok hr, M.bind_ok hr]
    have hs := transact2_srv E share.tid (findFirst2Cmd (sanitizePath pattern) (FileAttr.HIDDEN ||| FileAttr.SYSTEM ||| FileAttr.DIRECTORY)) findFirst2Parse s
    rw [show transact2 _ _ _ _ _ = _ from hr] at hs
    rcases hs with ⟨_, h2, _⟩ | ⟨fr, h1, h2, h3, h4⟩
    · exact absurd rfl (h2 reply)
    obtain ⟨P, D, h5, h6⟩ := h3 reply rfl
    have hp := ((findFirst_parse P D).1 reply).mp h6
    rcases hp.2.2 with h | h
    · rw [if_pos h, if_pos h]
    · rw [listLoop_unwraps o E share reply.sid k reply.info h]
  · rw [M.bind_fails hr ho, M.bind_fails hr ho]

/-- Two pages of one entry each. -/
def Demo.twoPages : List (List C36_Record) :=
  [[⟨3, 1, 2, 3, 4, 5, 6, 7, ['a'], [0x61, 0], [0, 0]⟩], [⟨4, 1, 2, 3, 4, 5, 6, 7, ['b'], [0x62, 0], []⟩]]

/-- Are these entries? -/
def Demo.isEntries : Out Error Val → Bool
  | .ok (.entries _) => true
  | _ => false

theorem Demo.isEntries_of {o : Out Error Val} (h : isEntries o = true) : ∃ ds, o = .ok (.entries ds) := by
  unfold isEntries at h; split at h <;> simp_all

/-- The hypotheses of `C44_requests`, `C44_result` and `C44_unique` are met: a listing of two pages. -/
example : ∃ reqs sid pages ds v', Listing (Demo.dirEnv true 5 Demo.twoPages).V (Quits Demo.dirSt
      (runOp (Demo.dirEnv true 5 Demo.twoPages) (.list 3 Demo.share ['*']) Demo.dirSt).1) Demo.share.tid.toNat ['*'] (0, []) [] reqs sid pages (some ds) v' ∧
    reqs.length = 2 := by
  obtain ⟨reqs, sid, pages, r, h1, h2, h3, _⟩ := C44_course (E := Demo.dirEnv true 5 Demo.twoPages) (logs_logged _) 3 Demo.share ['*'] Demo.dirSt
  obtain ⟨ds, hds⟩ : ∃ ds, (runOp (Demo.dirEnv true 5 Demo.twoPages) (.list 3 Demo.share ['*']) Demo.dirSt).1 = .ok (.entries ds) :=
    Demo.isEntries_of (by decide +kernel)
  obtain rfl := (h3 ds).mp hds
  have h2' : reqs = (runOp (Demo.dirEnv true 5 Demo.twoPages) (.list 3 Demo.share ['*']) Demo.dirSt).2.w.srv.2 := h2.symm
  exact ⟨reqs, sid, pages, ds, _, h1, by rw [h2']; decide +kernel⟩

/-- A first page that is empty, but not the last one, is an error, not a panic. -/
example : ∃ e, (runOp (Demo.dirEnv true 5 [[], []]) (.list 3 Demo.share ['*']) Demo.dirSt).1 = .err e := Demo.isErr_of (by decide +kernel)

end Cifs
