import Verif.Props.Listing
import Verif.Props.Store
import Verif.Props.Endless
/-!
# Searches that stay open (C82)

A server keeps a search until its end, if the request that reaches the end has the flag SMB_FIND_CLOSE_AT_EOS; until a request with the flag
SMB_FIND_CLOSE_AFTER_REQUEST; or until SMB_COM_FIND_CLOSE2 ([MS-CIFS] 2.2.6.2.1, 2.2.6.3.1, 2.2.4.48).
-/

namespace Cifs
open Spec

variable {σ : Type} {E : Env σ} {log : σ → List Bytes}

/-- The flags of a request for a page of a search. -/
def C82_Flags (req : Bytes) (n : Nat) : Prop :=
  ∃ ps ds, (IsTransact2 req 1 ps ds ∧ u16At ps 4 = some n) ∨ (IsTransact2 req 2 ps ds ∧ u16At ps 10 = some n)

/-- A request for a page, after which the search is closed if the page is the last one. -/
def C82_AtEnd (req : Bytes) : Prop := ∃ n, C82_Flags req n ∧ n / 2 % 2 = 1

/-- A request after which the search is closed. -/
def C82_Closes (req : Bytes) : Prop := cmdOf req = some 0x34 ∨ ∃ n, C82_Flags req n ∧ n % 2 = 1

theorem first_flags {req : Bytes} {tid : Nat} {pattern : Str} (h : FirstRequest req tid pattern) : C82_AtEnd req ∧ ¬ C82_Closes req := by
  obtain ⟨hc, _, ps, ht, hf⟩ := h
  refine ⟨⟨2, ⟨ps, [], .inl ⟨ht, hf.flags⟩⟩, rfl⟩, ?_⟩
  rintro (h | ⟨n, ⟨ps', ds', ⟨ht', hn⟩ | ⟨ht', hn⟩⟩, ho⟩)
  · rw [hc] at h; cases h
  · obtain ⟨_, rfl⟩ := transact2_unique ht ht'
    cases Option.some.inj (hf.flags.symm.trans hn)
    cases ho
  · obtain ⟨h, _⟩ := transact2_unique ht ht'
    cases h

theorem next_flags {req : Bytes} {tid sid : Nat} {last : Str} (h : NextRequest req tid sid last) : C82_AtEnd req ∧ ¬ C82_Closes req := by
  obtain ⟨hc, _, ps, ht, hf⟩ := h
  refine ⟨⟨2, ⟨ps, [], .inr ⟨ht, hf.flags⟩⟩, rfl⟩, ?_⟩
  rintro (h | ⟨n, ⟨ps', ds', ⟨ht', hn⟩ | ⟨ht', hn⟩⟩, ho⟩)
  · rw [hc] at h; cases h
  · obtain ⟨h, _⟩ := transact2_unique ht ht'
    cases h
  · obtain ⟨_, rfl⟩ := transact2_unique ht ht'
    cases Option.some.inj (hf.flags.symm.trans hn)
    cases ho

/-- The last of the requests got the last page, and the server closes the search with it. -/
def C82_Over (V : Server σ) (reqs : List Bytes) : Prop :=
  ∃ pre req v b P D v' b', reqs = pre ++ [req] ∧ C82_AtEnd req ∧ SearchRound V v b req P D v' b' ∧
    ((∃ sid ds, FirstPage P D sid true ds) ∨ ∃ ds, NextPage P D true ds)

theorem continuing_over {V : Server σ} {quit : Prop} {tid sid : Nat} {v v' : σ} {b : Bytes} {got : List DirInfo} {reqs : List Bytes}
    {pages : List (List DirInfo)} {r : Option (List DirInfo)} (h : Continuing V quit tid sid v b got reqs pages r v') :
    (r ≠ none → C82_Over V reqs) ∧ ∀ req ∈ reqs, ¬ C82_Closes req := by
  induction h with
  | stop => exact ⟨fun h => absurd rfl h, fun _ h => by cases h⟩
  | long => exact ⟨fun h => absurd rfl h, fun _ h => by cases h⟩
  | failed hl hq => exact ⟨fun h => absurd rfl h, fun _ h => by rw [List.mem_singleton] at h; subst h; exact (next_flags hq).2⟩
  | ended hl hq hr hp =>
    exact ⟨fun _ => ⟨[], _, _, _, _, _, _, _, rfl, (next_flags hq).1, hr, .inr ⟨_, hp⟩⟩,
      fun _ h => by rw [List.mem_singleton] at h; subst h; exact (next_flags hq).2⟩
  | more hl hq hr hp hs ih =>
    refine ⟨fun h => ?_, fun x h => ?_⟩
    · obtain ⟨pre, req, v, b, P, D, v', b', e, h⟩ := ih.1 h
      exact ⟨_ :: pre, req, v, b, P, D, v', b', by rw [e]; rfl, h⟩
    · rcases List.mem_cons.mp h with rfl | h
      · exact (next_flags hq).2
      · exact ih.2 x h

theorem listing_over {V : Server σ} {quit : Prop} {tid : Nat} {pattern : Str} {v v' : σ} {b : Bytes} {reqs : List Bytes} {sid : Option Nat}
    {pages : List (List DirInfo)} {r : Option (List DirInfo)} (h : Listing V quit tid pattern v b reqs sid pages r v') :
    (r ≠ none → C82_Over V reqs) ∧ ∀ req ∈ reqs, ¬ C82_Closes req := by
  cases h with
  | none => exact ⟨fun h => absurd rfl h, fun _ h => by cases h⟩
  | failed hq => exact ⟨fun h => absurd rfl h, fun _ h => by rw [List.mem_singleton] at h; subst h; exact (first_flags hq).2⟩
  | ended hq hr hp =>
    exact ⟨fun _ => ⟨[], _, _, _, _, _, _, _, rfl, (first_flags hq).1, hr, .inl ⟨_, _, hp⟩⟩,
      fun _ h => by rw [List.mem_singleton] at h; subst h; exact (first_flags hq).2⟩
  | more hq hr hp hs =>
    have ih := continuing_over hs
    refine ⟨fun h => ?_, fun x h => ?_⟩
    · obtain ⟨pre, req, v, b, P, D, v', b', e, h⟩ := ih.1 h
      exact ⟨_ :: pre, req, v, b, P, D, v', b', by rw [e]; rfl, h⟩
    · rcases List.mem_cons.mp h with rfl | h
      · exact (first_flags hq).2
      · exact ih.2 x h

/-- **C82**, as far as it holds (`_partial`: see `C82_violated`): when a listing returns entries, the server has closed the search, with the last
page. Otherwise no request of the listing closes the search: it stays open unless the server closes it on its own. -/
theorem C82_partial (hlog : Logs E.V log) (k : Nat) (share : Share) (pattern : Str) (s : St σ) :
    ∃ reqs, log (runOp E (.list k share pattern) s).2.w.srv = log s.w.srv ++ reqs ∧
      ((∃ ds, (runOp E (.list k share pattern) s).1 = .ok (.entries ds)) → C82_Over E.V reqs) ∧
      ∀ req ∈ reqs, ¬ C82_Closes req := by
  obtain ⟨reqs, sid, pages, r, h1, h2, h3, _⟩ := C44_course hlog k share pattern s
  refine ⟨reqs, h2, fun ⟨ds, h⟩ => (listing_over h1).1 ?_, (listing_over h1).2⟩
  rw [(h3 ds).mp h]; simp

/-- A server that sends the first page of a search and refuses to go on. -/
def Demo.refusingServer : Server Nat where
  react := fun k req => (k + 1, [message (if k = 0 then Demo.dirReply req (Demo.pageParams 5 Demo.twoPages 0) (C36_measured (Demo.twoPages[0]?.getD []))
    else frameOf (Demo.replyInfo req .Transact2 (.Known .ACCESS_DENIED)) [] [])])
  tail := fun _ => .eof

/-- The environment with it. -/
def Demo.refusingEnv : Env (Nat × List Bytes) where
  V := logged refusingServer
  C := crypto
  checked := true
  now := 13370000000000000000
  random := [1, 2, 3, 4, 5, 6, 7, 8]
  random_len := rfl

/-- Both cases occur: a listing that gets all pages, and one that does not. -/
example : Demo.isEntries (runOp (Demo.dirEnv true 5 Demo.twoPages) (.list 3 Demo.share ['*']) Demo.dirSt).1 = true ∧
    Demo.isDenied (runOp Demo.refusingEnv (.list 3 Demo.share ['*']) Demo.dirSt).1 = true := by decide +kernel

/-- **C82** is violated: the server starts a search with more pages to come, and refuses to send the next one; the call returns the server's error,
and none of its requests closes the search. -/
theorem C82_violated : ∃ (E : Env (Nat × List Bytes)) (s : St (Nat × List Bytes)) (first next : Bytes) (sid : Nat) (ds : List DirInfo) (last : DirInfo),
    (runOp E (.list 3 Demo.share ['*']) s).1 = .err (.ServerError (.Known .ACCESS_DENIED)) ∧
    (runOp E (.list 3 Demo.share ['*']) s).2.w.srv.2 = [first, next] ∧
    FirstRequest first Demo.share.tid.toNat ['*'] ∧
    (∃ P D v' b', SearchRound E.V s.w.srv s.w.inbox.flatten first P D v' b' ∧ FirstPage P D sid false ds) ∧
    ds.getLast? = some last ∧ NextRequest next Demo.share.tid.toNat sid last.filename ∧ ¬ C82_Closes first ∧ ¬ C82_Closes next := by
  have ho : (runOp Demo.refusingEnv (.list 3 Demo.share ['*']) Demo.dirSt).1 = .err (.ServerError (.Known .ACCESS_DENIED)) :=
    Demo.isDenied_of (by decide +kernel)
  have hl : (runOp Demo.refusingEnv (.list 3 Demo.share ['*']) Demo.dirSt).2.w.srv.2.length = 2 := by decide +kernel
  obtain ⟨reqs, sid, pages, r, h1, h2, h3, _⟩ := C44_course (E := Demo.refusingEnv) (logs_logged _) 3 Demo.share ['*'] Demo.dirSt
  have e : (runOp Demo.refusingEnv (.list 3 Demo.share ['*']) Demo.dirSt).2.w.srv.2 = reqs := h2
  have hr : r = none := by
    cases r with
    | none => rfl
    | some ds => have := (h3 ds).mpr rfl; rw [ho] at this; cases this
  rw [e] at hl
  have hc := (listing_over h1).2
  subst hr
  rw [show Demo.dirSt.w.inbox.flatten = [] from rfl] at h1
  generalize (runOp Demo.refusingEnv (.list 3 Demo.share ['*']) Demo.dirSt).2.w.srv = w at h1
  generalize Quits _ _ = q at h1
  clear h2 h3
  cases h1 with
  | none => cases hl
  | failed => cases hl
  | more hq hr hp hs =>
    cases hs with
    | stop => cases hl
    | long => cases hl
    | failed hl' hq' =>
      exact ⟨_, Demo.dirSt, _, _, _, _, _, ho, e, hq, ⟨_, _, _, _, hr, hp⟩, hl', hq', hc _ (by simp), hc _ (by simp)⟩
    | more hl' hq' hr' hp' hs' =>
      cases hs' with
      | stop => exact ⟨_, Demo.dirSt, _, _, _, _, _, ho, e, hq, ⟨_, _, _, _, hr, hp⟩, hl', hq', hc _ (by simp), hc _ (by simp)⟩
      | long => exact ⟨_, Demo.dirSt, _, _, _, _, _, ho, e, hq, ⟨_, _, _, _, hr, hp⟩, hl', hq', hc _ (by simp), hc _ (by simp)⟩
      | failed => cases hl
      | more => cases hl

end Cifs
