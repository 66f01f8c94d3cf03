import Verif.Props.Strange
/-!
# Listings of more than one page

`C37_exactly` says which further pages `find_next` refuses. `list` fails with the page, so a directory that needs two pages cannot be listed on a server
that marks the last entry of a page with the distance 0.
-/

namespace Cifs

open Spec

variable {σ : Type} {E : Env σ} {log : σ → List Bytes}

/-- **C37 violated** A listing fails if the first page is not the last one and the next page, which conforms to the protocol, marks its last entry with the
distance 0. -/
theorem C37_violated_list (hlog : Logs E.V log) {k : Nat} {share : Share} {pattern : Str} {s s1 : St σ} {r : FindFirst2} {d : DirInfo}
    (h1 : runOp E (.findFirst share pattern) s = (.ok (.first r), s1)) (hdone : r.done = false) (hlast : r.info.getLast? = some d)
    {l : List Piece} {rest P D : Bytes} (h : Searched E log (.findNext share r.sid d.filename) s1 l rest) (hc : Cuts l P D)
    {ended : Bool} {ds : List DirInfo} (hp : IsNextParams P ds.length ended) (hd : Entries D ds) (he : ended = true ∨ ds ≠ []) (hm : ¬ Measured D ds) :
    ∃ e, (runOp E (.list (k + 1) share pattern) s).1 = .err (.SMBError e) := by
  obtain ⟨e, h2⟩ := (C37_exactly hlog h hc hp hd he).2 hm
  refine ⟨e, ?_⟩
  obtain ⟨r', h1, hr⟩ := map'_ok_inv (show M.map' Val.first (findFirst E share pattern) s = _ from h1)
  cases hr
  rcases hn : runOp E (.findNext share r.sid d.filename) s1 with ⟨o, s2⟩
  rw [hn] at h2
  have h2 : o = .err (.SMBError e) := h2
  rw [h2] at hn
  have hn := map'_err_inv (show M.map' Val.next (findNext E share r.sid d.filename) s1 = _ from hn)
  have hl : list E (k + 1) share pattern s = (.err (.SMBError e), s2) := by
    have e1 : list E (k + 1) share pattern = (findFirst E share pattern >>= fun reply =>
      if reply.done then pure reply.info else listLoop E share reply.sid (k + 1) reply.info) := rfl
    rw [e1, M.bind_ok h1, if_neg (by rw [hdone]; decide)]
    show (match r.info.getLast? with
      | none => (fun s => (.panic, s) : CM σ (List DirInfo))
      | some last => (findNext E share r.sid last.filename >>= fun reply =>
        if reply.done then pure (r.info ++ reply.info) else listLoop E share r.sid k (r.info ++ reply.info))) s1 = _
    rw [hlast]
    exact M.bind_err hn
  show (M.map' Val.entries (list E (k + 1) share pattern) s).1 = _
  rw [map'_err hl]

namespace Demo

/-- The second request of a session. -/
theorem searchedAt {B : Bytes → Piece → Prop} (s : St (List (List Bytes) × List Bytes)) (hm : s.cli.mid = 7) (ha : Accepting s.w.wsched)
    (hi : s.w.inbox.flatten = []) {b rest : Bytes} (hb : s.w.srv.1 = [[b]]) (op : Op) (hs : single op = true) (hf : sendableIn s.cli op.first = true)
    {l : List Piece} (h : Pieces B 7 b l rest) : SearchedBy B (env true) Prod.snd op s l rest := by
  unfold sendableIn at hf
  cases hr : requestFrame s.cli op.first with
  | err e => rw [hr] at hf; cases hf
  | panic => rw [hr] at hf; cases hf
  | ok f =>
    rw [hr] at hf
    obtain ⟨ws, ib, _, h'⟩ := runOp_single_sends (env true) op hs s f (by intro h; exact absurd h.2 (by simp [hm])) hr (of_decide_eq_true hf) ha
    refine ⟨message f, 7, by rw [h']; rfl, ?_, ?_⟩
    · rw [requestFrame_mid (sends_keepsMid (first_sent op hs)) hr, hm]; rfl
    have e : s.w.inbox.flatten ++ ((env true).V.react s.w.srv (message f)).2.flatten = b := by
      rw [hi]
      show [] ++ (List.headD s.w.srv.1 []).flatten = _
      rw [hb]; simp
    rw [e]
    exact h

/-- A client before its sixth request. -/
def cliSix : Cli := { cli with mid := 6 }

/-- The first page, saying that there are more. -/
def firstOfTwo : Bytes := reply .Transact2 6 (pieceParams 10 55 0 70 65 0) ([5, 0, 1, 0, 0, 0, 0, 0, 0, 0] ++ entryBytes)

/-- The session: two pages, each as the protocol says. -/
def zeroPages : St (List (List Bytes) × List Bytes) := stOf cliSix [[message firstOfTwo], [message (nextReply entryBytes)]]

/-- The state after the first page. -/
def afterFirst : St (List (List Bytes) × List Bytes) := (runOp (env true) search zeroPages).2

theorem firstPage : runOp (env true) search zeroPages = (.ok (.first { sid := 5, done := false, info := [cat] }), afterFirst) := by
  have h : (runOp (env true) search zeroPages).1 = .ok (.first { sid := 5, done := false, info := [cat] }) := by decide +kernel
  unfold afterFirst
  generalize runOp (env true) search zeroPages = x at h
  obtain ⟨o, s⟩ := x
  cases h; rfl

theorem secondPage : Searched (env true) Prod.snd (.findNext share 5 ['c', 'a', 't']) afterFirst [whole nextParams entryBytes] [] := by
  have := step (r := nextReply entryBytes) (ps := pieceParams 10 55 0 70 65 0) (ds := nextParams ++ entryBytes) (b := [])
    (p := whole nextParams entryBytes) (by decide +kernel)
    ⟨10, 55, 70, 65, by decide +kernel, by decide +kernel, by decide +kernel, by decide +kernel, by decide +kernel, by decide +kernel, by decide +kernel,
      by decide +kernel, ⟨by decide, by decide +kernel⟩, ⟨by decide, by decide +kernel⟩⟩ (.nil _)
  rw [List.append_nil] at this
  have hw : afterFirst.w.wsched = [] := by decide +kernel
  exact searchedAt afterFirst (by decide +kernel) (by rw [hw]; intro _ h; cases h) (by decide +kernel) (by decide +kernel) _ rfl (by decide +kernel) this

/-- A directory of two pages on a server that conforms to the protocol. -/
example : ∃ e, (runOp (env true) (.list 9 share ['*']) zeroPages).1 = .err (.SMBError e) :=
  C37_violated_list (logs_logged script) firstPage rfl rfl secondPage (cuts_whole _ _) (ds := [cat]) catNext (.last (by decide +kernel) catIs) (.inl rfl)
    fun h => by
      cases h with
      | more h1 h2 => have : u32At entryBytes 0 = some 0 := by decide +kernel
                      rw [this] at h1; cases h1; omega

end Demo

end Cifs
