import Verif.Lemmas.Gather
import Verif.Lemmas.Entries
import Verif.Lemmas.DemoReplies
/-!
# Properties about the reassembly of split transaction replies (C34, C35)
-/

namespace Cifs
open Spec

variable {σ : Type}

theorem cut_one (b : Bytes) : Cut [(0, b)] b := by
  cases b with
  | nil => exact ⟨[], by simp [fragments], .nil 0⟩
  | cons x b =>
    refine ⟨[(0, x :: b)], by simp [fragments], ?_⟩
    have := Tiling.cons (o := 0) (d := x :: b) (.nil _)
    rwa [List.append_nil] at this

theorem cuts_whole (P D : Bytes) : Cuts [whole P D] P D :=
  ⟨by simp, by intro p hp; cases List.mem_singleton.mp hp; exact ⟨rfl, rfl⟩, cut_one P, cut_one D⟩

/-- **C34** (partial: every message has to place both of its blocks in its data bytes, even an empty one; see `C34_violated`.) However a
search reply is cut into pieces, and in whatever order they arrive, the outcome of the search is that of the reply in one piece. -/
theorem C34_partial {σ' : Type} {E : Env σ} {log : σ → List Bytes} (hlog : Logs E.V log) {E' : Env σ'} {log' : σ' → List Bytes} (hlog' : Logs E'.V log')
    {op : Op} (ho : op.isFind = true) {s : St σ} {s' : St σ'} {l : List Piece} {rest rest' P D : Bytes}
    (h : Searched E log op s l rest) (hc : Cuts l P D) (h' : Searched E' log' op s' [whole P D] rest') :
    (runOp E op s).1 = (runOp E' op s').1 := by
  rw [searched_cuts hlog ho h hc, searched_cuts hlog' ho h' (cuts_whole P D)]

/-- **C34** In particular the order of the pieces and the way of cutting do not matter. -/
theorem C34_order_partial {σ' : Type} {E : Env σ} {log : σ → List Bytes} (hlog : Logs E.V log) {E' : Env σ'} {log' : σ' → List Bytes}
    (hlog' : Logs E'.V log') {op : Op} (ho : op.isFind = true) {s : St σ} {s' : St σ'} {l l' : List Piece} {rest rest' P D : Bytes}
    (h : Searched E log op s l rest) (hc : Cuts l P D) (h' : Searched E' log' op s' l' rest') (hc' : Cuts l' P D) :
    (runOp E op s).1 = (runOp E' op s').1 := by
  rw [searched_cuts hlog ho h hc, searched_cuts hlog' ho h' hc']

/-- A permutation of a cut is a cut. -/
theorem C34_permuted {l l' : List Piece} {P D : Bytes} (h : Cuts l P D) (hp : l.Perm l') : Cuts l' P D := by
  obtain ⟨h0, h1, h2, h3⟩ := h
  refine ⟨fun h => h0 (by subst h; exact hp.eq_nil), fun p hm => h1 p (hp.mem_iff.mpr hm), ?_, ?_⟩
  · obtain ⟨k, hk, ht⟩ := h2
    exact ⟨k, ((hp.map _).filter _).symm.trans hk, ht⟩
  · obtain ⟨k, hk, ht⟩ := h3
    exact ⟨k, ((hp.map _).filter _).symm.trans hk, ht⟩

/-- **C35** If a search succeeds, the replies to it are a cut of a parameter block and a data block: all of them announce the lengths of these
blocks, every fragment is at its displacement, and the fragments tile the blocks without gap or overlap. The result is the one that any server
gets across by sending these blocks in one piece. -/
theorem C35_success {E : Env σ} {log : σ → List Bytes} (hlog : Logs E.V log) {op : Op} (ho : op.isFind = true) {s : St σ} {v : Val}
    (hv : (runOp E op s).1 = .ok v) : ∃ l rest P D, Searched E log op s l rest ∧ Cuts l P D ∧
      ∀ {σ' : Type} {E' : Env σ'} {log' : σ' → List Bytes} (_ : Logs E'.V log') {s' : St σ'} {rest' : Bytes},
        Searched E' log' op s' [whole P D] rest' → (runOp E' op s').1 = .ok v := by
  obtain ⟨l, rest, P, D, h, hc, hp⟩ := searched_of_ok hlog ho hv
  refine ⟨l, rest, P, D, h, hc, fun hlog' _ _ h' => ?_⟩
  rw [searched_cuts hlog' ho h' (cuts_whole P D), hp]
  rfl

/-- **C35** The blocks are determined by the pieces. -/
theorem C35_unique {l : List Piece} {P D P' D' : Bytes} (h : Cuts l P D) (h' : Cuts l P' D') : P = P' ∧ D = D' := cuts_det h h'

theorem tiling_at {o : Nat} {l : List (Nat × Bytes)} {b : Bytes} (h : Tiling o l b) {i : Nat} {d : Bytes} (hm : (i, d) ∈ l) :
    o ≤ i ∧ sliceAt b (i - o) d.length = some d := by
  induction h with
  | nil => cases hm
  | cons h ih =>
    rename_i o d' b l
    rcases List.mem_cons.mp hm with he | hm
    · cases he
      refine ⟨Nat.le_refl _, ?_⟩
      rw [Nat.sub_self]
      exact sliceAt_left _ _ _ rfl
    · obtain ⟨h1, h2⟩ := ih hm
      refine ⟨by omega, ?_⟩
      rw [sliceAt_append_right _ _ _ _ (by omega), show i - o - d'.length = i - (o + d'.length) by omega]
      exact h2

theorem cut_at {l : List (Nat × Bytes)} {b : Bytes} (h : Cut l b) {i : Nat} {d : Bytes} (hm : (i, d) ∈ l) (hne : d ≠ []) :
    sliceAt b i d.length = some d := by
  obtain ⟨l', hp, ht⟩ := h
  have : (i, d) ∈ fragments l := by
    unfold fragments
    rw [List.mem_filter]
    exact ⟨hm, by cases d <;> simp_all⟩
  have := (tiling_at ht (hp.mem_iff.mp this)).2
  simpa using this

/-- **C35** Every fragment of a cut is found at its displacement. -/
theorem C35_displacement {l : List Piece} {P D : Bytes} (h : Cuts l P D) {p : Piece} (hp : p ∈ l) :
    (p.params ≠ [] → sliceAt P p.paramsAt p.params.length = some p.params) ∧ (p.data ≠ [] → sliceAt D p.dataAt p.data.length = some p.data) :=
  ⟨fun hn => cut_at h.2.2.1 (List.mem_map.mpr ⟨p, hp, rfl⟩) hn, fun hn => cut_at h.2.2.2 (List.mem_map.mpr ⟨p, hp, rfl⟩) hn⟩

/-- **C35** Pieces that announce different lengths, or two of which bring bytes for the same displacement, or that bring enough bytes without
being a cut (a gap, an overlap, or too many bytes), make the search fail with the reassembly error. -/
theorem C35_error {E : Env σ} {log : σ → List Bytes} (hlog : Logs E.V log) {op : Op} (ho : op.isFind = true) {s : St σ} {l : List Piece} {rest : Bytes}
    (h : Searched E log op s l rest) (hn : ∀ pre post P D, l = pre ++ post → ¬ Cuts pre P D) (hd : ¬ Agree l ∨ Enough l) :
    ∃ r, (runOp E op s).1 = .err (.SMBError (.Reassemble r)) :=
  searched_bad hlog ho h hn hd

namespace Demo

/-- Is there a reply to the demo request with these parameter and data bytes? -/
def isBody (r ps ds : Bytes) : Bool :=
  decide (r.length ≤ maxPayload) && fits r && cmdOf (message r) == some 0x32 && statusOf (message r) == some 0 && hasBody r ps ds

theorem awaits (r b : Bytes) (hl : r.length ≤ maxPayload) (hr : fits r = true) : Awaits 7 (message r ++ b) r b := by
  unfold fits at hr
  split at hr
  · rename_i i b' hp
    refine ⟨_, .done _, .message r b hl, (C13_accepted_iff _).mp ⟨_, _, hp⟩, ?_⟩
    rw [parse_mid hp]
    have : i.mid = 7 := by simpa using hr
    rw [this]; rfl
  · cases hr

/-- A session of a client of one's choice. -/
def stOf (c : Cli) (answers : List (List Bytes)) : St (List (List Bytes) × List Bytes) := { st answers with cli := c }

/-- Is there a request frame that this client can send? -/
def sendableIn (c : Cli) (m : Msg) : Bool :=
  match requestFrame c m with
  | .ok f => decide (f.length ≤ maxPayload)
  | _ => false

theorem searchedIn {B : Bytes → Piece → Prop} (c : Cli) (hc : c.mid = 7) (op : Op) (hs : single op = true) (hf : sendableIn c op.first = true)
    {b rest : Bytes} {l : List Piece} (h : Pieces B 7 b l rest) : SearchedBy B (env true) Prod.snd op (stOf c [[b]]) l rest := by
  unfold sendableIn at hf
  cases hr : requestFrame c op.first with
  | err e => rw [hr] at hf; cases hf
  | panic => rw [hr] at hf; cases hf
  | ok f =>
    rw [hr] at hf
    have hacc : Accepting (stOf c [[b]]).w.wsched := by intro ev hev; simp [st, stOf] at hev; rcases hev with h | h <;> exact ⟨_, h⟩
    obtain ⟨ws, ib, _, h'⟩ := runOp_single_sends (env true) op hs (stOf c [[b]]) f (by intro h; exact absurd h.2 (by simp [stOf, hc])) hr
      (of_decide_eq_true hf) hacc
    refine ⟨message f, 7, by rw [h']; rfl, ?_, ?_⟩
    · rw [requestFrame_mid (sends_keepsMid (first_sent op hs)) hr, hc]; rfl
    have e : (stOf c [[b]]).w.inbox.flatten ++ ((env true).V.react (stOf c [[b]]).w.srv (message f)).2.flatten = b := by
      show [] ++ List.flatten [b] = _
      simp
    rw [e]
    exact h

theorem searched {B : Bytes → Piece → Prop} (op : Op) (hs : single op = true) (hf : sendable op.first = true) {b rest : Bytes} {l : List Piece}
    (h : Pieces B 7 b l rest) : SearchedBy B (env true) Prod.snd op (st [[b]]) l rest :=
  searchedIn cli rfl op hs hf h

/-- The parameter bytes of a reply that brings a fragment of a 10-byte parameter block and of a 70-byte data block: number of bytes, place,
displacement. -/
def pieceParams (nP atP disP nD atD disD : UInt16) : Bytes :=
  putU16 10 ++ putU16 70 ++ putU16 0 ++ putU16 nP ++ putU16 atP ++ putU16 disP ++ putU16 nD ++ putU16 atD ++ putU16 disD ++ [0, 0]

/-- One directory entry: a file named "cat". -/
def entryBytes : Bytes :=
  putU32 0 ++ putU32 0 ++ putLE 8 116444736000000000 ++ putLE 8 10 ++ putLE 8 20 ++ putLE 8 30 ++ putLE 8 1234 ++ putLE 8 2048 ++ putU32 0x21 ++ putU32 6 ++
    [0x63, 0, 0x61, 0, 0x74, 0]

/-- Search 5, one entry, and that is all. -/
def firstParams : Bytes := [5, 0, 1, 0, 1, 0, 0, 0, 0, 0]

/-- The search. -/
def search : Op := .findFirst share ['*']

/-- The reply in one piece. -/
def wholeReply : Bytes := reply .Transact2 7 (pieceParams 10 55 0 70 65 0) (firstParams ++ entryBytes)

/-- The reply in two pieces: the second one brings the rest of the data block and says that the (empty) rest of the parameter block is at
`atP`. -/
def head : Bytes := reply .Transact2 7 (pieceParams 10 55 0 50 65 0) (firstParams ++ entryBytes.take 50)
def tail (atP : UInt16) : Bytes := reply .Transact2 7 (pieceParams 0 atP 10 20 55 50) (entryBytes.drop 50)

def headPiece : Piece := ⟨firstParams, 0, 10, entryBytes.take 50, 0, 70⟩
def tailPiece : Piece := ⟨[], 10, 10, entryBytes.drop 50, 50, 70⟩

theorem cuts : Cuts [headPiece, tailPiece] firstParams entryBytes := by
  refine ⟨by simp, by decide +kernel, ⟨[(0, firstParams)], by decide +kernel, ?_⟩, ⟨[(0, entryBytes.take 50), (50, entryBytes.drop 50)], by decide +kernel, ?_⟩⟩
  · have := Tiling.cons (o := 0) (d := firstParams) (.nil _)
    rwa [List.append_nil] at this
  · have := Tiling.cons (o := 0) (d := entryBytes.take 50) (Tiling.cons (o := 50) (d := entryBytes.drop 50) (.nil _))
    rwa [List.append_nil, List.take_append_drop] at this

theorem body_of {r ps ds : Bytes} (h : isBody r ps ds = true) :
    r.length ≤ maxPayload ∧ fits r = true ∧ cmdOf (message r) = some 0x32 ∧ statusOf (message r) = some 0 ∧ ReplyBody (message r) ps ds := by
  simp only [isBody, hasBody, Bool.and_eq_true, beq_iff_eq] at h
  exact ⟨of_decide_eq_true h.1.1.1.1, h.1.1.1.2, h.1.1.2, h.1.2, h.2.1.1, _, h.2.1.2, h.2.2⟩

theorem step {r ps ds b rest : Bytes} {p : Piece} {l : List Piece} (h : isBody r ps ds = true) (hp : IsPiece ps ds p) (hs : Pieces Brings 7 b l rest) :
    Pieces Brings 7 (message r ++ b) (p :: l) rest := by
  obtain ⟨h1, h2, h3, h4, h5⟩ := body_of h
  exact .cons (awaits r b h1 h2) ⟨h3, h4, ps, ds, h5, hp⟩ hs

theorem stepLoosely {r ps ds b rest : Bytes} {p : Piece} {l : List Piece} (h : isBody r ps ds = true) (hp : IsLoosePiece ps ds p)
    (hs : Pieces LooselyBrings 7 b l rest) : Pieces LooselyBrings 7 (message r ++ b) (p :: l) rest := by
  obtain ⟨h1, h2, h3, h4, h5⟩ := body_of h
  exact .cons (awaits r b h1 h2) ⟨h3, h4, ps, ds, h5, hp⟩ hs

theorem headIs : IsPiece (pieceParams 10 55 0 50 65 0) (firstParams ++ entryBytes.take 50) headPiece :=
  ⟨10, 55, 50, 65, by decide +kernel, by decide +kernel, by decide +kernel, by decide +kernel, by decide +kernel, by decide +kernel, by decide +kernel,
    by decide +kernel, ⟨by decide, by decide +kernel⟩, ⟨by decide, by decide +kernel⟩⟩

theorem tailIs : IsPiece (pieceParams 0 55 10 20 55 50) (entryBytes.drop 50) tailPiece :=
  ⟨0, 55, 20, 55, by decide +kernel, by decide +kernel, by decide +kernel, by decide +kernel, by decide +kernel, by decide +kernel, by decide +kernel,
    by decide +kernel, ⟨by decide, by decide +kernel⟩, ⟨by decide, by decide +kernel⟩⟩

theorem wholeIs : IsPiece (pieceParams 10 55 0 70 65 0) (firstParams ++ entryBytes) (whole firstParams entryBytes) :=
  ⟨10, 55, 70, 65, by decide +kernel, by decide +kernel, by decide +kernel, by decide +kernel, by decide +kernel, by decide +kernel, by decide +kernel,
    by decide +kernel, ⟨by decide, by decide +kernel⟩, ⟨by decide, by decide +kernel⟩⟩

theorem searchedWhole : Searched (env true) Prod.snd search (st [[message wholeReply]]) [whole firstParams entryBytes] [] := by
  have := step (r := wholeReply) (b := []) (by decide +kernel) wholeIs (.nil _)
  rw [List.append_nil] at this
  exact searched search rfl (by decide +kernel) this

/-- The two pieces, the last one first. -/
theorem searchedSwapped : Searched (env true) Prod.snd search (st [[message (tail 55) ++ message head]]) [tailPiece, headPiece] [] := by
  have := step (r := tail 55) (by decide +kernel) tailIs (step (r := head) (b := []) (by decide +kernel) headIs (.nil _))
  rw [List.append_nil] at this
  exact searched search rfl (by decide +kernel) this

/-- Is the outcome a value, is it an error? -/
def isOk {ε α : Type} : Out ε α → Bool
  | .ok _ => true
  | _ => false

def isErr {ε α : Type} : Out ε α → Bool
  | .err _ => true
  | _ => false

theorem isOk_of {ε α : Type} {o : Out ε α} (h : isOk o = true) : ∃ v, o = .ok v := by cases o <;> simp_all [isOk]
theorem isErr_of {ε α : Type} {o : Out ε α} (h : isErr o = true) : ∃ v, o = .err v := by cases o <;> simp_all [isErr]

/-- The outcomes are the same, and not only errors. -/
example : (runOp (env true) search (st [[message (tail 55) ++ message head]])).1 = (runOp (env true) search (st [[message wholeReply]])).1 :=
  C34_partial (logs_logged script) (logs_logged script) rfl searchedSwapped (C34_permuted cuts (.swap ..)) searchedWhole

example : ∃ v, (runOp (env true) search (st [[message wholeReply]])).1 = .ok v := by
  exact isOk_of (by decide +kernel)

/-- Twice the same piece. -/
example : ∃ r, (runOp (env true) search (st [[message head ++ message head]])).1 = .err (.SMBError (.Reassemble r)) := by
  have := step (r := head) (by decide +kernel) headIs (step (r := head) (b := []) (by decide +kernel) headIs (.nil _))
  rw [List.append_nil] at this
  refine C35_error (logs_logged script) rfl (searched search rfl (by decide +kernel) this) ?_ (.inl ?_)
  · intro pre post P D he hc
    obtain ⟨h1, h2⟩ := cuts_agree hc
    match pre, he with
    | [], _ => exact hc.1 rfl
    | [_], he => cases he; exact absurd h2.2 (by decide +kernel)
    | [_, _], he => cases he; exact absurd h1.2.1 (by decide +kernel)
    | _ :: _ :: _ :: _, he => cases he
  · intro h
    exact absurd h.2.1 (by decide +kernel)

end Demo

/-- **C34** is violated: a message that brings nothing of the parameter block and gives 0 as the place of it is refused, so that the outcome is
an error instead of the entries. -/
theorem C34_violated : ∃ (E : Env (List (List Bytes) × List Bytes)) (op : Op) (s s' : St _) (l : List Piece) (P D : Bytes) (v : Val),
    Logs E.V Prod.snd ∧ op.isFind = true ∧ SearchedBy LooselyBrings E Prod.snd op s l [] ∧ Cuts l P D ∧
    Searched E Prod.snd op s' [whole P D] [] ∧ (runOp E op s').1 = .ok v ∧ ∃ e, (runOp E op s).1 = .err e := by
  open Demo in
  have hs : Pieces LooselyBrings 7 (message head ++ (message (tail 0) ++ [])) [headPiece, tailPiece] [] := by
    refine stepLoosely (r := head) (ps := pieceParams 10 55 0 50 65 0) (ds := firstParams ++ entryBytes.take 50) (by decide +kernel) ⟨10, 55, 50, 65, ?_⟩ 
      (stepLoosely (r := tail 0) (ps := pieceParams 0 0 10 20 55 50) (ds := entryBytes.drop 50) (by decide +kernel) ⟨0, 0, 20, 55, ?_⟩ (.nil _))
    · exact ⟨by decide +kernel, by decide +kernel, by decide +kernel, by decide +kernel, by decide +kernel, by decide +kernel, by decide +kernel,
        by decide +kernel, .inr ⟨by decide, by decide, by decide +kernel⟩, .inr ⟨by decide, by decide, by decide +kernel⟩⟩
    · exact ⟨by decide +kernel, by decide +kernel, by decide +kernel, by decide +kernel, by decide +kernel, by decide +kernel, by decide +kernel,
        by decide +kernel, .inl ⟨rfl, rfl⟩, .inr ⟨by decide, by decide, by decide +kernel⟩⟩
  obtain ⟨v, hv⟩ := Demo.isOk_of (o := (runOp (Demo.env true) Demo.search (Demo.st [[message Demo.wholeReply]])).1) (by decide +kernel)
  exact ⟨Demo.env true, Demo.search, Demo.st [[message Demo.head ++ (message (Demo.tail 0) ++ [])]], Demo.st [[message Demo.wholeReply]], _, _, _, v,
    logs_logged _, rfl, Demo.searched Demo.search rfl (by decide +kernel) hs, Demo.cuts, Demo.searchedWhole, hv, Demo.isErr_of (by decide +kernel)⟩

end Cifs
