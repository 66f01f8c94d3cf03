import Verif.Spec.Requests
import Verif.Spec.Reassembly
import Verif.Spec.Entries
import Verif.Spec.Download
/-!
# Directory listings, as seen on the wire
-/

namespace Cifs.Spec

variable {σ : Type}

/-- A request that starts a search for `pattern`, on the tree `tid`; hidden and system files and directories are wanted as well. -/
def FirstRequest (req : Bytes) (tid : Nat) (pattern : Str) : Prop :=
  cmdOf req = some 0x32 ∧ tidOf req = some tid ∧ ∃ ps, IsTransact2 req 1 ps [] ∧ IsFindFirst ps 0x16 (backslashed pattern)

/-- A request that continues the search `sid` after the name `last`, on the tree `tid`. -/
def NextRequest (req : Bytes) (tid sid : Nat) (last : Str) : Prop :=
  cmdOf req = some 0x32 ∧ tidOf req = some tid ∧ ∃ ps, IsTransact2 req 2 ps [] ∧ IsFindNext ps sid last

/-- The request `req` reaches the server in state `v` while the bytes `b` are unread. Among `b` and what the server sends in reaction, the
first replies with the multiplex id of the request are a cut of the blocks `P` and `D`, and no fewer of them are a cut of any blocks. The
server is in state `v'` then, and the bytes `b'` are unread. -/
def SearchRound (V : Server σ) (v : σ) (b req P D : Bytes) (v' : σ) (b' : Bytes) : Prop :=
  v' = (V.react v req).1 ∧ ∃ mid l, midOf req = some mid ∧ Pieces Brings mid (b ++ (V.react v req).2.flatten) l b' ∧ Cuts l P D ∧
    ∀ pre post P' D', l = pre ++ post → post ≠ [] → ¬ Cuts pre P' D'

/-- The blocks are the first page of the search `sid`. A page without entries has to be the last one. -/
def FirstPage (P D : Bytes) (sid : Nat) (ended : Bool) (ds : List DirInfo) : Prop :=
  IsFirstParams P sid ds.length ended ∧ Listed true D ds ∧ (ended = true ∨ ds ≠ [])

/-- The blocks are a further page. -/
def NextPage (P D : Bytes) (ended : Bool) (ds : List DirInfo) : Prop :=
  IsNextParams P ds.length ended ∧ Listed false D ds ∧ (ended = true ∨ ds ≠ [])

/-- The client, which has got the entries `got` of the search `sid`, sends the requests `reqs`, gets the pages `pages`, and returns the entries
`r`, if any. It may give up if `quit` holds. -/
inductive Continuing (V : Server σ) (quit : Prop) (tid sid : Nat) :
    σ → Bytes → List DirInfo → List Bytes → List (List DirInfo) → Option (List DirInfo) → σ → Prop
  /-- The client gives up. -/
  | stop (hq : quit) (v : σ) (b : Bytes) (got : List DirInfo) : Continuing V quit tid sid v b got [] [] none v
  /-- The last name is too long for a request. -/
  | long {v : σ} {b : Bytes} {got : List DirInfo} {last : DirInfo} (hl : got.getLast? = some last) (hn : 32725 < utf16Len last.filename) :
      Continuing V quit tid sid v b got [] [] none v
  /-- The client asks for a further page, but gets none. -/
  | failed {v : σ} {b req : Bytes} {got : List DirInfo} {last : DirInfo} (hl : got.getLast? = some last) (hq : NextRequest req tid sid last.filename)
      (hn : ∀ P D v' b' ended ds, SearchRound V v b req P D v' b' → ¬ NextPage P D ended ds) :
      Continuing V quit tid sid v b got [req] [] none (V.react v req).1
  /-- The client asks for a further page, which is the last one. -/
  | ended {v v' : σ} {b b' req P D : Bytes} {got ds : List DirInfo} {last : DirInfo} (hl : got.getLast? = some last)
      (hq : NextRequest req tid sid last.filename) (hr : SearchRound V v b req P D v' b') (hp : NextPage P D true ds) :
      Continuing V quit tid sid v b got [req] [ds] (some (got ++ ds)) v'
  /-- The client asks for a further page, which is not the last one. -/
  | more {v v' v'' : σ} {b b' req P D : Bytes} {got ds : List DirInfo} {last : DirInfo} {reqs : List Bytes} {pages : List (List DirInfo)}
      {r : Option (List DirInfo)} (hl : got.getLast? = some last) (hq : NextRequest req tid sid last.filename)
      (hr : SearchRound V v b req P D v' b') (hp : NextPage P D false ds) (hs : Continuing V quit tid sid v' b' (got ++ ds) reqs pages r v'') :
      Continuing V quit tid sid v b got (req :: reqs) (ds :: pages) r v''

/-- The client sends the requests `reqs` to list what matches `pattern` on the tree `tid`, gets the search id and the pages, and returns the
entries `r`, if any. -/
inductive Listing (V : Server σ) (quit : Prop) (tid : Nat) (pattern : Str) :
    σ → Bytes → List Bytes → Option Nat → List (List DirInfo) → Option (List DirInfo) → σ → Prop
  /-- The client sends nothing: it gives up, or the pattern is too long for a request. -/
  | none (hq : quit ∨ 32725 < utf16Len pattern) (v : σ) (b : Bytes) : Listing V quit tid pattern v b [] none [] none v
  /-- The client gets no first page. -/
  | failed {v : σ} {b req : Bytes} (hq : FirstRequest req tid pattern)
      (hn : ∀ P D v' b' sid ended ds, SearchRound V v b req P D v' b' → ¬ FirstPage P D sid ended ds) :
      Listing V quit tid pattern v b [req] none [] none (V.react v req).1
  /-- The first page is the last one. -/
  | ended {v v' : σ} {b b' req P D : Bytes} {sid : Nat} {ds : List DirInfo} (hq : FirstRequest req tid pattern)
      (hr : SearchRound V v b req P D v' b') (hp : FirstPage P D sid true ds) : Listing V quit tid pattern v b [req] (some sid) [ds] (some ds) v'
  /-- The first page is not the last one. -/
  | more {v v' v'' : σ} {b b' req P D : Bytes} {sid : Nat} {ds : List DirInfo} {reqs : List Bytes} {pages : List (List DirInfo)}
      {r : Option (List DirInfo)} (hq : FirstRequest req tid pattern) (hr : SearchRound V v b req P D v' b') (hp : FirstPage P D sid false ds)
      (hs : Continuing V quit tid sid v' b' ds reqs pages r v'') : Listing V quit tid pattern v b (req :: reqs) (some sid) (ds :: pages) r v''

/-- The bytes are replies with multiplex id `mid` that bring these pieces, among foreign replies. -/
inductive Brought (own : Nat → Prop) (mid : Nat) : Bytes → List Piece → Prop
  | nil {b : Bytes} (h : Foreign own b) : Brought own mid b []
  | cons {b f rest : Bytes} {p : Piece} {l : List Piece} (h : Foreign own b) (hl : f.length ≤ maxPayload) (hg : Genuine f)
      (hm : midOf (message f) = some mid) (hp : Brings f p) (hs : Brought own mid rest l) : Brought own mid (b ++ message f ++ rest) (p :: l)

/-- What the server sends in reaction to `req`, however it cuts it into segments: replies that are a cut of these blocks, among foreign
replies. -/
def ServesPage (V : Server σ) (own : Nat → Prop) (v : σ) (req P D : Bytes) : Prop :=
  ∃ mid l, midOf req = some mid ∧ Brought own mid (V.react v req).2.flatten l ∧ Cuts l P D ∧
    ∀ pre post P' D', l = pre ++ post → post ≠ [] → ¬ Cuts pre P' D'

/-- A server that answers the search for `pattern` on the tree `tid` with these pages. `after k` are the states in which it has sent `k` of
them. -/
structure DirServer (V : Server σ) (own : Nat → Prop) (tid : Nat) (pattern : Str) (sid : Nat) (pages : List (List DirInfo)) (after : Nat → σ → Prop) :
    Prop where
  first : ∀ v req ds, after 0 v → FirstRequest req tid pattern → pages[0]? = some ds →
    ∃ P D, ServesPage V own v req P D ∧ FirstPage P D sid (pages.length == 1) ds ∧ after 1 (V.react v req).1
  next : ∀ k v req ds last, after k v → 0 < k → (pages.take k).flatten.getLast? = some last → NextRequest req tid sid last.filename →
    pages[k]? = some ds → ∃ P D, ServesPage V own v req P D ∧ NextPage P D (pages.length == k + 1) ds ∧ after (k + 1) (V.react v req).1

end Cifs.Spec
