import Verif.Spec.Requests
import Verif.Spec.Replies
/-!
# Downloads, as seen on the wire
-/

namespace Cifs.Spec

variable {σ : Type}

/-- A request to open the file `path` for reading, on the tree `tid`. -/
def OpenRequest (req : Bytes) (tid : Nat) (path : Str) : Prop :=
  cmdOf req = some 0xa2 ∧ tidOf req = some tid ∧ IsOpen req (backslashed path) accessFile 1 optNonDirectory

/-- A request to read from the open file `h`. -/
def ReadRequest (req : Bytes) (h : Handle) (offset : Nat) : Prop :=
  cmdOf req = some 0x2e ∧ tidOf req = some h.tid.toNat ∧ IsRead req h.fid.toNat offset

/-- A request to close the open file `h`. -/
def CloseRequest (req : Bytes) (h : Handle) : Prop :=
  cmdOf req = some 0x04 ∧ tidOf req = some h.tid.toNat ∧ IsClose req h.fid.toNat

/-- A successful reply of the type `c`, with its parameter bytes and data bytes. -/
def Succeeds (f : Bytes) (c : Nat) (ps ds : Bytes) : Prop :=
  cmdOf (message f) = some c ∧ statusOf (message f) = some 0 ∧ ReplyBody (message f) ps ds

/-- The reply to a request to open a file. -/
def Opens (f : Bytes) (h : Handle) : Prop :=
  ∃ ps ds tid, Succeeds f 0xa2 ps ds ∧ LastAndX ps ∧ tidOf (message f) = some tid ∧ IsOpenReply ps tid h

/-- The reply to a request to read: the bytes `chunk`, after one padding byte or none. -/
def Yields (f chunk : Bytes) : Prop :=
  ∃ ps pad, Succeeds f 0x2e ps (pad ++ chunk) ∧ LastAndX ps ∧ pad.length ≤ 1 ∧ u16At ps 10 = some chunk.length

/-- The reply to a request to close a file. -/
def Closes (f : Bytes) : Prop := ∃ ps ds, Succeeds f 0x04 ps ds

/-- `Reading V quit h v b data reqs chunks r v'`: a download of the open file `h`, from the moment on when `data` is received, the server is
in state `v`, and the bytes `b` are unread. The client sends the requests `reqs` and receives the further chunks `chunks`. The server ends in
state `v'`, and the result is `r`: a file, or none. The client may only give up without a cause on the wire if `quit` holds. -/
inductive Reading (V : Server σ) (quit : Prop) (h : Handle) : σ → Bytes → Bytes → List Bytes → List Bytes → Option Bytes → σ → Prop
  /-- The client gives up. -/
  | stop (hq : quit) (v : σ) (b data : Bytes) : Reading V quit h v b data [] [] none v
  /-- The client asks for what follows, and gets a chunk. -/
  | read {v v' v'' : σ} {b b' data req f chunk : Bytes} {reqs chunks : List Bytes} {r : Option Bytes} (hl : data.length < h.size.toNat)
      (hq : ReadRequest req h data.length) (hr : Round V v b req f v' b') (hf : Yields f chunk)
      (hs : Reading V quit h v' b' (data ++ chunk) reqs chunks r v'') : Reading V quit h v b data (req :: reqs) (chunk :: chunks) r v''
  /-- The client asks for what follows, but gets none. -/
  | unread {v : σ} {b data req : Bytes} (hl : data.length < h.size.toNat) (hq : ReadRequest req h data.length)
      (hn : ∀ f v' b' chunk, Round V v b req f v' b' → ¬ Yields f chunk) : Reading V quit h v b data [req] [] none (V.react v req).1
  /-- Nothing is missing: the client closes the file and returns what it got. -/
  | close {v v' : σ} {b b' data req f : Bytes} (hl : h.size.toNat ≤ data.length) (hq : CloseRequest req h) (hr : Round V v b req f v' b')
      (hf : Closes f) : Reading V quit h v b data [req] [] (some data) v'
  /-- Nothing is missing: the client closes the file, but gets no confirmation. -/
  | unclosed {v : σ} {b data req : Bytes} (hl : h.size.toNat ≤ data.length) (hq : CloseRequest req h)
      (hn : ∀ f v' b', Round V v b req f v' b' → ¬ Closes f) : Reading V quit h v b data [req] [] none (V.react v req).1

/-- `Downloading V quit tid path v b reqs file chunks r v'`: a download of the file `path` on the tree `tid`. The handle is `file`, if the
client gets one. -/
inductive Downloading (V : Server σ) (quit : Prop) (tid : Nat) (path : Str) :
    σ → Bytes → List Bytes → Option Handle → List Bytes → Option Bytes → σ → Prop
  /-- The client sends nothing. -/
  | none (v : σ) (b : Bytes) : Downloading V quit tid path v b [] none [] none v
  /-- The client asks for a handle, but gets none. -/
  | unopened {v : σ} {b req : Bytes} (hq : OpenRequest req tid path) (hn : ∀ f v' b' h, Round V v b req f v' b' → ¬ Opens f h) :
      Downloading V quit tid path v b [req] none [] none (V.react v req).1
  /-- The client gets a handle. -/
  | opened {v v' v'' : σ} {b b' req f : Bytes} {h : Handle} {reqs chunks : List Bytes} {r : Option Bytes} (hq : OpenRequest req tid path)
      (hr : Round V v b req f v' b') (hf : Opens f h) (hs : Reading V quit h v' b' [] reqs chunks r v'') :
      Downloading V quit tid path v b (req :: reqs) (some h) chunks r v''

/-- A stream that consists of keep-alives and of whole replies none of which has a multiplex id in `own`. -/
inductive Foreign (own : Nat → Prop) : Bytes → Prop
  | nil : Foreign own []
  | keepAlive {b : Bytes} (h : Foreign own b) : Foreign own (Spec.keepAlive ++ b)
  | reply {b g : Bytes} (hl : g.length ≤ maxPayload) (hg : Genuine g) (m : Nat) (hm : midOf (message g) = some m) (ho : ¬ own m)
      (h : Foreign own b) : Foreign own (message g ++ b)

/-- What the server sends in reaction to `req`, however it cuts it into segments: a reply `f` with the multiplex id of the request, among
foreign replies. -/
def Serves (V : Server σ) (own : Nat → Prop) (v : σ) (req f : Bytes) : Prop :=
  ∃ before after, (V.react v req).2.flatten = before ++ message f ++ after ∧ Foreign own before ∧ Foreign own after ∧
    f.length ≤ maxPayload ∧ Genuine f ∧ midOf (message f) = midOf req

/-- A server that serves the file `content` under the name `path` on the tree `tid`. Its state is `idle`, or `opened h` while the client
has the handle `h`, or `closed`. It answers each read request with a chunk of its own choice, of at least `least` bytes unless the file
ends. -/
structure FileServer (V : Server σ) (own : Nat → Prop) (tid : Nat) (path : Str) (content : Bytes) (least : Nat) (idle : σ → Prop)
    (opened : Handle → σ → Prop) (closed : σ → Prop) : Prop where
  opens : ∀ v req, idle v → OpenRequest req tid path →
    ∃ f h, Serves V own v req f ∧ Opens f h ∧ h.size.toNat = content.length ∧ opened h (V.react v req).1
  reads : ∀ v req h offset, opened h v → ReadRequest req h offset → offset < content.length →
    ∃ f chunk, Serves V own v req f ∧ Yields f chunk ∧ chunk <+: content.drop offset ∧ min least (content.length - offset) ≤ chunk.length ∧
      opened h (V.react v req).1
  closes : ∀ v req h, opened h v → CloseRequest req h → ∃ f, Serves V own v req f ∧ Closes f ∧ closed (V.react v req).1

end Cifs.Spec
