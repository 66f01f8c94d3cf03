import Verif.Model.Utils
/-!
# The environment (TCP, server) and `src/netbios.rs`

## The world

`tokio::net::TcpStream` is modelled by `World`: the segments that have arrived and were not read yet, a schedule describing how the
operating system treats the coming `write` calls, all bytes handed to the operating system so far, and the state of the server.
Whenever the client has completely written and flushed a buffer, the server oracle `react` is told that buffer and answers with
any number of new segments. `tail` says what a read finds once all arrived segments are consumed.

An operation that has to wait for bytes that are not there has outcome `pending`; its effects so far stay in the state. Running further
operations from that state is exactly what happens when the caller drops the pending future and uses the connection again.
-/

namespace Cifs

/-- Outcome of effectful code. `running` means that the iteration budget of an unbounded loop was used up. -/
inductive Out (ε α : Type) where
  | ok (a : α)
  | err (e : ε)
  | panic
  | pending
  | running
  deriving Repr, DecidableEq

/-- Effectful code: the state is kept in every outcome, as with `&mut self`. -/
def M (ε S α : Type) := S → Out ε α × S

namespace M

/-- Sequencing: stop at the first outcome other than `ok`. -/
def bind {ε S α β : Type} (m : M ε S α) (f : α → M ε S β) : M ε S β := fun s =>
  match m s with
  | (.ok a, s') => f a s'
  | (.err e, s') => (.err e, s')
  | (.panic, s') => (.panic, s')
  | (.pending, s') => (.pending, s')
  | (.running, s') => (.running, s')

instance {ε S : Type} : Monad (M ε S) where
  pure a := fun s => (.ok a, s)
  bind := M.bind

/-- `return Err(e)`. -/
def fail {ε S α : Type} (e : ε) : M ε S α := fun s => (.err e, s)

/-- Pure code that may fail or panic, with its error converted (`?` with `From`). -/
def ofRes {ε ε' S α : Type} (f : ε → ε') (r : Res ε α) : M ε' S α := fun s =>
  match r with
  | .ok a => (.ok a, s)
  | .err e => (.err (f e), s)
  | .panic => (.panic, s)

end M

/-- `std::io::Error`: end of file (as reported by `read_u8`/`read_exact`), or anything else the operating system reports. -/
inductive IoErr where
  | unexpectedEof
  | os (code : Nat)
  deriving Repr, DecidableEq

/-- What a read finds after the arrived bytes: the peer closed, nothing (wait), or an error. -/
inductive Tail where
  | eof
  | blocked
  | ioErr (e : IoErr)
  deriving Repr, DecidableEq

/-- How the operating system treats one `write` call: accept up to `n` bytes, fail, or never become writable. -/
inductive WriteEv where
  | accept (n : Nat)
  | fail (e : IoErr)
  | block
  deriving Repr, DecidableEq

/-- The connection and the server behind it. -/
structure World (σ : Type) where
  /-- segments that have arrived and were not read -/
  inbox : List Bytes
  /-- treatment of the coming `write` calls; when exhausted every write is accepted whole -/
  wsched : List WriteEv
  /-- every byte accepted by the operating system so far -/
  out : Bytes
  /-- the server -/
  srv : σ

/-- The server oracle: reaction to a completely written buffer, and what follows the bytes sent so far. -/
structure Server (σ : Type) where
  react : σ → Bytes → σ × List Bytes
  tail : σ → Tail

/-- /repo/src/netbios.rs:10 `MAX_FRAME_LENGTH`. -/
def MAX_FRAME_LENGTH : Nat := 0x1ffff

/-- /repo/src/netbios.rs:18-26 `netbios::Error`. -/
inductive NbError where
  | IoError (e : IoErr)
  | CreateSession (code : UInt8)
  | InvalidFrameType (t : UInt8)
  | InvalidFrame
  | FrameTooBig
  | UnexpectedFrame
  | UnexpectedEOF
  deriving Repr, DecidableEq

/-- /repo/src/netbios.rs:55-62 `Frame`. -/
inductive Frame where
  | Message (m : Bytes)
  | SessionRequest (m : Bytes)
  | PositiveResponse
  | NegativeResponse (code : UInt8)
  | Retarget
  | Keepalive
  deriving Repr, DecidableEq

/-- /repo/src/netbios.rs:77-112 `Frame::new`, with the frame types of /repo/src/netbios.rs:67-74. -/
def Frame.new (t : UInt8) (d : Bytes) : Res NbError Frame :=
  if t = 0x00 then .ok (.Message d)
  else if t = 0x81 then .ok (.SessionRequest d)
  else if t = 0x82 then (if d.length ≠ 0 then .err .InvalidFrame else .ok .PositiveResponse)
  else if t = 0x83 then (match d with | [c] => .ok (.NegativeResponse c) | _ => .err .InvalidFrame)
  else if t = 0x84 then (if d.length ≠ 6 then .err .InvalidFrame else .ok .Retarget)
  else if t = 0x85 then (if d.length ≠ 0 then .err .InvalidFrame else .ok .Keepalive)
  else .err (.InvalidFrameType t)

/-- `&n.to_be_bytes()[1..4]` for a `u32`. -/
def be24 (n : Nat) : Bytes := [UInt8.ofNat (n / 65536), UInt8.ofNat (n / 256), UInt8.ofNat n]

/-- /repo/src/netbios.rs:125-156 `Frame::encode`. -/
def Frame.encode : Frame → Res NbError Bytes
  | .Message m =>
    if m.length > MAX_FRAME_LENGTH then .err .InvalidFrame
    else (tryInto (2 ^ 32) m.length .FrameTooBig).bind (fun n => .ok ([0x00] ++ be24 n ++ m))
  | .SessionRequest m =>
    if m.length ≠ 68 then .err .InvalidFrame
    else (tryInto (2 ^ 32) m.length .FrameTooBig).bind (fun n => .ok ([0x81] ++ be24 n ++ m))
  | _ => .err .InvalidFrame

/-! ## Reading -/

/-- Reading exactly `n` bytes from a stream that delivers them in segments: repeated `read`s, each returning at most one segment's rest.
`none` when the segments end first (everything is consumed then). -/
def readChunks (n : Nat) (acc : Bytes) : List Bytes → Option Bytes × List Bytes
  | [] => if n = 0 then (some acc, []) else (none, [])
  | c :: cs =>
    if n = 0 then (some acc, c :: cs)
    else if c.length < n then readChunks (n - c.length) (acc ++ c) cs
    else (some (acc ++ c.take n), c.drop n :: cs)

/-- Read exactly `n` bytes; `eof` is the error reported when the peer closed first. -/
def readExact {σ : Type} (V : Server σ) (eof : NbError) (n : Nat) : M NbError (World σ) Bytes := fun w =>
  match readChunks n [] w.inbox with
  | (some b, rest) => (.ok b, { w with inbox := rest })
  | (none, rest) =>
    let w' := { w with inbox := rest }
    match V.tail w.srv with
    | .eof => (.err eof, w')
    | .blocked => (.pending, w')
    | .ioErr e => (.err (.IoError e), w')

/-- /repo/src/netbios.rs:233-254 `recv`. `read_u8` and `read_exact` report a closed stream as an I/O error of kind `UnexpectedEof`,
`read_exactly` (/repo/src/netbios.rs:257-274) as `Error::UnexpectedEOF`. -/
def recvFrame {σ : Type} (V : Server σ) : M NbError (World σ) Frame := do
  let t ← readExact V (.IoError .unexpectedEof) 1
  let len ← readExact V (.IoError .unexpectedEof) 3
  let n := beVal len
  if n > MAX_FRAME_LENGTH then M.fail .FrameTooBig
  else
    let d ← readExact V .UnexpectedEOF n
    M.ofRes id (Frame.new (UInt8.ofNat (beVal t)) d)

/-- Bytes that have arrived and were not read; the iteration budget of the receive loops. -/
def World.avail {σ : Type} (w : World σ) : Nat := w.inbox.flatten.length

/-- /repo/src/netbios.rs:193-202 the loop of `recv_message`, with an iteration budget. -/
def recvMessageLoop {σ : Type} (V : Server σ) : Nat → M NbError (World σ) Bytes
  | 0 => fun w => (.running, w)
  | k + 1 => do
    match ← recvFrame V with
    | .Message m => pure m
    | .Keepalive => recvMessageLoop V k
    | _ => M.fail .UnexpectedFrame

/-- /repo/src/netbios.rs:193-202 `recv_message`. Every iteration consumes at least four bytes, so the budget is never used up
(theorem `recvMessage_not_running`). -/
def recvMessage {σ : Type} (V : Server σ) : M NbError (World σ) Bytes := fun w => recvMessageLoop V (w.avail + 1) w

/-! ## Writing -/

/-- Result of writing a buffer. -/
inductive WriteRes where
  | done
  | failed (e : IoErr)
  | blocked
  deriving Repr, DecidableEq

/-- /repo/src/netbios.rs:278-280 the loop of `write_exactly`: result, remaining schedule, all bytes accepted. -/
def writeLoop : List WriteEv → Bytes → Bytes → WriteRes × List WriteEv × Bytes
  | [], buf, out => (.done, [], out ++ buf)
  | ev :: ws, buf, out =>
    if buf = [] then (.done, ev :: ws, out)
    else match ev with
      | .accept n => writeLoop ws (buf.drop n) (out ++ buf.take n)
      | .fail e => (.failed e, ws, out)
      | .block => (.blocked, ws, out)

/-- /repo/src/netbios.rs:276-283 `write_exactly`. (`flush` on a `TcpStream` does nothing.) Once the buffer is out, the server reacts. -/
def writeExactly {σ : Type} (V : Server σ) (buf : Bytes) : M NbError (World σ) Unit := fun w =>
  match writeLoop w.wsched buf w.out with
  | (.done, ws, out) =>
    let r := V.react w.srv buf
    (.ok (), { inbox := w.inbox ++ r.2, wsched := ws, out := out, srv := r.1 })
  | (.failed e, ws, out) => (.err (.IoError e), { w with wsched := ws, out := out })
  | (.blocked, ws, out) => (.pending, { w with wsched := ws, out := out })

/-- /repo/src/netbios.rs:229-231 `send`. -/
def sendFrame {σ : Type} (V : Server σ) (f : Frame) : M NbError (World σ) Unit := do
  let b ← M.ofRes id f.encode
  writeExactly V b

/-- /repo/src/netbios.rs:189-191 `send_message`. -/
def sendMessage {σ : Type} (V : Server σ) (m : Bytes) : M NbError (World σ) Unit := sendFrame V (.Message m)

/-- The session request payload of /repo/src/netbios.rs:207-215. -/
def sessionRequestPayload (dst src : Str) : Bytes :=
  [0x20] ++ utf8 (encodeNetbiosName dst) ++ [0x00] ++ [0x20] ++ utf8 (encodeNetbiosName src) ++ [0x00]

/-- /repo/src/netbios.rs:204-224 `create_session`. -/
def createSession {σ : Type} (V : Server σ) (dst src : Str) : M NbError (World σ) Unit := do
  sendFrame V (.SessionRequest (sessionRequestPayload dst src))
  match ← recvFrame V with
  | .PositiveResponse => pure ()
  | .NegativeResponse code => M.fail (.CreateSession code)
  | _ => M.fail .InvalidFrame

/-! ## Connecting -/

/-- `TcpStream::connect((host, port))` for the host of the call: an established connection or an error. -/
abbrev Dial (σ : Type) := UInt16 → Except IoErr (World σ)

/-- Result of establishing a transport: outcome, the connection if there is one, and the ports dialled, in order. -/
structure Dialled (σ : Type) where
  outcome : Out NbError Unit
  world : Option (World σ)
  ports : List UInt16

/-- /repo/src/netbios.rs:167-171 `open_raw`. -/
def openRaw {σ : Type} (dial : Dial σ) (port : UInt16) : Dialled σ :=
  match dial port with
  | .ok w => { outcome := .ok (), world := some w, ports := [port] }
  | .error e => { outcome := .err (.IoError e), world := none, ports := [port] }

/-- /repo/src/netbios.rs:173-186 `open`. -/
def openNetbios {σ : Type} (V : Server σ) (dial : Dial σ) (myname : Str) : Dialled σ :=
  match dial 445 with
  | .ok w => { outcome := .ok (), world := some w, ports := [445] }
  | .error _ =>
    match dial 139 with
    | .error e => { outcome := .err (.IoError e), world := none, ports := [445, 139] }
    | .ok w =>
      let r := createSession V "*SMBSERVER".toList myname w
      { outcome := r.1, world := some r.2, ports := [445, 139] }

end Cifs
