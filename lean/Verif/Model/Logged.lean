import Verif.Model.Display
/-!
# What the client writes to its log

The calls of `tracing::debug!` in /repo/src/netbios.rs:168,237,248,260,277 and /repo/src/lib.rs:155. The functions that log, and those that call them, are
written down a second time here, with a log as part of the state; everything else is the code of `Model/Net` and `Model/Client`. That the log is all that
differs is the theorem `C75_log_only`.
-/

namespace Cifs

/-- One line of the log. -/
inductive Event where
  /-- /repo/src/netbios.rs:168 -/
  | connecting (host : Str) (port : UInt16)
  /-- /repo/src/netbios.rs:237 -/
  | msgType (t : UInt8)
  /-- /repo/src/netbios.rs:248 -/
  | msgLength (n : Nat)
  /-- /repo/src/netbios.rs:260 -/
  | reading (n : Nat)
  /-- /repo/src/netbios.rs:277 -/
  | writing (n : Nat)
  /-- /repo/src/lib.rs:155 -/
  | waiting (what : UInt32)
  deriving Repr, DecidableEq

/-- The log, oldest line first. -/
abbrev Log := List Event

/-- /repo/src/smb/trans.rs:47-63, the names of the flags. -/
def NotifyMode.names : List (UInt32 × String) :=
  [(0x00000001, "FILENAME"), (0x00000002, "DIRNAME"), (0x00000003, "NAME"), (0x00000004, "ATTR"), (0x00000008, "SIZE"), (0x00000010, "LAST_WRITE"),
   (0x00000020, "LAST_ACCESS"), (0x00000040, "CREATION"), (0x00000080, "EA"), (0x00000100, "SECURITY"), (0x00000200, "STREAM_NAME"),
   (0x00000400, "STREAM_SIZE"), (0x00000800, "STREAM_WRITE")]

/-- `{:?}` for `NotifyMode`, as written by bitflags 1.x: the names of the flags that are set. (There are no other bits in a `NotifyMode`.) -/
def NotifyMode.debug (m : UInt32) : Str :=
  match (NotifyMode.names.filter fun f => m &&& f.1 == f.1).map Prod.snd with
  | [] => "(empty)".toList
  | n :: more => n.toList ++ more.flatMap fun n => " | ".toList ++ n.toList

/-- The text of a line. -/
def Event.text : Event → Str
  | .connecting host port => "create NetBios connection to ".toList ++ (host ++ ":".toList ++ showDecimal port.toNat)
  | .msgType t => "expecting NetBios msg type: ".toList ++ showDecimal t.toNat
  | .msgLength n => "expecting NetBios msg of length ".toList ++ showDecimal n
  | .reading n => "reading ".toList ++ (showDecimal n ++ " bytes...".toList)
  | .writing n => "writting ".toList ++ (showDecimal n ++ " bytes...".toList)
  | .waiting what => "waiting for ".toList ++ (NotifyMode.debug what ++ " notification".toList)

/-- `tracing::debug!`. -/
def emit {ε S : Type} (e : Event) : M ε (S × Log) Unit := fun s => (.ok (), (s.1, s.2 ++ [e]))

/-- Code that logs nothing. -/
def quiet {ε S α : Type} (m : M ε S α) : M ε (S × Log) α := fun s => ((m s.1).1, ((m s.1).2, s.2))

variable {σ : Type}

namespace Logged

/-! ## `src/netbios.rs` -/

/-- /repo/src/netbios.rs:257-274 `read_exactly`. -/
def readExactly (V : Server σ) (n : Nat) : M NbError (World σ × Log) Bytes := do
  emit (.reading n)
  quiet (readExact V .UnexpectedEOF n)

/-- /repo/src/netbios.rs:233-254 `recv`. -/
def recvFrame (V : Server σ) : M NbError (World σ × Log) Frame := do
  let t ← quiet (readExact V (.IoError .unexpectedEof) 1)
  emit (.msgType (UInt8.ofNat (beVal t)))
  let len ← quiet (readExact V (.IoError .unexpectedEof) 3)
  let n := beVal len
  if n > MAX_FRAME_LENGTH then M.fail .FrameTooBig
  else
    emit (.msgLength n)
    let d ← readExactly V n
    M.ofRes id (Frame.new (UInt8.ofNat (beVal t)) d)

/-- /repo/src/netbios.rs:193-202 the loop of `recv_message`. -/
def recvMessageLoop (V : Server σ) : Nat → M NbError (World σ × Log) Bytes
  | 0 => fun w => (.running, w)
  | k + 1 => do
    match ← recvFrame V with
    | .Message m => pure m
    | .Keepalive => recvMessageLoop V k
    | _ => M.fail .UnexpectedFrame

/-- /repo/src/netbios.rs:193-202 `recv_message`. -/
def recvMessage (V : Server σ) : M NbError (World σ × Log) Bytes := fun w => recvMessageLoop V (w.1.avail + 1) w

/-- /repo/src/netbios.rs:276-283 `write_exactly`. -/
def writeExactly (V : Server σ) (buf : Bytes) : M NbError (World σ × Log) Unit := do
  emit (.writing buf.length)
  quiet (Cifs.writeExactly V buf)

/-- /repo/src/netbios.rs:229-231 `send`. -/
def sendFrame (V : Server σ) (f : Frame) : M NbError (World σ × Log) Unit := do
  let b ← M.ofRes id f.encode
  writeExactly V b

/-- /repo/src/netbios.rs:189-191 `send_message`. -/
def sendMessage (V : Server σ) (m : Bytes) : M NbError (World σ × Log) Unit := sendFrame V (.Message m)

/-- /repo/src/netbios.rs:204-224 `create_session`. -/
def createSession (V : Server σ) (dst src : Str) : M NbError (World σ × Log) Unit := do
  sendFrame V (.SessionRequest (sessionRequestPayload dst src))
  match ← recvFrame V with
  | .PositiveResponse => pure ()
  | .NegativeResponse code => M.fail (.CreateSession code)
  | _ => M.fail .InvalidFrame

/-- /repo/src/netbios.rs:167-171 `open_raw`. -/
def openRaw (host : Str) (dial : Dial σ) (port : UInt16) : Dialled σ × Log := (Cifs.openRaw dial port, [.connecting host port])

/-- /repo/src/netbios.rs:173-186 `open`. -/
def openNetbios (V : Server σ) (host : Str) (dial : Dial σ) (myname : Str) : Dialled σ × Log :=
  match dial 445 with
  | .ok w => ({ outcome := .ok (), world := some w, ports := [445] }, [.connecting host 445])
  | .error _ =>
    match dial 139 with
    | .error e => ({ outcome := .err (.IoError e), world := none, ports := [445, 139] }, [.connecting host 445, .connecting host 139])
    | .ok w =>
      let r := createSession V "*SMBSERVER".toList myname (w, [.connecting host 445, .connecting host 139])
      ({ outcome := r.1, world := some r.2.1, ports := [445, 139] }, r.2.2)

/-! ## `src/lib.rs` -/

/-- Client code that logs. -/
abbrev LM (σ α : Type) := M Error (St σ × Log) α

/-- Run transport code. -/
def liftNet {α : Type} (m : M NbError (World σ × Log) α) : LM σ α := fun s =>
  match m (s.1.w, s.2) with
  | (.ok a, w) => (.ok a, ({ s.1 with w := w.1 }, w.2))
  | (.err e, w) => (.err (.NetBios e), ({ s.1 with w := w.1 }, w.2))
  | (.panic, w) => (.panic, ({ s.1 with w := w.1 }, w.2))
  | (.pending, w) => (.pending, ({ s.1 with w := w.1 }, w.2))
  | (.running, w) => (.running, ({ s.1 with w := w.1 }, w.2))

/-- /repo/src/lib.rs:295-315 `send`. -/
def send (E : Env σ) (m : Msg) : LM σ UInt16 := fun s =>
  if E.checked ∧ s.1.cli.mid.toNat = 65535 then (.panic, s)
  else
    let s1 : St σ × Log := ({ s.1 with cli := { s.1.cli with mid := s.1.cli.mid + 1 } }, s.2)
    match requestFrame s.1.cli m with
    | .err e => (.err (.SMBError e), s1)
    | .panic => (.panic, s1)
    | .ok frame => M.bind (liftNet (sendMessage E.V frame)) (fun _ => (pure s.1.cli.mid : LM σ UInt16)) s1

/-- /repo/src/lib.rs:323-329, the loop of `recv`. -/
def recvLoop (E : Env σ) (mid : UInt16) : Nat → LM σ (Info × Bytes)
  | 0 => fun s => (.running, s)
  | k + 1 => do
    let frame ← liftNet (recvMessage E.V)
    let (info, body) ← M.ofRes Error.SMBError (Info.parse frame)
    if info.mid = mid then pure (info, body) else recvLoop E mid k

/-- /repo/src/lib.rs:321-350 `recv`. -/
def recv {α : Type} (E : Env σ) (R : Reply α) (mid : UInt16) : LM σ α := fun s =>
  (M.bind (recvLoop E mid (s.1.w.avail + 1)) (fun p => quiet (acceptReply R p.1 p.2))) s

/-- /repo/src/lib.rs:357-364 `command`. -/
def command {α : Type} (E : Env σ) (m : Msg) (R : Reply α) : LM σ α := do
  let mid ← send E m
  recv E R mid

/-- /repo/src/lib.rs:388-393, the loop of `transact2`. -/
def collectLoop (E : Env σ) (mid : UInt16) : Nat → CollectTrans2 → LM σ CollectTrans2
  | 0, _ => fun s => (.running, s)
  | k + 1, ctx => do
    let reply ← recv E trans2Reply mid
    let (ctx', ready) ← M.ofRes Error.SMBError (ctx.add reply)
    if ready then pure ctx' else collectLoop E mid k ctx'

/-- /repo/src/lib.rs:386-395, `transact2` after the request was sent. -/
def collect {α : Type} (E : Env σ) (sub : SubReply2 α) (mid : UInt16) : LM σ α := fun s =>
  (M.bind (collectLoop E mid (s.1.w.avail + 1) .new) (fun ctx => M.ofRes Error.SMBError (ctx.getSubreply sub))) s

/-- /repo/src/lib.rs:377-396 `transact2`. -/
def transact2 {α : Type} (E : Env σ) (tid : UInt16) (c : SubCmd2) (sub : SubReply2 α) : LM σ α := do
  let mid ← send E (transact2Msg tid c)
  collect E sub mid

/-- /repo/src/lib.rs:110-113 `read`. -/
def read (E : Env σ) (file : Handle) (offset : UInt64) : LM σ Bytes := command E (readMsg file.tid file.fid offset) readReply

/-- /repo/src/lib.rs:119-122, the loop of `download`. -/
def downloadLoop (E : Env σ) (file : Handle) : Nat → Bytes → LM σ Bytes
  | 0, _ => fun s => (.running, s)
  | k + 1, data =>
    if data.length < file.size.toNat then do
      let chunk ← read E file (UInt64.ofNat data.length)
      downloadLoop E file k (data ++ chunk)
    else pure data

/-- /repo/src/lib.rs:115-126 `download`. -/
def download (E : Env σ) (budget : Nat) (share : Share) (path : Str) : LM σ Bytes := do
  let file ← command E (OpenMsg.fileRo share.tid (sanitizePath path)).msg Handle.reply
  let data ← downloadLoop E file budget []
  let _ ← command E (closeMsg file.tid file.fid) closeReply
  pure data

/-- /repo/src/lib.rs:146-159 `notify_about`. -/
def notifyAbout (E : Env σ) (handle : Handle) (what : UInt32) : LM σ (List (Str × NotifyAction)) := do
  emit (.waiting what)
  command E (transactMsg handle.tid (notifySetup handle.fid what false)) (transactReply notificationParse)

/-- /repo/src/lib.rs:170-178 `find_first`. -/
def findFirst (E : Env σ) (share : Share) (pattern : Str) : LM σ FindFirst2 :=
  transact2 E share.tid
    (findFirst2Cmd (sanitizePath pattern) (FileAttr.HIDDEN ||| FileAttr.SYSTEM ||| FileAttr.DIRECTORY)) findFirst2Parse

/-- /repo/src/lib.rs:189-197 `find_next`. -/
def findNext (E : Env σ) (share : Share) (sid : UInt16) (lastfile : Str) : LM σ FindNext2 :=
  transact2 E share.tid (findNext2Cmd sid lastfile) findNext2Parse

/-- /repo/src/lib.rs:213-222, the loop of `list`. -/
def listLoop (E : Env σ) (share : Share) (sid : UInt16) : Nat → List DirInfo → LM σ (List DirInfo)
  | 0, _ => fun s => (.running, s)
  | k + 1, result =>
    match result.getLast? with
    | none => fun s => (.panic, s)
    | some last => do
      let reply ← findNext E share sid last.filename
      if reply.done then pure (result ++ reply.info) else listLoop E share sid k (result ++ reply.info)

/-- /repo/src/lib.rs:203-225 `list`. -/
def list (E : Env σ) (budget : Nat) (share : Share) (pattern : Str) : LM σ (List DirInfo) := do
  let reply ← findFirst E share pattern
  if reply.done then pure reply.info else listLoop E share reply.sid budget reply.info

/-- /repo/src/lib.rs:247-260 `authenticate_ntlm`. -/
def authenticateNtlm (E : Env σ) (challenge : Bytes) : LM σ Unit := do
  let c ← quiet getCli
  let secret ← M.ofRes Error.SMBError (ntlmv1Authenticate E.C c.auth challenge)
  let setupReply ← command E (SessionSetupMsg.withAuth c.auth.user c.auth.domain secret).msg SessionSetupReply.reply
  quiet (modifyCli (fun c => { c with uid := setupReply.uid }))

/-- /repo/src/lib.rs:262-292 `authenticate_ntlmv2`. -/
def authenticateNtlmv2 (E : Env σ) : LM σ Unit := do
  let c ← quiet getCli
  let ntlmInit ← M.ofRes Error.NTLMError (ntlmInit ntlmInitFlags c.auth.domain c.auth.workstation)
  let setupReply ← command E (SessionSetupMsg.withBlob ntlmInit).msg SessionSetupReply.reply
  quiet (modifyCli (fun c => { c with uid := setupReply.uid }))
  let challenge ← M.ofRes Error.NTLMError (ChallengeMsg.parse setupReply.securityBlob)
  let time ← M.ofRes Error.NTLMError (encodeWindowsTime E.checked E.now)
  let response ← M.ofRes Error.NTLMError (challenge.response E.C c.auth time E.random)
  let _ ← command E (SessionSetupMsg.withBlob response).msg SessionSetupReply.reply
  pure ()

/-- /repo/src/lib.rs:230-245 `setup_connection`. -/
def setupConnection (E : Env σ) : LM σ Unit := do
  let setup ← command E negotiateMsg ServerSetup.reply
  quiet (modifyCli (fun c => { c with
    maxSmbSize := setup.maxBufferSize.toNat, useUnicode := Capabilities.contains setup.capabilities Capabilities.UNICODE }))
  if Capabilities.contains setup.capabilities Capabilities.EXTENDED_SECURITY then authenticateNtlmv2 E
  else authenticateNtlm E setup.challenge

/-- /repo/src/lib.rs:38-68 `open`, with the log. -/
def openCifs (E : Env σ) (host : Str) (dial : Dial σ) (port : Option UInt16) (auth? : Option Auth) : Opened σ × Log :=
  let auth := auth?.getD defaultAuth
  let d := match port with
    | some p => openRaw host dial p
    | none => openNetbios E.V host dial auth.workstation
  match d.1.outcome, d.1.world with
  | .ok (), some w =>
    let r := setupConnection E ({ cli := .init auth, w }, d.2)
    ({ outcome := r.1, state := some r.2.1, ports := d.1.ports }, r.2.2)
  | o, w => ({ outcome := o.netErr, state := w.map (fun w => { cli := .init auth, w }), ports := d.1.ports }, d.2)

/-- One API call, with what it logs. -/
def runOp (E : Env σ) : Op → LM σ Val
  | .mount path password => M.map' Val.share (command E (treeConnectMsg (sanitizePath path) password) Share.reply)
  | .umount share => M.map' (fun _ => Val.unit) (command E (treeDisconnectMsg share.tid) treeDisconnectReply)
  | .openfile share path => M.map' Val.handle (command E (OpenMsg.fileRo share.tid (sanitizePath path)).msg Handle.reply)
  | .opendir share path => M.map' Val.handle (command E (OpenMsg.dir share.tid (sanitizePath path)).msg Handle.reply)
  | .close file => M.map' (fun _ => Val.unit) (command E (closeMsg file.tid file.fid) closeReply)
  | .read file offset => M.map' Val.bytes (read E file offset)
  | .download budget share path => M.map' Val.bytes (download E budget share path)
  | .delete share path => M.map' (fun _ => Val.unit) (command E (deleteMsg share.tid (sanitizePath path)) deleteReply)
  | .rmdir share path => M.map' (fun _ => Val.unit) (command E (rmdirMsg share.tid (sanitizePath path)) rmdirReply)
  | .notify handle what => M.map' Val.changes (notifyAbout E handle what)
  | .findFirst share pattern => M.map' Val.first (findFirst E share pattern)
  | .findNext share sid lastfile => M.map' Val.next (findNext E share sid lastfile)
  | .list budget share pattern => M.map' Val.entries (list E budget share pattern)

end Logged

end Cifs
