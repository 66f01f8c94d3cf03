import Verif.Model.Net
import Verif.Model.Msg
import Verif.Model.Ntlm
/-!
# `src/lib.rs`: the `Cifs` client

Loops that the code does not bound (`download`, `list`) take an explicit iteration budget; using it up is the outcome `running`, i.e. "still
busy after that many iterations". The receive loops get a budget that provably suffices.
-/

namespace Cifs

/-- /repo/src/error.rs:10-20 `Error` (variants that are ever constructed). -/
inductive Error where
  | NetBios (e : NbError)
  | SMBError (e : SmbError)
  | NTLMError (e : NtlmError)
  | UnexpectedReply (want got : Cmd)
  | ServerError (s : Status)
  | InvalidUri
  deriving Repr, DecidableEq

/-- What the environment provides: the server, the hash functions, the build profile (`checked`: arithmetic overflow panics, as in debug
builds), the clock at login and the 8 random bytes drawn at login. -/
structure Env (σ : Type) where
  V : Server σ
  C : Crypto
  checked : Bool
  now : Instant
  random : Bytes
  random_len : random.length = 8

/-- /repo/src/lib.rs:27-35 `struct Cifs` without the transport. -/
structure Cli where
  auth : Auth
  maxSmbSize : Nat
  useUnicode : Bool
  uid : UInt16
  mid : UInt16
  deriving Repr, DecidableEq

/-- /repo/src/lib.rs:27-35 `struct Cifs`, and the world its transport is connected to. -/
structure St (σ : Type) where
  cli : Cli
  w : World σ

/-- Client code. -/
abbrev CM (σ α : Type) := M Error (St σ) α

variable {σ : Type}

/-- Run transport code; errors become `Error::NetBios` (/repo/src/error.rs:38-42). -/
def liftNet {α : Type} (m : M NbError (World σ) α) : CM σ α := fun s =>
  match m s.w with
  | (.ok a, w) => (.ok a, { s with w })
  | (.err e, w) => (.err (.NetBios e), { s with w })
  | (.panic, w) => (.panic, { s with w })
  | (.pending, w) => (.pending, { s with w })
  | (.running, w) => (.running, { s with w })

/-- The header of an outgoing request, /repo/src/lib.rs:303-307. -/
def requestInfo (c : Cli) (m : Msg) : Info :=
  m.fixHeader { Info.default m.cmd with
    uid := c.uid, mid := c.mid, flags2 := Flags2.set Flags2.default Flags2.UNICODE c.useUnicode }

/-- The frame built for a request by /repo/src/lib.rs:302-311. -/
def requestFrame (c : Cli) (m : Msg) : Res SmbError Bytes := do
  let header := (requestInfo c m).write
  let body ← m.write (requestInfo c m) header.length
  .ok (header ++ body)

/-- /repo/src/lib.rs:295-315 `send`. `self.mid += 1` panics on overflow in a checked build and wraps otherwise. -/
def send (E : Env σ) (m : Msg) : CM σ UInt16 := fun s =>
  if E.checked ∧ s.cli.mid.toNat = 65535 then (.panic, s)
  else
    let s1 : St σ := { s with cli := { s.cli with mid := s.cli.mid + 1 } }
    match requestFrame s.cli m with
    | .err e => (.err (.SMBError e), s1)
    | .panic => (.panic, s1)
    | .ok frame => M.bind (liftNet (sendMessage E.V frame)) (fun _ => (pure s.cli.mid : CM σ UInt16)) s1

/-- /repo/src/lib.rs:323-329, the loop of `recv`: the first frame with the right multiplex id. -/
def recvLoop (E : Env σ) (mid : UInt16) : Nat → CM σ (Info × Bytes)
  | 0 => fun s => (.running, s)
  | k + 1 => do
    let frame ← liftNet (recvMessage E.V)
    let (info, body) ← M.ofRes Error.SMBError (Info.parse frame)
    if info.mid = mid then pure (info, body) else recvLoop E mid k

/-- /repo/src/lib.rs:331-349, the part of `recv` after the loop. -/
def acceptReply {α : Type} (R : Reply α) (info : Info) (body : Bytes) : CM σ α :=
  if info.cmd ≠ R.cmd then M.fail (.UnexpectedReply R.cmd info.cmd)
  else match info.status with
    | .Known .SUCCESS => M.ofRes Error.SMBError (R.parse info body)
    | .Known .MORE_PROCESSING =>
      if info.cmd = .SessionSetup then M.ofRes Error.SMBError (R.parse info body) else M.fail (.ServerError info.status)
    | _ => M.fail (.ServerError info.status)

/-- /repo/src/lib.rs:321-350 `recv`. Every iteration consumes bytes, so the budget is never used up (theorem `recv_not_running`). -/
def recv {α : Type} (E : Env σ) (R : Reply α) (mid : UInt16) : CM σ α := fun s =>
  (M.bind (recvLoop E mid (s.w.avail + 1)) (fun p => acceptReply R p.1 p.2)) s

/-- /repo/src/lib.rs:357-364 `command`. -/
def command {α : Type} (E : Env σ) (m : Msg) (R : Reply α) : CM σ α := do
  let mid ← send E m
  recv E R mid

/-- /repo/src/lib.rs:366-375 `transact`. -/
def transact {α : Type} (E : Env σ) (tid : UInt16) (c : SubCmd) (sub : SubReply α) : CM σ α :=
  command E (transactMsg tid c) (transactReply sub)

/-- /repo/src/lib.rs:388-393, the loop of `transact2`. -/
def collectLoop (E : Env σ) (mid : UInt16) : Nat → CollectTrans2 → CM σ CollectTrans2
  | 0, _ => fun s => (.running, s)
  | k + 1, ctx => do
    let reply ← recv E trans2Reply mid
    let (ctx', ready) ← M.ofRes Error.SMBError (ctx.add reply)
    if ready then pure ctx' else collectLoop E mid k ctx'

/-- /repo/src/lib.rs:386-395, `transact2` after the request was sent. -/
def collect {α : Type} (E : Env σ) (sub : SubReply2 α) (mid : UInt16) : CM σ α := fun s =>
  (M.bind (collectLoop E mid (s.w.avail + 1) .new) (fun ctx => M.ofRes Error.SMBError (ctx.getSubreply sub))) s

/-- /repo/src/lib.rs:377-396 `transact2`. -/
def transact2 {α : Type} (E : Env σ) (tid : UInt16) (c : SubCmd2) (sub : SubReply2 α) : CM σ α := do
  let mid ← send E (transact2Msg tid c)
  collect E sub mid

/-! ## The public API -/

/-- /repo/src/lib.rs:74-80 `mount_password`. -/
def mountPassword (E : Env σ) (path password : Str) : CM σ Share :=
  command E (treeConnectMsg (sanitizePath path) password) Share.reply

/-- /repo/src/lib.rs:70-72 `mount`. -/
def mount (E : Env σ) (path : Str) : CM σ Share := mountPassword E path []

/-- /repo/src/lib.rs:82-89 `umount_ref`, `umount`. -/
def umount (E : Env σ) (share : Share) : CM σ Unit := command E (treeDisconnectMsg share.tid) treeDisconnectReply

/-- /repo/src/lib.rs:91-94 `openfile`. -/
def openfile (E : Env σ) (share : Share) (path : Str) : CM σ Handle :=
  command E (OpenMsg.fileRo share.tid (sanitizePath path)).msg Handle.reply

/-- /repo/src/lib.rs:96-99 `opendir`. -/
def opendir (E : Env σ) (share : Share) (path : Str) : CM σ Handle :=
  command E (OpenMsg.dir share.tid (sanitizePath path)).msg Handle.reply

/-- /repo/src/lib.rs:101-108 `close_ref`, `close`. -/
def close (E : Env σ) (file : Handle) : CM σ Unit := command E (closeMsg file.tid file.fid) closeReply

/-- /repo/src/lib.rs:110-113 `read`. -/
def read (E : Env σ) (file : Handle) (offset : UInt64) : CM σ Bytes := command E (readMsg file.tid file.fid offset) readReply

/-- /repo/src/lib.rs:119-122, the loop of `download`, with an iteration budget. -/
def downloadLoop (E : Env σ) (file : Handle) : Nat → Bytes → CM σ Bytes
  | 0, _ => fun s => (.running, s)
  | k + 1, data =>
    if data.length < file.size.toNat then do
      let chunk ← read E file (UInt64.ofNat data.length)
      downloadLoop E file k (data ++ chunk)
    else pure data

/-- /repo/src/lib.rs:115-126 `download`, with an iteration budget. -/
def download (E : Env σ) (budget : Nat) (share : Share) (path : Str) : CM σ Bytes := do
  let file ← openfile E share path
  let data ← downloadLoop E file budget []
  let _ ← close E file
  pure data

/-- /repo/src/lib.rs:128-133 `delete`. -/
def delete (E : Env σ) (share : Share) (path : Str) : CM σ Unit :=
  command E (deleteMsg share.tid (sanitizePath path)) deleteReply

/-- /repo/src/lib.rs:135-140 `rmdir`. -/
def rmdir (E : Env σ) (share : Share) (path : Str) : CM σ Unit :=
  command E (rmdirMsg share.tid (sanitizePath path)) rmdirReply

/-- /repo/src/lib.rs:146-159 `notify_about`. -/
def notifyAbout (E : Env σ) (handle : Handle) (what : UInt32) : CM σ (List (Str × NotifyAction)) :=
  transact E handle.tid (notifySetup handle.fid what false) notificationParse

/-- /repo/src/lib.rs:142-144 `notify`. -/
def notify (E : Env σ) (handle : Handle) : CM σ (List (Str × NotifyAction)) := notifyAbout E handle NotifyMode.all

/-- /repo/src/lib.rs:170-178 `find_first`. -/
def findFirst (E : Env σ) (share : Share) (pattern : Str) : CM σ FindFirst2 :=
  transact2 E share.tid
    (findFirst2Cmd (sanitizePath pattern) (FileAttr.HIDDEN ||| FileAttr.SYSTEM ||| FileAttr.DIRECTORY)) findFirst2Parse

/-- /repo/src/lib.rs:189-197 `find_next`. -/
def findNext (E : Env σ) (share : Share) (sid : UInt16) (lastfile : Str) : CM σ FindNext2 :=
  transact2 E share.tid (findNext2Cmd sid lastfile) findNext2Parse

/-- /repo/src/lib.rs:213-222, the loop of `list`, with an iteration budget; `result.last().unwrap()` panics on an empty list. -/
def listLoop (E : Env σ) (share : Share) (sid : UInt16) : Nat → List DirInfo → CM σ (List DirInfo)
  | 0, _ => fun s => (.running, s)
  | k + 1, result =>
    match result.getLast? with
    | none => fun s => (.panic, s)
    | some last => do
      let reply ← findNext E share sid last.filename
      if reply.done then pure (result ++ reply.info) else listLoop E share sid k (result ++ reply.info)

/-- /repo/src/lib.rs:203-225 `list`, with an iteration budget. -/
def list (E : Env σ) (budget : Nat) (share : Share) (pattern : Str) : CM σ (List DirInfo) := do
  let reply ← findFirst E share pattern
  if reply.done then pure reply.info else listLoop E share reply.sid budget reply.info

/-! ## Login -/

/-- /repo/src/lib.rs:398-400 `negotiate`. -/
def negotiate (E : Env σ) : CM σ ServerSetup := command E negotiateMsg ServerSetup.reply

/-- /repo/src/lib.rs:402-410 `session_setup`. -/
def sessionSetup (E : Env σ) (user domain : Str) (secret : Bytes) : CM σ SessionSetupReply :=
  command E (SessionSetupMsg.withAuth user domain secret).msg SessionSetupReply.reply

/-- /repo/src/lib.rs:412-414 `session_setup_ntlmv2`. -/
def sessionSetupNtlmv2 (E : Env σ) (blob : Bytes) : CM σ SessionSetupReply :=
  command E (SessionSetupMsg.withBlob blob).msg SessionSetupReply.reply

/-- Read the client fields. -/
def getCli : CM σ Cli := fun s => (.ok s.cli, s)

/-- Change the client fields. -/
def modifyCli (f : Cli → Cli) : CM σ Unit := fun s => (.ok (), { s with cli := f s.cli })

/-- /repo/src/lib.rs:247-260 `authenticate_ntlm`. -/
def authenticateNtlm (E : Env σ) (challenge : Bytes) : CM σ Unit := do
  let c ← getCli
  let secret ← M.ofRes Error.SMBError (ntlmv1Authenticate E.C c.auth challenge)
  let setupReply ← sessionSetup E c.auth.user c.auth.domain secret
  modifyCli (fun c => { c with uid := setupReply.uid })

/-- /repo/src/lib.rs:262-292 `authenticate_ntlmv2`. -/
def authenticateNtlmv2 (E : Env σ) : CM σ Unit := do
  let c ← getCli
  let ntlmInit ← M.ofRes Error.NTLMError (ntlmInit ntlmInitFlags c.auth.domain c.auth.workstation)
  let setupReply ← sessionSetupNtlmv2 E ntlmInit
  modifyCli (fun c => { c with uid := setupReply.uid })
  let challenge ← M.ofRes Error.NTLMError (ChallengeMsg.parse setupReply.securityBlob)
  let time ← M.ofRes Error.NTLMError (encodeWindowsTime E.checked E.now)
  let response ← M.ofRes Error.NTLMError (challenge.response E.C c.auth time E.random)
  let _ ← sessionSetupNtlmv2 E response
  pure ()

/-- /repo/src/lib.rs:230-245 `setup_connection`. -/
def setupConnection (E : Env σ) : CM σ Unit := do
  let setup ← negotiate E
  modifyCli (fun c => { c with
    maxSmbSize := setup.maxBufferSize.toNat, useUnicode := Capabilities.contains setup.capabilities Capabilities.UNICODE })
  if Capabilities.contains setup.capabilities Capabilities.EXTENDED_SECURITY then authenticateNtlmv2 E
  else authenticateNtlm E setup.challenge

/-- /repo/src/lib.rs:43-48, the default credentials. -/
def defaultAuth : Auth :=
  { user := [], password := [], domain := "WORKGROUP".toList, workstation := "ANONYMOUS".toList }

/-- /repo/src/lib.rs:55-63, the fields of a fresh client. -/
def Cli.init (auth : Auth) : Cli := { auth, maxSmbSize := 1024, useUnicode := true, uid := 0, mid := 0 }

/-- Result of `open`: outcome, final state if a transport was established, ports dialled. -/
structure Opened (σ : Type) where
  outcome : Out Error Unit
  state : Option (St σ)
  ports : List UInt16

/-- `Out` with the transport error converted. -/
def Out.netErr : Out NbError Unit → Out Error Unit
  | .ok a => .ok a
  | .err e => .err (.NetBios e)
  | .panic => .panic
  | .pending => .pending
  | .running => .running

/-- /repo/src/lib.rs:38-68 `open`. -/
def openCifs (E : Env σ) (dial : Dial σ) (port : Option UInt16) (auth? : Option Auth) : Opened σ :=
  let auth := auth?.getD defaultAuth
  let d := match port with
    | some p => openRaw dial p
    | none => openNetbios E.V dial auth.workstation
  match d.outcome, d.world with
  | .ok (), some w =>
    let r := setupConnection E { cli := .init auth, w }
    { outcome := r.1, state := some r.2, ports := d.ports }
  | o, w => { outcome := o.netErr, state := w.map (fun w => { cli := .init auth, w }), ports := d.ports }

/-! ## Operations as data, histories -/

/-- One call of the public API on an open connection. `budget` bounds the iterations of the two loops the code leaves unbounded. -/
inductive Op where
  | mount (path password : Str)
  | umount (share : Share)
  | openfile (share : Share) (path : Str)
  | opendir (share : Share) (path : Str)
  | close (file : Handle)
  | read (file : Handle) (offset : UInt64)
  | download (budget : Nat) (share : Share) (path : Str)
  | delete (share : Share) (path : Str)
  | rmdir (share : Share) (path : Str)
  | notify (handle : Handle) (what : UInt32)
  | findFirst (share : Share) (pattern : Str)
  | findNext (share : Share) (sid : UInt16) (lastfile : Str)
  | list (budget : Nat) (share : Share) (pattern : Str)

/-- Value returned by an operation. -/
inductive Val where
  | unit
  | share (s : Share)
  | handle (h : Handle)
  | bytes (b : Bytes)
  | changes (l : List (Str × NotifyAction))
  | first (r : FindFirst2)
  | next (r : FindNext2)
  | entries (l : List DirInfo)
  deriving DecidableEq

/-- Apply a function to the value of an outcome. -/
def M.map' {ε S α β : Type} (f : α → β) (m : M ε S α) : M ε S β := M.bind m (fun a s => (.ok (f a), s))

/-- Run one API call. -/
def runOp (E : Env σ) : Op → CM σ Val
  | .mount path password => M.map' Val.share (mountPassword E path password)
  | .umount share => M.map' (fun _ => Val.unit) (umount E share)
  | .openfile share path => M.map' Val.handle (openfile E share path)
  | .opendir share path => M.map' Val.handle (opendir E share path)
  | .close file => M.map' (fun _ => Val.unit) (close E file)
  | .read file offset => M.map' Val.bytes (read E file offset)
  | .download budget share path => M.map' Val.bytes (download E budget share path)
  | .delete share path => M.map' (fun _ => Val.unit) (delete E share path)
  | .rmdir share path => M.map' (fun _ => Val.unit) (rmdir E share path)
  | .notify handle what => M.map' Val.changes (notifyAbout E handle what)
  | .findFirst share pattern => M.map' Val.first (findFirst E share pattern)
  | .findNext share sid lastfile => M.map' Val.next (findNext E share sid lastfile)
  | .list budget share pattern => M.map' Val.entries (list E budget share pattern)

/-- Run a history of API calls, whatever each of them returns: all outcomes and the final state. A caller who chooses the next call
depending on earlier outcomes produces some such list, so a theorem about all lists covers all callers. -/
def runOps (E : Env σ) : List Op → St σ → List (Out Error Val) × St σ
  | [], s => ([], s)
  | op :: ops, s =>
    let r := runOp E op s
    let rest := runOps E ops r.2
    (r.1 :: rest.1, rest.2)

end Cifs
