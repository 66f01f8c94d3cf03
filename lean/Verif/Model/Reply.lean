import Verif.Model.Info
/-!
# `src/smb/reply.rs`, `src/smb/trans.rs` (replies), `src/smb/trans2/reply.rs`, `src/smb/trans2/subreply/*`
-/

namespace Cifs

/-- /repo/src/smb/reply.rs:14-21 `ReplyCtx`. -/
structure ReplyCtx where
  info : Info
  parameter : Bytes
  data : Bytes
  dataOffset : Nat

/-- /repo/src/smb/reply.rs:24-28 the `Reply` trait: command code, presence of an AndX block, and `create`. -/
structure Reply (α : Type) where
  cmd : Cmd
  andx : Bool
  create : ReplyCtx → Res SmbError α

/-- /repo/src/smb/reply.rs:30-55 `Reply::parse`. -/
def Reply.parse {α : Type} (r : Reply α) (info : Info) (buffer : Bytes) : Res SmbError α := do
  let (parameterCount, b1) ← Rd.getU8 buffer
  let (parameter, b2) ← Rd.copyToBytes (2 * parameterCount.toNat) b1
  let (dataCount, b3) ← Rd.getU16 b2
  let dataOffset := (SMB_HEADER_LEN + 1) + 2 * parameterCount.toNat + 2
  let (data, _) ← Rd.copyToBytes dataCount.toNat b3
  if r.andx then
    let (andx, parameter') ← AndX.parse parameter
    if andx.isSome then .err (.Unsupported "AndX chaining is currently not supported")
    else r.create { info, parameter := parameter', data, dataOffset }
  else r.create { info, parameter, data, dataOffset }

/-- /repo/src/smb/reply.rs:60-72 `ServerSetup`. -/
structure ServerSetup where
  dialect : Nat
  securityMode : UInt8
  maxMpxCount : UInt16
  maxNumberVcs : UInt16
  maxBufferSize : UInt32
  maxRawSize : UInt32
  sessionKey : UInt32
  capabilities : UInt32
  systemTime : Instant
  timezone : UInt16
  challenge : Bytes
  deriving Repr, DecidableEq

/-- /repo/src/smb/reply.rs:78-138 `ServerSetup::create`. Note the length check counts bytes (17), not words. -/
def ServerSetup.create (ctx : ReplyCtx) : Res SmbError ServerSetup :=
  if ctx.parameter.length < 17 then .err (.Unsupported "negotiate header with too few parameter")
  else do
    let (dialect, b) ← Rd.getU16 ctx.parameter
    if dialect.toNat = 0xffff then .err .NoDialect
    else if SMB_SUPPORTED_DIALECTS[dialect.toNat]?.isNone then .err .InvalidHeader
    else
      let (securityMode, b) ← Rd.getU8 b
      let (maxMpxCount, b) ← Rd.getU16 b
      let (maxNumberVcs, b) ← Rd.getU16 b
      let (maxBufferSize, b) ← Rd.getU32 b
      let (maxRawSize, b) ← Rd.getU32 b
      let (sessionKey, b) ← Rd.getU32 b
      let (rawCaps, b) ← Rd.getU32 b
      let (rawTime, b) ← Rd.getU64 b
      let systemTime ← decodeWindowsTime rawTime
      let (timezone, b) ← Rd.getU16 b
      let (challengeLength, _) ← Rd.getU8 b
      if ctx.data.length < challengeLength.toNat then .err .InvalidData
      else
        let (challenge, _) ← Rd.copyToBytes challengeLength.toNat ctx.data
        .ok { dialect := dialect.toNat, securityMode, maxMpxCount, maxNumberVcs, maxBufferSize, maxRawSize, sessionKey
              capabilities := Capabilities.truncate rawCaps, systemTime, timezone, challenge }

/-- /repo/src/smb/reply.rs:74-76. -/
def ServerSetup.reply : Reply ServerSetup := { cmd := .Negotiate, andx := false, create := ServerSetup.create }

/-- /repo/src/smb/reply.rs:144-148 `SessionSetup` (reply). -/
structure SessionSetupReply where
  guestMode : Bool
  uid : UInt16
  securityBlob : Bytes
  deriving Repr, DecidableEq

/-- /repo/src/smb/reply.rs:154-183 `SessionSetup::create`. -/
def SessionSetupReply.create (ctx : ReplyCtx) : Res SmbError SessionSetupReply := do
  let (action, b) ← Rd.getU16 ctx.parameter
  let (blobLength, _) ← (if b.length ≥ 2 then Rd.getU16 b else .ok (0, b))
  let (blob, _) ← Rd.copyToBytes blobLength.toNat ctx.data
  .ok { guestMode := action &&& 0x0001 == 1, securityBlob := blob, uid := ctx.info.uid }

/-- /repo/src/smb/reply.rs:150-152. -/
def SessionSetupReply.reply : Reply SessionSetupReply :=
  { cmd := .SessionSetup, andx := true, create := SessionSetupReply.create }

/-- /repo/src/smb/reply.rs:199-205 `Share`. -/
structure Share where
  accessRights : Option UInt32
  guestRights : Option UInt32
  service : Str
  filesystem : Str
  tid : UInt16
  deriving Repr, DecidableEq

/-- One optional rights field, /repo/src/smb/reply.rs:217-221 and 223-227. -/
def Share.optRights (b : Bytes) : Res SmbError (Option UInt32 × Bytes) :=
  if b.length ≥ 4 then do
    let (x, b') ← Rd.getU32 b
    .ok (some (DirAccessMask.truncate x), b')
  else .ok (none, b)

/-- /repo/src/smb/reply.rs:212-252 `Share::create`. `service.len()` is the UTF-8 byte length. -/
def Share.create (ctx : ReplyCtx) : Res SmbError Share := do
  let (_, b) ← Rd.advance 2 ctx.parameter
  let (accessRights, b) ← Share.optRights b
  let (guestRights, _) ← Share.optRights b
  let (service, d) ← parseStr0 .InvalidData ctx.data
  let (filesystem, _) ←
    (if Flags2.contains ctx.info.flags2 Flags2.UNICODE then do
      let (_, d') ← (if (utf8 service).length % 2 = 1 then Rd.advance 1 d else .ok ((), d))
      parseUtf16le0 .InvalidData d'
    else parseStr0 .InvalidData d)
  .ok { accessRights, guestRights, service, filesystem, tid := ctx.info.tid }

/-- /repo/src/smb/reply.rs:208-210. -/
def Share.reply : Reply Share := { cmd := .TreeConnect, andx := true, create := Share.create }

/-- /repo/src/smb/reply.rs:259-266 reply `TreeDisconnect`. -/
def treeDisconnectReply : Reply Unit := { cmd := .TreeDisconnect, andx := false, create := fun _ => .ok () }

/-- /repo/src/smb/reply.rs:278-292 `Handle`. -/
structure Handle where
  tid : UInt16
  fid : UInt16
  oplock : UInt8
  disposition : UInt32
  createTime : UInt64
  accessTime : UInt64
  writeTime : UInt64
  changeTime : UInt64
  attributes : UInt32
  allocationSize : UInt64
  size : UInt64
  fileType : UInt16
  directory : Bool
  deriving Repr, DecidableEq

/-- /repo/src/smb/reply.rs:298-341 `Handle::create`. -/
def Handle.create (ctx : ReplyCtx) : Res SmbError Handle := do
  let (oplock, b) ← Rd.getU8 ctx.parameter
  let (fid, b) ← Rd.getU16 b
  let (disposition, b) ← Rd.getU32 b
  let (createTime, b) ← Rd.getU64 b
  let (accessTime, b) ← Rd.getU64 b
  let (writeTime, b) ← Rd.getU64 b
  let (changeTime, b) ← Rd.getU64 b
  let (attributes, b) ← Rd.getU32 b
  let (allocationSize, b) ← Rd.getU64 b
  let (size, b) ← Rd.getU64 b
  let (fileType, b) ← Rd.getU16 b
  let (_, b) ← Rd.advance 2 b
  let (rawDir, _) ← Rd.getU8 b
  if rawDir = 0 ∨ rawDir = 1 then
    .ok { tid := ctx.info.tid, fid, oplock := OpLockLevel.truncate oplock, disposition := CreateDisposition.truncate disposition
          createTime, accessTime, writeTime, changeTime, attributes := ExtFileAttr.truncate attributes, allocationSize, size
          fileType := ResourceType.truncate fileType, directory := rawDir == 1 }
  else .err .InvalidData

/-- /repo/src/smb/reply.rs:294-296. -/
def Handle.reply : Reply Handle := { cmd := .Create, andx := true, create := Handle.create }

/-- /repo/src/smb/reply.rs:346-355 reply `Close`. -/
def closeReply : Reply Unit := { cmd := .Close, andx := false, create := fun _ => .ok () }

/-- /repo/src/smb/reply.rs:368-394 `Read::create`. -/
def readCreate (ctx : ReplyCtx) : Res SmbError Bytes := do
  let (_, b) ← Rd.advance 2 ctx.parameter
  let (_, b) ← Rd.advance 2 b
  let (_, b) ← Rd.advance 2 b
  let (length, _) ← Rd.getU16 b
  let (_, d) ← (if ctx.data.length > length.toNat then Rd.advance 1 ctx.data else .ok ((), ctx.data))
  if d.length ≠ length.toNat then .err .InvalidData
  else
    let (fileData, _) ← Rd.copyToBytes length.toNat d
    .ok fileData

/-- /repo/src/smb/reply.rs:363-365. -/
def readReply : Reply Bytes := { cmd := .Read, andx := true, create := readCreate }

/-- /repo/src/smb/reply.rs:399-408 reply `Delete`. -/
def deleteReply : Reply Unit := { cmd := .Delete, andx := false, create := fun _ => .ok () }

/-- /repo/src/smb/reply.rs:411-420 reply `Rmdir`. -/
def rmdirReply : Reply Unit := { cmd := .Rmdir, andx := false, create := fun _ => .ok () }

/-- The `trans::SubReply` trait, /repo/src/smb/trans.rs:29-33 (its `ID` is never consulted). -/
abbrev SubReply (α : Type) := Bytes → Bytes → Bytes → Res SmbError α

/-- One sub-block of a transaction reply, /repo/src/smb/reply.rs:454-461 and 463-470. -/
def transBlock (data : Bytes) (dataOffset rawOffset count : Nat) : Res SmbError Bytes :=
  if count > 0 then
    match trySub rawOffset dataOffset with
    | none => .err .InvalidData
    | some offset => sliceRange data offset (offset + count)
  else .ok []

/-- /repo/src/smb/reply.rs:432-476 `Transact::create`. -/
def transactCreate {α : Type} (sub : SubReply α) (ctx : ReplyCtx) : Res SmbError α := do
  let (_, b) ← Rd.advance 3 ctx.parameter
  let (totalParameterCount, b) ← Rd.getU32 b
  let (totalDataCount, b) ← Rd.getU32 b
  let (parameterCount, b) ← Rd.getU32 b
  let (rawParameterOffset, b) ← Rd.getU32 b
  let (_, b) ← Rd.getU32 b
  let (dataCount, b) ← Rd.getU32 b
  let (rawDataOffset, b) ← Rd.getU32 b
  let (_, b) ← Rd.getU32 b
  let (setupWords, b) ← Rd.getU8 b
  let (subSetup, _) ← Rd.copyToBytes (2 * setupWords.toNat) b
  if parameterCount.toNat < totalParameterCount.toNat ∨ dataCount.toNat < totalDataCount.toNat then
    .err (.Unsupported "transaction message split to multiple packets")
  else
    let subParameter ← transBlock ctx.data ctx.dataOffset rawParameterOffset.toNat parameterCount.toNat
    let subData ← transBlock ctx.data ctx.dataOffset rawDataOffset.toNat dataCount.toNat
    sub subSetup subParameter subData

/-- /repo/src/smb/reply.rs:428-430. -/
def transactReply {α : Type} (sub : SubReply α) : Reply α := { cmd := .Transact, andx := false, create := transactCreate sub }

/-! ## Notification sub-reply -/

/-- /repo/src/smb/trans.rs:99-118 `Notification::parse_notify_info`. -/
def parseNotifyInfo (buffer : Bytes) : Res SmbError (Str × NotifyAction) :=
  if buffer.length < 8 then .err .InvalidData
  else do
    let (rawAction, b) ← Rd.getU32 buffer
    match NotifyAction.tryFrom rawAction with
    | none => .err .InvalidData
    | some action =>
      let (filenameLength, b) ← Rd.getU32 b
      if b.length < filenameLength.toNat then .err .InvalidData
      else
        let (raw, _) ← Rd.copyToBytes filenameLength.toNat b
        let filename ← decodeUtf16le .InvalidData raw
        .ok (filename, action)

/-- /repo/src/smb/trans.rs:126-147, the loop of `Notification::parse` with its variables `start` and `changes`.
`parameter.slice(start..)` panics when `start > len`. Terminates because `next ≠ 0` and `start ≤ len` whenever the loop continues. -/
def notifyLoop (parameter : Bytes) (start : Nat) (changes : List (Str × NotifyAction)) :
    Res SmbError (List (Str × NotifyAction)) :=
  if _h : parameter.length < start then .panic
  else
    let parser := parameter.drop start
    if parser.length = 0 then .ok changes
    else if parser.length < 4 then .err .InvalidData
    else
      let next := leVal (parser.take 4)
      match parseNotifyInfo (parser.drop 4) with
      | .panic => .panic
      | .err e => .err e
      | .ok change =>
        if _h2 : next = 0 then .ok (changes ++ [change])
        else notifyLoop parameter (start + next) (changes ++ [change])
termination_by parameter.length + 1 - start
decreasing_by
  simp only [Nat.not_lt] at *
  have hn : leVal (List.take 4 (List.drop start parameter)) ≠ 0 := by assumption
  omega

/-- /repo/src/smb/trans.rs:125-148 `Notification::parse`. -/
def notificationParse : SubReply (List (Str × NotifyAction)) := fun _setup parameter _data => notifyLoop parameter 0 []

/-! ## Transact2 replies -/

/-- /repo/src/smb/trans2/reply.rs:9-17 `Transact2` (reply). `*Offset` is the displacement in the reassembled block. -/
structure Trans2Reply where
  parameter : Bytes
  parameterTotal : Nat
  parameterOffset : Nat
  data : Bytes
  dataTotal : Nat
  dataOffset : Nat
  deriving Repr, DecidableEq

/-- /repo/src/smb/trans2/reply.rs:23-54 `Transact2::create`. -/
def trans2Create (ctx : ReplyCtx) : Res SmbError Trans2Reply := do
  let (totalParameterCount, b) ← Rd.getU16 ctx.parameter
  let (totalDataCount, b) ← Rd.getU16 b
  let (_, b) ← Rd.advance 2 b
  let (parameterCount, b) ← Rd.getU16 b
  let (rawParameterOffset, b) ← Rd.getU16 b
  let parameterOffset ← Res.ofOption .InvalidData (trySub rawParameterOffset.toNat ctx.dataOffset)
  let (parameterDisplacement, b) ← Rd.getU16 b
  let (dataCount, b) ← Rd.getU16 b
  let (rawDataOffset, b) ← Rd.getU16 b
  let dataOffset ← Res.ofOption .InvalidData (trySub rawDataOffset.toNat ctx.dataOffset)
  let (dataDisplacement, _) ← Rd.getU16 b
  let subParameter ← sliceRange ctx.data parameterOffset (parameterOffset + parameterCount.toNat)
  let subData ← sliceRange ctx.data dataOffset (dataOffset + dataCount.toNat)
  .ok { parameter := subParameter, parameterTotal := totalParameterCount.toNat, parameterOffset := parameterDisplacement.toNat
        data := subData, dataTotal := totalDataCount.toNat, dataOffset := dataDisplacement.toNat }

/-- /repo/src/smb/trans2/reply.rs:19-21. -/
def trans2Reply : Reply Trans2Reply := { cmd := .Transact2, andx := false, create := trans2Create }

/-- /repo/src/smb/trans2/subreply/findfirst2.rs:7-11 `FindFirst2`. -/
structure FindFirst2 where
  sid : UInt16
  done : Bool
  info : List DirInfo
  deriving Repr, DecidableEq

/-- /repo/src/smb/trans2/subreply/findnext2.rs:6-9 `FindNext2`. -/
structure FindNext2 where
  done : Bool
  info : List DirInfo
  deriving Repr, DecidableEq

/-- /repo/src/smb/trans2/subreply/findfirst2.rs:35-63, the entry loop, with `info` so far. -/
def findFirstLoop (data : Bytes) (info : List DirInfo) : Res SmbError (List DirInfo) :=
  if data.length = 0 then .ok info
  else if _h : data.length < 4 then .err .InvalidData
  else
    let nextEntry := leVal (data.take 4)
    let data1 := data.drop 4
    if nextEntry ≠ 0 ∧ nextEntry < 4 then .err .InvalidData
    else
      let size := if nextEntry = 0 then data1.length else nextEntry - 4
      if size = 0 then .ok info
      else if data1.length < size then .err .InvalidData
      else match DirInfo.parse (data1.take size) with
        | .panic => .panic
        | .err e => .err e
        | .ok d => findFirstLoop (data1.drop size) (info ++ [d])
termination_by data.length
decreasing_by simp only [List.length_drop]; omega

/-- /repo/src/smb/trans2/subreply/findnext2.rs:26-51, the entry loop, with `info` so far. -/
def findNextLoop (data : Bytes) (info : List DirInfo) : Res SmbError (List DirInfo) :=
  if data.length = 0 then .ok info
  else if _h : data.length < 4 then .err .InvalidData
  else
    let rawsize := leVal (data.take 4)
    let data1 := data.drop 4
    if rawsize < 4 then .err .InvalidData
    else
      let size := rawsize - 4
      if size = 0 then .ok info
      else if data1.length < size then .err .InvalidData
      else match DirInfo.parse (data1.take size) with
        | .panic => .panic
        | .err e => .err e
        | .ok d => findNextLoop (data1.drop size) (info ++ [d])
termination_by data.length
decreasing_by simp only [List.length_drop]; omega

/-- The `trans2::SubReply` trait, /repo/src/smb/trans2.rs:26-30 (its `SETUP` is never consulted). -/
abbrev SubReply2 (α : Type) := Bytes → Bytes → Res SmbError α

/-- /repo/src/smb/trans2/subreply/findfirst2.rs:16-80 `FindFirst2::parse`. -/
def findFirst2Parse : SubReply2 FindFirst2 := fun parameter data =>
  if parameter.length < 10 then .err .InvalidData
  else do
    let (sid, b) ← Rd.getU16 parameter
    let (count, b) ← Rd.getU16 b
    let (rawEnd, b) ← Rd.getU16 b
    let (_, _) ← Rd.advance 2 b
    let done := rawEnd != 0
    let info ← findFirstLoop data []
    if info.length ≠ count.toNat then .err .InvalidData
    else if done = false ∧ count.toNat = 0 then .err .InvalidData
    else .ok { sid, done, info }

/-- /repo/src/smb/trans2/subreply/findnext2.rs:14-62 `FindNext2::parse`. -/
def findNext2Parse : SubReply2 FindNext2 := fun parameter data =>
  if parameter.length < 4 then .err .InvalidData
  else do
    let (count, b) ← Rd.getU16 parameter
    let (rawEnd, _) ← Rd.getU16 b
    let done := rawEnd != 0
    let info ← findNextLoop data []
    if info.length ≠ count.toNat then .err .InvalidData
    else if done = false ∧ count.toNat = 0 then .err .InvalidData
    else .ok { done, info }

/-! ## Reassembly of split Transact2 replies -/

/-- /repo/src/smb/trans2/collector.rs:44-47 `Collector`. The `HashMap<usize, Bytes>` is an association list with unique keys; nothing
depends on its order (iteration is only summed over, or sorted by key first). -/
structure Collector where
  fragments : List (Nat × Bytes)
  total : Option Nat
  deriving Repr, DecidableEq

/-- /repo/src/smb/trans2/collector.rs:50-55. -/
def Collector.new : Collector := { fragments := [], total := none }

/-- Second half of `Collector::add`, /repo/src/smb/trans2/collector.rs:71-80. -/
def Collector.insert (c : Collector) (data : Bytes) (offset : Nat) : Res SmbError Collector :=
  if data.length = 0 then .ok c
  else if c.fragments.any (fun p => p.1 == offset) then .err (.Reassemble (.duplicate offset))
  else .ok { c with fragments := (offset, data) :: c.fragments }

/-- /repo/src/smb/trans2/collector.rs:57-81 `Collector::add`. -/
def Collector.add (c : Collector) (data : Bytes) (offset total : Nat) : Res SmbError Collector :=
  match c.total with
  | some saved => if saved ≠ total then .err (.Reassemble (.totalChanged saved total)) else c.insert data offset
  | none => { c with total := some total }.insert data offset

/-- /repo/src/smb/trans2/collector.rs:83-85 `Collector::len`. -/
def Collector.len (c : Collector) : Nat := (c.fragments.map (fun p => p.2.length)).sum

/-- /repo/src/smb/trans2/collector.rs:87-93 `Collector::is_ready`. -/
def Collector.isReady (c : Collector) : Bool :=
  match c.total with
  | some total => c.len ≥ total
  | none => false

/-- /repo/src/smb/trans2/collector.rs:104-110, the loop of `Collector::get` over the fragments sorted by offset. -/
def joinFragments (buffer : Bytes) : List (Nat × Bytes) → Res SmbError Bytes
  | [] => .ok buffer
  | (offset, data) :: rest =>
    if buffer.length ≠ offset then .err (.Reassemble (.offsetMismatch offset buffer.length))
    else joinFragments (buffer ++ data) rest

/-- Itertools `sorted()` on the map entries: keys are unique, so entries are ordered by offset alone. -/
def sortFragments (l : List (Nat × Bytes)) : List (Nat × Bytes) := l.mergeSort (fun a b => decide (a.1 ≤ b.1))

/-- /repo/src/smb/trans2/collector.rs:95-113 `Collector::get`. -/
def Collector.get (c : Collector) : Res SmbError Bytes :=
  match c.total with
  | none => .err .InvalidData
  | some total =>
    if c.len ≠ total then .err (.Reassemble (.lengthMismatch total c.len))
    else joinFragments [] (sortFragments c.fragments)

/-- /repo/src/smb/trans2/collector.rs:12-15 `CollectTrans2`. -/
structure CollectTrans2 where
  parameter : Collector
  data : Collector
  deriving Repr, DecidableEq

/-- /repo/src/smb/trans2/collector.rs:18-23. -/
def CollectTrans2.new : CollectTrans2 := { parameter := .new, data := .new }

/-- /repo/src/smb/trans2/collector.rs:27-32 `CollectTrans2::add`: the new collection and whether it is complete. -/
def CollectTrans2.add (c : CollectTrans2) (msg : Trans2Reply) : Res SmbError (CollectTrans2 × Bool) := do
  let parameter ← c.parameter.add msg.parameter msg.parameterOffset msg.parameterTotal
  let data ← c.data.add msg.data msg.dataOffset msg.dataTotal
  .ok ({ parameter, data }, parameter.isReady && data.isReady)

/-- /repo/src/smb/trans2/collector.rs:35-40 `CollectTrans2::get_subreply`. -/
def CollectTrans2.getSubreply {α : Type} (c : CollectTrans2) (sub : SubReply2 α) : Res SmbError α := do
  let parameter ← c.parameter.get
  let data ← c.data.get
  sub parameter data

end Cifs
