import Verif.Model.Client
/-!
# Memory reserved in advance

The sizes given to `with_capacity` where they depend on what the server said. The buffers themselves grow on demand, so these numbers have no
influence on what the code computes; they are the memory it asks for before it knows how much it needs.
-/

namespace Cifs

/-- /repo/src/lib.rs:296, bytes reserved for a request. -/
def Cli.sendBuffer (c : Cli) : Nat := c.maxSmbSize

/-- /repo/src/netbios.rs:230-248: the type of the next packet and the number given to `read_exactly`, which reserves as many bytes (line 261). -/
def packetBuffer {σ : Type} (V : Server σ) : M NbError (World σ) (Bytes × Nat) := do
  let t ← readExact V (.IoError .unexpectedEof) 1
  let len ← readExact V (.IoError .unexpectedEof) 3
  if beVal len > MAX_FRAME_LENGTH then M.fail .FrameTooBig else pure (t, beVal len)

/-- /repo/src/smb/trans2/collector.rs:95-102, bytes reserved for a block that is put together. -/
def Collector.blockBuffer (c : Collector) : Res SmbError Nat :=
  match c.total with
  | none => .err .InvalidData
  | some total => if c.len ≠ total then .err (.Reassemble (.lengthMismatch total c.len)) else .ok total

/-- /repo/src/smb/trans2/subreply/findfirst2.rs:17-35, the number of entries that room is made for. -/
def firstEntries (parameter : Bytes) : Res SmbError Nat :=
  if parameter.length < 10 then .err .InvalidData
  else do
    let (_, b) ← Rd.getU16 parameter
    let (count, _) ← Rd.getU16 b
    .ok count.toNat

/-- /repo/src/smb/trans2/subreply/findnext2.rs:15-26, the same for further pages. -/
def nextEntries (parameter : Bytes) : Res SmbError Nat :=
  if parameter.length < 4 then .err .InvalidData
  else do
    let (count, _) ← Rd.getU16 parameter
    .ok count.toNat

end Cifs
