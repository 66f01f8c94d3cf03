import Verif.Spec.Replies
/-!
# Change notifications on the wire
-/

namespace Cifs.Spec

/-- [MS-FSCC] 2.7.1 the action codes of a change. -/
def actionOf : Nat → Option NotifyAction
  | 1 => some .ADDED
  | 2 => some .REMOVED
  | 3 => some .MODIFIED
  | 4 => some .RENAMED_OLD
  | 5 => some .RENAMED_NEW
  | 6 => some .ADDED_STREAM
  | 7 => some .REMOVED_STREAM
  | 8 => some .MODIFIED_STREAM
  | 9 => some .DELETED
  | 10 => some .NOT_TUNNELLED
  | 11 => some .TUNNELLED_COLLISION
  | _ => none

/-- [MS-FSCC] 2.7.1 FILE_NOTIFY_INFORMATION: the bytes `b` start with a record about this change. -/
def Change (b : Bytes) (c : Str × NotifyAction) : Prop :=
  ∃ a n nm, u32At b 4 = some a ∧ actionOf a = some c.2 ∧ u32At b 8 = some n ∧ sliceAt b 12 n = some nm ∧ Utf16le c.1 nm

/-- A list of records. Each gives the distance to the next one; what is between them does not matter. The last one gives 0, and what
follows it does not matter; or the list ends where the bytes end. -/
inductive Changes : Bytes → List (Str × NotifyAction) → Prop
  | none : Changes [] []
  | last {b : Bytes} {c : Str × NotifyAction} (h : u32At b 0 = some 0) (hc : Change b c) : Changes b [c]
  | more {b : Bytes} {next : Nat} {c : Str × NotifyAction} {cs : List (Str × NotifyAction)} (h : u32At b 0 = some next) (h0 : 0 < next)
      (hl : next ≤ b.length) (hc : Change b c) (hs : Changes (b.drop next) cs) : Changes b (c :: cs)

/-- The block of `count` bytes at distance `offset` from the SMB header, which has to be in the data bytes `ds`; they start at distance
35 + (number of parameter bytes). The place of an empty block does not matter. -/
def Block (ps ds : Bytes) (count offset : Nat) (block : Bytes) : Prop :=
  (count = 0 ∧ block = []) ∨ (0 < count ∧ 35 + ps.length ≤ offset ∧ sliceAt ds (offset - (35 + ps.length)) count = some block)

/-- 2.2.4.62.2 SMB_COM_NT_TRANSACT response, complete in one message, with these two blocks. -/
def IsNtReply (ps ds pblock dblock : Bytes) : Prop :=
  ∃ totalP totalD countP offsetP countD offsetD setup, u32At ps 3 = some totalP ∧ u32At ps 7 = some totalD ∧ u32At ps 11 = some countP ∧
    u32At ps 15 = some offsetP ∧ u32At ps 23 = some countD ∧ u32At ps 27 = some offsetD ∧ u8At ps 35 = some setup ∧
    36 + 2 * setup ≤ ps.length ∧ totalP ≤ countP ∧ totalD ≤ countD ∧ Block ps ds countP offsetP pblock ∧ Block ps ds countD offsetD dblock

/-- A block that is announced beyond the data bytes. -/
def BlockOutside (ps ds : Bytes) (count offset : Nat) : Prop :=
  0 < count ∧ 35 + ps.length ≤ offset ∧ ds.length < offset - (35 + ps.length) + count

/-- An NT transaction response that is too short: for its fixed fields, for its setup words, or for one of its blocks (and complete in one
message as far as its counts tell). -/
def ShortNtReply (ps ds : Bytes) : Prop :=
  ps.length < 36 ∨ (∃ setup, u8At ps 35 = some setup ∧ ps.length < 36 + 2 * setup) ∨
    ∃ totalP totalD countP offsetP countD offsetD, u32At ps 3 = some totalP ∧ u32At ps 7 = some totalD ∧ u32At ps 11 = some countP ∧
      u32At ps 15 = some offsetP ∧ u32At ps 23 = some countD ∧ u32At ps 27 = some offsetD ∧ totalP ≤ countP ∧ totalD ≤ countD ∧
      (BlockOutside ps ds countP offsetP ∨ (∃ pblock, Block ps ds countP offsetP pblock) ∧ BlockOutside ps ds countD offsetD)

/-- Text of odd length that is fine as far as it goes: a whole number of characters, perhaps the first half of a further one, and a single
byte. -/
def OddText (b : Bytes) : Prop :=
  ∃ s u lone x, Utf16le s u ∧ b = u ++ lone ++ [x] ∧ (lone = [] ∨ ∃ l h : UInt8, lone = [l, h] ∧ 0xD8 ≤ h.toNat ∧ h.toNat < 0xDC)

/-- A record whose name is such text. -/
def OddChange (b : Bytes) : Prop :=
  ∃ a n nm action, u32At b 4 = some a ∧ actionOf a = some action ∧ u32At b 8 = some n ∧ sliceAt b 12 n = some nm ∧ OddText nm

/-- A list of records that goes wrong after some good ones: with such a name, or with a distance that leads out of the block. -/
inductive BrokenChanges : Bytes → Prop
  | odd {b : Bytes} (h : OddChange b) : BrokenChanges b
  | outside {b : Bytes} {next : Nat} {c : Str × NotifyAction} (h : u32At b 0 = some next) (hl : b.length < next) (hc : Change b c) : BrokenChanges b
  | later {b : Bytes} {next : Nat} {c : Str × NotifyAction} (h : u32At b 0 = some next) (h0 : 0 < next) (hl : next ≤ b.length)
      (hc : Change b c) (hs : BrokenChanges (b.drop next)) : BrokenChanges b

end Cifs.Spec
