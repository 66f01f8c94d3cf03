import Verif.Spec.Notify
/-!
# Directory entries on the wire
-/

namespace Cifs.Spec

/-- The instant of a FILETIME, cut to microseconds: nanoseconds since 1601. -/
def timeOf (t : Nat) : Int := ((t / 10 : Nat) : Int) * 1000

/-- [MS-CIFS] 2.2.8.1.4 SMB_FIND_FILE_DIRECTORY_INFO: the bytes `b` are an entry (from its NextEntryOffset field on) that describes `d`;
more bytes may follow the name, which is written as `T` says. -/
structure IsEntryIn (T : Str → Bytes → Prop) (b : Bytes) (d : DirInfo) : Prop where
  creationTime : ∃ t, u64At b 8 = some t ∧ d.creationTime = timeOf t
  accessTime : ∃ t, u64At b 16 = some t ∧ d.accessTime = timeOf t
  writeTime : ∃ t, u64At b 24 = some t ∧ d.writeTime = timeOf t
  changeTime : ∃ t, u64At b 32 = some t ∧ d.changeTime = timeOf t
  size : u64At b 40 = some d.filesize.toNat
  attributes : ∃ a, u32At b 56 = some a ∧ d.attributes.toNat = a &&& attrMask
  name : ∃ n nm, u32At b 60 = some n ∧ sliceAt b 64 n = some nm ∧ T d.filename nm

/-- An entry with a Unicode name. -/
abbrev IsEntry : Bytes → DirInfo → Prop := IsEntryIn Utf16le

/-- An ASCII name in an OEM character set: one byte per character. -/
def Ascii (s : Str) (b : Bytes) : Prop := (∀ c ∈ s, c.toNat < 128) ∧ b.map UInt8.toNat = s.map Char.toNat

/-- A list of entries. Each gives the distance to the next one, the last one gives 0 or the distance to the end. -/
inductive Entries : Bytes → List DirInfo → Prop
  | none : Entries [] []
  | last {b : Bytes} {d : DirInfo} (h : u32At b 0 = some 0) (hd : IsEntry b d) : Entries b [d]
  | more {b : Bytes} {next : Nat} {d : DirInfo} {ds : List DirInfo} (h : u32At b 0 = some next) (h0 : 0 < next) (hl : next ≤ b.length)
      (hd : IsEntry (b.take next) d) (hs : Entries (b.drop next) ds) : Entries b (d :: ds)

/-- The lists in which no distance is 0. -/
inductive Measured : Bytes → List DirInfo → Prop
  | none : Measured [] []
  | more {b : Bytes} {next : Nat} {d : DirInfo} {ds : List DirInfo} (h : u32At b 0 = some next) (h0 : 0 < next) (hl : next ≤ b.length)
      (hd : IsEntry (b.take next) d) (hs : Measured (b.drop next) ds) : Measured b (d :: ds)

/-- Lists as the client reads them, with `zero` if a distance of 0 marks the last entry: they may also end with a distance of 4, or with a
distance of 0 and nothing else. -/
inductive Listed (zero : Bool) : Bytes → List DirInfo → Prop
  | none : Listed zero [] []
  | stop {b : Bytes} (h : u32At b 0 = some 4) : Listed zero b []
  | bare {b : Bytes} (hz : zero = true) (h : u32At b 0 = some 0) (hl : b.length = 4) : Listed zero b []
  | last {b : Bytes} {d : DirInfo} (hz : zero = true) (h : u32At b 0 = some 0) (hd : IsEntry b d) : Listed zero b [d]
  | more {b : Bytes} {next : Nat} {d : DirInfo} {ds : List DirInfo} (h : u32At b 0 = some next) (h0 : 4 < next) (hl : next ≤ b.length)
      (hd : IsEntry (b.take next) d) (hs : Listed zero (b.drop next) ds) : Listed zero b (d :: ds)

/-- An entry whose name is text of odd length. -/
def OddEntry (b : Bytes) : Prop := ∃ n nm, u32At b 60 = some n ∧ sliceAt b 64 n = some nm ∧ OddText nm

/-- A list of entries that comes to such a name after some good entries. -/
inductive OddEntries (zero : Bool) : Bytes → Prop
  | last {b : Bytes} (hz : zero = true) (h : u32At b 0 = some 0) (ho : OddEntry b) : OddEntries zero b
  | here {b : Bytes} {next : Nat} (h : u32At b 0 = some next) (h0 : 4 < next) (hl : next ≤ b.length) (ho : OddEntry (b.take next)) : OddEntries zero b
  | later {b : Bytes} {next : Nat} {d : DirInfo} (h : u32At b 0 = some next) (h0 : 4 < next) (hl : next ≤ b.length) (hd : IsEntry (b.take next) d)
      (hs : OddEntries zero (b.drop next)) : OddEntries zero b

/-- 2.2.6.2.2 TRANS2_FIND_FIRST2 response parameters: search id, number of entries, whether the search has ended; 10 bytes. -/
def IsFirstParams (P : Bytes) (sid count : Nat) (ended : Bool) : Prop :=
  10 ≤ P.length ∧ u16At P 0 = some sid ∧ u16At P 2 = some count ∧ ∃ e, u16At P 4 = some e ∧ (ended = true ↔ e ≠ 0)

/-- 2.2.6.3.2 TRANS2_FIND_NEXT2 response parameters: number of entries, whether the search has ended. -/
def IsNextParams (P : Bytes) (count : Nat) (ended : Bool) : Prop :=
  u16At P 0 = some count ∧ ∃ e, u16At P 2 = some e ∧ (ended = true ↔ e ≠ 0)

end Cifs.Spec
