import Verif.Spec.Entries
/-! # Directory entries in a session without Unicode -/

namespace Cifs.Spec

/-- A list of entries whose names are written as `T` says; the distances are as in `Entries`. -/
inductive EntriesIn (T : Str → Bytes → Prop) : Bytes → List DirInfo → Prop
  | none : EntriesIn T [] []
  | last {b : Bytes} {d : DirInfo} (h : u32At b 0 = some 0) (hd : IsEntryIn T b d) : EntriesIn T b [d]
  | more {b : Bytes} {next : Nat} {d : DirInfo} {ds : List DirInfo} (h : u32At b 0 = some next) (h0 : 0 < next) (hl : next ≤ b.length)
      (hd : IsEntryIn T (b.take next) d) (hs : EntriesIn T (b.drop next) ds) : EntriesIn T b (d :: ds)

/-- No entry of `es` has the name of the entry of `ds` in the same place, unless that is empty. -/
def Misnamed (ds es : List DirInfo) : Prop :=
  ∀ (i : Nat) (d e : DirInfo), ds[i]? = some d → es[i]? = some e → d.filename ≠ [] → e.filename ≠ d.filename

end Cifs.Spec
