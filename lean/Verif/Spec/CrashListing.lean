import Verif.Spec.Listing
import Verif.Spec.Panic
/-!
# Replies that crash a directory listing
-/

namespace Cifs.Spec

variable {σ : Type}

/-- The replies to the search request `p` crash the client: they are a cut of bad blocks, or one of them is bad while others are still
missing. -/
def SearchCrash (V : Server σ) (v : σ) (b p : Bytes) (bad : Bytes → Bytes → Prop) : Prop :=
  (∃ P D v' b', SearchRound V v b p P D v' b' ∧ bad P D) ∨
  ∃ mid l rest f rest', midOf p = some mid ∧ Pieces Brings mid (b ++ (V.react v p).2.flatten) l rest ∧ Agree l ∧ (l ≠ [] → ¬ Enough l) ∧
    Awaits mid rest f rest' ∧ BadPiece f

/-- The listings that crash the client after it has got the entries `got`, by what is sent: the last name is too long for a request, but not
so long that the client notices; or the replies to a request for a further page are bad. -/
inductive ContinuingCrash (V : Server σ) : σ → Bytes → List DirInfo → List Bytes → Prop
  | long {v : σ} {b : Bytes} {got : List DirInfo} {last : DirInfo} (hl : got.getLast? = some last) (hn : 32725 < utf16Len last.filename)
      (hn' : utf16Len last.filename < 32761) : ContinuingCrash V v b got []
  | page {v : σ} {b p : Bytes} {got : List DirInfo} (h : SearchCrash V v b p fun P D => 4 ≤ P.length ∧ OddEntries false D) :
      ContinuingCrash V v b got [p]
  | more {v v' : σ} {b b' p P D : Bytes} {got ds : List DirInfo} {l : List Bytes} (hr : SearchRound V v b p P D v' b')
      (hp : NextPage P D false ds) (hs : ContinuingCrash V v' b' (got ++ ds) l) : ContinuingCrash V v b got (p :: l)

/-- The listings that crash the client: the replies to the first request are bad, or what follows crashes it. -/
inductive ListingCrash (V : Server σ) (v : σ) (b : Bytes) : List Bytes → Prop
  | page {p : Bytes} (h : SearchCrash V v b p fun P D => 10 ≤ P.length ∧ OddEntries true D) : ListingCrash V v b [p]
  | more {v' : σ} {b' p P D : Bytes} {sid : Nat} {ds : List DirInfo} {l : List Bytes} (hr : SearchRound V v b p P D v' b')
      (hp : FirstPage P D sid false ds) (hs : ContinuingCrash V v' b' ds l) : ListingCrash V v b (p :: l)

end Cifs.Spec
