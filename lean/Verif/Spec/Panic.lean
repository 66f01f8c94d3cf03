import Verif.Spec.Entries
import Verif.Spec.Reassembly
/-!
# Replies that crash the client
-/

namespace Cifs.Spec

variable {σ : Type}

/-- Parameter bytes `ps` and data bytes `ds` that the decoder of the reply to `op` reads beyond the end of, or whose text of odd length it
does not survive. `unicode` is the Unicode flag of the reply. -/
def BadBody (unicode : Bool) : Op → Bytes → Bytes → Prop
  | .mount .., ps, ds => ps.length < 4 ∨ LastAndX ps ∧ (ps.length < 6 ∨
      unicode = true ∧ ∃ service, '\x00' ∉ service ∧ ds = utf8Bytes service ++ [0] ∧ (utf8Bytes service).length % 2 = 1)
  | .openfile .., ps, _ => ps.length < 4 ∨ LastAndX ps ∧ ps.length < 68
  | .opendir .., ps, _ => ps.length < 4 ∨ LastAndX ps ∧ ps.length < 68
  | .read .., ps, _ => ps.length < 4 ∨ LastAndX ps ∧ ps.length < 12
  | .notify .., ps, ds => ShortNtReply ps ds ∨ ∃ pb db, IsNtReply ps ds pb db ∧ BrokenChanges pb
  | _, _, _ => False

/-- Parameter block `P` and data block `D` of a search reply that crash it. -/
def BadPage : Op → Bytes → Bytes → Prop
  | .findFirst .., P, D => 10 ≤ P.length ∧ OddEntries true D
  | .findNext .., P, D => 4 ≤ P.length ∧ OddEntries false D
  | _, _, _ => False

/-- The operation gets a successful reply of the right type that is shorter than its own counts say, or has a bad body. -/
def Crashes (E : Env σ) (log : σ → List Bytes) (op : Op) (s : St σ) : Prop :=
  ∃ f rest c, Exchange E log op s f rest ∧ cmdOf (message f) = some c ∧ c ∈ codes op ∧ statusOf (message f) = some 0 ∧
    ((¬ ∃ ps ds, ReplyBody (message f) ps ds) ∨
      ∃ u ps ds, ReplyBody (message f) ps ds ∧ unicodeOf (message f) = some u ∧ BadBody u op ps ds)

/-- A reply to a secondary transaction that is shorter than its own counts or places say. -/
def BadPiece (f : Bytes) : Prop :=
  cmdOf (message f) = some 0x32 ∧ statusOf (message f) = some 0 ∧
    ((¬ ∃ ps ds, ReplyBody (message f) ps ds) ∨ ∃ ps ds, ReplyBody (message f) ps ds ∧ ShortPiece ps ds)

/-- A search gets a complete reply with a bad page, or, while it is still incomplete, a bad piece. -/
def SearchCrashes (E : Env σ) (log : σ → List Bytes) (op : Op) (s : St σ) : Prop :=
  (∃ l rest P D, Searched E log op s l rest ∧ Cuts l P D ∧ BadPage op P D) ∨
  ∃ req mid l rest f rest', log (runOp E op s).2.w.srv = log s.w.srv ++ [req] ∧ midOf req = some mid ∧
    Pieces Brings mid (s.w.inbox.flatten ++ (E.V.react s.w.srv req).2.flatten) l rest ∧ Agree l ∧ (l ≠ [] → ¬ Enough l) ∧
    Awaits mid rest f rest' ∧ BadPiece f

end Cifs.Spec
