import Verif.Spec.Disk
/-!
# Servers that end every list of entries as [MS-CIFS] says

`Implements` takes the further pages of a search to be written as the client reads them (`NextPage`). Here they are written as the standard has it:
the distance to the next entry is 0 in the last entry.
-/

namespace Cifs.Spec

variable {σ A : Type}

/-- [MS-CIFS] 2.2.8.1.4: each entry gives the distance to the next one, and the last one gives 0. -/
inductive Closed : Bytes → List DirInfo → Prop
  | last {b : Bytes} {d : DirInfo} (h : u32At b 0 = some 0) (hd : IsEntry b d) : Closed b [d]
  | more {b : Bytes} {next : Nat} {d : DirInfo} {ds : List DirInfo} (h : u32At b 0 = some next) (h0 : 0 < next) (hl : next ≤ b.length)
      (hd : IsEntry (b.take next) d) (hs : Closed (b.drop next) ds) : Closed b (d :: ds)

/-- The blocks of a first page. -/
def StandardFirst (P D : Bytes) (sid : Nat) (ended : Bool) (ds : List DirInfo) : Prop :=
  IsFirstParams P sid ds.length ended ∧ (ended = true ∧ D = [] ∧ ds = [] ∨ Closed D ds)

/-- The blocks of a further page. -/
def StandardNext (P D : Bytes) (ended : Bool) (ds : List DirInfo) : Prop :=
  IsNextParams P ds.length ended ∧ Closed D ds

/-- `Answers`, with pages as the standard has them. -/
def AnswersStd (V : Server σ) (own : Nat → Prop) (v : σ) (req : Bytes) : Call → Answer → Prop
  | .findFirst .., .value (.first r) => ∃ P D, ServesPage V own v req P D ∧ StandardFirst P D r.sid.toNat r.done r.info
  | .findNext .., .value (.next r) => ∃ P D, ServesPage V own v req P D ∧ StandardNext P D r.done r.info
  | c, r => Answers V own v req c r

/-- `Implements`, with pages as the standard has them. -/
def Conforms (V : Server σ) (own : Nat → Prop) (unicode : Bool) (uid : Nat) (Does : A → Call → Answer → A → Prop) (rel : A → σ → Prop) : Prop :=
  ∀ a v req c, rel a v → IsCall unicode req c → uidOf req = some uid → ∃ r a', Does a c r a' ∧ AnswersStd V own v req c r ∧ rel a' (V.react v req).1

end Cifs.Spec
