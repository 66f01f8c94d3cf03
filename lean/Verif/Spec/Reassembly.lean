import Verif.Spec.Notify
/-!
# Transaction replies split into several messages ([MS-CIFS] 2.2.4.46.2 and 3.2.5.1.4)
-/

namespace Cifs.Spec

variable {σ : Type}

/-- What one message brings of the parameter block and of the data block: some bytes, their place in the block, and the size of the block. -/
structure Piece where
  params : Bytes
  paramsAt : Nat
  paramsTotal : Nat
  data : Bytes
  dataAt : Nat
  dataTotal : Nat
  deriving DecidableEq

/-- `count` bytes at distance `offset` from the SMB header; the data bytes `ds` start at distance 35 + (number of parameter bytes). -/
def Placed (ps ds : Bytes) (count offset : Nat) (block : Bytes) : Prop :=
  35 + ps.length ≤ offset ∧ sliceAt ds (offset - (35 + ps.length)) count = some block

/-- 2.2.4.46.2 SMB_COM_TRANSACTION2 response: parameter bytes `ps` and data bytes `ds` that bring the piece `p`. -/
def IsPiece (ps ds : Bytes) (p : Piece) : Prop :=
  ∃ countP offsetP countD offsetD, u16At ps 0 = some p.paramsTotal ∧ u16At ps 2 = some p.dataTotal ∧ u16At ps 6 = some countP ∧
    u16At ps 8 = some offsetP ∧ u16At ps 10 = some p.paramsAt ∧ u16At ps 12 = some countD ∧ u16At ps 14 = some offsetD ∧
    u16At ps 16 = some p.dataAt ∧ Placed ps ds countP offsetP p.params ∧ Placed ps ds countD offsetD p.data

/-- A response that is too short: for the fields up to the place of the parameter block; or, if that place is in the data bytes, for the
fields up to the place of the data block; or, if that place is in the data bytes too, for the last field or for one of the blocks. -/
def ShortPiece (ps ds : Bytes) : Prop :=
  ps.length < 10 ∨ ∃ offsetP, u16At ps 8 = some offsetP ∧ 35 + ps.length ≤ offsetP ∧ (ps.length < 16 ∨
    ∃ offsetD, u16At ps 14 = some offsetD ∧ 35 + ps.length ≤ offsetD ∧ (ps.length < 18 ∨
      ∃ countP countD, u16At ps 6 = some countP ∧ u16At ps 12 = some countD ∧
        (ds.length < offsetP - (35 + ps.length) + countP ∨ ds.length < offsetD - (35 + ps.length) + countD)))

/-- A piece with its header: a reply to a secondary transaction (code 0x32) with status 0. -/
def Brings (f : Bytes) (p : Piece) : Prop :=
  cmdOf (message f) = some 0x32 ∧ statusOf (message f) = some 0 ∧ ∃ ps ds, ReplyBody (message f) ps ds ∧ IsPiece ps ds p

/-- The same for a message that says nothing about the place of an empty block: conforming servers put 0 there. -/
def IsLoosePiece (ps ds : Bytes) (p : Piece) : Prop :=
  ∃ countP offsetP countD offsetD, u16At ps 0 = some p.paramsTotal ∧ u16At ps 2 = some p.dataTotal ∧ u16At ps 6 = some countP ∧
    u16At ps 8 = some offsetP ∧ u16At ps 10 = some p.paramsAt ∧ u16At ps 12 = some countD ∧ u16At ps 14 = some offsetD ∧
    u16At ps 16 = some p.dataAt ∧ Block ps ds countP offsetP p.params ∧ Block ps ds countD offsetD p.data

/-- Such a piece with its header. -/
def LooselyBrings (f : Bytes) (p : Piece) : Prop :=
  cmdOf (message f) = some 0x32 ∧ statusOf (message f) = some 0 ∧ ∃ ps ds, ReplyBody (message f) ps ds ∧ IsLoosePiece ps ds p

/-- The first replies in the stream `b` with multiplex id `mid` bring (in the sense of `B`) these pieces, in this order; `rest` follows. -/
inductive Pieces (B : Bytes → Piece → Prop) (mid : Nat) : Bytes → List Piece → Bytes → Prop
  | nil (b : Bytes) : Pieces B mid b [] b
  | cons {b f b' rest : Bytes} {p : Piece} {l : List Piece} (h : Awaits mid b f b') (hp : B f p) (hs : Pieces B mid b' l rest) :
      Pieces B mid b (p :: l) rest

/-- The call `op`, made in state `s`, sends exactly one request; the replies to it that are unread then, or sent in reaction, start with
these pieces. -/
def SearchedBy (B : Bytes → Piece → Prop) (E : Env σ) (log : σ → List Bytes) (op : Op) (s : St σ) (l : List Piece) (rest : Bytes) : Prop :=
  ∃ req mid, log (runOp E op s).2.w.srv = log s.w.srv ++ [req] ∧ midOf req = some mid ∧
    Pieces B mid (s.w.inbox.flatten ++ (E.V.react s.w.srv req).2.flatten) l rest

/-- The same for pieces both of whose blocks, even empty ones, have a place in the data bytes. -/
abbrev Searched (E : Env σ) (log : σ → List Bytes) (op : Op) (s : St σ) (l : List Piece) (rest : Bytes) : Prop :=
  SearchedBy Brings E log op s l rest

/-- The bytes `b`, cut into consecutive fragments, the first of which has displacement `o`. -/
inductive Tiling : Nat → List (Nat × Bytes) → Bytes → Prop
  | nil (o : Nat) : Tiling o [] []
  | cons {o : Nat} {d b : Bytes} {l : List (Nat × Bytes)} (h : Tiling (o + d.length) l b) : Tiling o ((o, d) :: l) (d ++ b)

/-- The fragments with their displacements; empty ones do not count. -/
def fragments (l : List (Nat × Bytes)) : List (Nat × Bytes) := l.filter fun x => !x.2.isEmpty

/-- The fragments, in some order, are a cut of `b` into consecutive parts. -/
def Cut (l : List (Nat × Bytes)) (b : Bytes) : Prop := ∃ l', (fragments l).Perm l' ∧ Tiling 0 l' b

/-- The pieces are a cut of a parameter block `P` and a data block `D`, in any order. All of them announce the sizes of the blocks. -/
def Cuts (l : List Piece) (P D : Bytes) : Prop :=
  l ≠ [] ∧ (∀ p ∈ l, p.paramsTotal = P.length ∧ p.dataTotal = D.length) ∧ Cut (l.map fun p => (p.paramsAt, p.params)) P ∧
    Cut (l.map fun p => (p.dataAt, p.data)) D

/-- The two blocks in one piece. -/
def whole (P D : Bytes) : Piece := ⟨P, 0, P.length, D, 0, D.length⟩

/-- The pieces agree on the sizes, and no two of them bring bytes for the same displacement of the same block. -/
def Agree (l : List Piece) : Prop :=
  (∀ p ∈ l, ∀ q ∈ l, p.paramsTotal = q.paramsTotal ∧ p.dataTotal = q.dataTotal) ∧
    ((fragments (l.map fun p => (p.paramsAt, p.params))).map (·.1)).Nodup ∧ ((fragments (l.map fun p => (p.dataAt, p.data))).map (·.1)).Nodup

/-- The pieces bring at least as many bytes as the first of them announces. -/
def Enough : List Piece → Prop
  | [] => False
  | p :: l => p.paramsTotal ≤ ((p :: l).map fun q => q.params.length).sum ∧ p.dataTotal ≤ ((p :: l).map fun q => q.data.length).sum

end Cifs.Spec
