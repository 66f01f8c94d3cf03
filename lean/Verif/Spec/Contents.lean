import Verif.Spec.Servers
import Verif.Spec.Service
/-!
# Files with other contents

Two servers that send the same packets, except that the bytes in the data sections of their replies to read requests are others. `R` says
which bytes may take the place of which.
-/

namespace Cifs.Spec

variable {σ σ' α : Type}

/-- Equally many bytes, related one by one. -/
inductive Each (R : UInt8 → UInt8 → Prop) : Bytes → Bytes → Prop
  | nil : Each R [] []
  | cons {x y : UInt8} {b c : Bytes} (h : R x y) (t : Each R b c) : Each R (x :: b) (y :: c)

/-- Two replies to a read request (command 0x2e) that agree up to and including the byte count: the 32 bytes of the header, the word count, the words
and the two bytes of the byte count. -/
structure SameRead (R : UInt8 → UInt8 → Prop) (f f' : Bytes) : Prop where
  cmd : cmdOf (message f) = some 0x2e
  parts : ∃ (h ps c d d' : Bytes) (n : UInt8), f = h ++ (n :: ps ++ c ++ d) ∧ f' = h ++ (n :: ps ++ c ++ d') ∧ h.length = 32 ∧
    ps.length = 2 * n.toNat ∧ c.length = 2 ∧ Each R d d'

/-- A packet without contents of files: no message, no reply to a read request, or one that reports a failure. (If every byte may take its own place,
then there is nothing to ask for.) -/
def Untouched (R : UInt8 → UInt8 → Prop) (ty : UInt8) (d : Bytes) : Prop :=
  (∀ x, R x x) ∨ ty ≠ 0 ∨ cmdOf (message d) ≠ some 0x2e ∨ statusOf (message d) ≠ some 0

/-- Two streams of whole packets that differ in the data of replies to read requests only. -/
inductive SamePackets (R : UInt8 → UInt8 → Prop) : Bytes → Bytes → Prop
  | done : SamePackets R [] []
  | same {b b' : Bytes} (ty : UInt8) (d : Bytes) (hd : d.length ≤ maxPayload) (hu : Untouched R ty d) (h : SamePackets R b b') :
      SamePackets R (packet ty d ++ b) (packet ty d ++ b')
  | read {b b' : Bytes} (f f' : Bytes) (hf : f.length ≤ maxPayload) (hs : SameRead R f f') (h : SamePackets R b b') :
      SamePackets R (message f ++ b) (message f' ++ b')

/-- The second server answers like the first one, except for the contents of files. -/
structure OtherContents (R : UInt8 → UInt8 → Prop) (V : Server σ) (V' : Server σ') (rel : σ → σ' → Prop) : Prop where
  state : ∀ a a' p, rel a a' → rel (V.react a p).1 (V'.react a' p).1
  bytes : ∀ a a' p, rel a a' → SamePackets R (V.react a p).2.flatten (V'.react a' p).2.flatten
  tail : ∀ a a', rel a a' → V.tail a = V'.tail a'

/-- The same for connections. The same bytes have been written, and the socket will take the next ones in the same way. -/
structure OtherWire (R : UInt8 → UInt8 → Prop) (rel : σ → σ' → Prop) (w : World σ) (w' : World σ') : Prop where
  out : w.out = w'.out
  wsched : w.wsched = w'.wsched
  srv : rel w.srv w'.srv
  bytes : SamePackets R w.inbox.flatten w'.inbox.flatten

/-- The same outcome, except that the bytes of a file are related one by one. -/
inductive SameOutcome (R : UInt8 → UInt8 → Prop) : Out Error Val → Out Error Val → Prop
  | same (o : Out Error Val) : SameOutcome R o o
  | bytes {b b' : Bytes} (h : Each R b b') : SameOutcome R (.ok (.bytes b)) (.ok (.bytes b'))

/-- The calls whose results are contents of files. -/
def givesBytes : Op → Bool
  | .read .. => true
  | .download .. => true
  | _ => false

/-- Two programs that do the same if the contents of files are replaced in this way. -/
inductive Heedless (R : UInt8 → UInt8 → Prop) : Prog α → Prog α → Prop
  | done (x : α) : Heedless R (.done x) (.done x)
  | call (op : Op) (next next' : Out Error Val → Prog α) (h : ∀ o o', SameOutcome R o o' → Heedless R (next o) (next' o')) :
      Heedless R (.call op next) (.call op next')

end Cifs.Spec
