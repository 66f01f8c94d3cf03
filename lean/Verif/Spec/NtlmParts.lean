import Verif.Spec.Ntlm
/-!
# NTLM messages in general

Every message of [MS-NLMP] 2.2.1 begins with a sequence of fixed bytes and descriptors; the payloads of the descriptors stand behind. -/

namespace Cifs.Spec

/-- A part of the beginning of a message: bytes that stand there themselves, or a descriptor, whose payload stands elsewhere. -/
inductive NtlmPart where
  | fixed (bytes : Bytes)
  | field (payload : Bytes)
  deriving Repr, DecidableEq

/-- What it takes at the beginning. -/
def NtlmPart.size : NtlmPart → Nat
  | .fixed b => b.length
  | .field _ => 8

/-- What it takes behind. -/
def NtlmPart.behind : NtlmPart → Nat
  | .fixed _ => 0
  | .field p => p.length

/-- What parts take at the beginning. -/
def headSize (parts : List NtlmPart) : Nat := (parts.map NtlmPart.size).sum

/-- What they take behind. -/
def payloadSize (parts : List NtlmPart) : Nat := (parts.map NtlmPart.behind).sum

/-- The numbers in the descriptors can be written: lengths in 16 bits, offsets in 32, if the payloads stand behind each other in order. -/
def NtlmFits (parts : List NtlmPart) : Prop :=
  ∀ pre p post, parts = pre ++ .field p :: post → p.length < 65536 ∧ headSize parts + payloadSize pre < 2 ^ 32

/-- The message has these parts: fixed bytes and descriptors are in their places, the descriptors delimit the payloads, and there is nothing
else in it. -/
structure LaidOut (m : Bytes) (parts : List NtlmPart) : Prop where
  fixed : ∀ pre b post, parts = pre ++ .fixed b :: post → sliceAt m (headSize pre) b.length = some b
  fields : ∃ fields, SelfDescribing m (headSize parts) fields ∧
    (∀ pre p post, parts = pre ++ .field p :: post → ∃ o, (headSize pre, o, p) ∈ fields) ∧
    (∀ x ∈ fields, ∃ pre post, parts = pre ++ .field x.2.2 :: post ∧ x.1 = headSize pre)

end Cifs.Spec
