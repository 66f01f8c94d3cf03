import Verif.Spec.Login
import Verif.Spec.Text
import Verif.Spec.Notify
/-!
# NTLM messages, and what a verifier of them checks

[MS-NLMP] 2.2.1 (messages), 2.2.2.7 (client challenge) and 3.3.2 (NTLM v2 authentication). The hash functions are arbitrary.
-/

namespace Cifs.Spec

/-- Eight bytes "NTLMSSP", zero. -/
def ntlmSignature : Bytes := [78, 84, 76, 77, 83, 83, 80, 0]

/-- The message begins with the signature and is of the given type. -/
def NtlmType (m : Bytes) (type : Nat) : Prop := sliceAt m 0 8 = some ntlmSignature ∧ u32At m 8 = some type

/-- The descriptor at offset `d` of the message (16-bit length, 16-bit allocated length, 32-bit offset) says that `payload` stands at
offset `o`, and it does. -/
def Delimits (m : Bytes) (d o : Nat) (payload : Bytes) : Prop :=
  u16At m d = some payload.length ∧ u32At m (d + 4) = some o ∧ sliceAt m o payload.length = some payload

/-- The fields of a message: the offsets of the descriptors, and the offset and the content of what each delimits. -/
abbrev NtlmFields := List (Nat × Nat × Bytes)

/-- A message that begins with `head` bytes of fixed layout: each descriptor stands in there, with no more allocated than used, and
delimits its payload, which stands behind; no two payloads overlap, and the payloads fill the message. -/
structure SelfDescribing (m : Bytes) (head : Nat) (fields : NtlmFields) : Prop where
  delimits : ∀ x ∈ fields, x.1 + 8 ≤ head ∧ u16At m (x.1 + 2) = some x.2.2.length ∧ Delimits m x.1 x.2.1 x.2.2
  behind : ∀ x ∈ fields, head ≤ x.2.1 ∧ x.2.1 + x.2.2.length ≤ m.length
  apart : fields.Pairwise (fun x y => x.1 + 8 ≤ y.1 ∧ (x.2.1 + x.2.2.length ≤ y.2.1 ∨ y.2.1 + y.2.2.length ≤ x.2.1))
  full : m.length = head + (fields.map (fun x => x.2.2.length)).sum

/-- 2.2.1.1 NEGOTIATE_MESSAGE, with version: flags, domain and workstation (in the OEM character set). -/
structure IsNtlmNegotiate (m : Bytes) (flags : Nat) (domain workstation : Bytes) : Prop where
  type : NtlmType m 1
  flags : u32At m 12 = some flags
  fields : ∃ o1 o2, SelfDescribing m 40 [(16, o1, domain), (24, o2, workstation)]
  version : ∃ major minor build, sliceAt m 32 8 = some ([major, minor] ++ build ++ [0, 0, 0, 15]) ∧ build.length = 2

/-- 2.2.1.3 AUTHENTICATE_MESSAGE, in the form without session key and flags: LM response, NT response, domain, user, workstation. -/
structure IsNtlmAuthenticate (m lm nt domain user workstation : Bytes) : Prop where
  type : NtlmType m 3
  fields : ∃ o1 o2 o3 o4 o5,
    SelfDescribing m 52 [(12, o1, lm), (20, o2, nt), (28, o3, domain), (36, o4, user), (44, o5, workstation)]

/-- Text in an NTLM message, by the Unicode flag (the least bit) of the flags: UTF-16LE, or else what the client takes as the OEM character
set, UTF-8. -/
def NtlmText (flags : Nat) (s : Str) (b : Bytes) : Prop := if flags % 2 = 1 then Utf16le s b else b = utf8Bytes s

/-- 2.2.1.2 CHALLENGE_MESSAGE. -/
structure IsNtlmChallenge (m : Bytes) (target : Str) (flags : Nat) (challenge info : Bytes) : Prop where
  type : NtlmType m 2
  target : ∃ o b, Delimits m 12 o b ∧ NtlmText flags target b
  flags : u32At m 20 = some flags
  challenge : sliceAt m 24 8 = some challenge
  info : ∃ o, Delimits m 40 o info

/-- The flags the client knows. -/
def ntlmFlagMask : Nat := 0xE2FFFFF7

/-- The hash functions of NTLM. -/
structure NtlmHashes where
  md4 : Bytes → Bytes
  hmacMd5 : Bytes → Bytes → Bytes
  upper : Str → Str

/-- 3.3.2, NTOWFv2: the key of an account. -/
def IsNtlmKey (H : NtlmHashes) (user domain password : Str) (key : Bytes) : Prop :=
  ∃ p n, Utf16le password p ∧ Utf16le (H.upper user ++ domain) n ∧ key = H.hmacMd5 (H.md4 p) n

/-- 3.3.2: the response to a server challenge is a proof of 16 bytes followed by the client challenge; the proof is the keyed hash of server
challenge and client challenge. -/
def NtlmProves (H : NtlmHashes) (user domain password : Str) (challenge response : Bytes) : Prop :=
  ∃ key proof client, IsNtlmKey H user domain password key ∧ response = proof ++ client ∧ proof.length = 16 ∧
    proof = H.hmacMd5 key (challenge ++ client)

/-- 2.2.2.7 NTLMv2_CLIENT_CHALLENGE: the time, the client's random, and the target information. -/
structure IsClientChallenge (b : Bytes) (time : Nat) (random info : Bytes) : Prop where
  respType : u8At b 0 = some 1
  hiRespType : u8At b 1 = some 1
  reserved1 : u16At b 2 = some 0
  reserved2 : u32At b 4 = some 0
  timestamp : u64At b 8 = some time
  clientRandom : sliceAt b 16 8 = some random
  reserved3 : u32At b 24 = some 0
  targetInfo : sliceAt b 28 info.length = some info
  reserved4 : u32At b (28 + info.length) = some 0
  whole : b.length = 32 + info.length

/-- What the server does with a message of the third type. It has sent the challenge with the flags `flags`, and looks up passwords by user
and domain. It reads user and domain from the message and checks the response. -/
def NtlmAccepts (H : NtlmHashes) (password : Str → Str → Option Str) (flags : Nat) (challenge m : Bytes) : Prop :=
  ∃ lm nt d u w domain user pw, IsNtlmAuthenticate m lm nt d u w ∧ NtlmText flags domain d ∧ NtlmText flags user u ∧
    password user domain = some pw ∧ NtlmProves H user domain pw challenge nt

/-- The descriptor at offset `d` leads out of the message. -/
def LeadsOut (m : Bytes) (d : Nat) : Prop := ∃ n o, u16At m d = some n ∧ u32At m (d + 4) = some o ∧ m.length < o + n

/-- Challenge messages the client does not survive: cut short, with a descriptor that leads out of the message, or with a Unicode name of odd
length. -/
def BadChallenge (m : Bytes) : Prop :=
  m.length < 8 ∨ sliceAt m 0 8 = some ntlmSignature ∧ m.length < 12 ∨
    NtlmType m 2 ∧ (m.length < 48 ∨ LeadsOut m 12 ∨
      ∃ flags o b, u32At m 20 = some flags ∧ Delimits m 12 o b ∧
        (flags % 2 = 1 ∧ OddText b ∨ (∃ target, NtlmText flags target b) ∧ LeadsOut m 40))

end Cifs.Spec
