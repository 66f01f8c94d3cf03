import Verif.Spec.Login
import Verif.Spec.Ntlm
/-!
# How long the requests of a login are
-/

namespace Cifs.Spec

variable {σ : Type}

/-- The session setup without extended security: 61 bytes of header and words, twice 24 of response, and alignment, two names with their ends, two
empty names. -/
def legacySize (unicode : Bool) (user domain : Str) : Nat :=
  61 + 49 + (2 * utf16Len user + 2) + (2 * utf16Len domain + 2) + if unicode then 4 else 2

/-- The session setup with a security blob of `n` bytes: it is filled up to an odd number of bytes, and two empty names follow. -/
def blobSize (unicode : Bool) (n : Nat) : Nat := 59 + (n + if n % 2 = 0 then 1 else 0) + if unicode then 4 else 2

/-- The number of bytes of a text in the last NTLM message, by the flags of the challenge. -/
def ntlmTextLen (flags : Nat) (s : Str) : Nat := if flags % 2 = 1 then 2 * utf16Len s else (utf8Bytes s).length

/-- The sizes of what a client sends to log in, by how far it comes, with 4 bytes of transport header each. The last request grows with the target
information `info` of the challenge, which it repeats. -/
inductive LoginSizes (V : Server σ) (user domain workstation : Str) (v : σ) (b : Bytes) : List Bytes → Prop
  | nothing : LoginSizes V user domain workstation v b []
  | negotiate {p : Bytes} (h : p.length = 4 + 47) : LoginSizes V user domain workstation v b [p]
  | legacy {p p' ps ds b' : Bytes} {v' : σ} {unicode : Bool} (h : p.length = 4 + 47) (hr : NegotiateRound V v b p ps ds v' b')
      (hx : ¬ OffersExtended ps) (hu : unicode = true ↔ OffersUnicode ps) (h' : p'.length = 4 + legacySize unicode user domain) :
      LoginSizes V user domain workstation v b [p, p']
  | extended {p p' ps ds b' : Bytes} {v' : σ} {unicode : Bool} (h : p.length = 4 + 47) (hr : NegotiateRound V v b p ps ds v' b')
      (hx : OffersExtended ps) (hu : unicode = true ↔ OffersUnicode ps)
      (h' : p'.length = 4 + blobSize unicode (40 + (utf8Bytes domain).length + (utf8Bytes workstation).length)) :
      LoginSizes V user domain workstation v b [p, p']
  | response {p p' p'' ps ds ps' ds' b' b'' challenge info : Bytes} {v' v'' : σ} {unicode : Bool} {st uid flags : Nat} {target : Str}
      {reply : SessionSetupReply} (h : p.length = 4 + 47) (hr : NegotiateRound V v b p ps ds v' b')
      (hx : OffersExtended ps) (hu : unicode = true ↔ OffersUnicode ps)
      (h' : p'.length = 4 + blobSize unicode (40 + (utf8Bytes domain).length + (utf8Bytes workstation).length))
      (hr' : SetupRound V v' b' p' st uid ps' ds' v'' b'') (hs : IsSessionReply ps' ds' uid reply)
      (hc : IsNtlmChallenge reply.securityBlob target flags challenge info)
      (h'' : p''.length = 4 + blobSize unicode (124 + info.length + ntlmTextLen flags domain + ntlmTextLen flags user + ntlmTextLen flags workstation)) :
      LoginSizes V user domain workstation v b [p, p', p'']

end Cifs.Spec
