import Verif.Props.Door
import Verif.Props.Secrets
import Verif.Model.Crypto
/-!
# C48: verifiers that capitalize names in their own way

The key of an account is made from the user name in capitals. `str::to_uppercase` replaces some characters by more than one (`ß` by `SS`); a verifier may
do otherwise, for instance by a table with one character for each. -/

namespace Cifs
open Spec

theorem capitals_key (C : Crypto) (upper : Str → Str) (user domain pw : Str) :
    IsNtlmKey { C.hashes with upper } user domain pw (C.hmacMd5 (C.md4 (encodeUtf16le pw)) (encodeUtf16le (upper user ++ domain))) :=
  ⟨_, _, utf16le_encode _, utf16le_encode _, rfl⟩

/-- **C48** A verifier with the same hash functions that has another way of capitalizing user names accepts the response exactly if its key and the client's
have the same hash of challenge and client challenge. -/
theorem C48_capitals (C : Crypto) (a : Auth) {m challenge info : Bytes} {target : Str} {flags : Nat}
    (hm : IsNtlmChallenge m target flags challenge info) {c : ChallengeMsg} (hc : ChallengeMsg.parse m = .ok c) (time : UInt64) {random : Bytes}
    (hr : random.length = 8) {m' : Bytes} (h : c.response C a time random = .ok m') {password : Str → Str → Option Str}
    (hp : password a.user a.domain = some a.password) (upper : Str → Str) :
    ∃ key key' client, IsNtlmKey C.hashes a.user a.domain a.password key ∧
      IsNtlmKey { C.hashes with upper } a.user a.domain a.password key' ∧ IsClientChallenge client time.toNat random info ∧
      (upper a.user = C.toUpper a.user → key' = key) ∧
      (NtlmAccepts { C.hashes with upper } password flags challenge m' ↔
        C.hmacMd5 key' (challenge ++ client) = C.hmacMd5 key (challenge ++ client)) := by
  obtain ⟨_, lm, nt, d, u, w, proof, client, h1, h2, h3, _, rfl, h5, h6, key, h7, h8⟩ := C48_response C a hm hc time hr h hp
  have k' := capitals_key C upper a.user a.domain a.password
  refine ⟨key, _, client, h7, k', h6, fun e => ?_, ?_, ?_⟩
  · rw [e]
    exact key_unique (H := C.hashes) ⟨_, _, utf16le_encode _, utf16le_encode _, rfl⟩ h7
  · intro ha
    obtain ⟨pw, hpw, key2, proof2, client2, q1, q2, q3, q4⟩ := accepts_read ha h1 h2 h3
    rw [hp] at hpw
    cases hpw
    obtain ⟨e1, e2⟩ := List.append_inj q2 (h5.trans q3.symm)
    subst e1; subst e2
    rw [key_unique k' q1]
    exact q4.symm.trans h8
  · intro e
    exact ⟨lm, _, d, u, w, a.domain, a.user, a.password, h1, h2, h3, hp, _, proof, client, k', rfl, h5, h8.trans e.symm⟩

theorem capitals_only_if (C : Crypto) (a : Auth) (c : ChallengeMsg) (time : UInt64) (random : Bytes) {upper : Str → Str} {flags : Nat}
    {password : Str → Str → Option Str} {m lm d u w : Bytes} (h : IsNtlmAuthenticate m lm (ntlmv2Authenticate C a c time random).2 d u w)
    (hd : NtlmText flags a.domain d) (hu : NtlmText flags a.user u) (hp : password a.user a.domain = some a.password)
    (ha : NtlmAccepts { C.hashes with upper } password flags c.challenge m) :
    C.hmacMd5 (ntlmv2Hash C a) (c.challenge ++ ntlmv2Blob time random c.info) =
      C.hmacMd5 (C.hmacMd5 (C.md4 (encodeUtf16le a.password)) (encodeUtf16le (upper a.user ++ a.domain))) (c.challenge ++ ntlmv2Blob time random c.info) := by
  obtain ⟨pw, hpw, key, proof, client, q1, q2, q3, q4⟩ := accepts_read ha h hd hu
  rw [hp] at hpw
  cases hpw
  obtain ⟨e1, e2⟩ := List.append_inj (show C.hmacMd5 (ntlmv2Hash C a) (c.challenge ++ ntlmv2Blob time random c.info) ++ ntlmv2Blob time random c.info =
    proof ++ client from q2) ((C.hmacMd5_len _ _).trans q3.symm)
  rw [key_unique q1 (capitals_key C upper a.user a.domain a.password), ← e1, ← e2] at q4
  exact q4

namespace Demo

/-- The real functions, with the `ß` of `str::to_uppercase`. -/
def sharpReal : Crypto := { Crypto.real with toUpper := fun s => s.flatMap fun c => if c = 'ß' then ['S', 'S'] else Crypto.real.toUpper [c] }

/-- One with a `ß` in the name. -/
def sharpAuth : Auth := { user := "ß".toList, workstation := [], domain := [], password := "pw".toList }

/-- A challenge without target name and target information. -/
def bareChallenge : Bytes := NTLMSSP_MAGIC ++ putU32 2 ++ descBytes 0 48 ++ putU32 1 ++ [1, 2, 3, 4, 5, 6, 7, 8] ++ zeros 8 ++ descBytes 0 48

theorem bare_is : IsNtlmChallenge bareChallenge [] 1 [1, 2, 3, 4, 5, 6, 7, 8] [] where
  type := ⟨by decide +kernel, by decide +kernel⟩
  target := ⟨48, [], ⟨by decide +kernel, by decide +kernel, by decide +kernel⟩, utf16le_encode []⟩
  flags := by decide +kernel
  challenge := by decide +kernel
  info := ⟨48, by decide +kernel, by decide +kernel, by decide +kernel⟩

end Demo

open Demo in
/-- **C48** With the real hash functions: a verifier that capitalizes one character by one does not accept the response of the user `ß`, although the password is
right. -/
theorem C48_sharp : ∃ m', (∃ c, ChallengeMsg.parse bareChallenge = .ok c ∧ c.response sharpReal sharpAuth 0 (zeros 8) = .ok m') ∧
    NtlmAccepts sharpReal.hashes (fun _ _ => some sharpAuth.password) 1 [1, 2, 3, 4, 5, 6, 7, 8] m' ∧
    ¬ NtlmAccepts { sharpReal.hashes with upper := Crypto.real.toUpper } (fun _ _ => some sharpAuth.password) 1 [1, 2, 3, 4, 5, 6, 7, 8] m' := by
  have hc : ChallengeMsg.parse bareChallenge = .ok { target := [], flags := 1, challenge := [1, 2, 3, 4, 5, 6, 7, 8], info := [] } := by decide +kernel
  obtain ⟨m', h⟩ : ∃ m', ChallengeMsg.response sharpReal { target := [], flags := 1, challenge := [1, 2, 3, 4, 5, 6, 7, 8], info := [] } sharpAuth 0 (zeros 8) = .ok m' := by
    obtain ⟨m', _, e, _⟩ := (C49_authenticate sharpReal sharpAuth (flags := 1) (c := { target := [], flags := 1, challenge := [1, 2, 3, 4, 5, 6, 7, 8], info := [] })
      rfl 0 (random := zeros 8) rfl (ntlmName_text _ _) (ntlmName_text _ _) (ntlmName_text _ _)).1 (by decide +kernel)
    exact ⟨m', e⟩
  refine ⟨m', ⟨_, hc, h⟩, (C48_response sharpReal sharpAuth bare_is hc 0 rfl h rfl).1, fun ha => ?_⟩
  obtain ⟨_, _, _, _, h5⟩ := response_ok h (unicode := true) (by decide +kernel)
  have q4 := capitals_only_if sharpReal sharpAuth _ 0 (zeros 8) h5 (ntlmName_text 1 sharpAuth.domain) (ntlmName_text 1 sharpAuth.user) rfl ha
  have differ : sharpReal.hmacMd5 (ntlmv2Hash sharpReal sharpAuth) ([1, 2, 3, 4, 5, 6, 7, 8] ++ ntlmv2Blob 0 (zeros 8) []) ≠
      sharpReal.hmacMd5 (sharpReal.hmacMd5 (sharpReal.md4 (encodeUtf16le sharpAuth.password)) (encodeUtf16le (Crypto.real.toUpper sharpAuth.user ++ sharpAuth.domain)))
        ([1, 2, 3, 4, 5, 6, 7, 8] ++ ntlmv2Blob 0 (zeros 8) []) := by
    decide +kernel
  exact differ q4

end Cifs
