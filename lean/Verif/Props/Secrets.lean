import Verif.Props.Door
import Verif.Props.Streams
/-!
# What a login gives away about the password (C51)
-/

namespace Cifs
open Spec

variable {σ : Type}

theorem key_unique {H : NtlmHashes} {user domain pw : Str} {k k' : Bytes} (h : IsNtlmKey H user domain pw k) (h' : IsNtlmKey H user domain pw k') :
    k = k' := by
  obtain ⟨p, n, h1, h2, rfl⟩ := h
  obtain ⟨p', n', h1', h2', rfl⟩ := h'
  rw [utf16le_unique h1, utf16le_unique h1', utf16le_unique h2, utf16le_unique h2']

theorem client_proves (C : Crypto) (a : Auth) (m : ChallengeMsg) (time : UInt64) (random : Bytes) :
    NtlmProves C.hashes a.user a.domain a.password m.challenge (ntlmv2Authenticate C a m time random).2 :=
  ⟨ntlmv2Hash C a, _, ntlmv2Blob time random m.info, ⟨_, _, utf16le_encode _, utf16le_encode _, rfl⟩, rfl, C.hmacMd5_len _ _, rfl⟩

/-- **C51** A login uses the password for nothing but its answers to challenges: if every right answer for one password is right for another
one, then `open`, and whatever is called afterwards, has the same outcomes, and the same bytes are written. So neither the password nor its
hash can be learnt but by way of these answers. -/
theorem C51_only_answers (E : Env σ) (dial : Dial σ) (port : Option UInt16) (a : Auth) (password : Str)
    (h1 : ∀ challenge r, challenge.length = 8 → ClassicProves E.C.md4 E.C.des a.password challenge r → ClassicProves E.C.md4 E.C.des password challenge r)
    (h2 : ∀ challenge r, NtlmProves E.C.hashes a.user a.domain a.password challenge r → NtlmProves E.C.hashes a.user a.domain password challenge r)
    (ops : List Op) :
    let o := openCifs E dial port (some a)
    let o' := openCifs E dial port (some { a with password })
    o.outcome = o'.outcome ∧ o.ports = o'.ports ∧
    (o.state = none ∧ o'.state = none ∨ ∃ s s', o.state = some s ∧ o'.state = some s' ∧ s.w.out = s'.w.out ∧ s.w.srv = s'.w.srv ∧
      s.w.inbox.flatten = s'.w.inbox.flatten ∧
      (runOps E ops s).1 = (runOps E ops s').1 ∧ (runOps E ops s).2.w.out = (runOps E ops s').2.w.out) := by
  have key : Related.Alike E.C a { a with password } := by
    refine ⟨rfl, rfl, rfl, fun ch => ?_, fun m time random => ?_⟩
    · by_cases hc : ch.length = 8
      · obtain ⟨k1, k2, k3, q1, q2, q3, hs, _⟩ := C52_response E.C a ch hc
        obtain ⟨p, k1', k2', k3', hp, q1', q2', q3', he⟩ := h1 ch _ hc ⟨_, k1, k2, k3, utf16le_encode _, q1, q2, q3, rfl⟩
        obtain ⟨m1, m2, m3, r1, r2, r3, hs', _⟩ := C52_response E.C { a with password } ch hc
        rw [utf16le_unique hp] at q1' q2' q3'
        rw [hs, hs', he, C52_key_unique _ _ _ q1' r1, C52_key_unique _ _ _ q2' r2, C52_key_unique _ _ _ q3' r3]
      · have hx : ∀ x : Auth, (ntlmv1Authenticate E.C x ch : Res SmbError Bytes) = .panic := by
          intro x
          obtain ⟨k, hk, _⟩ := C52_key ((List.take 7 (ntlmHash E.C x)).drop 0) (by simp; omega)
          unfold ntlmv1Authenticate desOneshot
          dsimp only
          rw [hk]
          show Res.bind (if ch.length ≠ 8 then .panic else _) _ = _
          rw [if_pos hc]
          rfl
        rw [hx, hx]
    · obtain ⟨k, proof, client, hk, e1, hl, e2⟩ := h2 _ _ (client_proves E.C a m time random)
      have e : proof = E.C.hmacMd5 (ntlmv2Hash E.C a) (m.challenge ++ ntlmv2Blob time random m.info) ∧ client = ntlmv2Blob time random m.info :=
        List.append_inj e1.symm (by rw [hl, E.C.hmacMd5_len])
      have hk' := key_unique hk (k' := ntlmv2Hash E.C { a with password }) ⟨_, _, utf16le_encode _, utf16le_encode _, rfl⟩
      rw [e1, e2, hk', e.2]
      rfl
  exact alike_opens E dial port key ops

/-- non-vacuity: with the trivial hash functions of the demo session, all passwords have the same answers. -/
example (user domain p p' : Str) : (∀ c r, c.length = 8 → ClassicProves Demo.crypto.md4 Demo.crypto.des p c r → ClassicProves Demo.crypto.md4 Demo.crypto.des p' c r) ∧
    ∀ c r, NtlmProves Demo.crypto.hashes user domain p c r → NtlmProves Demo.crypto.hashes user domain p' c r := by
  refine ⟨?_, ?_⟩
  · rintro c r _ ⟨_, k1, k2, k3, _, q1, q2, q3, rfl⟩
    exact ⟨_, k1, k2, k3, utf16le_encode _, q1, q2, q3, rfl⟩
  · rintro c r ⟨k, proof, client, ⟨_, n, _, hn, rfl⟩, h⟩
    exact ⟨_, proof, client, ⟨_, n, utf16le_encode _, hn, rfl⟩, h⟩

end Cifs
