import Verif.Model.Alloc
import Verif.Props.Size
import Verif.Props.Session
import Verif.Props.Login
import Verif.Props.Ntlm
import Verif.Props.CrashDownload
/-!
# C78: memory reserved in advance
-/

namespace Cifs
open Spec

variable {σ : Type} {E : Env σ} {log : σ → List Bytes}

/-! ## The sizes are those of the code that uses the buffers -/

theorem recvFrame_buffer (V : Server σ) :
    recvFrame V = (do let (t, n) ← packetBuffer V; let d ← readExact V .UnexpectedEOF n; M.ofRes id (Frame.new (UInt8.ofNat (beVal t)) d)) := by
  unfold recvFrame packetBuffer
  rw [M.bind_assoc']
  refine congrArg _ (funext fun t => ?_)
  rw [M.bind_assoc']
  refine congrArg _ (funext fun l => ?_)
  dsimp only
  split <;> rfl

theorem get_buffer (c : Collector) : c.get = (do let _ ← c.blockBuffer; joinFragments [] (sortFragments c.fragments)) := by
  unfold Collector.get Collector.blockBuffer
  cases c.total with
  | none => rfl
  | some t => dsimp only; split <;> rfl

/-- **C78**, the sizes (`_partial`: those of received data): they are reserved at those points of the code that receives and decodes, with these numbers,
and if they are not reserved, the code fails there with the same error. -/
theorem C78_sizes_partial :
    (∀ V : Server σ, recvFrame V = (do let (t, n) ← packetBuffer V; let d ← readExact V .UnexpectedEOF n; M.ofRes id (Frame.new (UInt8.ofNat (beVal t)) d))) ∧
    (∀ c : Collector, c.get = (do let _ ← c.blockBuffer; joinFragments [] (sortFragments c.fragments))) ∧
    (∀ P, (10 ≤ P.length → ∃ n, firstEntries P = .ok n) ∧
      (P.length < 10 → ∃ e, firstEntries P = .err e ∧ ∀ D, findFirst2Parse P D = .err e)) ∧
    (∀ P, (4 ≤ P.length → ∃ n, nextEntries P = .ok n) ∧ (P.length < 4 → ∃ e, nextEntries P = .err e ∧ ∀ D, findNext2Parse P D = .err e)) := by
  refine ⟨recvFrame_buffer, get_buffer, fun P => ⟨fun h => ?_, fun h => ?_⟩, fun P => ⟨fun h => ?_, fun h => ?_⟩⟩
  · obtain ⟨sid, b, rfl⟩ := split_u16 P (by omega)
    simp only [List.length_append, length_putU16] at h
    obtain ⟨c, r, rfl⟩ := split_u16 b (by omega)
    unfold firstEntries
    rw [if_neg (by simp only [List.length_append, length_putU16] at h ⊢; omega)]
    simp only [Rd.getU16_put, Res.ok_bind]
    exact ⟨_, rfl⟩
  · exact ⟨_, if_pos h, fun D => if_pos h⟩
  · obtain ⟨c, r, rfl⟩ := split_u16 P (by omega)
    unfold nextEntries
    rw [if_neg (by omega)]
    simp only [Rd.getU16_put, Res.ok_bind]
    exact ⟨_, rfl⟩
  · exact ⟨_, if_pos h, fun D => if_pos h⟩

/-- **C78**, as far as it holds (`_partial`: not for the buffers of requests). For a packet the client reserves at most 131071 bytes. For a
block of a search it reserves exactly as many bytes as have arrived for it. For a page it makes room for as many entries as the page says it
has, which are at most 65535; and if the page is accepted that is exactly what was needed. -/
theorem C78_received_partial :
    (∀ (V : Server σ) w t n w', packetBuffer V w = (.ok (t, n), w') → n ≤ 131071) ∧
    (∀ c n, Collector.blockBuffer c = .ok n → n = (c.fragments.map fun x => x.2.length).sum) ∧
    (∀ P n, firstEntries P = .ok n → u16At P 2 = some n ∧ n ≤ 65535 ∧ ∀ D page, findFirst2Parse P D = .ok page → page.info.length = n) ∧
    (∀ P n, nextEntries P = .ok n → u16At P 0 = some n ∧ n ≤ 65535 ∧ ∀ D page, findNext2Parse P D = .ok page → page.info.length = n) := by
  refine ⟨?_, ?_, ?_, ?_⟩
  · intro V w t n w' h
    obtain ⟨t', w1, h1, h⟩ := M.bind_inv h
    obtain ⟨l, w2, h2, h⟩ := M.bind_inv h
    split at h
    · cases h
    · rename_i hn
      cases h
      have : MAX_FRAME_LENGTH = 131071 := rfl
      omega
  · intro c n h
    unfold Collector.blockBuffer at h
    split at h
    · cases h
    · split at h
      · cases h
      · rename_i t ht hn
        have : c.len = t := by simpa using hn
        cases h
        exact this.symm
  · intro P n h
    unfold firstEntries at h
    split at h
    · cases h
    · rename_i hl
      obtain ⟨sid, b, rfl⟩ := split_u16 P (by omega)
      simp only [List.length_append, length_putU16] at hl
      obtain ⟨c, r, rfl⟩ := split_u16 b (by omega)
      simp only [Rd.getU16_put, Res.ok_bind] at h
      cases h
      refine ⟨?_, by have := c.toNat_lt; omega, ?_⟩
      · rw [u16At_append_right _ _ _ (by simp)]; simp [u16At_put]
      · intro D page hp
        unfold findFirst2Parse at hp
        split at hp
        · cases hp
        · simp only [Rd.getU16_put, Res.ok_bind] at hp
          obtain ⟨_, _, hp⟩ := Res.bind_ok_inv hp
          obtain ⟨_, _, hp⟩ := Res.bind_ok_inv hp
          obtain ⟨info, _, hp⟩ := Res.bind_ok_inv hp
          split at hp
          · cases hp
          · split at hp
            · cases hp
            · rename_i hc _; cases hp; simpa using hc
  · intro P n h
    unfold nextEntries at h
    split at h
    · cases h
    · rename_i hl
      obtain ⟨c, r, rfl⟩ := split_u16 P (by omega)
      simp only [Rd.getU16_put, Res.ok_bind] at h
      cases h
      refine ⟨by simp [u16At_put], by have := c.toNat_lt; omega, ?_⟩
      intro D page hp
      unfold findNext2Parse at hp
      split at hp
      · cases hp
      · simp only [Rd.getU16_put, Res.ok_bind] at hp
        obtain ⟨_, _, hp⟩ := Res.bind_ok_inv hp
        obtain ⟨info, _, hp⟩ := Res.bind_ok_inv hp
        split at hp
        · cases hp
        · split at hp
          · cases hp
          · rename_i hc _; cases hp; simpa using hc

theorem u32At_small {p : Bytes} {o n : Nat} (h : u32At p o = some n) : n < 4294967296 := by
  unfold u32At at h
  cases ha : u16At p o with
  | none => simp [ha] at h
  | some a =>
    cases hb : u16At p (o + 2) with
    | none => simp [ha, hb] at h
    | some b =>
      simp [ha, hb] at h
      have := u16At_small ha
      have := u16At_small hb
      omega

/-- **C78**, what is reserved for requests (`_partial`: it is a number that the server chooses): 1024 bytes for the first one, and after a login,
whatever happens in the session, for each request as many as the negotiate reply said, which can be anything below 4 GiB. -/
theorem C78_requests_partial (hlog : Logs E.V log) {s s' : St σ} (h : setupConnection E s = (.ok (), s')) :
    (∀ auth, (Cli.init auth).sendBuffer = 1024) ∧
    ∃ packets ps st, LoggedIn E.V s.cli.auth.user s.cli.auth.domain s.w.srv s.w.inbox.flatten packets ps st s'.cli.uid.toNat s'.w.srv
        s'.w.inbox.flatten ∧
      ∀ ops, u32At ps 7 = some (runOps E ops s').2.cli.sendBuffer ∧ (runOps E ops s').2.cli.sendBuffer < 4294967296 := by
  refine ⟨fun _ => rfl, ?_⟩
  obtain ⟨packets, ps, st, _, _, h3, _, h5, _⟩ := C46_login hlog h
  refine ⟨packets, ps, st, h3, fun ops => ?_⟩
  have e : (runOps E ops s').2.cli.sendBuffer = s'.cli.maxSmbSize := (C62_stable E ops s').2.2.1
  rw [e]
  exact ⟨h5, u32At_small h5⟩

namespace Demo

/-- A negotiate reply like `negotiateParams`, with this maximal buffer size. -/
def hugeParams (n : UInt32) : Bytes :=
  putU16 0 ++ [3] ++ putU16 50 ++ putU16 1 ++ putU32 n ++ putU32 65536 ++ putU32 0 ++ putU32 0xf3fd ++ putU64 133700000000000000 ++
    putU16 0xffc4 ++ [8]

/-- What a server sends for a login. -/
def hugeLogin (n : UInt32) : List Bytes :=
  [message (replyWith .Negotiate (.Known .SUCCESS) 0 0 (hugeParams n) [1, 2, 3, 4, 5, 6, 7, 8]),
   message (replyWith .SessionSetup (.Known .SUCCESS) 100 1 [0xff, 0, 0, 0, 0, 0] [])]

/-- A client that is about to log in to it. -/
def hugeSt (n : UInt32) : St ((List (List Bytes) × Bytes) × List Bytes) :=
  { cli := .init defaultAuth, w := { inbox := [], wsched := [], out := [], srv := (((hugeLogin n).map fun p => [p], []), []) } }

end Demo

theorem okState_of {ε α σ : Type} {q : σ → Bool} {r : Out ε α × σ} (h : (match r with | (.ok _, s) => q s | _ => false) = true) :
    ∃ a s, r = (.ok a, s) ∧ q s = true := by
  split at h
  · exact ⟨_, _, rfl, h⟩
  · cases h

/-- **C78 is violated**: there is a server that sends 126 bytes in all, after which the login has succeeded, and the client reserves 4294967295
bytes for each request of the session. -/
theorem C78_violated : ∃ (σ : Type) (E : Env σ) (fed : σ → Bytes) (s s' : St σ), Feeds E.V fed ∧ fed s.w.srv = [] ∧
    setupConnection E s = (.ok (), s') ∧ (fed s'.w.srv).length = 126 ∧ ∀ ops, (runOps E ops s').2.cli.sendBuffer = 4294967295 := by
  obtain ⟨_, s', h, hq⟩ := okState_of (q := fun s' : St ((List (List Bytes) × Bytes) × List Bytes) => decide (s'.cli.maxSmbSize = 4294967295 ∧ s'.w.srv.1.2.length = 126))
    (r := setupConnection Demo.fedEnv (Demo.hugeSt 0xffffffff)) (by decide +kernel)
  have hq := of_decide_eq_true hq
  refine ⟨_, Demo.fedEnv, fun v => v.1.2, _, s', Demo.fedEnv_feeds, rfl, h, hq.2, fun ops => ?_⟩
  exact (C62_stable Demo.fedEnv ops s').2.2.1.trans hq.1

/-- non-vacuity -/
example : (packetBuffer Demo.fedEnv.V { inbox := [[0, 1], [255, 255, 7]], wsched := [], out := [], srv := (([], []), []) }).1 = .ok ([0], 131071) ∧
    (packetBuffer Demo.fedEnv.V { inbox := [[0, 2], [0, 0, 7]], wsched := [], out := [], srv := (([], []), []) }).1 = .err .FrameTooBig := by
  decide +kernel
example : Collector.blockBuffer ⟨[(0, [1, 2]), (2, [3])], some 3⟩ = .ok 3 := by decide
example : firstEntries [1, 0, 255, 255, 0, 0, 0, 0, 0, 0] = .ok 65535 ∧ nextEntries [2, 0, 0, 0] = .ok 2 := by decide

end Cifs
