import Verif.Props.Connect
/-! # C06: what follows from the server's answer to the session request, and that `open` sends it -/

namespace Cifs
open Spec

variable {σ : Type}

/-- A session request that is written completely, before the answer is read. -/
theorem createSession_reads (V : Server σ) (w : World σ) (name : Str) (hw : Accepting w.wsched) :
    ∃ w', w'.flat = w.inbox.flatten ++ (V.react w.srv (C06_frame name)).2.flatten ∧ w'.srv = (V.react w.srv (C06_frame name)).1 ∧
      createSession V "*SMBSERVER".toList name w = (do
        match ← recvFrame V with
        | .PositiveResponse => pure ()
        | .NegativeResponse code => M.fail (.CreateSession code)
        | _ => M.fail .InvalidFrame : M NbError (World σ) Unit) w' := by
  have h1 := (writeLoop_accepting w.wsched (C06_frame name) w.out hw).1
  rcases hr : writeLoop w.wsched (C06_frame name) w.out with ⟨r, ws, out⟩
  rw [hr] at h1
  dsimp only at h1
  subst h1
  refine ⟨{ inbox := w.inbox ++ (V.react w.srv (C06_frame name)).2, wsched := ws, out, srv := (V.react w.srv (C06_frame name)).1 }, by simp [World.flat], rfl, ?_⟩
  have hsend : sendFrame V (.SessionRequest (sessionRequestPayload "*SMBSERVER".toList name)) w =
      (.ok (), { inbox := w.inbox ++ (V.react w.srv (C06_frame name)).2, wsched := ws, out, srv := (V.react w.srv (C06_frame name)).1 }) := by
    simp only [sendFrame, sessionRequest_encode name, M.bind_apply, M.bind, M.ofRes, writeExactly, hr]
  unfold createSession
  rw [M.bind_ok hsend]
  rfl

/-- Reading a packet is never the cause of a refusal. -/
theorem flatRecv_not_refused (t : Tail) (b : Bytes) (code : UInt8) : (flatRecv t b).1 ≠ .err (.CreateSession code) := by
  by_cases h4 : b.length < 4
  · rw [flatRecv_short4 t b h4]; cases t <;> simp [Tail.out]
  · obtain ⟨ty, len, r, hl, rfl⟩ := split4 b (by omega)
    rw [flatRecv_cons t ty len r hl]
    split
    · simp
    · split
      · cases t <;> simp [Tail.out]
      · have hn : Frame.new ty (r.take (beVal len)) ≠ .err (.CreateSession code) := by
          unfold Frame.new
          repeat' split
          all_goals simp
        split <;> simp_all

/-- **C06** The code of a refusal is reported exactly when the stream continues with a negative response of one byte, and it is that byte. -/
theorem C06_refused (V : Server σ) (w : World σ) (name : Str) (hw : Accepting w.wsched) (code : UInt8) :
    (createSession V "*SMBSERVER".toList name w).1 = .err (.CreateSession code) ↔
      ∃ rest, w.inbox.flatten ++ (V.react w.srv (C06_frame name)).2.flatten = [0x83, 0, 0, 1, code] ++ rest := by
  obtain ⟨w', e1, _, e3⟩ := createSession_reads V w name hw
  rw [e3, ← e1]
  obtain ⟨ib, f1, f2⟩ := recvFrame_flat V w'
  simp only [M.bind_apply, M.bind, f2]
  constructor
  · intro h
    rcases hf : flatRecv (V.tail w'.srv) w'.flat with ⟨o, b⟩
    rw [hf] at h
    cases o with
    | ok f =>
      cases f with
      | NegativeResponse c =>
        obtain ⟨ty, d, _, h2, h3⟩ := flatRecv_ok _ _ _ _ hf
        have hc : c = code := by simpa [M.fail] using h
        subst hc
        have : packet ty d = [0x83, 0, 0, 1, c] := by
          unfold Frame.new at h3
          repeat' split at h3
          all_goals first | (simp only [Res.ok.injEq, reduceCtorEq] at h3; done) | skip
          simp only [Res.ok.injEq, Frame.NegativeResponse.injEq] at h3
          subst h3
          simp_all [packet]
        exact ⟨b, by rw [h2, this]⟩
      | _ => simp [M.fail] at h <;> cases h
    | err e =>
      exfalso
      have he : e = .CreateSession code := by simpa using h
      exact flatRecv_not_refused _ _ code (by rw [hf, he])
    | _ => simp at h
  · rintro ⟨rest, h⟩
    have := flatRecv_packet (V.tail w'.srv) 0x83 [code] rest (by simp [maxPayload])
    have e : packet 0x83 [code] ++ rest = [0x83, 0, 0, 1, code] ++ rest := by simp [packet]
    rw [e, ← h] at this
    rw [this]
    rfl

/-- **C06** `open` without a port, when only 139 can be reached: exactly that request is sent for the workstation of the account, and there is a session exactly when
the server answers positively. -/
theorem C06_open (V : Server σ) {dial : Dial σ} {e : IoErr} {w : World σ} (name : Str) (h : dial 445 = .error e) (h' : dial 139 = .ok w) (hw : Accepting w.wsched) :
    ∃ w', (openNetbios V dial name).world = some w' ∧ w'.out = w.out ++ C06_frame name ∧ w'.srv = (V.react w.srv (C06_frame name)).1 ∧
      ((openNetbios V dial name).outcome = .ok () ↔ ∃ rest, w.inbox.flatten ++ (V.react w.srv (C06_frame name)).2.flatten = [0x82, 0, 0, 0] ++ rest) ∧
      ∀ code, (openNetbios V dial name).outcome = .err (.CreateSession code) ↔
        ∃ rest, w.inbox.flatten ++ (V.react w.srv (C06_frame name)).2.flatten = [0x83, 0, 0, 1, code] ++ rest := by
  have e : openNetbios V dial name = ⟨(createSession V "*SMBSERVER".toList name w).1, some (createSession V "*SMBSERVER".toList name w).2, [445, 139]⟩ := by
    unfold openNetbios; rw [h, h']
  obtain ⟨h1, h2, h3⟩ := C06_session V w name hw
  rw [e]
  exact ⟨_, rfl, h1, h2, h3, C06_refused V w name hw⟩

/-- A host that only answers on port 139, and there with `0x83, 0, 0, 1, 0x82` (called name not present) in two chunks. -/
def Demo.refusing : Dial (List (List Bytes) × List Bytes) := fun p =>
  if p = 139 then .ok { inbox := [], wsched := [], out := [], srv := ([[[0x83, 0, 0], [1, 0x82]]], []) } else .error (.os 111)

/-- non-vacuity of `C06_open` and `C06_refused`: the refusal is reported with its code. -/
example : (openNetbios (Demo.env true).V Demo.refusing "WS".toList).outcome = .err (.CreateSession 0x82) :=
  have ⟨_, _, _, _, _, h⟩ := C06_open (Demo.env true).V (dial := Demo.refusing) "WS".toList (e := .os 111) rfl rfl (by intro e he; simp at he)
  (h 0x82).mpr ⟨[], by decide +kernel⟩

end Cifs
