import Verif.Props.Transport
/-! # C05: which error a cut connection gives -/

namespace Cifs
open Spec

variable {σ : Type}

/-- **C05** What a caller gets when the stream stops inside a packet, after any number of keep-alives, whatever the packet: the end of the stream is reported in one
way within the four bytes of the header and in another within the payload; a stream that has not ended makes the caller wait; a broken one
gives its error. All that had arrived is consumed. -/
theorem C05_which (V : Server σ) (w : World σ) (ty : UInt8) (d cut more : Bytes) (n : Nat) (hd : d.length ≤ 0x1ffff)
    (hcut : packet ty d = cut ++ more) (hmore : more ≠ []) (hw : w.inbox.flatten = (List.replicate n keepAlive).flatten ++ cut) :
    (recvMessage V w).1 = (match V.tail w.srv with
      | .eof => if cut.length < 4 then .err (.IoError .unexpectedEof) else .err .UnexpectedEOF
      | .blocked => .pending
      | .ioErr e => .err (.IoError e)) ∧ (recvMessage V w).2.inbox.flatten = [] := by
  have h3 := C03_keepalives_invisible V { w with inbox := [cut] } w n rfl (by rw [hw]; simp)
  rw [h3.1, h3.2]
  obtain ⟨ib, h1, h2⟩ := recvMessage_flat V { w with inbox := [cut] }
  rw [h2]
  have e : ({ w with inbox := [cut] } : World σ).flat = cut := by simp [World.flat]
  simp only [e] at h1 ⊢
  rw [h1]
  have hlen : cut.length < d.length + 4 := by
    have := congrArg List.length hcut
    simp at this
    have : 0 < more.length := List.length_pos_iff.mpr hmore
    omega
  rw [flatRecvMessage_eq]
  by_cases h4 : cut.length < 4
  · have hp := flatRecv_short4 (V.tail w.srv) cut h4
    cases ht : V.tail w.srv <;> rw [ht] at hp
    · rw [M.bind_err hp]; exact ⟨by simp [h4], rfl⟩
    · rw [M.bind_pending hp]; exact ⟨rfl, rfl⟩
    · rw [M.bind_err hp]; exact ⟨rfl, rfl⟩
  · obtain ⟨ty', len, r, hl, rfl⟩ := split4 cut (by omega)
    have hp := flatRecv_cons (V.tail w.srv) ty' len r hl
    have hlen2 : len = be24 d.length := by
      rw [← be24_packet] at hcut
      have := congrArg (fun l => (l.drop 1).take 3) hcut
      simp [List.take_append, hl, be24_length] at this
      exact this.symm
    have hv : beVal len = d.length := by rw [hlen2]; exact be24_val _ (by omega)
    rw [hv, if_neg (by simp [MAX_FRAME_LENGTH]; omega), if_pos (by simp [hl] at hlen; omega)] at hp
    cases ht : V.tail w.srv <;> rw [ht] at hp
    · rw [M.bind_err hp]; exact ⟨by dsimp only; rw [if_neg h4], rfl⟩
    · rw [M.bind_pending hp]; exact ⟨rfl, rfl⟩
    · rw [M.bind_err hp]; exact ⟨rfl, rfl⟩

/-- non-vacuity: a keep-alive and a message of three bytes, of which one has come when the peer closes. -/
example : (recvMessage ⟨fun u _ => (u, []), fun _ => .eof⟩ (⟨[[0x85, 0], [0, 0, 0x00, 0, 0, 3], [1]], [], [], ()⟩ : World Unit)).1 = .err .UnexpectedEOF :=
  (C05_which _ _ 0x00 [1, 2, 3] [0x00, 0, 0, 3, 1] [2, 3] 1 (by decide) rfl (by decide) rfl).1

end Cifs
