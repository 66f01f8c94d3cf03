import Verif.Lemmas.Fields
import Verif.Lemmas.Client
/-!
# Properties of the transport: C02, C03, C04, C05, C06, C07 (dialling), C08 (receive loops of the transport)
-/

namespace Cifs
open Spec

variable {σ : Type}

/-! ## C02 -/

/-- What a message looks like on the wire, by position: type 0, 24-bit big-endian length, payload. -/
theorem C02_layout (m : Bytes) (h : m.length ≤ 0x1ffff) :
    u8At (message m) 0 = some 0 ∧ u24beAt (message m) 1 = some m.length ∧ sliceAt (message m) 4 m.length = some m ∧
      (message m).length = 4 + m.length := by
  refine ⟨rfl, ?_, sliceAt_end _ _ _ _ rfl rfl, by simp [message]; omega⟩
  show some _ = some _
  simp; omega

/-- Whatever the socket accepts per write: as long as it neither fails nor blocks, the whole frame is written exactly once, and the server
is told exactly that frame. -/
theorem C02_written_completely (V : Server σ) (w : World σ) (m : Bytes) (h : m.length ≤ 0x1ffff) (hw : Accepting w.wsched) :
    (sendMessage V m w).1 = .ok () ∧
      (sendMessage V m w).2.out = w.out ++ message m ∧
      (sendMessage V m w).2.srv = (V.react w.srv (message m)).1 ∧
      (sendMessage V m w).2.inbox = w.inbox ++ (V.react w.srv (message m)).2 := by
  have h1 := (writeLoop_accepting w.wsched (message m) w.out hw).1
  obtain ⟨p, q, e1, e2, e3⟩ := writeLoop_out w.wsched (message m) w.out
  rw [e3] at h1; subst h1
  rw [List.append_nil] at e1; subst e1
  rw [sendMessage_eq, if_neg (by simp [MAX_FRAME_LENGTH]; omega), be24_packet]
  simp only [writeExactly]
  rcases hr : writeLoop w.wsched (packet 0x00 m) w.out with ⟨r, ws, out⟩
  rw [message, hr] at e2 e3
  simp only [iff_true] at e2 e3; subst e2 e3
  exact ⟨rfl, rfl, rfl, rfl⟩

/-- With an arbitrary socket: what is written is always a prefix of the frame; success is reported only if it is the whole frame, and
otherwise the server was not told and the call does not succeed. -/
theorem C02_success_means_complete (V : Server σ) (w : World σ) (m : Bytes) (h : m.length ≤ 0x1ffff) :
    ∃ p q, message m = p ++ q ∧ (sendMessage V m w).2.out = w.out ++ p ∧
      ((sendMessage V m w).1 = .ok () ↔ q = []) ∧
      (q ≠ [] → (sendMessage V m w).2.srv = w.srv ∧ (sendMessage V m w).2.inbox = w.inbox) := by
  obtain ⟨p, q, e1, e2, e3⟩ := writeLoop_out w.wsched (message m) w.out
  refine ⟨p, q, e1, ?_⟩
  rw [sendMessage_eq, if_neg (by simp [MAX_FRAME_LENGTH]; omega), be24_packet]
  simp only [writeExactly]
  rcases hr : writeLoop w.wsched (packet 0x00 m) w.out with ⟨r, ws, out⟩
  rw [message, hr] at e2 e3
  simp only at e2 e3
  subst e2
  cases r
  · simp only [true_iff] at e3; subst e3; simp
  all_goals simp at e3; simp [e3]

/-- A message that is too big is refused and nothing at all happens. -/
theorem C02_too_big_refused (V : Server σ) (w : World σ) (m : Bytes) (h : 0x1ffff < m.length) :
    sendMessage V m w = (.err .InvalidFrame, w) := by
  rw [sendMessage_eq, if_pos (by simp [MAX_FRAME_LENGTH]; omega)]

/-- non-vacuity: a socket that takes one byte, then nothing, then three bytes, then the rest -/
example : Accepting [.accept 1, .accept 0, .accept 3] ∧ (message [7, 8]).length = 6 := by
  constructor
  · intro ev h; simp at h; rcases h with rfl | rfl | rfl <;> exact ⟨_, rfl⟩
  · rfl

/-- non-vacuity: a failing socket really leaves a partial frame -/
example (V : Server Unit) : (sendMessage V [1, 2] { inbox := [], wsched := [.accept 3, .fail (.os 32)], out := [], srv := () }).1
    = .err (.IoError (.os 32)) := rfl

/-! ## C03 -/

/-- Any number of keep-alives in front of what has arrived, in any segmentation, leaves the outcome of receiving a message unchanged,
and the same bytes remain unread. -/
theorem C03_keepalives_invisible (V : Server σ) (w w' : World σ) (n : Nat) (hs : w'.srv = w.srv)
    (hf : w'.inbox.flatten = (List.replicate n keepAlive).flatten ++ w.inbox.flatten) :
    (recvMessage V w').1 = (recvMessage V w).1 ∧
      (recvMessage V w').2.inbox.flatten = (recvMessage V w).2.inbox.flatten := by
  obtain ⟨ib, h1, h2⟩ := recvMessage_flat V w
  obtain ⟨ib', h1', h2'⟩ := recvMessage_flat V w'
  have key : ∀ n, flatRecvMessage (V.tail w.srv) ((List.replicate n keepAlive).flatten ++ w.flat) =
      flatRecvMessage (V.tail w.srv) w.flat := by
    intro n
    induction n with
    | zero => rfl
    | succ n ih => rw [← ih, List.replicate_succ, List.flatten_cons, List.append_assoc]; exact flatRecvMessage_keepalive _ _
  have e : flatRecvMessage (V.tail w'.srv) w'.flat = flatRecvMessage (V.tail w.srv) w.flat := by
    rw [hs, ← key n]; congr 1
  rw [h2, h2', e]
  exact ⟨rfl, by rw [h1, h1', e]⟩

/-- non-vacuity: two keep-alives cut across three segments, then a message -/
example (V : Server Unit) :
    (recvMessage V { inbox := [[0x85, 0, 0], [0, 0x85, 0, 0, 0, 0], [0, 0, 1, 42]], wsched := [], out := [], srv := () }).1
      = .ok [42] := rfl

/-! ## C04 -/

/-- A message is delivered exactly when the stream holds, after keep-alives only, a session message with that payload; exactly its bytes
are consumed. -/
theorem C04_delivers_exactly (V : Server σ) (w : World σ) (m rest : Bytes) :
    ((recvMessage V w).1 = .ok m ∧ (recvMessage V w).2.inbox.flatten = rest) ↔ Delivers w.inbox.flatten m rest := by
  obtain ⟨ib, h1, h2⟩ := recvMessage_flat V w
  rw [h2]
  constructor
  · rintro ⟨e1, e2⟩
    apply flatRecvMessage_ok (V.tail w.srv)
    rw [h1] at e2
    exact Prod.ext e1 e2
  · intro h
    have e := flatRecvMessage_delivers (V.tail w.srv) h
    have e' : flatRecvMessage (V.tail w.srv) w.flat = (.ok m, rest) := e
    rw [e'] at h1 ⊢
    exact ⟨rfl, h1⟩

/-- Receiving a frame: the error for each kind of bad frame. -/
theorem C04_bad_frames (V : Server σ) (w : World σ) (ty : UInt8) (d rest : Bytes) (hd : d.length ≤ 0x1ffff)
    (hw : w.inbox.flatten = packet ty d ++ rest) :
    -- unknown type
    ((∀ t ∈ [0x00, 0x81, 0x82, 0x83, 0x84, 0x85], ty ≠ t) → (recvMessage V w).1 = .err (.InvalidFrameType ty)) ∧
    -- control frame of the wrong size
    ((ty = 0x82 ∧ d.length ≠ 0 ∨ ty = 0x83 ∧ d.length ≠ 1 ∨ ty = 0x84 ∧ d.length ≠ 6 ∨ ty = 0x85 ∧ d.length ≠ 0) →
      (recvMessage V w).1 = .err .InvalidFrame) ∧
    -- control frame other than keep-alive
    ((ty = 0x81 ∨ ty = 0x82 ∧ d.length = 0 ∨ ty = 0x83 ∧ d.length = 1 ∨ ty = 0x84 ∧ d.length = 6) →
      (recvMessage V w).1 = .err .UnexpectedFrame) := by
  obtain ⟨ib, h1, h2⟩ := recvMessage_flat V w
  have e : flatRecvMessage (V.tail w.srv) w.flat = flatRecvMessage (V.tail w.srv) (packet ty d ++ rest) := by rw [← hw]; rfl
  rw [h2, e, flatRecvMessage_eq]
  have hp := flatRecv_packet (V.tail w.srv) ty d rest hd
  refine ⟨fun h => ?_, fun h => ?_, fun h => ?_⟩
  · have hf : Frame.new ty d = .err (.InvalidFrameType ty) := by
      simp at h; simp [Frame.new, h]
    rw [hf] at hp
    rw [M.bind_err hp]
  · have hf : Frame.new ty d = .err .InvalidFrame := by
      rcases h with ⟨rfl, h⟩ | ⟨rfl, h⟩ | ⟨rfl, h⟩ | ⟨rfl, h⟩
      · simp at h; simp [Frame.new, h]
      · clear hp e hw hd
        match d, h with
        | [], _ => rfl
        | _ :: _ :: _, _ => rfl
      · simp [Frame.new, h]
      · simp at h; simp [Frame.new, h]
    rw [hf] at hp
    rw [M.bind_err hp]
  · rcases h with rfl | ⟨rfl, h⟩ | ⟨rfl, h⟩ | ⟨rfl, h⟩
    · rw [M.bind_ok hp]; rfl
    · rw [List.length_eq_zero_iff] at h; subst h; rw [M.bind_ok hp]; rfl
    · have hf : ∃ c, Frame.new 0x83 d = .ok (.NegativeResponse c) := by
        clear hp e hw hd
        match d, h with
        | [c], _ => exact ⟨c, rfl⟩
      obtain ⟨c, hf⟩ := hf
      rw [hf] at hp; rw [M.bind_ok hp]; rfl
    · have hf : Frame.new 0x84 d = .ok .Retarget := by simp [Frame.new, h]
      rw [hf] at hp; rw [M.bind_ok hp]; rfl

/-- A length above the limit is refused, whatever the type. -/
theorem C04_too_long (V : Server σ) (w : World σ) (ty : UInt8) (len rest : Bytes) (hl : len.length = 3)
    (hb : 0x1ffff < beVal len) (hw : w.inbox.flatten = ty :: (len ++ rest)) : (recvMessage V w).1 = .err .FrameTooBig := by
  obtain ⟨ib, h1, h2⟩ := recvMessage_flat V w
  have e : flatRecvMessage (V.tail w.srv) w.flat = flatRecvMessage (V.tail w.srv) (ty :: (len ++ rest)) := by rw [← hw]; rfl
  rw [h2, e, flatRecvMessage_eq]
  have hp := flatRecv_cons (V.tail w.srv) ty len rest hl
  rw [if_pos (by simp [MAX_FRAME_LENGTH]; omega)] at hp
  rw [M.bind_err hp]

/-- non-vacuity: an empty message is delivered, a one-byte keep-alive refused, a huge length refused -/
example (V : Server Unit) :
    (recvMessage V { inbox := [[0, 0, 0, 0]], wsched := [], out := [], srv := () }).1 = .ok [] ∧
    (recvMessage V { inbox := [[0x85, 0, 0, 1, 9]], wsched := [], out := [], srv := () }).1 = .err .InvalidFrame ∧
    (recvMessage V { inbox := [[0x00, 2, 0, 0, 9]], wsched := [], out := [], srv := () }).1 = .err .FrameTooBig := ⟨rfl, rfl, rfl⟩

/-! ## C05 -/

/-- The stream ends inside a frame (after any number of keep-alives): an end-of-stream error, never a message. -/
theorem C05_cut_is_an_error (V : Server σ) (w : World σ) (ty : UInt8) (d cut more : Bytes) (n : Nat) (hd : d.length ≤ 0x1ffff)
    (hcut : packet ty d = cut ++ more) (hmore : more ≠ [])
    (hw : w.inbox.flatten = (List.replicate n keepAlive).flatten ++ cut) (ht : V.tail w.srv = .eof) :
    (recvMessage V w).1 = .err (.IoError .unexpectedEof) ∨ (recvMessage V w).1 = .err .UnexpectedEOF := by
  have h3 := C03_keepalives_invisible V { w with inbox := [cut] } w n rfl (by rw [hw]; simp)
  rw [h3.1]
  obtain ⟨ib, h1, h2⟩ := recvMessage_flat V { w with inbox := [cut] }
  rw [h2]
  have e : ({ w with inbox := [cut] } : World σ).flat = cut := by simp [World.flat]
  simp only [e, ht]
  have hlen : cut.length < d.length + 4 := by
    have := congrArg List.length hcut
    simp at this
    have : 0 < more.length := List.length_pos_iff.mpr hmore
    omega
  rw [flatRecvMessage_eq]
  by_cases h4 : cut.length < 4
  · have hp := flatRecv_short4 .eof cut h4
    rw [M.bind_err hp]; exact .inl rfl
  · obtain ⟨ty', len, r, hl, rfl⟩ := split4 cut (by omega)
    have hp := flatRecv_cons .eof ty' len r hl
    have hlen2 : len = be24 d.length := by
      rw [← be24_packet] at hcut
      have := congrArg (fun l => (l.drop 1).take 3) hcut
      simp [List.take_append, hl, be24_length] at this
      exact this.symm
    have hv : beVal len = d.length := by rw [hlen2]; exact be24_val _ (by omega)
    rw [hv, if_neg (by simp [MAX_FRAME_LENGTH]; omega), if_pos (by simp [hl] at hlen; omega)] at hp
    rw [M.bind_err hp]; exact .inr rfl

/-- non-vacuity: a message cut in its header, and one cut in its payload -/
example : packet 0x00 [1, 2, 3] = [0x00, 0] ++ [0, 3, 1, 2, 3] ∧ packet 0x00 [1, 2, 3] = [0x00, 0, 0, 3, 1] ++ [2, 3] := ⟨rfl, rfl⟩

/-! ## C06 -/

theorem toNat_ofNat_small (n : Nat) (h : n < 128) : (Char.ofNat n).toNat = n := by
  have hv : n.isValidChar := by left; omega
  simp only [Char.ofNat, dif_pos hv, Char.toNat, Char.ofNatAux]
  rfl

theorem C06_aux_encode (c : Char) (r : Bytes) (h : c.toNat < 128) :
    decodeHalfAscii (utf8 [Char.ofNat (65 + c.toNat / 16), Char.ofNat (65 + c.toNat % 16)] ++ r)
      = (decodeHalfAscii r).map (UInt8.ofNat c.toNat :: ·) := by
  have h1 : (Char.ofNat (65 + c.toNat / 16)).toNat = 65 + c.toNat / 16 := by
    exact toNat_ofNat_small _ (by omega)
  have h2 : (Char.ofNat (65 + c.toNat % 16)).toNat = 65 + c.toNat % 16 := by
    exact toNat_ofNat_small _ (by omega)
  simp only [utf8, List.flatMap_cons, List.flatMap_nil, utf8Char, h1, h2]
  rw [if_pos (by omega), if_pos (by omega)]
  simp only [List.append_nil, List.cons_append, List.nil_append, decodeHalfAscii]
  have e1 : (UInt8.ofNat (65 + c.toNat / 16)).toNat = 65 + c.toNat / 16 := by simp; omega
  have e2 : (UInt8.ofNat (65 + c.toNat % 16)).toNat = 65 + c.toNat % 16 := by simp; omega
  rw [e1, e2, if_pos (by omega)]
  congr 2
  have : (65 + c.toNat / 16 - 65) * 16 + (65 + c.toNat % 16 - 65) = c.toNat := by omega
  rw [this]

/-- The encoded name has 32 bytes and decodes to the first 16 ASCII characters, blank padded. -/
theorem C06_name (name : Str) :
    (utf8 (encodeNetbiosName name)).length = 32 ∧ decodeHalfAscii (utf8 (encodeNetbiosName name)) = some (netbiosName name) := by
  have key : ∀ l : Str, (∀ c ∈ l, c.toNat < 128) →
      (utf8 (l.flatMap (fun c => [Char.ofNat (65 + c.toNat / 16), Char.ofNat (65 + c.toNat % 16)]))).length = 2 * l.length ∧
      decodeHalfAscii (utf8 (l.flatMap (fun c => [Char.ofNat (65 + c.toNat / 16), Char.ofNat (65 + c.toNat % 16)])))
        = some (l.map (fun c => UInt8.ofNat c.toNat)) := by
    intro l hl
    induction l with
    | nil => exact ⟨rfl, rfl⟩
    | cons c l ih =>
      obtain ⟨i1, i2⟩ := ih (fun c hc => hl c (by simp [hc]))
      have hc := hl c (by simp)
      have hsplit : ∀ a b : Str, utf8 (a ++ b) = utf8 a ++ utf8 b := fun a b => by simp [utf8]
      rw [List.flatMap_cons, hsplit]
      constructor
      · rw [List.length_append, i1, List.length_cons]
        have h1 : (Char.ofNat (65 + c.toNat / 16)).toNat = 65 + c.toNat / 16 := by
          exact toNat_ofNat_small _ (by omega)
        have h2 : (Char.ofNat (65 + c.toNat % 16)).toNat = 65 + c.toNat % 16 := by
          exact toNat_ofNat_small _ (by omega)
        simp only [utf8, List.flatMap_cons, List.flatMap_nil, utf8Char, h1, h2]
        rw [if_pos (by omega), if_pos (by omega)]
        simp; omega
      · rw [C06_aux_encode c _ hc, i2]; rfl
  have hasc : ∀ c ∈ ((name.filter (fun c => decide (c.toNat < 128)) ++ List.replicate 16 ' ').take 16), c.toNat < 128 := by
    intro c hc
    have := List.mem_of_mem_take hc
    simp only [List.mem_append, List.mem_filter, List.mem_replicate] at this
    rcases this with h | h
    · simpa using h.2
    · rw [h.2]; decide
  obtain ⟨k1, k2⟩ := key _ hasc
  refine ⟨?_, ?_⟩
  · rw [encodeNetbiosName, k1]; simp
  · rw [encodeNetbiosName, k2, netbiosName]
    congr 1
    generalize name.filter (fun c => decide (c.toNat < 128)) = l
    simp only [List.map_take, List.map_append, List.map_replicate]
    have : UInt8.ofNat ' '.toNat = 32 := by decide
    rw [this, List.take_append, List.take_append]
    simp only [List.take_replicate, List.length_map, Nat.min_def]
    congr 2
    split <;> split <;> omega

/-- The session request: a 72-byte frame of type 0x81 and length 68 with the two names, each 0x20-prefixed and NUL-terminated. -/
def C06_frame (name : Str) : Bytes := packet 0x81 (sessionRequestPayload "*SMBSERVER".toList name)

theorem C06_request_layout (name : Str) :
    (C06_frame name).length = 72 ∧ u8At (C06_frame name) 0 = some 0x81 ∧ u24beAt (C06_frame name) 1 = some 68 ∧
      (∃ called calling,
        sliceAt (C06_frame name) 4 34 = some ([0x20] ++ called ++ [0x00]) ∧
        sliceAt (C06_frame name) 38 34 = some ([0x20] ++ calling ++ [0x00]) ∧
        decodeHalfAscii called = some (netbiosName "*SMBSERVER".toList) ∧
        decodeHalfAscii calling = some (netbiosName name)) := by
  have hl : (sessionRequestPayload "*SMBSERVER".toList name).length = 68 := by
    simp only [sessionRequestPayload, List.length_append, (C06_name name).1, (C06_name "*SMBSERVER".toList).1]; rfl
  refine ⟨by rw [C06_frame, length_packet, hl], rfl, ?_, utf8 (encodeNetbiosName "*SMBSERVER".toList), utf8 (encodeNetbiosName name), ?_, ?_,
    (C06_name _).2, (C06_name _).2⟩
  · show some _ = some _
    rw [hl]; rfl
  · have : C06_frame name = (packet 0x81 (sessionRequestPayload "*SMBSERVER".toList name)).take 4 ++
        (([0x20] ++ utf8 (encodeNetbiosName "*SMBSERVER".toList) ++ [0x00]) ++ ([0x20] ++ utf8 (encodeNetbiosName name) ++ [0x00])) := by
      simp [C06_frame, packet, sessionRequestPayload]
    rw [this]
    exact sliceAt_mid _ _ _ _ _ rfl (by simp only [List.length_append, (C06_name "*SMBSERVER".toList).1]; rfl)
  · have : C06_frame name = ((packet 0x81 (sessionRequestPayload "*SMBSERVER".toList name)).take 4 ++
        ([0x20] ++ utf8 (encodeNetbiosName "*SMBSERVER".toList) ++ [0x00])) ++ ([0x20] ++ utf8 (encodeNetbiosName name) ++ [0x00]) := by
      simp [C06_frame, packet, sessionRequestPayload]
    rw [this]
    exact sliceAt_end _ _ _ _ (by simp only [List.length_append, (C06_name "*SMBSERVER".toList).1]; rfl) (by simp [(C06_name name).1])

theorem sessionRequest_encode (name : Str) :
    (Frame.SessionRequest (sessionRequestPayload "*SMBSERVER".toList name)).encode = .ok (C06_frame name) := by
  have hl : (sessionRequestPayload "*SMBSERVER".toList name).length = 68 := by
    simp only [sessionRequestPayload, List.length_append, (C06_name name).1, (C06_name "*SMBSERVER".toList).1]; rfl
  simp only [Frame.encode, hl]
  have := be24_packet 0x81 (sessionRequestPayload "*SMBSERVER".toList name)
  rw [hl] at this
  show (if 68 ≠ 68 then _ else _) = _
  rw [if_neg (by simp), C06_frame, ← this]; rfl

/-- A session request that is written completely. -/
theorem createSession_done (V : Server σ) (w : World σ) (name : Str) {ws : List WriteEv}
    (hr : writeLoop w.wsched (C06_frame name) w.out = (.done, ws, w.out ++ C06_frame name)) :
    let r := createSession V "*SMBSERVER".toList name w
    r.2.out = w.out ++ C06_frame name ∧ r.2.srv = (V.react w.srv (C06_frame name)).1 ∧
      (r.1 = .ok () ↔ ∃ rest, w.inbox.flatten ++ (V.react w.srv (C06_frame name)).2.flatten = [0x82, 0, 0, 0] ++ rest) ∧
      ∀ rest, w.inbox.flatten ++ (V.react w.srv (C06_frame name)).2.flatten = [0x82, 0, 0, 0] ++ rest → r.2.inbox.flatten = rest := by
  have hsend : sendFrame V (.SessionRequest (sessionRequestPayload "*SMBSERVER".toList name)) w =
      (.ok (), { inbox := w.inbox ++ (V.react w.srv (C06_frame name)).2, wsched := ws, out := w.out ++ C06_frame name
                 srv := (V.react w.srv (C06_frame name)).1 }) := by
    simp only [sendFrame, sessionRequest_encode name, M.bind_apply, M.bind, M.ofRes, writeExactly, hr]
  intro r
  have hcs : r = (do
      match ← recvFrame V with
      | .PositiveResponse => pure ()
      | .NegativeResponse code => M.fail (.CreateSession code)
      | _ => M.fail .InvalidFrame : M NbError (World σ) Unit)
        { inbox := w.inbox ++ (V.react w.srv (C06_frame name)).2, wsched := ws, out := w.out ++ C06_frame name
          srv := (V.react w.srv (C06_frame name)).1 } := by
    show createSession V _ _ w = _
    unfold createSession
    rw [M.bind_ok hsend]
    rfl
  generalize hw' : ({ inbox := w.inbox ++ (V.react w.srv (C06_frame name)).2, wsched := ws, out := w.out ++ C06_frame name
                      srv := (V.react w.srv (C06_frame name)).1 } : World σ) = w' at hcs
  have e1 : w'.out = w.out ++ C06_frame name := by rw [← hw']
  have e2 : w'.srv = (V.react w.srv (C06_frame name)).1 := by rw [← hw']
  have e3 : w'.flat = w.inbox.flatten ++ (V.react w.srv (C06_frame name)).2.flatten := by rw [← hw']; simp [World.flat]
  rw [← e1, ← e2, ← e3, hcs]
  obtain ⟨ib, f1, f2⟩ := recvFrame_flat V w'
  simp only [M.bind_apply, M.bind, f2]
  rcases hf : flatRecv (V.tail w'.srv) w'.flat with ⟨o, b⟩
  have hpos : (∃ rest, w'.flat = [0x82, 0, 0, 0] ++ rest) ↔ o = .ok .PositiveResponse := by
    constructor
    · rintro ⟨rest, h⟩
      have := flatRecv_packet (V.tail w'.srv) 0x82 [] rest (by simp [maxPayload])
      have e : packet 0x82 [] ++ rest = [0x82, 0, 0, 0] ++ rest := rfl
      rw [e, ← h, hf] at this
      exact (congrArg Prod.fst this)
    · rintro rfl
      obtain ⟨ty, d, _, h2, h3⟩ := flatRecv_ok _ _ _ _ hf
      have : packet ty d = [0x82, 0, 0, 0] := by
        unfold Frame.new at h3
        repeat' split at h3
        all_goals simp_all
        all_goals rfl
      exact ⟨b, by rw [h2, this]⟩
  rw [hpos]
  have hrest : ∀ rest, w'.flat = [0x82, 0, 0, 0] ++ rest → b = rest := by
    intro rest h
    have := flatRecv_packet (V.tail w'.srv) 0x82 [] rest (by simp [maxPayload])
    have e : packet 0x82 [] ++ rest = [0x82, 0, 0, 0] ++ rest := rfl
    rw [e, ← h, hf] at this
    exact (congrArg Prod.snd this)
  rw [hf] at f1
  cases o with
  | ok f => cases f <;> (simp [M.fail]; intro rest h; exact f1.trans (hrest rest h))
  | _ => simp; intro rest h; exact f1.trans (hrest rest h)

/-- A session request that is not. -/
theorem createSession_unsent (V : Server σ) (w : World σ) (name : Str) (hr : (writeLoop w.wsched (C06_frame name) w.out).1 ≠ .done) :
    (createSession V "*SMBSERVER".toList name w).1 ≠ .ok () ∧ (createSession V "*SMBSERVER".toList name w).2.srv = w.srv := by
  have hsend : sendFrame V (.SessionRequest (sessionRequestPayload "*SMBSERVER".toList name)) w = writeExactly V (C06_frame name) w := by
    simp only [sendFrame, sessionRequest_encode, M.bind_apply, M.bind, M.ofRes]
  unfold createSession
  rcases hw : writeLoop w.wsched (C06_frame name) w.out with ⟨r, ws, out⟩
  rw [hw] at hr
  simp only [M.bind_apply, M.bind, hsend, writeExactly, hw]
  cases r with
  | done => exact absurd rfl hr
  | failed e => simp
  | blocked => simp

/-- Creating a session writes exactly that frame, and succeeds exactly when the stream continues with a positive response. -/
theorem C06_session (V : Server σ) (w : World σ) (name : Str) (hw : Accepting w.wsched) :
    let r := createSession V "*SMBSERVER".toList name w
    r.2.out = w.out ++ C06_frame name ∧ r.2.srv = (V.react w.srv (C06_frame name)).1 ∧
      (r.1 = .ok () ↔ ∃ rest, w.inbox.flatten ++ (V.react w.srv (C06_frame name)).2.flatten = [0x82, 0, 0, 0] ++ rest) := by
  have h1 := (writeLoop_accepting w.wsched (C06_frame name) w.out hw).1
  obtain ⟨p, q, e1, e2, e3⟩ := writeLoop_out w.wsched (C06_frame name) w.out
  rw [e3] at h1; subst h1
  rw [List.append_nil] at e1; subst e1
  rcases hr : writeLoop w.wsched (C06_frame name) w.out with ⟨r, ws, out⟩
  rw [hr] at e2 e3
  simp only [iff_true] at e2 e3; subst e2 e3
  obtain ⟨a, b, c, _⟩ := createSession_done V w name hr
  exact ⟨a, b, c⟩

/-- non-vacuity: a long name with non-ASCII characters is cut to its first 16 ASCII characters -/
example : netbiosName "wörkstation-with-a-long-name".toList = utf8 "wrkstation-with-".toList := by decide

/-! ## C08, transport part -/

/-- Receiving a message always ends by itself: no budget is used up (and it never panics). -/
theorem C08_recvMessage_terminates (V : Server σ) (w : World σ) :
    (recvMessage V w).1 ≠ .running ∧ (recvMessage V w).1 ≠ .panic := by
  obtain ⟨ib, h1, h2⟩ := recvMessage_flat V w
  have := flatRecvMessage_cases (V.tail w.srv) w.flat
  rw [h2]; exact ⟨this.1, this.2.1⟩

/-- non-vacuity: a stream of keep-alives followed by end of stream ends in an error -/
example (V : Server Unit) (h : V.tail () = .eof) :
    (recvMessage V { inbox := [keepAlive, keepAlive], wsched := [], out := [], srv := () }).1 = .err (.IoError .unexpectedEof) := by
  obtain ⟨ib, h1, h2⟩ := recvMessage_flat V { inbox := [keepAlive, keepAlive], wsched := [], out := [], srv := () }
  rw [h2, h]; rfl

end Cifs
