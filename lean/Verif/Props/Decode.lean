import Verif.Lemmas.Decode
import Verif.Lemmas.Masks
import Verif.Lemmas.DemoReplies
/-!
# Properties about reply contents: read (C29), open (C30), mount (C31)
-/

namespace Cifs
open Spec

variable {σ : Type}

/-! ## C29 -/

theorem readCreate_short {p ds : Bytes} (i : Info) (o : Nat) (h : p.length < 8) :
    readCreate { info := i, parameter := p, data := ds, dataOffset := o } = .panic := by
  unfold readCreate
  dsimp only
  rdskip 2 p h
  rdskip 2 p h
  rdskip 2 p h
  rd16 p h
  omega

theorem read_fields {p : Bytes} (h : 8 ≤ p.length) :
    ∃ (a b c : Bytes) (x : UInt16) (r : Bytes), a.length = 2 ∧ b.length = 2 ∧ c.length = 2 ∧ p = a ++ (b ++ (c ++ (putU16 x ++ r))) := by
  obtain ⟨a, r, ha, rfl⟩ := split_n 2 p (by omega)
  rw [List.length_append, ha] at h
  obtain ⟨b, r, hb, rfl⟩ := split_n 2 r (by omega)
  rw [List.length_append, hb] at h
  obtain ⟨c, r, hc, rfl⟩ := split_n 2 r (by omega)
  rw [List.length_append, hc] at h
  obtain ⟨x, r, rfl⟩ := split_u16 r (by omega)
  exact ⟨a, b, c, x, r, ha, hb, hc, rfl⟩

theorem readCreate_eq {ps ds : Bytes} {n : Nat} (i : Info) (o : Nat) (hn : u16At ps 10 = some n) :
    readCreate { info := i, parameter := ps.drop 4, data := ds, dataOffset := o } =
      if ds.length = n then .ok ds else if ds.length = n + 1 then .ok (ds.drop 1) else .err .InvalidData := by
  have hl := u16At_length hn
  obtain ⟨h, r, hh, rfl⟩ := split_n 4 ps (by omega)
  rw [List.drop_left' hh]
  rw [List.length_append, hh] at hl
  obtain ⟨a, b, c, x, r, ha, hb, hc, rfl⟩ := read_fields (p := r) (by omega)
  rw [u16At_append_right _ _ _ (by omega), u16At_append_right _ _ _ (by omega), u16At_append_right _ _ _ (by omega),
    u16At_append_right _ _ _ (by omega), hh, ha, hb, hc, u16At_put] at hn
  have hn := Option.some.inj hn
  subst hn
  unfold readCreate
  dsimp only
  rw [Rd.advance_append _ _ _ ha]
  simp only [Res.ok_bind]
  rw [Rd.advance_append _ _ _ hb]
  simp only [Res.ok_bind]
  rw [Rd.advance_append _ _ _ hc]
  simp only [Res.ok_bind, Rd.getU16_put]
  by_cases h1 : ds.length = x.toNat
  · rw [if_pos h1, if_neg (by omega)]
    simp only [Res.ok_bind]
    rw [if_neg (by simp [h1]), Rd.copyToBytes, if_neg (by omega)]
    simp only [Res.ok_bind]
    rw [← h1, List.take_length]
  · rw [if_neg h1]
    by_cases h2 : ds.length = x.toNat + 1
    · rw [if_pos h2, if_pos (by omega), Rd.advance, if_neg (by omega)]
      simp only [Res.ok_bind]
      rw [if_neg (by simp; omega), Rd.copyToBytes, if_neg (by simp; omega)]
      simp only [Res.ok_bind]
      rw [List.take_of_length_le (by simp; omega)]
    · rw [if_neg h2]
      by_cases h3 : ds.length > x.toNat
      · rw [if_pos h3, Rd.advance, if_neg (by omega)]
        simp only [Res.ok_bind]
        rw [if_pos (by simp; omega)]
      · rw [if_neg h3]
        simp only [Res.ok_bind]
        rw [if_pos (by omega)]

theorem read_outcome {E : Env σ} {log : σ → List Bytes} (hlog : Logs E.V log) {file : Handle} {offset : UInt64} {s : St σ} {f ps ds : Bytes}
    (h : Answered E log (.read file offset) s f ps ds) (hx : LastAndX ps) (n : Nat) (hn : u16At ps 10 = some n) :
    (runOp E (.read file offset) s).1 = if ds.length = n then .ok (.bytes ds) else if ds.length = n + 1 then .ok (.bytes (ds.drop 1))
      else .err (.SMBError .InvalidData) := by
  obtain ⟨i, _, ho⟩ := answered readReply Val.bytes hlog rfl (fun _ _ => rfl) rfl h
  rw [ho, make_andx readReply rfl i hx.1 hx.2]
  simp only [readReply]
  rw [readCreate_eq i _ hn]
  split
  · rfl
  · split <;> rfl

/-- **C29** A read reply that announces `n` bytes and carries them, after one padding byte or none, is returned byte for byte. -/
theorem C29_read {E : Env σ} {log : σ → List Bytes} (hlog : Logs E.V log) {file : Handle} {offset : UInt64} {s : St σ} {f ps ds : Bytes}
    (h : Answered E log (.read file offset) s f ps ds) (hx : LastAndX ps) (content pad : Bytes) (hp : pad.length ≤ 1) (hd : ds = pad ++ content)
    (hn : u16At ps 10 = some content.length) : (runOp E (.read file offset) s).1 = .ok (.bytes content) := by
  rw [read_outcome hlog h hx _ hn]
  subst hd
  rcases pad with _ | ⟨x, _ | ⟨y, pad⟩⟩
  · simp
  · simp
  · simp at hp

/-- **C29** If the announced size does not fit the data, the call fails. -/
theorem C29_mismatch {E : Env σ} {log : σ → List Bytes} (hlog : Logs E.V log) {file : Handle} {offset : UInt64} {s : St σ} {f ps ds : Bytes}
    (h : Answered E log (.read file offset) s f ps ds) (hx : LastAndX ps) (n : Nat) (hn : u16At ps 10 = some n) (h0 : ds.length ≠ n)
    (h1 : ds.length ≠ n + 1) : (runOp E (.read file offset) s).1 = .err (.SMBError .InvalidData) := by
  rw [read_outcome hlog h hx _ hn, if_neg h0, if_neg h1]

/-- **C29** Conversely, whatever `read` returns is the content of a reply of that form. -/
theorem C29_only {E : Env σ} {log : σ → List Bytes} (hlog : Logs E.V log) {file : Handle} {offset : UInt64} {s : St σ} {content : Bytes}
    (hv : (runOp E (.read file offset) s).1 = .ok (.bytes content)) :
    ∃ f ps ds pad, Answered E log (.read file offset) s f ps ds ∧ LastAndX ps ∧ pad.length ≤ 1 ∧ ds = pad ++ content ∧
      u16At ps 10 = some content.length := by
  obtain ⟨f, ps, ds, i, a, hans, hp, hm, hva⟩ := answered_of_ok readReply Val.bytes hlog rfl (fun _ _ => rfl) rfl hv
  cases hva
  have hlast := make_andx_ok readReply rfl i hm
  rw [make_andx readReply rfl i hlast.1 hlast.2] at hm
  simp only [readReply] at hm
  have hl : 12 ≤ ps.length := by
    by_cases h : (ps.drop 4).length < 8
    · rw [readCreate_short i _ h] at hm; cases hm
    · simp at h; omega
  obtain ⟨n, hn⟩ : ∃ n, u16At ps 10 = some n := by
    obtain ⟨q, r, hq, rfl⟩ := split_n 10 ps (by omega)
    obtain ⟨x, r, rfl⟩ := split_u16 r (by simp [hq] at hl; omega)
    exact ⟨x.toNat, by rw [u16At_append_right _ _ _ (by omega), hq, u16At_put]⟩
  rw [readCreate_eq i _ hn] at hm
  refine ⟨f, ps, ds, if ds.length = n then [] else ds.take 1, hans, hlast, ?_⟩
  split at hm
  · rename_i h1
    rw [if_pos h1]
    cases hm
    exact ⟨by simp, rfl, by rw [hn, h1]⟩
  · rename_i h1
    rw [if_neg h1]
    split at hm
    · rename_i h2
      cases hm
      exact ⟨by simp; omega, by rw [List.take_append_drop], by rw [hn]; simp; omega⟩
    · cases hm

namespace Demo

/-- Three bytes read, after a padding byte. -/
example : Answered (env true) Prod.snd (.read handle 5)
    (st (answer (reply .Read 7 ([0xff, 0, 0, 0, 0, 0, 0, 0, 0, 0, 3, 0] ++ zeros 12) [0, 1, 2, 3])))
    (reply .Read 7 ([0xff, 0, 0, 0, 0, 0, 0, 0, 0, 0, 3, 0] ++ zeros 12) [0, 1, 2, 3])
    ([0xff, 0, 0, 0, 0, 0, 0, 0, 0, 0, 3, 0] ++ zeros 12) [0, 1, 2, 3] :=
  answered _ rfl (by decide +kernel) _ _ _ (by decide +kernel) (by decide +kernel) (by decide +kernel) (by decide +kernel)

end Demo

/-! ## C30 -/

theorem Handle.create_short {p ds : Bytes} (i : Info) (o : Nat) (h : p.length < 64) :
    Handle.create { info := i, parameter := p, data := ds, dataOffset := o } = .panic := by
  unfold Handle.create
  dsimp only
  rd8 p h
  rd16 p h
  rd32 p h
  rd64 p h
  rd64 p h
  rd64 p h
  rd64 p h
  rd32 p h
  rd64 p h
  rd64 p h
  rd16 p h
  rdskip 2 p h
  rd8 p h
  omega

theorem split_open {ps : Bytes} (h : 68 ≤ ps.length) : ∃ (a : Bytes) (x1 : UInt8) (x2 : UInt16) (x3 : UInt32) (t1 t2 t3 t4 : UInt64) (x4 : UInt32)
    (x5 x6 : UInt64) (x7 x8 : UInt16) (d : UInt8) (r : Bytes), a.length = 4 ∧ ps = a ++ (x1 :: (putU16 x2 ++ (putU32 x3 ++ (putU64 t1 ++ (putU64 t2 ++
      (putU64 t3 ++ (putU64 t4 ++ (putU32 x4 ++ (putU64 x5 ++ (putU64 x6 ++ (putU16 x7 ++ (putU16 x8 ++ (d :: r))))))))))))) := by
  obtain ⟨a, p, ha, rfl⟩ := split_n 4 ps (by omega)
  rw [List.length_append, ha] at h
  obtain ⟨x1, p, rfl⟩ := split_u8 p (by omega)
  rw [List.length_cons] at h
  obtain ⟨x2, p, rfl⟩ := split_u16 p (by omega)
  rw [List.length_append, length_putU16] at h
  obtain ⟨x3, p, rfl⟩ := split_u32 p (by omega)
  rw [List.length_append, length_putU32] at h
  obtain ⟨t1, p, rfl⟩ := split_u64 p (by omega)
  rw [List.length_append, length_putU64] at h
  obtain ⟨t2, p, rfl⟩ := split_u64 p (by omega)
  rw [List.length_append, length_putU64] at h
  obtain ⟨t3, p, rfl⟩ := split_u64 p (by omega)
  rw [List.length_append, length_putU64] at h
  obtain ⟨t4, p, rfl⟩ := split_u64 p (by omega)
  rw [List.length_append, length_putU64] at h
  obtain ⟨x4, p, rfl⟩ := split_u32 p (by omega)
  rw [List.length_append, length_putU32] at h
  obtain ⟨x5, p, rfl⟩ := split_u64 p (by omega)
  rw [List.length_append, length_putU64] at h
  obtain ⟨x6, p, rfl⟩ := split_u64 p (by omega)
  rw [List.length_append, length_putU64] at h
  obtain ⟨x7, p, rfl⟩ := split_u16 p (by omega)
  rw [List.length_append, length_putU16] at h
  obtain ⟨x8, p, rfl⟩ := split_u16 p (by omega)
  rw [List.length_append, length_putU16] at h
  obtain ⟨d, p, rfl⟩ := split_u8 p (by omega)
  exact ⟨a, x1, x2, x3, t1, t2, t3, t4, x4, x5, x6, x7, x8, d, p, ha, rfl⟩

theorem Handle.create_eq {ps ds : Bytes} (i : Info) (o : Nat) (h : 68 ≤ ps.length) (d : Nat) (hd : u8At ps 67 = some d) :
    if d ≤ 1 then ∃ v, Handle.create { info := i, parameter := ps.drop 4, data := ds, dataOffset := o } = .ok v ∧ IsOpenReply ps i.tid.toNat v
    else Handle.create { info := i, parameter := ps.drop 4, data := ds, dataOffset := o } = .err .InvalidData := by
  obtain ⟨a, x1, x2, x3, t1, t2, t3, t4, x4, x5, x6, x7, x8, dir, r, ha, rfl⟩ := split_open h
  rw [List.drop_left' ha]
  have hdir : dir.toNat = d := by
    rw [u8At_append_right _ _ _ (by omega), ha] at hd
    have : u8At (x1 :: (putU16 x2 ++ (putU32 x3 ++ (putU64 t1 ++ (putU64 t2 ++ (putU64 t3 ++ (putU64 t4 ++ (putU32 x4 ++ (putU64 x5 ++
        (putU64 x6 ++ (putU16 x7 ++ (putU16 x8 ++ (dir :: r))))))))))))) (67 - 4) = some dir.toNat := by wire
    rw [this] at hd
    exact Option.some.inj hd
  subst hdir
  unfold Handle.create
  dsimp only
  simp only [Rd.getU8_cons, Rd.getU16_put, Rd.getU32_put, Rd.getU64_put, Res.ok_bind]
  rw [Rd.advance_append 2 _ _ (length_putU16 x8)]
  simp only [Rd.getU8_cons, Res.ok_bind]
  have hb : ∀ x : UInt8, (x = 0 ∨ x = 1) ↔ x.toNat ≤ 1 := by
    intro x
    rw [← UInt8.toNat_inj, ← UInt8.toNat_inj]
    show x.toNat = 0 ∨ x.toNat = 1 ↔ _
    omega
  by_cases h1 : dir.toNat ≤ 1
  · rw [if_pos h1, if_pos ((hb dir).mpr h1)]
    refine ⟨_, rfl, ?_⟩
    constructor
    · rfl
    · refine ⟨x1.toNat, ?_, mask_oplock x1⟩
      rw [u8At_append_right _ _ _ (by omega), ha]; wire
    · rw [u16At_append_right _ _ _ (by omega), ha]; wire
    · refine ⟨x3.toNat, ?_, mask_disposition x3⟩
      rw [u32At_append_right _ _ _ (by omega), ha]; wire
    · rw [u64At_append_right _ _ _ (by omega), ha]; wire
    · rw [u64At_append_right _ _ _ (by omega), ha]; wire
    · rw [u64At_append_right _ _ _ (by omega), ha]; wire
    · rw [u64At_append_right _ _ _ (by omega), ha]; wire
    · refine ⟨x4.toNat, ?_, mask_attr x4⟩
      rw [u32At_append_right _ _ _ (by omega), ha]; wire
    · rw [u64At_append_right _ _ _ (by omega), ha]; wire
    · rw [u64At_append_right _ _ _ (by omega), ha]; wire
    · refine ⟨x7.toNat, ?_, mask_type x7⟩
      rw [u16At_append_right _ _ _ (by omega), ha]; wire
    · rw [hd]
      rcases (hb dir).mpr h1 with rfl | rfl <;> rfl
  · rw [if_neg h1, if_neg (fun h => h1 ((hb dir).mp h))]

theorem open_outcome {E : Env σ} {log : σ → List Bytes} (hlog : Logs E.V log) {op : Op} (hop : (∃ share path, op = .openfile share path) ∨ ∃ share path, op = .opendir share path)
    {s : St σ} {f ps ds : Bytes} (h : Answered E log op s f ps ds) (hx : LastAndX ps) :
    ∃ i, Info.parse f = .ok (i, f.drop 32) ∧ (runOp E op s).1 =
      (((Handle.create { info := i, parameter := ps.drop 4, data := ds, dataOffset := 35 + ps.length }).mapErr Error.SMBError).mapOk Val.handle).out := by
  have key : ∃ i, Info.parse f = .ok (i, f.drop 32) ∧ (runOp E op s).1 = (((Handle.reply.make i ps ds).mapErr Error.SMBError).mapOk Val.handle).out := by
    rcases hop with ⟨share, path, rfl⟩ | ⟨share, path, rfl⟩
    · exact answered Handle.reply Val.handle hlog rfl (fun _ _ => rfl) rfl h
    · exact answered Handle.reply Val.handle hlog rfl (fun _ _ => rfl) rfl h
  obtain ⟨i, hp, ho⟩ := key
  refine ⟨i, hp, ?_⟩
  rw [ho, make_andx Handle.reply rfl i hx.1 hx.2]
  rfl

/-- **C30** `openfile` and `opendir`: the handle has the fields of the reply, and the reply's tree id. -/
theorem C30_open {E : Env σ} {log : σ → List Bytes} (hlog : Logs E.V log) {op : Op}
    (hop : (∃ share path, op = .openfile share path) ∨ ∃ share path, op = .opendir share path) {s : St σ} {f ps ds : Bytes}
    (h : Answered E log op s f ps ds) (hx : LastAndX ps) (hl : 68 ≤ ps.length) (d : Nat) (hd : u8At ps 67 = some d) (h1 : d ≤ 1) :
    ∃ handle tid, (runOp E op s).1 = .ok (.handle handle) ∧ tidOf (message f) = some tid ∧ IsOpenReply ps tid handle := by
  obtain ⟨i, hp, ho⟩ := open_outcome hlog hop h hx
  have hc := Handle.create_eq (ds := ds) i (35 + ps.length) hl d hd
  rw [if_pos h1] at hc
  obtain ⟨v, hv, hi⟩ := hc
  rw [hv] at ho
  exact ⟨v, _, ho, (C17_read f i _ hp).2.2.2.2.2.2.2.1, hi⟩

/-- **C30** A directory byte other than 0 or 1 is an error. -/
theorem C30_directory {E : Env σ} {log : σ → List Bytes} (hlog : Logs E.V log) {op : Op}
    (hop : (∃ share path, op = .openfile share path) ∨ ∃ share path, op = .opendir share path) {s : St σ} {f ps ds : Bytes}
    (h : Answered E log op s f ps ds) (hx : LastAndX ps) (d : Nat) (hd : u8At ps 67 = some d) (h1 : 1 < d) :
    (runOp E op s).1 = .err (.SMBError .InvalidData) := by
  obtain ⟨i, hp, ho⟩ := open_outcome hlog hop h hx
  have hl := u8At_lt hd
  have hc := Handle.create_eq (ds := ds) i (35 + ps.length) (by omega) d hd
  rw [if_neg (by omega)] at hc
  rw [hc] at ho
  exact ho

/-- **C30** The fields determine the handle: there is only one that fits. -/
theorem C30_unique (ps : Bytes) (tid : Nat) (h h' : Handle) (e : IsOpenReply ps tid h) (e' : IsOpenReply ps tid h') : h = h' := by
  obtain ⟨a1, ⟨n2, b2, a2⟩, a3, ⟨n4, b4, a4⟩, a5, a6, a7, a8, ⟨n9, b9, a9⟩, a10, a11, ⟨n12, b12, a12⟩, a13⟩ := e
  obtain ⟨c1, ⟨m2, d2, c2⟩, c3, ⟨m4, d4, c4⟩, c5, c6, c7, c8, ⟨m9, d9, c9⟩, c10, c11, ⟨m12, d12, c12⟩, c13⟩ := e'
  rw [b2] at d2; rw [b4] at d4; rw [b9] at d9; rw [b12] at d12; rw [a3] at c3; rw [a5] at c5; rw [a6] at c6; rw [a7] at c7; rw [a8] at c8
  rw [a10] at c10; rw [a11] at c11; rw [a13] at c13
  cases h; cases h'
  simp only [Option.some.injEq] at *
  subst d2 d4 d9 d12
  simp only [Handle.mk.injEq, ← UInt16.toNat_inj, ← UInt8.toNat_inj, ← UInt32.toNat_inj, ← UInt64.toNat_inj]
  refine ⟨by omega, by omega, by omega, by omega, by omega, by omega, by omega, by omega, by omega, by omega, by omega, by omega, ?_⟩
  split at c13 <;> split at c13 <;> simp_all

namespace Demo

/-- The parameter bytes of a reply to an open: AndX, oplock, file id, disposition, times, attributes, sizes, type, state, directory. -/
def openParams (dir : UInt8) : Bytes := [0xff, 0, 0, 0, 1, 2, 0x40, 1, 0, 0, 0] ++ putU64 1 ++ putU64 2 ++ putU64 3 ++ putU64 4 ++ putU32 0x20 ++
  putU64 4096 ++ putU64 9 ++ putU16 0 ++ putU16 7 ++ [dir]

/-- A file, and a strange directory byte. -/
example : Answered (env true) Prod.snd (.openfile share ['a']) (st (answer (reply .Create 7 (openParams 0) [])))
      (reply .Create 7 (openParams 0) []) (openParams 0) [] ∧ LastAndX (openParams 0) ∧ u8At (openParams 0) 67 = some 0 ∧
    Answered (env true) Prod.snd (.opendir share ['a']) (st (answer (reply .Create 7 (openParams 2) [])))
      (reply .Create 7 (openParams 2) []) (openParams 2) [] ∧ LastAndX (openParams 2) ∧ u8At (openParams 2) 67 = some 2 :=
  ⟨answered _ rfl (by decide +kernel) _ _ _ (by decide +kernel) (by decide +kernel) (by decide +kernel) (by decide +kernel),
    by decide +kernel, by decide +kernel,
    answered _ rfl (by decide +kernel) _ _ _ (by decide +kernel) (by decide +kernel) (by decide +kernel) (by decide +kernel),
    by decide +kernel, by decide +kernel⟩

end Demo

end Cifs
