import Verif.Spec.Size
import Verif.Lemmas.Said
import Verif.Lemmas.Collect
import Verif.Lemmas.Transact
import Verif.Lemmas.Entries
/-!
# What results cost: every byte of them was received
-/

namespace Cifs
open Spec

variable {σ : Type} {α β : Type}

/-! ## Parsers -/

theorem utf16le_size {s : Str} {b : Bytes} (h : Utf16le s b) : textSize s ≤ b.length := by
  unfold textSize
  induction h with
  | nil => simp
  | basic _ _ ih => simp only [List.length_cons]; omega
  | pair _ _ _ _ _ _ ih => simp only [List.length_cons]; omega

theorem entry_size {b : Bytes} {d : DirInfo} (h : IsEntry b d) : entrySize d ≤ b.length := by
  obtain ⟨n, nm, _, h2, h3⟩ := h.name
  have := utf16le_size h3
  have := sliceAt_length h2
  unfold entrySize
  omega

theorem listed_size {zero : Bool} {b : Bytes} {l : List DirInfo} (h : Listed zero b l) : (l.map entrySize).sum ≤ b.length := by
  induction h with
  | none => simp
  | stop _ => simp
  | bare _ _ _ => simp
  | last _ _ hd => have := entry_size hd; simpa using this
  | more _ _ hl hd _ ih =>
    have := entry_size hd
    simp only [List.map_cons, List.sum_cons, List.length_take, List.length_drop] at *
    omega

theorem change_size {b : Bytes} {c : Str × NotifyAction} (h : Change b c) : changeSize c ≤ b.length := by
  obtain ⟨a, n, nm, _, _, _, h2, h3⟩ := h
  have := utf16le_size h3
  have := sliceAt_length h2
  unfold changeSize
  omega

theorem changes_size {b : Bytes} {l : List (Str × NotifyAction)} (h : Changes b l) :
    l.length ≤ b.length ∧ ∀ c ∈ l, changeSize c ≤ b.length := by
  induction h with
  | none => simp
  | last _ hc =>
    have := change_size hc
    refine ⟨?_, ?_⟩
    · unfold changeSize at this; simp; omega
    · intro c hc'; cases List.mem_singleton.mp hc'; exact this
  | more _ h0 hl hc _ ih =>
    obtain ⟨i1, i2⟩ := ih
    rw [List.length_drop] at i1 i2
    refine ⟨by simp only [List.length_cons]; omega, ?_⟩
    intro c hc'
    rcases List.mem_cons.mp hc' with rfl | hc'
    · exact change_size hc
    · have := i2 c hc'; omega

/-! ## Bytes received -/

/-- Between two states at least `n` bytes were received. -/
def Paid (fed : σ → Bytes) (s s' : St σ) (n : Nat) : Prop :=
  ∃ said, fed s'.w.srv = fed s.w.srv ++ said ∧ n + s'.w.inbox.flatten.length ≤ s.w.inbox.flatten.length + said.length

section
variable {fed : σ → Bytes} {E : Env σ}

theorem Paid.refl (s : St σ) : Paid fed s s 0 := ⟨[], by simp, by simp⟩

theorem Paid.mono {s s' : St σ} {n m : Nat} (h : Paid fed s s' n) (hm : m ≤ n) : Paid fed s s' m := by
  obtain ⟨said, h1, h2⟩ := h
  exact ⟨said, h1, by omega⟩

theorem Paid.trans {a b c : St σ} {n m : Nat} (h1 : Paid fed a b n) (h2 : Paid fed b c m) : Paid fed a c (n + m) := by
  obtain ⟨x, h1, h1'⟩ := h1
  obtain ⟨y, h2, h2'⟩ := h2
  exact ⟨x ++ y, by rw [h2, h1, List.append_assoc], by rw [List.length_append]; omega⟩

theorem send_paid (hf : Feeds E.V fed) {m : Msg} {s s' : St σ} {v : UInt16} (h : send E m s = (.ok v, s')) : Paid fed s s' 0 := by
  rcases send_cases E m s with ⟨_, _, e⟩ | ⟨_, hc⟩
  · rw [e] at h; cases h
  · rcases hc with ⟨_, _, e⟩ | ⟨_, e⟩ | ⟨_, _, _, e⟩ | ⟨f, _, _, ws, p, q, _, hc⟩
    · rw [e] at h; cases h
    · rw [e] at h; cases h
    · rw [e] at h; cases h
    · rcases hc with ⟨_, _, e⟩ | ⟨_, e⟩ | e
      · rw [e] at h; cases h
        exact ⟨(E.V.react s.w.srv p).2.flatten, hf _ _, by simp⟩
      · rw [e] at h; cases h
      · rw [e] at h; cases h

theorem delivers_size {b f rest : Bytes} (h : Delivers b f rest) : f.length + 4 + rest.length ≤ b.length := by
  induction h with
  | message m rest hm =>
    obtain ⟨h4, hh, he⟩ := message_eq m
    rw [he]; simp only [List.length_append]; omega
  | keepAlive _ ih => rw [List.length_append]; omega

theorem skips_size {mid : Nat} {b b' : Bytes} (h : Skips mid b b') : b'.length ≤ b.length := by
  induction h with
  | done => exact Nat.le_refl _
  | skip hd _ _ _ _ _ ih => have := delivers_size hd; omega

theorem awaits_size {mid : Nat} {b f rest : Bytes} (h : Awaits mid b f rest) : f.length + 4 + rest.length ≤ b.length := by
  obtain ⟨b', h1, h2, _⟩ := h
  have := skips_size h1
  have := delivers_size h2
  omega

/-- What a reply that was accepted cost. -/
theorem recv_paid {R : Reply α} (hR : R.cmd ≠ .SessionSetup) {mid : UInt16} {s s' : St σ} {v : α} (h : recv E R mid s = (.ok v, s')) :
    ∃ i ps ds, ps.length % 2 = 0 ∧ R.make i ps ds = .ok v ∧ Paid fed s s' (39 + ps.length + ds.length) := by
  obtain ⟨ib, h1, h2⟩ := recv_flatC E R mid s
  rw [h2] at h
  cases hr : flatReply R mid (E.V.tail s.w.srv) s.w.flat with
  | mk o b =>
    rw [hr] at h h1
    cases h
    rw [flatReply_eq] at hr
    obtain ⟨p, b1, hn, ha⟩ := M.bind_inv hr
    obtain ⟨f, hw, hp⟩ := awaits_of_flatNext _ mid _ _ (Nat.lt_succ_self _) p b1 hn
    have hd := (C17_read f p.1 p.2 hp).1
    have hp' : Info.parse f = .ok (p.1, f.drop 32) := by rw [hp]; exact congrArg _ (Prod.ext rfl hd)
    have ha' : accept R p.1 (f.drop 32) = .ok v ∧ b = b1 := by
      rw [← hd]
      revert ha
      cases accept R p.1 p.2 <;> intro ha <;> cases ha
      exact ⟨rfl, rfl⟩
    obtain ⟨ps, ds, h3, h4⟩ := (accept_iff R hR hp' v).mp ha'.1
    have hl := ((C13_accepted_iff f).mp ⟨_, _, hp'⟩).1
    obtain ⟨w, n, rest, e, e', _⟩ := body_split hl h3.2.2
    refine ⟨_, ps, ds, by omega, h4, [], by simp [St.setInbox], ?_⟩
    have e := congrArg List.length e
    have hs := awaits_size hw
    have hb : (s.setInbox ib).w.inbox.flatten = b := h1
    rw [hb, ha'.2]
    have hflat : s.w.flat = s.w.inbox.flatten := rfl
    rw [hflat] at hs
    simp [putU16, putLE] at e
    simp only [List.length_nil]
    omega

/-- A single command. -/
theorem command_paid (hf : Feeds E.V fed) {m : Msg} {R : Reply α} (hR : R.cmd ≠ .SessionSetup) {s s' : St σ} {v : α}
    (h : command E m R s = (.ok v, s')) : ∃ i ps ds, ps.length % 2 = 0 ∧ R.make i ps ds = .ok v ∧ Paid fed s s' (39 + ps.length + ds.length) := by
  obtain ⟨mid, s1, h1, h2⟩ := M.bind_inv h
  obtain ⟨i, ps, ds, he, h3, h4⟩ := recv_paid (fed := fed) hR h2
  exact ⟨i, ps, ds, he, h3, (send_paid hf h1 |>.trans h4).mono (by omega)⟩

end

/-! ## Replies -/

theorem copyToBytes_ok {ε : Type} {k : Nat} {b x r : Bytes} (h : (Rd.copyToBytes k b : Res ε (Bytes × Bytes)) = .ok (x, r)) :
    x.length = k ∧ k ≤ b.length := by
  unfold Rd.copyToBytes at h
  split at h
  · cases h
  · cases h; rw [List.length_take]; omega

theorem read_make_size {i : Info} {ps ds v : Bytes} (h : readReply.make i ps ds = .ok v) : v.length ≤ ds.length := by
  have hx := make_andx_ok readReply rfl i h
  rw [make_andx readReply rfl i hx.1 hx.2] at h
  obtain ⟨_, _, h⟩ := Res.bind_ok_inv h
  obtain ⟨_, _, h⟩ := Res.bind_ok_inv h
  obtain ⟨_, _, h⟩ := Res.bind_ok_inv h
  obtain ⟨⟨n, _⟩, _, h⟩ := Res.bind_ok_inv h
  obtain ⟨⟨_, d⟩, hd, h⟩ := Res.bind_ok_inv h
  dsimp only at h hd
  split at h
  · cases h
  · obtain ⟨⟨x, _⟩, hc, h⟩ := Res.bind_ok_inv h
    cases h
    have := copyToBytes_ok hc
    rw [this.1]
    refine Nat.le_trans this.2 ?_
    split at hd
    · rename_i hl
      obtain ⟨y, t, rfl⟩ := split_u8 ds (by omega)
      rw [show y :: t = [y] ++ t from rfl, Rd.advance_append 1 _ _ rfl] at hd
      cases hd
      simp
    · cases hd; exact Nat.le_refl _

theorem utf8Bytes_length (s : Str) : s.length ≤ (utf8Bytes s).length := by
  induction s with
  | nil => simp
  | cons c s ih =>
    have : 0 < (String.utf8EncodeChar c).length := by
      rw [String.length_utf8EncodeChar]; exact Char.utf8Size_pos c
    simp only [utf8Bytes, List.flatMap_cons, List.length_append, List.length_cons] at *
    omega

theorem share_make_size {i : Info} {ps ds : Bytes} {v : Share} (he : ps.length % 2 = 0) (h : Share.reply.make i ps ds = .ok v) :
    v.service.length + v.filesystem.length ≤ ds.length := by
  have hx := make_andx_ok Share.reply rfl i h
  rw [make_andx Share.reply rfl i hx.1 hx.2] at h
  obtain ⟨_, _, _, _, pad, name, more, _, _, hd⟩ := Share.create_ok he h
  have h1 := utf8Bytes_length v.service
  split at hd
  · obtain ⟨_, _, h2, rfl⟩ := hd
    have := utf16le_size h2
    unfold textSize at this
    simp only [List.length_append]; omega
  · obtain ⟨_, rfl, rfl⟩ := hd
    have := utf8Bytes_length v.filesystem
    simp only [List.length_append]; omega

theorem notify_make_size {i : Info} {ps ds : Bytes} {l : List (Str × NotifyAction)} (h : (transactReply notificationParse).make i ps ds = .ok l) :
    l.length ≤ ds.length ∧ ∀ c ∈ l, changeSize c ≤ ds.length := by
  rw [make_plain _ rfl i] at h
  obtain ⟨pb, db, ht, hl⟩ := ((notify_create i ps ds).1 l).mp h
  obtain ⟨_, _, _, _, _, _, _, _, _, _, _, _, _, _, _, _, _, hb, _⟩ := ht
  have hp : pb.length ≤ ds.length := by
    rcases hb with ⟨_, rfl⟩ | ⟨_, _, hb⟩
    · simp
    · have := sliceAt_length hb; omega
  obtain ⟨h1, h2⟩ := changes_size hl
  exact ⟨by omega, fun c hc => Nat.le_trans (h2 c hc) hp⟩

theorem trans2_make_size {i : Info} {ps ds : Bytes} {v : Trans2Reply} (h : trans2Reply.make i ps ds = .ok v) : v.data.length ≤ ds.length := by
  rw [make_plain _ rfl i] at h
  rcases trans2_create i ps ds with ⟨p, hp, _, e⟩ | ⟨_, _, e⟩ | ⟨_, _, e⟩
  · rw [show trans2Reply.create = trans2Create from rfl, e] at h
    cases h
    obtain ⟨_, _, _, _, _, _, _, _, _, _, _, _, _, hd⟩ := hp
    have := sliceAt_length hd.2
    show p.data.length ≤ ds.length
    omega
  · rw [show trans2Reply.create = trans2Create from rfl, e] at h
    cases h
  · rw [show trans2Reply.create = trans2Create from rfl, e] at h
    cases h

theorem insert_size {c c' : Collector} {d : Bytes} {o : Nat} (h : c.insert d o = .ok c') : c'.len ≤ c.len + d.length := by
  unfold Collector.insert at h
  split at h
  · cases h; omega
  · split at h
    · cases h
    · cases h; simp only [Collector.len, List.map_cons, List.sum_cons]; omega

theorem add_size {c c' : Collector} {d : Bytes} {o t : Nat} (h : c.add d o t = .ok c') : c'.len ≤ c.len + d.length := by
  unfold Collector.add at h
  split at h
  · split at h
    · cases h
    · exact insert_size h
  · have := insert_size h
    exact this

theorem ctx_add_size {c : CollectTrans2} {r : Trans2Reply} {p : CollectTrans2 × Bool} (h : c.add r = .ok p) :
    p.1.data.len ≤ c.data.len + r.data.length := by
  obtain ⟨x, _, h⟩ := Res.bind_ok_inv h
  obtain ⟨y, hy, h⟩ := Res.bind_ok_inv h
  cases h
  exact add_size hy

theorem get_size {c : Collector} {b : Bytes} (h : c.get = .ok b) : b.length = c.len := by
  unfold Collector.get at h
  split at h
  · cases h
  · split at h
    · cases h
    · obtain ⟨r, hr, rfl⟩ := (join_iff _ _ _).mp h
      have := tiling_length hr
      show b.length = _
      rw [this, Collector.len]
      exact ((List.mergeSort_perm c.fragments _).map _).sum_nat

section
variable {fed : σ → Bytes} {E : Env σ}

theorem collectLoop_paid {mid : UInt16} {k : Nat} : ∀ {c : CollectTrans2} {s s' : St σ} {c' : CollectTrans2},
    collectLoop E mid k c s = (.ok c', s') → ∃ n, c'.data.len ≤ c.data.len + n ∧ Paid fed s s' n := by
  induction k with
  | zero => intro c s s' c' h; cases h
  | succ k ih =>
    intro c s s' c' h
    obtain ⟨r, s1, h1, h⟩ := M.bind_inv h
    obtain ⟨p, s2, h2, h3⟩ := M.bind_inv h
    obtain ⟨i, ps, ds, _, hm, hp⟩ := recv_paid (fed := fed) (R := trans2Reply) (by decide) h1
    have hd := trans2_make_size hm
    have hadd : c.add r = .ok p ∧ s2 = s1 := by
      revert h2
      cases c.add r <;> intro h2 <;> cases h2
      exact ⟨rfl, rfl⟩
    obtain ⟨hadd, rfl⟩ := hadd
    have ha := ctx_add_size hadd
    dsimp only at h3
    split at h3
    · cases h3
      exact ⟨ds.length, by omega, hp.mono (by omega)⟩
    · obtain ⟨n, hn, hp'⟩ := ih h3
      exact ⟨ds.length + n, by omega, (hp.trans hp').mono (by omega)⟩

/-- A transaction: what was received is at least as much as the data that the reply is made from. -/
theorem transact2_paid (hf : Feeds E.V fed) {tid : UInt16} {c : SubCmd2} {sub : SubReply2 α} {s s' : St σ} {v : α}
    (h : transact2 E tid c sub s = (.ok v, s')) : ∃ P D, sub P D = .ok v ∧ Paid fed s s' D.length := by
  obtain ⟨mid, s1, h1, h⟩ := M.bind_inv h
  obtain ⟨ctx, s2, h2, h⟩ := M.bind_inv (show (collectLoop E mid (s1.w.avail + 1) .new >>= fun ctx => M.ofRes Error.SMBError (ctx.getSubreply sub)) s1 = _ from h)
  obtain ⟨n, hn, hp⟩ := collectLoop_paid (fed := fed) h2
  have hg : ctx.getSubreply sub = .ok v ∧ s' = s2 := by
    revert h
    cases ctx.getSubreply sub <;> intro h <;> cases h
    exact ⟨rfl, rfl⟩
  obtain ⟨hg, rfl⟩ := hg
  obtain ⟨P, _, hg⟩ := Res.bind_ok_inv hg
  obtain ⟨D, hD, hg⟩ := Res.bind_ok_inv hg
  refine ⟨P, D, hg, (send_paid hf h1 |>.trans hp).mono ?_⟩
  rw [get_size hD]
  simp [CollectTrans2.new, Collector.new, Collector.len] at hn
  rw [Collector.len]
  omega

theorem first_parse_size {P D : Bytes} {v : FindFirst2} (h : findFirst2Parse P D = .ok v) : (v.info.map entrySize).sum ≤ D.length := by
  unfold findFirst2Parse at h
  split at h
  · cases h
  · obtain ⟨_, _, h⟩ := Res.bind_ok_inv h
    obtain ⟨_, _, h⟩ := Res.bind_ok_inv h
    obtain ⟨_, _, h⟩ := Res.bind_ok_inv h
    obtain ⟨_, _, h⟩ := Res.bind_ok_inv h
    obtain ⟨l, hl, h⟩ := Res.bind_ok_inv h
    rw [findFirstLoop_eq] at hl
    obtain ⟨ds, rfl, hd⟩ := ((entryLoop_iff true D []).1 l).mp hl
    have := listed_size hd
    split at h
    · cases h
    · split at h
      · cases h
      · cases h; simpa using this

theorem next_parse_size {P D : Bytes} {v : FindNext2} (h : findNext2Parse P D = .ok v) : (v.info.map entrySize).sum ≤ D.length := by
  unfold findNext2Parse at h
  split at h
  · cases h
  · obtain ⟨_, _, h⟩ := Res.bind_ok_inv h
    obtain ⟨_, _, h⟩ := Res.bind_ok_inv h
    obtain ⟨l, hl, h⟩ := Res.bind_ok_inv h
    rw [findNextLoop_eq] at hl
    obtain ⟨ds, rfl, hd⟩ := ((entryLoop_iff false D []).1 l).mp hl
    have := listed_size hd
    split at h
    · cases h
    · split at h
      · cases h
      · cases h; simpa using this

theorem map'_paid {m : CM σ α} {g : α → β} {s s' : St σ} {b : β} (h : M.map' g m s = (.ok b, s')) : ∃ a, m s = (.ok a, s') ∧ b = g a := by
  obtain ⟨a, s1, h1, h⟩ := M.bind_inv (show (m >>= fun a s => (.ok (g a), s)) s = _ from h)
  cases h
  exact ⟨a, h1, rfl⟩

theorem downloadLoop_paid (hf : Feeds E.V fed) {file : Handle} {k : Nat} : ∀ {data : Bytes} {s s' : St σ} {v : Bytes},
    downloadLoop E file k data s = (.ok v, s') → ∃ n, v.length = data.length + n ∧ Paid fed s s' n := by
  induction k with
  | zero => intro data s s' v h; cases h
  | succ k ih =>
    intro data s s' v h
    rw [downloadLoop] at h
    split at h
    · obtain ⟨chunk, s1, h1, h⟩ := M.bind_inv h
      obtain ⟨i, ps, ds, _, hm, hp⟩ := command_paid hf (R := readReply) (by decide) h1
      have hd := read_make_size hm
      obtain ⟨n, hn, hp'⟩ := ih h
      rw [List.length_append] at hn
      exact ⟨chunk.length + n, by omega, (hp.trans hp').mono (by omega)⟩
    · cases h
      exact ⟨0, rfl, Paid.refl s⟩

theorem listLoop_paid (hf : Feeds E.V fed) {share : Share} {sid : UInt16} {k : Nat} : ∀ {l : List DirInfo} {s s' : St σ} {v : List DirInfo},
    listLoop E share sid k l s = (.ok v, s') → ∃ n, (v.map entrySize).sum ≤ (l.map entrySize).sum + n ∧ Paid fed s s' n := by
  induction k with
  | zero => intro l s s' v h; cases h
  | succ k ih =>
    intro l s s' v h
    simp only [listLoop] at h
    cases hl : l.getLast? with
    | none => rw [hl] at h; cases h
    | some last =>
      rw [hl] at h
      obtain ⟨r, s1, h1, h⟩ := M.bind_inv h
      obtain ⟨P, D, hm, hp⟩ := transact2_paid hf h1
      have hd := next_parse_size hm
      split at h
      · cases h
        exact ⟨D.length, by rw [List.map_append, List.sum_append]; omega, hp⟩
      · obtain ⟨n, hn, hp'⟩ := ih h
        rw [List.map_append, List.sum_append] at hn
        exact ⟨D.length + n, by omega, hp.trans hp'⟩

/-- What any call but a wait for changes returns was received. -/
theorem runOp_paid (hf : Feeds E.V fed) {op : Op} (ho : isNotify op = false) {s s' : St σ} {v : Val} (h : runOp E op s = (.ok v, s')) :
    Paid fed s s' (sizeOfVal v) := by
  cases op <;> obtain ⟨a, h1, rfl⟩ := map'_paid h
  case mount =>
    obtain ⟨i, ps, ds, he, hm, hp⟩ := command_paid hf (R := Share.reply) (by decide) h1
    exact hp.mono (Nat.le_trans (share_make_size he hm) (by omega))
  case read =>
    obtain ⟨i, ps, ds, he, hm, hp⟩ := command_paid hf (R := readReply) (by decide) h1
    exact hp.mono (Nat.le_trans (read_make_size hm) (by omega))
  case notify => cases ho
  case findFirst =>
    obtain ⟨P, D, hm, hp⟩ := transact2_paid hf h1
    exact hp.mono (first_parse_size hm)
  case findNext =>
    obtain ⟨P, D, hm, hp⟩ := transact2_paid hf h1
    exact hp.mono (next_parse_size hm)
  case download =>
    obtain ⟨file, s2, h2, h1⟩ := M.bind_inv h1
    obtain ⟨data, s3, h3, h1⟩ := M.bind_inv h1
    obtain ⟨_, s4, h4, h1⟩ := M.bind_inv h1
    cases h1
    obtain ⟨_, _, _, _, _, p2⟩ := command_paid hf (R := Handle.reply) (by decide) h2
    obtain ⟨n, hn, p3⟩ := downloadLoop_paid hf h3
    obtain ⟨_, _, _, _, _, p4⟩ := command_paid hf (R := closeReply) (by decide) h4
    refine ((p2.trans p3).trans p4).mono ?_
    simp only [sizeOfVal]
    rw [hn, List.length_nil]; omega
  case list =>
    obtain ⟨r, s2, h2, h1⟩ := M.bind_inv h1
    obtain ⟨P, D, hm, hp⟩ := transact2_paid hf h2
    have := first_parse_size hm
    split at h1
    · cases h1; exact hp.mono this
    · obtain ⟨n, hn, hp'⟩ := listLoop_paid hf h1
      exact (hp.trans hp').mono (Nat.le_trans hn (by omega))
  case umount => obtain ⟨_, _, _, _, _, hp⟩ := command_paid hf (R := treeDisconnectReply) (by decide) h1; exact hp.mono (Nat.zero_le _)
  case openfile => obtain ⟨_, _, _, _, _, hp⟩ := command_paid hf (R := Handle.reply) (by decide) h1; exact hp.mono (Nat.zero_le _)
  case opendir => obtain ⟨_, _, _, _, _, hp⟩ := command_paid hf (R := Handle.reply) (by decide) h1; exact hp.mono (Nat.zero_le _)
  case close => obtain ⟨_, _, _, _, _, hp⟩ := command_paid hf (R := closeReply) (by decide) h1; exact hp.mono (Nat.zero_le _)
  case delete => obtain ⟨_, _, _, _, _, hp⟩ := command_paid hf (R := deleteReply) (by decide) h1; exact hp.mono (Nat.zero_le _)
  case rmdir => obtain ⟨_, _, _, _, _, hp⟩ := command_paid hf (R := rmdirReply) (by decide) h1; exact hp.mono (Nat.zero_le _)

/-- What a wait for changes returns. -/
theorem notify_paid (hf : Feeds E.V fed) {handle : Handle} {what : UInt32} {s s' : St σ} {l : List (Str × NotifyAction)}
    (h : runOp E (.notify handle what) s = (.ok (.changes l), s')) :
    ∃ n, Paid fed s s' n ∧ l.length ≤ n ∧ ∀ c ∈ l, changeSize c ≤ n := by
  obtain ⟨a, h1, h⟩ := map'_paid h
  cases h
  obtain ⟨i, ps, ds, _, hm, hp⟩ := command_paid hf (R := transactReply notificationParse) (by decide) h1
  exact ⟨ds.length, hp.mono (by omega), notify_make_size hm⟩

end

end Cifs
