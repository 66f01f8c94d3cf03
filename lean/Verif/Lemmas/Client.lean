import Verif.Model.Client
import Verif.Lemmas.Net
/-! # Structure of client programs: which state changes each operation can make -/

namespace Cifs

variable {σ : Type}

/-- The state after some bytes were read: everything but the inbox is unchanged. -/
def St.setInbox (s : St σ) (ib : List Bytes) : St σ := { s with w := { s.w with inbox := ib } }

@[simp] theorem St.setInbox_cli (s : St σ) (ib) : (s.setInbox ib).cli = s.cli := rfl
@[simp] theorem St.setInbox_out (s : St σ) (ib) : (s.setInbox ib).w.out = s.w.out := rfl
@[simp] theorem St.setInbox_srv (s : St σ) (ib) : (s.setInbox ib).w.srv = s.w.srv := rfl
@[simp] theorem St.setInbox_wsched (s : St σ) (ib) : (s.setInbox ib).w.wsched = s.w.wsched := rfl
@[simp] theorem St.setInbox_flat (s : St σ) (ib) : (s.setInbox ib).w.flat = ib.flatten := rfl
@[simp] theorem St.setInbox_setInbox (s : St σ) (ib ib') : (s.setInbox ib).setInbox ib' = s.setInbox ib' := rfl

/-- Conversion of a transport outcome. -/
def Out.net {α : Type} : Out NbError α → Out Error α
  | .ok a => .ok a
  | .err e => .err (.NetBios e)
  | .panic => .panic
  | .pending => .pending
  | .running => .running

theorem liftNet_eq {α : Type} (m : M NbError (World σ) α) (s : St σ) :
    liftNet m s = ((m s.w).1.net, { s with w := (m s.w).2 }) := by
  simp only [liftNet]
  rcases m s.w with ⟨o, w⟩
  cases o <;> rfl

/-- Receiving a message, on the flat stream. -/
theorem liftRecv_eq (E : Env σ) (s : St σ) : ∃ ib, ib.flatten = (flatRecvMessage (E.V.tail s.w.srv) s.w.flat).2 ∧
    liftNet (recvMessage E.V) s = ((flatRecvMessage (E.V.tail s.w.srv) s.w.flat).1.net, s.setInbox ib) := by
  obtain ⟨ib, h1, h2⟩ := recvMessage_flat E.V s.w
  exact ⟨ib, h1, by rw [liftNet_eq, h2]; rfl⟩

/-! ## State relations respected by client programs -/

/-- Every run of `m` relates the state before to the state after. -/
def Resp {α : Type} (R : St σ → St σ → Prop) (m : CM σ α) : Prop := ∀ s, R s (m s).2

/-- Relations that may be accumulated along a run. -/
structure Accum (R : St σ → St σ → Prop) : Prop where
  refl : ∀ s, R s s
  trans : ∀ {a b c}, R a b → R b c → R a c

section closure
variable {α β : Type} {R : St σ → St σ → Prop}

theorem Resp.pure (h : Accum R) (a : α) : Resp R (pure a : CM σ α) := fun s => h.refl s
theorem Resp.fail (h : Accum R) (e : Error) : Resp R (M.fail e : CM σ α) := fun s => h.refl s
theorem Resp.ofRes {ε : Type} (h : Accum R) (g : ε → Error) (r : Res ε α) : Resp R (M.ofRes g r : CM σ α) := by
  intro s; cases r <;> exact h.refl s
theorem Resp.bind (h : Accum R) {m : CM σ α} {f : α → CM σ β} (hm : Resp R m) (hf : ∀ a, Resp R (f a)) : Resp R (m >>= f) := by
  intro s
  have := hm s
  simp only [M.bind_apply, M.bind]
  rcases hs : m s with ⟨o, s'⟩
  rw [hs] at this
  cases o with
  | ok a => exact h.trans this (hf a s')
  | _ => exact this
/-- As `Resp.bind`, but the continuation only has to be considered after a successful first part. -/
theorem Resp.bind' (h : Accum R) {m : CM σ α} {f : α → CM σ β} (hm : Resp R m)
    (hf : ∀ a s s', m s = (.ok a, s') → R s' (f a s').2) : Resp R (m >>= f) := by
  intro s
  have := hm s
  simp only [M.bind_apply, M.bind]
  rcases hs : m s with ⟨o, s'⟩
  rw [hs] at this
  cases o with
  | ok a => exact h.trans this (hf a s s' hs)
  | _ => exact this
theorem Resp.map' (h : Accum R) {m : CM σ α} (g : α → β) (hm : Resp R m) : Resp R (M.map' g m) :=
  Resp.bind h hm (fun _ s => h.refl s)
end closure

/-- Only the inbox changes. -/
def OnlyReads (s s' : St σ) : Prop := ∃ ib, s' = s.setInbox ib

theorem OnlyReads.accum : Accum (OnlyReads (σ := σ)) where
  refl s := ⟨s.w.inbox, rfl⟩
  trans := by rintro a b c ⟨i, rfl⟩ ⟨j, rfl⟩; exact ⟨j, rfl⟩

theorem liftRecv_reads (E : Env σ) : Resp OnlyReads (liftNet (recvMessage E.V)) := by
  intro s; obtain ⟨ib, _, h⟩ := liftRecv_eq E s; rw [h]; exact ⟨ib, rfl⟩

theorem recvLoop_reads (E : Env σ) (mid : UInt16) (k : Nat) : Resp OnlyReads (recvLoop E mid k) := by
  induction k with
  | zero => exact fun s => OnlyReads.accum.refl s
  | succ k ih =>
    refine Resp.bind OnlyReads.accum (liftRecv_reads E) fun f => ?_
    refine Resp.bind OnlyReads.accum (Resp.ofRes OnlyReads.accum _ _) fun p => ?_
    dsimp only
    split
    · exact Resp.pure OnlyReads.accum _
    · exact ih

theorem acceptReply_reads {α : Type} (R : Reply α) (info : Info) (body : Bytes) :
    Resp (σ := σ) OnlyReads (acceptReply R info body) := by
  have h := OnlyReads.accum (σ := σ)
  unfold acceptReply
  repeat' split
  all_goals first | exact Resp.fail h _ | exact Resp.ofRes h _ _

theorem recv_reads {α : Type} (E : Env σ) (R : Reply α) (mid : UInt16) : Resp OnlyReads (recv E R mid) := by
  intro s
  exact Resp.bind OnlyReads.accum (recvLoop_reads E mid (s.w.avail + 1)) (fun p => acceptReply_reads R p.1 p.2) s

theorem collectLoop_reads (E : Env σ) (mid : UInt16) (k : Nat) (ctx : CollectTrans2) :
    Resp OnlyReads (collectLoop E mid k ctx) := by
  induction k generalizing ctx with
  | zero => exact fun s => OnlyReads.accum.refl s
  | succ k ih =>
    refine Resp.bind OnlyReads.accum (recv_reads E _ mid) fun r => ?_
    refine Resp.bind OnlyReads.accum (Resp.ofRes OnlyReads.accum _ _) fun p => ?_
    dsimp only
    split
    · exact Resp.pure OnlyReads.accum _
    · exact ih _

theorem collect_reads {α : Type} (E : Env σ) (sub : SubReply2 α) (mid : UInt16) : Resp OnlyReads (collect E sub mid) := by
  intro s
  exact Resp.bind OnlyReads.accum (collectLoop_reads E mid (s.w.avail + 1) .new)
    (fun ctx => Resp.ofRes OnlyReads.accum _ _) s

/-- Did the computation return a value? -/
def Out.isOk {ε α : Type} : Out ε α → Bool
  | .ok _ => true
  | _ => false

/-- Every run of `m` relates the state before to the state after; the relation may depend on whether `m` returned a value. -/
def RespO {α : Type} (R : Bool → St σ → St σ → Prop) (m : CM σ α) : Prop := ∀ s, R (m s).1.isOk s (m s).2

/-- Relations that ignore the inbox and compose along successful steps. -/
structure Ignores (R : Bool → St σ → St σ → Prop) : Prop where
  reads : ∀ b s ib, R b s (s.setInbox ib)
  trans : ∀ {x a b c}, R true a b → R x b c → R x a c

section ops
variable {α β : Type} {R : Bool → St σ → St σ → Prop} (h : Ignores R) (E : Env σ)
include h

theorem Ignores.refl (b : Bool) (s : St σ) : R b s s := h.reads b s s.w.inbox

theorem Ignores.of {m : CM σ α} (hm : Resp OnlyReads m) : RespO R m := by
  intro s; obtain ⟨ib, e⟩ := hm s; rw [e]; exact h.reads _ s ib

theorem RespO.pure (a : α) : RespO R (pure a : CM σ α) := fun s => h.refl _ s

theorem RespO.bind {m : CM σ α} {f : α → CM σ β} (hm : RespO R m) (hf : ∀ a, RespO R (f a)) : RespO R (m >>= f) := by
  intro s
  have := hm s
  simp only [M.bind_apply, M.bind]
  rcases hs : m s with ⟨o, s'⟩
  rw [hs] at this
  cases o with
  | ok a => exact h.trans this (hf a s')
  | _ => exact this

theorem RespO.map' {m : CM σ α} (g : α → β) (hm : RespO R m) : RespO R (M.map' g m) :=
  RespO.bind h hm (fun _ s => h.refl _ s)

theorem RespO.command (m : Msg) (r : Reply α) (hs : RespO R (send E m)) : RespO R (command E m r) :=
  RespO.bind h hs fun mid => h.of (recv_reads E r mid)

theorem RespO.transact2 (tid : UInt16) (c : SubCmd2) (sub : SubReply2 α)
    (hs : RespO R (send E (transact2Msg tid c))) : RespO R (transact2 E tid c sub) :=
  RespO.bind h hs fun mid => h.of (collect_reads E sub mid)

theorem RespO.downloadLoop (file : Handle) (k : Nat) (data : Bytes)
    (hs : ∀ off, RespO R (send E (readMsg file.tid file.fid off))) : RespO R (downloadLoop E file k data) := by
  induction k generalizing data with
  | zero => exact fun s => h.refl _ s
  | succ k ih =>
    simp only [Cifs.downloadLoop]
    split
    · exact RespO.bind h (RespO.command h E _ _ (hs _)) fun chunk => ih _
    · exact RespO.pure h _

theorem RespO.download (k : Nat) (share : Share) (path : Str)
    (ho : RespO R (send E (OpenMsg.fileRo share.tid (sanitizePath path)).msg))
    (hr : ∀ tid fid off, RespO R (send E (readMsg tid fid off)))
    (hc : ∀ tid fid, RespO R (send E (closeMsg tid fid))) : RespO R (download E k share path) :=
  RespO.bind h (RespO.command h E _ _ ho) fun file =>
    RespO.bind h (RespO.downloadLoop h E file k [] (hr _ _)) fun _ =>
      RespO.bind h (RespO.command h E _ _ (hc _ _)) fun _ => RespO.pure h _

theorem RespO.listLoop (share : Share) (sid : UInt16) (k : Nat) (result : List DirInfo)
    (hs : ∀ name, RespO R (send E (transact2Msg share.tid (findNext2Cmd sid name)))) : RespO R (listLoop E share sid k result) := by
  induction k generalizing result with
  | zero => exact fun s => h.refl _ s
  | succ k ih =>
    simp only [Cifs.listLoop]
    split
    · exact fun s => h.refl _ s
    · refine RespO.bind h (RespO.transact2 h E _ _ _ (hs _)) fun reply => ?_
      split
      · exact RespO.pure h _
      · exact ih _

theorem RespO.list (k : Nat) (share : Share) (pattern : Str)
    (hf : RespO R (send E (transact2Msg share.tid
      (findFirst2Cmd (sanitizePath pattern) (FileAttr.HIDDEN ||| FileAttr.SYSTEM ||| FileAttr.DIRECTORY)))))
    (hs : ∀ sid name, RespO R (send E (transact2Msg share.tid (findNext2Cmd sid name)))) : RespO R (list E k share pattern) := by
  refine RespO.bind h (RespO.transact2 h E _ _ _ hf) fun reply => ?_
  split
  · exact RespO.pure h _
  · exact RespO.listLoop h E _ _ _ _ (hs _)
end ops

/-- The messages an operation may send. -/
def Op.sends : Op → Msg → Prop
  | .mount path password, m => m = treeConnectMsg (sanitizePath path) password
  | .umount share, m => m = treeDisconnectMsg share.tid
  | .openfile share path, m => m = (OpenMsg.fileRo share.tid (sanitizePath path)).msg
  | .opendir share path, m => m = (OpenMsg.dir share.tid (sanitizePath path)).msg
  | .close file, m => m = closeMsg file.tid file.fid
  | .read file offset, m => m = readMsg file.tid file.fid offset
  | .download _ share path, m => m = (OpenMsg.fileRo share.tid (sanitizePath path)).msg
      ∨ (∃ tid fid off, m = readMsg tid fid off) ∨ ∃ tid fid, m = closeMsg tid fid
  | .delete share path, m => m = deleteMsg share.tid (sanitizePath path)
  | .rmdir share path, m => m = rmdirMsg share.tid (sanitizePath path)
  | .notify handle what, m => m = transactMsg handle.tid (notifySetup handle.fid what false)
  | .findFirst share pattern, m => m = transact2Msg share.tid
      (findFirst2Cmd (sanitizePath pattern) (FileAttr.HIDDEN ||| FileAttr.SYSTEM ||| FileAttr.DIRECTORY))
  | .findNext share sid lastfile, m => m = transact2Msg share.tid (findNext2Cmd sid lastfile)
  | .list _ share pattern, m => m = transact2Msg share.tid
      (findFirst2Cmd (sanitizePath pattern) (FileAttr.HIDDEN ||| FileAttr.SYSTEM ||| FileAttr.DIRECTORY))
      ∨ ∃ sid name, m = transact2Msg share.tid (findNext2Cmd sid name)

/-- What `send` of each permitted message respects, the whole operation respects. -/
theorem runOp_resp {R : Bool → St σ → St σ → Prop} (h : Ignores R) (E : Env σ) (op : Op)
    (hs : ∀ m, op.sends m → RespO R (send E m)) : RespO R (runOp E op) := by
  cases op <;> refine RespO.map' h _ ?_
  case download b s p =>
    exact RespO.download h E _ _ _ (hs _ (.inl rfl)) (fun t f o => hs _ (.inr (.inl ⟨t, f, o, rfl⟩)))
      (fun t f => hs _ (.inr (.inr ⟨t, f, rfl⟩)))
  case list b s p => exact RespO.list h E _ _ _ (hs _ (.inl rfl)) (fun t f => hs _ (.inr ⟨t, f, rfl⟩))
  case findFirst s p => exact RespO.transact2 h E _ _ _ (hs _ rfl)
  case findNext s i p => exact RespO.transact2 h E _ _ _ (hs _ rfl)
  all_goals exact RespO.command h E _ _ (hs _ rfl)

/-! ## `send` -/

/-- The state after the multiplex id was allocated. -/
def St.bump (s : St σ) : St σ := { s with cli := { s.cli with mid := s.cli.mid + 1 } }

/-- The transport part of `send`. -/
theorem sendMessage_eq (V : Server σ) (m : Bytes) (w : World σ) :
    sendMessage V m w =
      if m.length > MAX_FRAME_LENGTH then (.err .InvalidFrame, w) else writeExactly V (0x00 :: (be24 m.length ++ m)) w := by
  simp only [sendMessage, sendFrame, Frame.encode, M.bind_apply, M.bind, M.ofRes]
  by_cases h : m.length > MAX_FRAME_LENGTH
  · simp [h]
  · simp only [if_neg h]
    simp only [MAX_FRAME_LENGTH, Nat.not_lt] at h
    simp [tryInto, show m.length < 4294967296 by omega]

/-- All ways `send` can end. -/
theorem send_cases (E : Env σ) (m : Msg) (s : St σ) :
    (E.checked = true ∧ s.cli.mid.toNat = 65535 ∧ send E m s = (.panic, s)) ∨
    (¬ (E.checked = true ∧ s.cli.mid.toNat = 65535) ∧
      ((∃ e, requestFrame s.cli m = .err e ∧ send E m s = (.err (.SMBError e), s.bump)) ∨
       (requestFrame s.cli m = .panic ∧ send E m s = (.panic, s.bump)) ∨
       (∃ f, requestFrame s.cli m = .ok f ∧ f.length > MAX_FRAME_LENGTH ∧
          send E m s = (.err (.NetBios .InvalidFrame), s.bump)) ∨
       (∃ f, requestFrame s.cli m = .ok f ∧ f.length ≤ MAX_FRAME_LENGTH ∧
          ∃ ws p q, 0x00 :: (be24 f.length ++ f) = p ++ q ∧
          ((q = [] ∧ writeLoop s.w.wsched (0x00 :: (be24 f.length ++ f)) s.w.out = (.done, ws, s.w.out ++ p) ∧
              send E m s = (.ok s.cli.mid, { s.bump with w := { inbox := s.w.inbox ++ (E.V.react s.w.srv p).2, wsched := ws
                                                                out := s.w.out ++ p, srv := (E.V.react s.w.srv p).1 } })) ∨
           (∃ e, send E m s = (.err (.NetBios (.IoError e)), { s.bump with w := { s.w with wsched := ws, out := s.w.out ++ p } })) ∨
           (send E m s = (.pending, { s.bump with w := { s.w with wsched := ws, out := s.w.out ++ p } })))))) := by
  unfold send
  by_cases h : E.checked = true ∧ s.cli.mid.toNat = 65535
  · exact .inl ⟨h.1, h.2, if_pos h⟩
  · refine .inr ⟨h, ?_⟩
    rw [if_neg h]
    cases hr : requestFrame s.cli m with
    | err e => exact .inl ⟨e, rfl, rfl⟩
    | panic => exact .inr (.inl ⟨rfl, rfl⟩)
    | ok f =>
      right; right
      simp only [M.bind, liftNet_eq, sendMessage_eq]
      by_cases hl : f.length > MAX_FRAME_LENGTH
      · left; simp [hl, Out.net, St.bump]
      · right
        refine ⟨f, rfl, by omega, ?_⟩
        simp only [if_neg hl, writeExactly]
        obtain ⟨p, q, h1, h2, h3⟩ := writeLoop_out s.w.wsched (0x00 :: (be24 f.length ++ f)) s.w.out
        rcases hw : writeLoop s.w.wsched (0x00 :: (be24 f.length ++ f)) s.w.out with ⟨r, ws, out⟩
        rw [hw] at h2 h3
        simp only at h2 h3; subst h2
        refine ⟨ws, p, q, h1, ?_⟩
        cases r with
        | done =>
          left
          have := h3.mp rfl; subst this
          rw [List.append_nil] at h1
          refine ⟨rfl, rfl, ?_⟩
          rw [h1]; rfl
        | failed e => right; left; exact ⟨e, rfl⟩
        | blocked => right; right; rfl

end Cifs
