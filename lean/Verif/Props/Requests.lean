import Verif.Lemmas.Bodies
import Verif.Lemmas.Login
import Verif.Lemmas.Demo
import Verif.Props.Session
/-!
# Properties of requests: C18 to C28

`Sent log s.w.srv (runOp E op s).2.w.srv p`: the call `op`, made in the arbitrary session state `s` against an arbitrary server, sent the
packet `p`. That calls do send something is `C25_sent`.
-/

namespace Cifs
open Spec

variable {σ : Type} {E : Env σ} {log : σ → List Bytes}

theorem sends_first {op : Op} (hs : single op = true) {m : Msg} (h : op.sends m) : m = op.first := by
  cases op
  case download => simp [single] at hs
  case list => simp [single] at hs
  all_goals exact h

/-- Everything a single-request operation sends is built from its message. -/
theorem single_frame (hlog : Logs E.V log) {op : Op} (hs : single op = true) {s : St σ} {pkt : Bytes}
    (h : Sent log s.w.srv (runOp E op s).2.w.srv pkt) :
    ∃ k p d, op.first.body (requestInfo (s.cli.withMid k) op.first) = .ok (p, d) ∧ d.length < 65536 ∧
      pkt = message (frameOf (requestInfo (s.cli.withMid k) op.first) (op.first.params p) d) := by
  obtain ⟨k, m', p, d, h1, h2, _, h4, h5⟩ := sent_frame hlog h
  cases sends_first hs h1
  exact ⟨k, p, d, h2, h4, h5⟩

/-! ## C18, C21: opening -/

/-- **C18, C21.** `openfile`: read, read-EA and synchronize access, shared for reading, existing non-directories only, and the caller's
path with backslashes. -/
theorem C21_openfile (hlog : Logs E.V log) (share : Share) (path : Str) (s : St σ) (p : Bytes)
    (h : Sent log s.w.srv (runOp E (.openfile share path) s).2.w.srv p) :
    IsOpen p (backslashed path) accessFile 1 optNonDirectory := by
  obtain ⟨k, b, d, hb, _, rfl⟩ := single_frame hlog rfl h
  exact is_open _ (OpenMsg.fileRo share.tid (sanitizePath path)) b d hb rfl rfl rfl rfl rfl rfl rfl

example : ∃ p, Sent Prod.snd (Demo.st []).w.srv (runOp (Demo.env true) (.openfile Demo.share "dir/ü😀.txt".toList) (Demo.st [])).2.w.srv p ∧
    IsOpen p (backslashed "dir/ü😀.txt".toList) accessFile 1 optNonDirectory := by
  have h : Sent Prod.snd (Demo.st []).w.srv (runOp (Demo.env true) (.openfile Demo.share "dir/ü😀.txt".toList) (Demo.st [])).2.w.srv _ := ⟨_, rfl, .head _⟩
  exact ⟨_, h, C21_openfile (logs_logged _) _ _ _ _ h⟩

/-- **C18, C21.** `opendir`: read access, shared for everything, existing directories only, and the caller's path with backslashes. -/
theorem C21_opendir (hlog : Logs E.V log) (share : Share) (path : Str) (s : St σ) (p : Bytes)
    (h : Sent log s.w.srv (runOp E (.opendir share path) s).2.w.srv p) :
    IsOpen p (backslashed path) accessDir 7 optDirectory := by
  obtain ⟨k, b, d, hb, _, rfl⟩ := single_frame hlog rfl h
  exact is_open _ (OpenMsg.dir share.tid (sanitizePath path)) b d hb rfl rfl rfl rfl rfl rfl rfl

example : ∃ p, Sent Prod.snd (Demo.st []).w.srv (runOp (Demo.env true) (.opendir Demo.share ['a', '/']) (Demo.st [])).2.w.srv p ∧
    IsOpen p (backslashed ['a', '/']) accessDir 7 optDirectory := by
  have h : Sent Prod.snd (Demo.st []).w.srv (runOp (Demo.env true) (.opendir Demo.share ['a', '/']) (Demo.st [])).2.w.srv _ := ⟨_, rfl, .head _⟩
  exact ⟨_, h, C21_opendir (logs_logged _) _ _ _ _ h⟩

/-- **C21.** The open request of `download` is that of `openfile`. -/
theorem C21_download (hlog : Logs E.V log) (budget : Nat) (share : Share) (path : Str) (s : St σ) (p : Bytes)
    (h : Sent log s.w.srv (runOp E (.download budget share path) s).2.w.srv p) (hc : cmdOf p = some 0xa2) :
    IsOpen p (backslashed path) accessFile 1 optNonDirectory ∧ tidOf p = some share.tid.toNat := by
  obtain ⟨k, m, b, d, hm, hb, _, _, rfl⟩ := sent_frame hlog h
  rcases hm with rfl | ⟨_, _, _, rfl⟩ | ⟨_, _, rfl⟩
  · refine ⟨is_open _ (OpenMsg.fileRo share.tid (sanitizePath path)) b d hb rfl rfl rfl rfl rfl rfl rfl, ?_⟩
    rw [frame_tid]; rfl
  · rw [frame_cmd] at hc; exact absurd hc (by simp [requestInfo, readMsg, setTid, Info.default]; decide)
  · rw [frame_cmd] at hc; exact absurd hc (by simp [requestInfo, closeMsg, setTid, Info.default]; decide)

example : ∃ p, Sent Prod.snd (Demo.st []).w.srv (runOp (Demo.env true) (.download 9 Demo.share ['a']) (Demo.st [])).2.w.srv p ∧
    cmdOf p = some 0xa2 ∧ IsOpen p (backslashed ['a']) accessFile 1 optNonDirectory := by
  have h : Sent Prod.snd (Demo.st []).w.srv (runOp (Demo.env true) (.download 9 Demo.share ['a']) (Demo.st [])).2.w.srv _ := ⟨_, rfl, .head _⟩
  exact ⟨_, h, by decide +kernel, (C21_download (logs_logged _) _ _ _ _ _ h (by decide +kernel)).1⟩

/-! ## C20 -/

/-- **C20.** `read`: the handle's file id and tree, the caller's offset, at most 65534 bytes. -/
theorem C20_read (hlog : Logs E.V log) (file : Handle) (offset : UInt64) (s : St σ) (p : Bytes)
    (h : Sent log s.w.srv (runOp E (.read file offset) s).2.w.srv p) :
    IsRead p file.fid.toNat offset.toNat ∧ tidOf p = some file.tid.toNat ∧ cmdOf p = some 0x2e := by
  obtain ⟨k, b, d, hb, _, rfl⟩ := single_frame hlog rfl h
  refine ⟨is_read _ _ _ _ b d hb, ?_, ?_⟩
  · rw [frame_tid]; rfl
  · rw [frame_cmd]; rfl

example : ∃ p, Sent Prod.snd (Demo.st []).w.srv (runOp (Demo.env true) (.read Demo.handle 0x123456789) (Demo.st [])).2.w.srv p ∧
    IsRead p 0x4002 0x123456789 := by
  have h : Sent Prod.snd (Demo.st []).w.srv (runOp (Demo.env true) (.read Demo.handle 0x123456789) (Demo.st [])).2.w.srv _ := ⟨_, rfl, .head _⟩
  exact ⟨_, h, (C20_read (logs_logged _) _ _ _ _ h).1⟩

/-! ## C22 -/

/-- The header says Unicode exactly if the connection does. -/
theorem requestInfo_unicode (c : Cli) (m : Msg) (h : m.fixHeader = id) : Flags2.contains (requestInfo c m).flags2 Flags2.UNICODE = c.useUnicode := by
  rw [requestInfo_id _ _ h]
  dsimp only
  cases c.useUnicode <;> decide

/-- **C18, C22.** `mount`: password and path (with backslashes) in the negotiated encoding. -/
theorem C22_mount (hlog : Logs E.V log) (path password : Str) (s : St σ) (p : Bytes)
    (h : Sent log s.w.srv (runOp E (.mount path password) s).2.w.srv p) :
    IsTreeConnect p s.cli.useUnicode (passwordField password) (backslashed path) := by
  obtain ⟨k, b, d, hb, _, rfl⟩ := single_frame hlog rfl h
  have := is_treeConnect _ _ _ b d hb
  rw [requestInfo_unicode _ _ rfl] at this
  exact this

example : ∃ p, Sent Prod.snd (Demo.st []).w.srv (runOp (Demo.env true) (.mount "//host/c".toList "secret".toList) (Demo.st [])).2.w.srv p ∧
    IsTreeConnect p true (passwordField "secret".toList) (backslashed "//host/c".toList) := by
  have h : Sent Prod.snd (Demo.st []).w.srv (runOp (Demo.env true) (.mount "//host/c".toList "secret".toList) (Demo.st [])).2.w.srv _ := ⟨_, rfl, .head _⟩
  exact ⟨_, h, C22_mount (logs_logged _) _ _ _ _ h⟩

/-- **C22.** A tree connect request determines password field and path: whoever reads it recovers both. -/
theorem C22_recover {p : Bytes} {unicode : Bool} {pw pw' : Bytes} {path path' : Str} (h : IsTreeConnect p unicode pw path)
    (h' : IsTreeConnect p unicode pw' path') : pw = pw' ∧ path = path' := by
  obtain ⟨_, ⟨ps, hp, _, _, hl⟩, pad, name, nul, hd, hc⟩ := h
  obtain ⟨_, ⟨ps', hp', _, _, hl'⟩, pad', name', nul', hd', hc'⟩ := h'
  have e : ps = ps' := by rw [hp] at hp'; exact Option.some.inj hp'
  subst e
  have el : pw.length = pw'.length := by rw [hl] at hl'; exact Option.some.inj hl'
  have ed := Option.some.inj (hd.symm.trans hd')
  simp only [List.append_assoc] at ed
  obtain ⟨e1, e2⟩ := List.append_inj ed el
  subst e1
  refine ⟨rfl, ?_⟩
  have en : ∀ {x y a b n m t : Bytes}, x ++ (a ++ (n ++ t)) = y ++ (b ++ (m ++ t)) → x = y → n = m → a = b := by
    intro x y a b n m t h h1 h2
    subst h1; subst h2
    exact List.append_cancel_right (List.append_cancel_left h)
  cases unicode
  · simp only [Bool.false_eq_true, if_false] at hc hc'
    obtain ⟨rfl, rfl, rfl⟩ := hc
    obtain ⟨rfl, rfl, rfl⟩ := hc'
    have := en e2 rfl rfl
    rw [utf8Bytes_eq, utf8Bytes_eq] at this
    exact utf8_inj this
  · simp only [if_true] at hc hc'
    obtain ⟨hpad, hev, hu, rfl⟩ := hc
    obtain ⟨hpad', hev', hu', rfl⟩ := hc'
    have ep : pad = pad' := by
      rcases hpad with rfl | rfl <;> rcases hpad' with rfl | rfl
      · rfl
      · simp at hev hev'; omega
      · simp at hev hev'; omega
      · rfl
    have := en e2 ep rfl
    subst this
    exact encodeUtf16le_inj ((utf16le_unique hu).symm.trans (utf16le_unique hu'))

example : ¬ ∃ p, IsTreeConnect p true (passwordField ['a']) ['x'] ∧ IsTreeConnect p true (passwordField ['b']) ['x'] := by
  rintro ⟨p, h, h'⟩
  exact absurd (C22_recover h h').1 (by decide)

/-- **C22** (partial: see `C22_violated`.) The password field determines the password, except that no password and the password consisting of
one NUL character look the same. -/
theorem C22_password_partial {a b : Str} (h : passwordField a = passwordField b) : a = b ∨ (a = [] ∧ b = ['\x00']) ∨ (a = ['\x00'] ∧ b = []) := by
  have e0 : ([0] : Bytes) = utf8 ['\x00'] := by decide
  unfold passwordField at h
  rw [utf8Bytes_eq, utf8Bytes_eq] at h
  by_cases ha : a = [] <;> by_cases hb : b = []
  · exact .inl (ha.trans hb.symm)
  · rw [if_pos ha, if_neg hb, e0] at h; exact .inr (.inl ⟨ha, (utf8_inj h).symm⟩)
  · rw [if_neg ha, if_pos hb, e0] at h; exact .inr (.inr ⟨utf8_inj h, hb⟩)
  · rw [if_neg ha, if_neg hb] at h; exact .inl (utf8_inj h)

/-- **C22 violated** Mounting with the password that consists of one NUL character is the same as mounting without a password, in every
state and with every server; so nobody can tell from the request which one was given. -/
theorem C22_violated : ∃ a b : Str, a ≠ b ∧ ∀ (σ : Type) (E : Env σ) (path : Str) (s : St σ), runOp E (.mount path a) s = runOp E (.mount path b) s := by
  refine ⟨[], ['\x00'], by decide, fun σ E path s => ?_⟩
  have e : treeConnectMsg (sanitizePath path) [] = treeConnectMsg (sanitizePath path) ['\x00'] := by
    have h0 : utf8 ['\x00'] = [0] := by decide
    have h1 : utf8 [] = [] := rfl
    simp [treeConnectMsg, h0, h1]
  simp only [runOp, mountPassword, e]

/-- The empty password. -/
example : passwordField [] = [0] := rfl

/-! ## C23, C18 -/

/-- **C23.** `close`: the handle's file id and tree. -/
theorem C23_close (hlog : Logs E.V log) (file : Handle) (s : St σ) (p : Bytes)
    (h : Sent log s.w.srv (runOp E (.close file) s).2.w.srv p) :
    IsClose p file.fid.toNat ∧ tidOf p = some file.tid.toNat ∧ cmdOf p = some 0x04 := by
  obtain ⟨k, b, d, hb, _, rfl⟩ := single_frame hlog rfl h
  refine ⟨is_close _ _ _ b d hb, ?_, ?_⟩
  · rw [frame_tid]; rfl
  · rw [frame_cmd]; rfl

example : ∃ p, Sent Prod.snd (Demo.st []).w.srv (runOp (Demo.env true) (.close Demo.handle) (Demo.st [])).2.w.srv p ∧
    IsClose p 0x4002 ∧ tidOf p = some 0x0801 ∧ cmdOf p = some 0x04 := by
  have h : Sent Prod.snd (Demo.st []).w.srv (runOp (Demo.env true) (.close Demo.handle) (Demo.st [])).2.w.srv _ := ⟨_, rfl, .head _⟩
  exact ⟨_, h, C23_close (logs_logged _) _ _ _ h⟩

/-- **C23.** `umount`: the share's tree. -/
theorem C23_umount (hlog : Logs E.V log) (share : Share) (s : St σ) (p : Bytes)
    (h : Sent log s.w.srv (runOp E (.umount share) s).2.w.srv p) :
    IsTreeDisconnect p ∧ tidOf p = some share.tid.toNat ∧ cmdOf p = some 0x71 := by
  obtain ⟨k, b, d, hb, _, rfl⟩ := single_frame hlog rfl h
  refine ⟨is_treeDisconnect _ _ b d hb, ?_, ?_⟩
  · rw [frame_tid]; rfl
  · rw [frame_cmd]; rfl

example : ∃ p, Sent Prod.snd (Demo.st []).w.srv (runOp (Demo.env true) (.umount Demo.share) (Demo.st [])).2.w.srv p ∧
    IsTreeDisconnect p ∧ tidOf p = some 0x0801 ∧ cmdOf p = some 0x71 := by
  have h : Sent Prod.snd (Demo.st []).w.srv (runOp (Demo.env true) (.umount Demo.share) (Demo.st [])).2.w.srv _ := ⟨_, rfl, .head _⟩
  exact ⟨_, h, C23_umount (logs_logged _) _ _ _ h⟩

/-- **C18, C23.** `delete`: the share's tree, the path with backslashes; matches hidden (2) and system (4) files but no directories
(0x10). -/
theorem C23_delete (hlog : Logs E.V log) (share : Share) (path : Str) (s : St σ) (p : Bytes)
    (h : Sent log s.w.srv (runOp E (.delete share path) s).2.w.srv p) :
    IsDelete p 6 (backslashed path) ∧ tidOf p = some share.tid.toNat ∧ cmdOf p = some 0x06 := by
  obtain ⟨k, b, d, hb, _, rfl⟩ := single_frame hlog rfl h
  refine ⟨is_delete _ _ _ b d hb, ?_, ?_⟩
  · rw [frame_tid]; rfl
  · rw [frame_cmd]; rfl

example : ∃ p, Sent Prod.snd (Demo.st []).w.srv (runOp (Demo.env true) (.delete Demo.share "a/b".toList) (Demo.st [])).2.w.srv p ∧
    IsDelete p 6 (backslashed "a/b".toList) := by
  have h : Sent Prod.snd (Demo.st []).w.srv (runOp (Demo.env true) (.delete Demo.share "a/b".toList) (Demo.st [])).2.w.srv _ := ⟨_, rfl, .head _⟩
  exact ⟨_, h, (C23_delete (logs_logged _) _ _ _ _ h).1⟩

/-- **C18, C23.** `rmdir`: the share's tree, the path with backslashes. -/
theorem C23_rmdir (hlog : Logs E.V log) (share : Share) (path : Str) (s : St σ) (p : Bytes)
    (h : Sent log s.w.srv (runOp E (.rmdir share path) s).2.w.srv p) :
    IsRmdir p (backslashed path) ∧ tidOf p = some share.tid.toNat ∧ cmdOf p = some 0x01 := by
  obtain ⟨k, b, d, hb, _, rfl⟩ := single_frame hlog rfl h
  refine ⟨is_rmdir _ _ _ b d hb, ?_, ?_⟩
  · rw [frame_tid]; rfl
  · rw [frame_cmd]; rfl

example : ∃ p, Sent Prod.snd (Demo.st []).w.srv (runOp (Demo.env true) (.rmdir Demo.share "a/b".toList) (Demo.st [])).2.w.srv p ∧
    IsRmdir p (backslashed "a/b".toList) := by
  have h : Sent Prod.snd (Demo.st []).w.srv (runOp (Demo.env true) (.rmdir Demo.share "a/b".toList) (Demo.st [])).2.w.srv _ := ⟨_, rfl, .head _⟩
  exact ⟨_, h, (C23_rmdir (logs_logged _) _ _ _ _ h).1⟩

/-! ## C24, C18 -/

/-- **C18, C24.** `find_first`: a TRANSACTION2 request whose offsets and counts delimit a FIND_FIRST2 parameter block with the pattern (with
backslashes), searching hidden and system files and directories. -/
theorem C24_find_first (hlog : Logs E.V log) (share : Share) (pattern : Str) (s : St σ) (p : Bytes)
    (h : Sent log s.w.srv (runOp E (.findFirst share pattern) s).2.w.srv p) :
    ∃ ps, IsTransact2 p 1 ps [] ∧ IsFindFirst ps 0x16 (backslashed pattern) := by
  obtain ⟨k, b, d, hb, _, rfl⟩ := single_frame hlog rfl h
  exact ⟨_, is_transact2 _ _ _ _ _ b d rfl rfl ⟨rfl, rfl, rfl⟩ hb, is_findFirst _ _ _ rfl⟩

example : ∃ p, Sent Prod.snd (Demo.st []).w.srv (runOp (Demo.env true) (.findFirst Demo.share "a/*".toList) (Demo.st [])).2.w.srv p ∧
    ∃ ps, IsTransact2 p 1 ps [] ∧ IsFindFirst ps 0x16 (backslashed "a/*".toList) := by
  have h : Sent Prod.snd (Demo.st []).w.srv (runOp (Demo.env true) (.findFirst Demo.share "a/*".toList) (Demo.st [])).2.w.srv _ := ⟨_, rfl, .head _⟩
  exact ⟨_, h, C24_find_first (logs_logged _) _ _ _ _ h⟩

/-- **C24.** `find_next`: a TRANSACTION2 request with a FIND_NEXT2 parameter block with the search id and the name to continue after. -/
theorem C24_find_next (hlog : Logs E.V log) (share : Share) (sid : UInt16) (last : Str) (s : St σ) (p : Bytes)
    (h : Sent log s.w.srv (runOp E (.findNext share sid last) s).2.w.srv p) :
    ∃ ps, IsTransact2 p 2 ps [] ∧ IsFindNext ps sid.toNat last := by
  obtain ⟨k, b, d, hb, _, rfl⟩ := single_frame hlog rfl h
  exact ⟨_, is_transact2 _ _ _ _ _ b d rfl rfl ⟨rfl, rfl, rfl⟩ hb, is_findNext _ _ _ rfl⟩

example : ∃ p, Sent Prod.snd (Demo.st []).w.srv (runOp (Demo.env true) (.findNext Demo.share 5 "b".toList) (Demo.st [])).2.w.srv p ∧
    ∃ ps, IsTransact2 p 2 ps [] ∧ IsFindNext ps 5 "b".toList := by
  have h : Sent Prod.snd (Demo.st []).w.srv (runOp (Demo.env true) (.findNext Demo.share 5 "b".toList) (Demo.st [])).2.w.srv _ := ⟨_, rfl, .head _⟩
  exact ⟨_, h, C24_find_next (logs_logged _) _ _ _ _ _ h⟩

/-- **C24.** `list`: every request is one of these two. -/
theorem C24_list (hlog : Logs E.V log) (budget : Nat) (share : Share) (pattern : Str) (s : St σ) (p : Bytes)
    (h : Sent log s.w.srv (runOp E (.list budget share pattern) s).2.w.srv p) :
    (∃ ps, IsTransact2 p 1 ps [] ∧ IsFindFirst ps 0x16 (backslashed pattern)) ∨
    (∃ ps sid last, IsTransact2 p 2 ps [] ∧ IsFindNext ps sid last) := by
  obtain ⟨k, m, b, d, hm, hb, _, _, rfl⟩ := sent_frame hlog h
  rcases hm with rfl | ⟨_, _, rfl⟩
  · exact .inl ⟨_, is_transact2 _ _ _ _ _ b d rfl rfl ⟨rfl, rfl, rfl⟩ hb, is_findFirst _ _ _ rfl⟩
  · exact .inr ⟨_, _, _, is_transact2 _ _ _ _ _ b d rfl rfl ⟨rfl, rfl, rfl⟩ hb, is_findNext _ _ _ rfl⟩

example : ∃ p, Sent Prod.snd (Demo.st []).w.srv (runOp (Demo.env true) (.list 9 Demo.share ['*']) (Demo.st [])).2.w.srv p ∧
    ((∃ ps, IsTransact2 p 1 ps [] ∧ IsFindFirst ps 0x16 (backslashed ['*'])) ∨
      (∃ ps sid last, IsTransact2 p 2 ps [] ∧ IsFindNext ps sid last)) := by
  have h : Sent Prod.snd (Demo.st []).w.srv (runOp (Demo.env true) (.list 9 Demo.share ['*']) (Demo.st [])).2.w.srv _ := ⟨_, rfl, .head _⟩
  exact ⟨_, h, C24_list (logs_logged _) _ _ _ _ _ h⟩

/-- **C24.** `notify`: an NT_TRANSACT request whose setup words name the handle and the changes to watch for. -/
theorem C24_notify (hlog : Logs E.V log) (handle : Handle) (what : UInt32) (s : St σ) (p : Bytes)
    (h : Sent log s.w.srv (runOp E (.notify handle what) s).2.w.srv p) :
    ∃ setup, IsNtTransact p 4 setup [] [] ∧ IsNotify setup what.toNat handle.fid.toNat ∧ tidOf p = some handle.tid.toNat := by
  obtain ⟨k, b, d, hb, _, rfl⟩ := single_frame hlog rfl h
  obtain ⟨setup, h1, h2⟩ := is_transact _ _ _ _ b d hb
  exact ⟨setup, h1, h2, by rw [frame_tid]; rfl⟩

example : ∃ p, Sent Prod.snd (Demo.st []).w.srv (runOp (Demo.env true) (.notify Demo.handle 0xfff) (Demo.st [])).2.w.srv p ∧
    ∃ setup, IsNtTransact p 4 setup [] [] ∧ IsNotify setup 0xfff 0x4002 ∧ tidOf p = some 0x0801 := by
  have h : Sent Prod.snd (Demo.st []).w.srv (runOp (Demo.env true) (.notify Demo.handle 0xfff) (Demo.st [])).2.w.srv _ := ⟨_, rfl, .head _⟩
  exact ⟨_, h, C24_notify (logs_logged _) _ _ _ _ h⟩

/-! ## C18 -/

/-- Where the bytes `name` of the path argument stand in the request of an operation: data bytes, or bytes at the announced parameter offset
of a transaction. -/
def NameAt (p name : Bytes) : Op → Prop
  | .openfile .. | .opendir .. => dataOf p = some (0 :: name ++ [0, 0])
  | .delete .. | .rmdir .. => dataOf p = some (4 :: name ++ [0, 0])
  | .findFirst .. => ∃ ps po n, paramsOf p = some ps ∧ u16At ps 20 = some po ∧ u16At ps 18 = some n ∧ n = 12 + name.length + 2 ∧
      sliceAt p (4 + po + 12) (n - 12) = some (name ++ [0, 0])
  | .mount _ password => ∃ pad, (pad = [] ∨ pad = [0]) ∧
      dataOf p = some (passwordField password ++ pad ++ name ++ [0, 0] ++ [0x3f, 0x3f, 0x3f, 0x3f, 0x3f, 0])
  | _ => True

/-- The path argument of an operation. -/
def pathArg : Op → Option Str
  | .openfile _ path => some path
  | .opendir _ path => some path
  | .delete _ path => some path
  | .rmdir _ path => some path
  | .findFirst _ pattern => some pattern
  | .mount path _ => some path
  | _ => none

/-- A slice of a slice. -/
theorem sliceAt_drop {p ps : Bytes} {o n k : Nat} (h : sliceAt p o n = some ps) (hk : k ≤ n) : sliceAt p (o + k) (n - k) = some (ps.drop k) := by
  unfold sliceAt at h ⊢
  split at h
  · rename_i hb
    rw [if_pos (by omega)]
    cases h
    rw [List.drop_take, List.drop_drop]
  · cases h

/-- **C18.** On a Unicode connection (and except for `mount` on any): decoding the UTF-16 name in the request gives the caller's path with
every '/' replaced by a backslash, and nothing else does. -/
theorem C18_path (hlog : Logs E.V log) (op : Op) (path : Str) (ho : pathArg op = some path) (s : St σ) (p : Bytes)
    (hu : (∃ a b, op = .mount a b) → s.cli.useUnicode = true)
    (h : Sent log s.w.srv (runOp E op s).2.w.srv p) :
    ∃ name, NameAt p name op ∧ ∀ t, Utf16le t name ↔ t = backslashed path := by
  have key : ∀ {name : Bytes} {t : Str}, Utf16le t name → ∀ t', Utf16le t' name ↔ t' = t := by
    intro name t h t'
    refine ⟨fun h' => encodeUtf16le_inj ((utf16le_unique h').symm.trans (utf16le_unique h)), fun e => e ▸ h⟩
  cases op <;> simp only [pathArg, Option.some.injEq, reduceCtorEq] at ho
  case openfile share pth =>
    subst ho
    obtain ⟨name, h1, h2, _⟩ := (C21_openfile hlog share pth s p h).name
    exact ⟨name, h1, key h2⟩
  case opendir share pth =>
    subst ho
    obtain ⟨name, h1, h2, _⟩ := (C21_opendir hlog share pth s p h).name
    exact ⟨name, h1, key h2⟩
  case delete share pth =>
    subst ho
    obtain ⟨name, h1, h2⟩ := (C23_delete hlog share pth s p h).1.name
    exact ⟨name, h1, key h2⟩
  case rmdir share pth =>
    subst ho
    obtain ⟨name, h1, h2⟩ := (C23_rmdir hlog share pth s p h).1.name
    exact ⟨name, h1, key h2⟩
  case findFirst share pth =>
    subst ho
    obtain ⟨ps, h1, h2⟩ := C24_find_first hlog share pth s p h
    obtain ⟨name, e, hn⟩ := h2.pattern
    obtain ⟨pp, hp, _, _, _, hc, _, _, po, dO, hpo, _, _, _, _, _, hsl, _⟩ := h1.fields
    refine ⟨name, ⟨pp, po, ps.length, hp, hpo, hc, ?_, ?_⟩, key hn⟩
    · have := congrArg List.length e
      simp at this
      omega
    · have hk : 12 ≤ ps.length := by
        have := congrArg List.length e
        simp at this; omega
      have := sliceAt_drop hsl hk
      rwa [e] at this
  case mount pth pw =>
    subst ho
    have hm := C22_mount hlog pth pw s p h
    rw [hu ⟨_, _, rfl⟩] at hm
    obtain ⟨pad, name, nul, hd, hpad, _, hn, rfl⟩ := hm.data
    exact ⟨name, ⟨pad, hpad, hd⟩, key hn⟩

example : ∃ p name, Sent Prod.snd (Demo.st []).w.srv (runOp (Demo.env true) (.mount "//h/ü".toList "pw".toList) (Demo.st [])).2.w.srv p ∧
    NameAt p name (.mount "//h/ü".toList "pw".toList) ∧ ∀ t, Utf16le t name ↔ t = "\\\\h\\ü".toList := by
  have h : Sent Prod.snd (Demo.st []).w.srv (runOp (Demo.env true) (.mount "//h/ü".toList "pw".toList) (Demo.st [])).2.w.srv _ := ⟨_, rfl, .head _⟩
  obtain ⟨name, h1, h2⟩ := C18_path (logs_logged _) _ _ rfl _ _ (fun _ => rfl) h
  exact ⟨_, name, h, h1, h2⟩

/-! ## C19 -/

theorem sends_even {op : Op} {m : Msg} (h : op.sends m) {i : Info} {p d : Bytes} (hb : m.body i = .ok (p, d)) : (m.params p).length % 2 = 0 := by
  have hopen : ∀ {o : OpenMsg} {i : Info} {p d : Bytes}, o.msg.body i = .ok (p, d) → (o.msg.params p).length % 2 = 0 := by
    intro o i p d hb
    obtain ⟨_, rfl, _⟩ := body_open_ok hb
    rw [params_open]; simp
  have ht2 : ∀ {t : UInt16} {c : SubCmd2} {i : Info} {p d sp sd : Bytes}, c.parameter = .ok sp → c.data = .ok sd →
      (transact2Msg t c).body i = .ok (p, d) → ((transact2Msg t c).params p).length % 2 = 0 := by
    intro t c i p d sp sd h1 h2 hb
    rw [transact2_body t c i sp sd h1 h2] at hb
    repeat' split at hb
    all_goals cases hb
    rw [params_transact2]; simp
  have hread : ∀ {t f : UInt16} {o : UInt64} {i : Info} {p d : Bytes}, (readMsg t f o).body i = .ok (p, d) →
      ((readMsg t f o).params p).length % 2 = 0 := by
    intro t f o i p d hb
    cases hb; rw [params_read]; simp
  have hclose : ∀ {t f : UInt16} {i : Info} {p d : Bytes}, (closeMsg t f).body i = .ok (p, d) →
      ((closeMsg t f).params p).length % 2 = 0 := by
    intro t f i p d hb
    cases hb; rw [params_close]; simp
  cases op
  case mount a b =>
    cases h
    rw [body_treeConnect_eq] at hb
    split at hb
    · cases hb; rw [params_treeConnect]; simp
    · cases hb
  case umount => cases h; cases hb; rw [params_treeDisconnect]; rfl
  case openfile => cases h; exact hopen hb
  case opendir => cases h; exact hopen hb
  case close => cases h; exact hclose hb
  case read => cases h; exact hread hb
  case download =>
    rcases h with rfl | ⟨_, _, _, rfl⟩ | ⟨_, _, rfl⟩
    · exact hopen hb
    · exact hread hb
    · exact hclose hb
  case delete => cases h; cases hb; rw [params_delete]; simp
  case rmdir => cases h; cases hb; rw [params_rmdir]; simp
  case notify => cases h; rw [transact_body] at hb; cases hb; rw [params_transact]; simp
  case findFirst => cases h; exact ht2 rfl rfl hb
  case findNext => cases h; exact ht2 rfl rfl hb
  case list =>
    rcases h with rfl | ⟨_, _, rfl⟩
    · exact ht2 rfl rfl hb
    · exact ht2 rfl rfl hb

/-- **C19.** Every request of every operation consists of exactly the announced words and bytes. -/
theorem C19_consistent (hlog : Logs E.V log) (op : Op) (s : St σ) (p : Bytes)
    (h : Sent log s.w.srv (runOp E op s).2.w.srv p) : BodyConsistent p := by
  obtain ⟨k, m, b, d, hm, hb, h1, h2, rfl⟩ := sent_frame hlog h
  exact frame_consistent _ _ _ h1 (sends_even hm hb) h2

example : ∃ p, Sent Prod.snd (Demo.st []).w.srv (runOp (Demo.env true) (.mount ['a'] ['b']) (Demo.st [])).2.w.srv p ∧
    BodyConsistent p := by
  have h : Sent Prod.snd (Demo.st []).w.srv (runOp (Demo.env true) (.mount ['a'] ['b']) (Demo.st [])).2.w.srv _ := ⟨_, rfl, .head _⟩
  exact ⟨_, h, C19_consistent (logs_logged _) _ _ _ h⟩

/-- **C19.** So does every request of a login. -/
theorem C19_login (hlog : Logs E.V log) (s : St σ) (p : Bytes)
    (h : Sent log s.w.srv (setupConnection E s).2.w.srv p) : BodyConsistent p := by
  obtain ⟨c, m, b, d, hm, hb, h1, h2, rfl⟩ := setup_sent hlog h
  exact frame_consistent _ _ _ h1 (login_even hm hb) h2

/-- Login sends something. -/
example : ∃ p, Sent Prod.snd (Demo.st []).w.srv (setupConnection (Demo.env true) (Demo.st [])).2.w.srv p ∧ cmdOf p = some 0x72 :=
  ⟨_, ⟨_, rfl, .head _⟩, by decide +kernel⟩

/-! ## C25: over-long arguments -/

/-- The limit of an argument that becomes a name in an open, delete or rmdir request: 65535 bytes of data, less one byte of format or
padding and two of terminator, two bytes per unit. -/
def nameLimit : Nat := 32766

theorem frame_open (c : Cli) (m : OpenMsg) (h : utf16Len m.filename ≤ nameLimit) :
    ∃ f, requestFrame c m.msg = .ok f ∧ f.length = 32 + 1 + 48 + 2 + (2 * utf16Len m.filename + 3) := by
  simp only [nameLimit] at h
  obtain ⟨p, d, h1, h2, h3⟩ := body_open m (requestInfo c m.msg) (by omega)
  exact ⟨_, requestFrame_of_body h1 (by omega) (by omega), by simp [frameOf, h2, h3]; omega⟩

theorem frame_open_long (c : Cli) (m : OpenMsg) (h : nameLimit < utf16Len m.filename) :
    requestFrame c m.msg = .err (.CreatePacket "filename too long") := by
  simp only [nameLimit] at h
  rw [requestFrame_eq, body_open_long m _ (by omega)]; rfl

theorem frame_delete (c : Cli) (t : UInt16) (n : Str) (h : utf16Len n ≤ nameLimit) :
    ∃ f, requestFrame c (deleteMsg t n) = .ok f ∧ f.length = 32 + 1 + 2 + 2 + (2 * utf16Len n + 3) := by
  simp only [nameLimit] at h
  have hl : ([0x04] ++ encodeUtf16le0 n : Bytes).length = 2 * utf16Len n + 3 := by simp [encodeUtf16le0]
  exact ⟨_, requestFrame_of_body rfl (by rw [params_delete]; decide) (by rw [hl]; omega), by
    rw [params_delete, frameOf]; simp [encodeUtf16le0]; omega⟩

theorem frame_delete_long (c : Cli) (t : UInt16) (n : Str) (h : nameLimit < utf16Len n) :
    requestFrame c (deleteMsg t n) = .err (.CreatePacket "data length too big") := by
  simp only [nameLimit] at h
  have hl : ([0x04] ++ encodeUtf16le0 n : Bytes).length = 2 * utf16Len n + 3 := by simp [encodeUtf16le0]
  rw [requestFrame_eq]
  show (if _ then (if ([0x04] ++ encodeUtf16le0 n : Bytes).length < 65536 then _ else _) else _) = _
  rw [if_pos (by rw [params_delete]; simp), if_neg (by omega)]

theorem frame_rmdir (c : Cli) (t : UInt16) (n : Str) (h : utf16Len n ≤ nameLimit) :
    ∃ f, requestFrame c (rmdirMsg t n) = .ok f ∧ f.length = 32 + 1 + 0 + 2 + (2 * utf16Len n + 3) := by
  simp only [nameLimit] at h
  have hl : ([0x04] ++ encodeUtf16le0 n : Bytes).length = 2 * utf16Len n + 3 := by simp [encodeUtf16le0]
  exact ⟨_, requestFrame_of_body rfl (by rw [params_rmdir]; decide) (by rw [hl]; omega), by
    rw [params_rmdir, frameOf]; simp [encodeUtf16le0]; omega⟩

theorem frame_rmdir_long (c : Cli) (t : UInt16) (n : Str) (h : nameLimit < utf16Len n) :
    requestFrame c (rmdirMsg t n) = .err (.CreatePacket "data length too big") := by
  simp only [nameLimit] at h
  have hl : ([0x04] ++ encodeUtf16le0 n : Bytes).length = 2 * utf16Len n + 3 := by simp [encodeUtf16le0]
  rw [requestFrame_eq]
  show (if _ then (if ([0x04] ++ encodeUtf16le0 n : Bytes).length < 65536 then _ else _) else _) = _
  rw [if_pos (by rw [params_rmdir]; simp), if_neg (by omega)]

/-- Length of the data bytes of a tree connect request. -/
def mountLength (unicode : Bool) (path password : Str) : Nat :=
  let pw := (passwordField password).length
  pw + (if unicode then (if pw % 2 = 0 then 1 else 0) + 2 * utf16Len path + 2 else (utf8Bytes path).length + 1) + 6

theorem frame_treeConnect (c : Cli) (path password : Str) (h : mountLength c.useUnicode path password < 65536) :
    ∃ f, requestFrame c (treeConnectMsg path password) = .ok f ∧ f.length = 32 + 1 + 8 + 2 + mountLength c.useUnicode path password := by
  have hd := length_treeConnectData c.useUnicode path password
  simp only [mountLength, utf8Bytes_eq] at h ⊢
  have hb : (treeConnectMsg path password).body (requestInfo c (treeConnectMsg path password)) =
      .ok (putU16 8 ++ putU16 (UInt16.ofNat (passwordField password).length), treeConnectData c.useUnicode path password) := by
    rw [body_treeConnect_eq, if_pos (by omega), requestInfo_unicode _ _ rfl]
  exact ⟨_, requestFrame_of_body hb (by rw [params_treeConnect]; simp) (by rw [hd]; exact h), by
    rw [params_treeConnect]; simp [frameOf, hd]; omega⟩

theorem frame_treeConnect_long (c : Cli) (path password : Str) (h : 65536 ≤ mountLength c.useUnicode path password) :
    ∃ e, requestFrame c (treeConnectMsg path password) = .err (.CreatePacket e) := by
  have hd := length_treeConnectData c.useUnicode path password
  simp only [mountLength, utf8Bytes_eq] at h
  rw [requestFrame_eq, body_treeConnect_eq]
  by_cases hp : (passwordField password).length < 65536
  · rw [if_pos hp, requestInfo_unicode _ _ rfl, Res.bind_ok]
    rw [if_pos (by rw [params_treeConnect]; simp), if_neg (by dsimp only; rw [hd]; omega)]
    exact ⟨_, rfl⟩
  · rw [if_neg hp]; exact ⟨_, rfl⟩

/-- The three cases of a FIND request, by the length of its parameter block. -/
theorem frame_transact2 (c : Cli) (t : UInt16) (sub : SubCmd2) (sp : Bytes) (h1 : sub.parameter = .ok sp) (h2 : sub.data = .ok []) :
    (sp.length ≤ 65464 → ∃ f, requestFrame c (transact2Msg t sub) = .ok f ∧ f.length ≤ 32 + 1 + 30 + 2 + (sp.length + 6)) ∧
    (65464 < sp.length → sp.length < 65536 → requestFrame c (transact2Msg t sub) = .panic) ∧
    (65536 ≤ sp.length → requestFrame c (transact2Msg t sub) = .err (.CreatePacket "parameter transaction2 sub-command is too large")) := by
  have hb := transact2_body t sub (requestInfo c (transact2Msg t sub)) sp [] h1 h2
  have hr : roundUp4n (68 + sp.length) = 68 + sp.length + fillUp4n (68 + sp.length) := by unfold roundUp4n fillUp4n; omega
  have hf : fillUp4n (68 + sp.length) ≤ 3 := by unfold fillUp4n; omega
  have hm : roundUp4n (68 + sp.length) % 4 = 0 := by unfold roundUp4n; omega
  refine ⟨?_, ?_, ?_⟩
  · intro h
    rw [if_neg (show ¬ 65536 ≤ sp.length by omega), if_neg (show ¬ 65536 ≤ ([] : Bytes).length by simp),
      if_neg (show ¬ 65536 ≤ roundUp4n (68 + sp.length) by omega)] at hb
    refine ⟨_, requestFrame_of_body hb ?_ ?_, ?_⟩
    · rw [params_transact2]; simp
    · simp; omega
    · rw [params_transact2]; simp [frameOf]; omega
  · intro h h'
    rw [if_neg (show ¬ 65536 ≤ sp.length by omega), if_neg (show ¬ 65536 ≤ ([] : Bytes).length by simp),
      if_pos (show 65536 ≤ roundUp4n (68 + sp.length) by omega)] at hb
    rw [requestFrame_eq, hb]; rfl
  · intro h
    rw [if_pos h] at hb
    rw [requestFrame_eq, hb]; rfl

theorem length_findFirst (n : Str) (a : UInt16) : ∃ sp, (findFirst2Cmd n a).parameter = .ok sp ∧ sp.length = 2 * utf16Len n + 14 :=
  ⟨_, rfl, by simp [encodeUtf16le0]; omega⟩
theorem length_findNext (sid : UInt16) (n : Str) : ∃ sp, (findNext2Cmd sid n).parameter = .ok sp ∧ sp.length = 2 * utf16Len n + 14 :=
  ⟨_, rfl, by simp [encodeUtf16le0]; omega⟩

theorem utf8Len_sanitize (s : Str) : (utf8Bytes (sanitizePath s)).length = (utf8Bytes s).length := by
  unfold utf8Bytes sanitizePath
  induction s with
  | nil => rfl
  | cons c s ih =>
    simp only [List.map_cons, List.flatMap_cons, List.length_append, ih]
    congr 1
    split
    · rename_i h; subst h; rfl
    · rfl

/-- The arguments of a call fit the wire format. -/
def Fits (unicode : Bool) : Op → Prop
  | .mount path password => mountLength unicode path password < 65536
  | .openfile _ path => utf16Len path ≤ nameLimit
  | .opendir _ path => utf16Len path ≤ nameLimit
  | .download _ _ path => utf16Len path ≤ nameLimit
  | .delete _ path => utf16Len path ≤ nameLimit
  | .rmdir _ path => utf16Len path ≤ nameLimit
  | .findFirst _ pattern => utf16Len pattern ≤ 32725
  | .list _ _ pattern => utf16Len pattern ≤ 32725
  | .findNext _ _ last => utf16Len last ≤ 32725
  | _ => True

/-- The calls whose code panics on the way to an over-long TRANSACTION2 request: the name fits the length field, but the offset of the
(empty) data block after it does not. -/
def Panics : Op → Prop
  | .findFirst _ pattern => 32725 < utf16Len pattern ∧ utf16Len pattern ≤ 32760
  | .list _ _ pattern => 32725 < utf16Len pattern ∧ utf16Len pattern ≤ 32760
  | .findNext _ _ last => 32725 < utf16Len last ∧ utf16Len last ≤ 32760
  | _ => False

theorem first_fits (c : Cli) (op : Op) (h : Fits c.useUnicode op) : ∃ f, requestFrame c op.first = .ok f := by
  have hs := utf16Len_backslashed
  simp only [backslashed_eq] at hs
  cases op
  case mount a b =>
    refine (frame_treeConnect c (sanitizePath a) b ?_).imp fun f hf => hf.1
    have : mountLength c.useUnicode (sanitizePath a) b = mountLength c.useUnicode a b := by
      simp only [mountLength, hs, utf8Len_sanitize]
    rw [this]; exact h
  case openfile => exact (frame_open c _ (by show utf16Len (sanitizePath _) ≤ _; rw [hs]; exact h)).imp fun f hf => hf.1
  case opendir => exact (frame_open c _ (by show utf16Len (sanitizePath _) ≤ _; rw [hs]; exact h)).imp fun f hf => hf.1
  case download => exact (frame_open c _ (by show utf16Len (sanitizePath _) ≤ _; rw [hs]; exact h)).imp fun f hf => hf.1
  case delete => exact (frame_delete c _ _ (by rw [hs]; exact h)).imp fun f hf => hf.1
  case rmdir => exact (frame_rmdir c _ _ (by rw [hs]; exact h)).imp fun f hf => hf.1
  case findFirst s n =>
    obtain ⟨sp, h1, h2⟩ := length_findFirst (sanitizePath n) (FileAttr.HIDDEN ||| FileAttr.SYSTEM ||| FileAttr.DIRECTORY)
    simp only [Fits] at h
    exact ((frame_transact2 c s.tid _ sp h1 rfl).1 (by rw [h2, hs]; omega)).imp fun f hf => hf.1
  case list b s n =>
    obtain ⟨sp, h1, h2⟩ := length_findFirst (sanitizePath n) (FileAttr.HIDDEN ||| FileAttr.SYSTEM ||| FileAttr.DIRECTORY)
    simp only [Fits] at h
    exact ((frame_transact2 c s.tid _ sp h1 rfl).1 (by rw [h2, hs]; omega)).imp fun f hf => hf.1
  case findNext s i n =>
    obtain ⟨sp, h1, h2⟩ := length_findNext i n
    simp only [Fits] at h
    exact ((frame_transact2 c s.tid _ sp h1 rfl).1 (by rw [h2]; omega)).imp fun f hf => hf.1
  case umount => exact ⟨_, requestFrame_umount c _⟩
  case close f => exact ⟨_, requestFrame_of_body (m := closeMsg f.tid f.fid) rfl (by rw [params_close]; simp) (by simp)⟩
  case read f o => exact ⟨_, requestFrame_of_body (m := readMsg f.tid f.fid o) rfl (by rw [params_read]; simp) (by simp)⟩
  case notify hd w =>
    exact ⟨_, requestFrame_of_body (m := transactMsg hd.tid (notifySetup hd.fid w false)) (transact_body _ _ _ _)
      (by rw [params_transact]; simp) (by simp)⟩

theorem first_long (c : Cli) (op : Op) (h : ¬ Fits c.useUnicode op) (hp : ¬ Panics op) :
    ∃ e, requestFrame c op.first = .err (.CreatePacket e) := by
  have hs := utf16Len_backslashed
  simp only [backslashed_eq] at hs
  cases op
  case mount a b =>
    refine frame_treeConnect_long c (sanitizePath a) b ?_
    have : mountLength c.useUnicode (sanitizePath a) b = mountLength c.useUnicode a b := by
      simp only [mountLength, hs, utf8Len_sanitize]
    rw [this]; exact Nat.not_lt.mp h
  case openfile => exact ⟨_, frame_open_long c _ (by show _ < utf16Len (sanitizePath _); rw [hs]; exact Nat.not_le.mp h)⟩
  case opendir => exact ⟨_, frame_open_long c _ (by show _ < utf16Len (sanitizePath _); rw [hs]; exact Nat.not_le.mp h)⟩
  case download => exact ⟨_, frame_open_long c _ (by show _ < utf16Len (sanitizePath _); rw [hs]; exact Nat.not_le.mp h)⟩
  case delete => exact ⟨_, frame_delete_long c _ _ (by rw [hs]; exact Nat.not_le.mp h)⟩
  case rmdir => exact ⟨_, frame_rmdir_long c _ _ (by rw [hs]; exact Nat.not_le.mp h)⟩
  case findFirst s n =>
    obtain ⟨sp, h1, h2⟩ := length_findFirst (sanitizePath n) (FileAttr.HIDDEN ||| FileAttr.SYSTEM ||| FileAttr.DIRECTORY)
    simp only [Fits, Panics] at h hp
    exact ⟨_, (frame_transact2 c s.tid _ sp h1 rfl).2.2 (by rw [h2, hs]; omega)⟩
  case list b s n =>
    obtain ⟨sp, h1, h2⟩ := length_findFirst (sanitizePath n) (FileAttr.HIDDEN ||| FileAttr.SYSTEM ||| FileAttr.DIRECTORY)
    simp only [Fits, Panics] at h hp
    exact ⟨_, (frame_transact2 c s.tid _ sp h1 rfl).2.2 (by rw [h2, hs]; omega)⟩
  case findNext s i n =>
    obtain ⟨sp, h1, h2⟩ := length_findNext i n
    simp only [Fits, Panics] at h hp
    exact ⟨_, (frame_transact2 c s.tid _ sp h1 rfl).2.2 (by rw [h2]; omega)⟩
  all_goals exact absurd trivial h

theorem first_panics (c : Cli) (op : Op) (h : Panics op) : requestFrame c op.first = .panic := by
  have hs := utf16Len_backslashed
  simp only [backslashed_eq] at hs
  cases op
  case findFirst s n =>
    obtain ⟨sp, h1, h2⟩ := length_findFirst (sanitizePath n) (FileAttr.HIDDEN ||| FileAttr.SYSTEM ||| FileAttr.DIRECTORY)
    simp only [Panics] at h
    exact (frame_transact2 c s.tid _ sp h1 rfl).2.1 (by rw [h2, hs]; omega) (by rw [h2, hs]; omega)
  case list b s n =>
    obtain ⟨sp, h1, h2⟩ := length_findFirst (sanitizePath n) (FileAttr.HIDDEN ||| FileAttr.SYSTEM ||| FileAttr.DIRECTORY)
    simp only [Panics] at h
    exact (frame_transact2 c s.tid _ sp h1 rfl).2.1 (by rw [h2, hs]; omega) (by rw [h2, hs]; omega)
  case findNext s i n =>
    obtain ⟨sp, h1, h2⟩ := length_findNext i n
    simp only [Panics] at h
    exact (frame_transact2 c s.tid _ sp h1 rfl).2.1 (by rw [h2]; omega) (by rw [h2]; omega)
  all_goals exact absurd h id

/-- Every frame the message layer can build is small, whatever the message. -/
theorem requestFrame_length {c : Cli} {m : Msg} {f : Bytes} (h : requestFrame c m = .ok f) : f.length ≤ 66081 := by
  obtain ⟨p, d, _, h1, h2, rfl⟩ := requestFrame_ok h
  simp [frameOf]; omega

/-- **C25.** A call whose arguments fit is sent: the server gets exactly one packet from it, or at least one if the call goes on to make
further requests. (Socket accepts data, multiplex counter does not overflow.) Together with C18, C22 and C24, which say that the packet
carries the whole argument, this excludes truncation. -/
theorem C25_sent (E : Env σ) (log : σ → List Bytes) (hlog : Logs E.V log) (op : Op) (s : St σ) (hw : Accepting s.w.wsched)
    (hc : ¬ (E.checked = true ∧ s.cli.mid.toNat = 65535)) (h : Fits s.cli.useUnicode op) :
    ∃ p rest, log (runOp E op s).2.w.srv = log s.w.srv ++ p :: rest ∧ (single op = true → rest = []) := by
  obtain ⟨f, hf⟩ := first_fits s.cli op h
  have hl := requestFrame_length hf
  obtain ⟨ws, _, h2⟩ := send_ok E op.first s f hc hf (by simp only [maxPayload]; omega) hw
  by_cases hs : single op = true
  · obtain ⟨ib, h3⟩ := runOp_single E op hs s
    rw [h2] at h3
    refine ⟨message f, [], ?_, fun _ => rfl⟩
    rw [h3]; exact hlog _ _
  · have hi : Ignores (fun (_ : Bool) (a b : St σ) => ∃ x, log b.w.srv = log a.w.srv ++ x) :=
      ⟨fun _ s _ => ⟨[], by simp⟩, by rintro x a b c ⟨p, h⟩ ⟨q, h'⟩; exact ⟨p ++ q, by rw [h', h]; simp⟩⟩
    obtain ⟨x, hx⟩ := cont_resp hi E op (fun m _ s => by
      obtain ⟨fs, n, _, _, e, _⟩ := Trace.send E log hlog m (fun _ _ => True) (fun _ _ _ _ => trivial) s
      exact ⟨_, e⟩) s _ _ h2
    refine ⟨message f, x, ?_, fun h => absurd h hs⟩
    rw [hx]
    show log (E.V.react s.w.srv (message f)).1 ++ x = _
    rw [hlog]; simp

example : ∃ p rest, (runOp (Demo.env true) (.openfile Demo.share (List.replicate 32766 'a')) (Demo.st [])).2.w.srv.2 = [] ++ p :: rest ∧
    (single (.openfile Demo.share (List.replicate 32766 'a')) = true → rest = []) := by
  refine C25_sent (Demo.env true) Prod.snd (logs_logged _) _ (Demo.st []) ?_ (fun h => absurd h.2 (by decide)) ?_
  · intro ev hev; simp [Demo.st] at hev; rcases hev with h | h <;> exact ⟨_, h⟩
  · simp only [Fits]
    rw [utf16Len_replicate _ _ (by decide)]; decide

/-- **C25.** A call whose arguments do not fit fails with an error, having written nothing and consumed nothing. -/
theorem C25_refused (E : Env σ) (op : Op) (s : St σ) (hc : ¬ (E.checked = true ∧ s.cli.mid.toNat = 65535))
    (h : ¬ Fits s.cli.useUnicode op) (hp : ¬ Panics op) :
    ∃ e, runOp E op s = (.err (.SMBError (.CreatePacket e)), { s with cli := { s.cli with mid := s.cli.mid + 1 } }) := by
  obtain ⟨e, he⟩ := first_long s.cli op h hp
  exact ⟨e, runOp_send_err E op s _ _ (send_unbuilt E op.first s _ hc he)⟩

/-- Arguments that do not fit. -/
example : ¬ Fits true (.openfile Demo.share (List.replicate 40000 'a')) ∧ ¬ Panics (.openfile Demo.share (List.replicate 40000 'a')) := by
  refine ⟨?_, id⟩
  simp only [Fits]
  rw [utf16Len_replicate _ _ (by decide)]; decide

/-- **C25 is violated.** For find_first, list and find_next there are name lengths (32726 to 32760 UTF-16 units) on which the client
panics (`expect` in /repo/src/smb/trans2/msg.rs). -/
theorem C25_violated_panic (E : Env σ) (op : Op) (s : St σ) (hc : ¬ (E.checked = true ∧ s.cli.mid.toNat = 65535)) (h : Panics op) :
    runOp E op s = (.panic, { s with cli := { s.cli with mid := s.cli.mid + 1 } }) :=
  runOp_send_panic E op s _ (send_unbuilt_panic E op.first s hc (first_panics s.cli op h))

/-- There are such calls. -/
example : Panics (.findFirst Demo.share (List.replicate 32740 '*')) := by
  simp only [Panics]
  rw [utf16Len_replicate _ _ (by decide)]; decide

/-- **C25**, as far as it holds (`_partial`: calls in the range of `C25_violated_panic` panic instead): the fate of a call's arguments is
decided before anything is sent, and there is no third way: either they fit and a request is sent, or the call returns an error, or it is
one of the calls of `C25_violated_panic`. -/
theorem C25_partial (E : Env σ) (log : σ → List Bytes) (hlog : Logs E.V log) (op : Op) (s : St σ) (hw : Accepting s.w.wsched)
    (hc : ¬ (E.checked = true ∧ s.cli.mid.toNat = 65535)) (hp : ¬ Panics op) :
    (∃ p rest, log (runOp E op s).2.w.srv = log s.w.srv ++ p :: rest) ∨
    (∃ e, runOp E op s = (.err (.SMBError (.CreatePacket e)), { s with cli := { s.cli with mid := s.cli.mid + 1 } })) := by
  by_cases h : Fits s.cli.useUnicode op
  · obtain ⟨p, rest, e, _⟩ := C25_sent E log hlog op s hw hc h
    exact .inl ⟨p, rest, e⟩
  · exact .inr (C25_refused E op s hc h hp)

/-- **C60**, concretely: after a call with over-long arguments, every history goes on as if the call had not been made, except that one
multiplex id was skipped. -/
theorem C60_overlong (E : Env σ) (op : Op) (s : St σ) (hc : ¬ (E.checked = true ∧ s.cli.mid.toNat = 65535))
    (h : ¬ Fits s.cli.useUnicode op) (hp : ¬ Panics op) (ops : List Op) :
    ∃ e, runOps E (op :: ops) s =
      (.err (.SMBError (.CreatePacket e)) :: (runOps E ops { s with cli := { s.cli with mid := s.cli.mid + 1 } }).1,
       (runOps E ops { s with cli := { s.cli with mid := s.cli.mid + 1 } }).2) := by
  obtain ⟨e, he⟩ := C25_refused E op s hc h hp
  exact ⟨e, by simp only [runOps, he]⟩

/-! ## C26 -/

/-- **C26.** Whatever the message, a frame that was built fits the transport. -/
theorem C26_fits {c : Cli} {m : Msg} {f : Bytes} (h : requestFrame c m = .ok f) : f.length ≤ maxPayload := by
  have := requestFrame_length h
  simp only [maxPayload]; omega

example : ∃ f, requestFrame Demo.cli (OpenMsg.fileRo 0x0801 ['a']).msg = .ok f ∧ f.length ≤ 66081 := ⟨_, rfl, by decide +kernel⟩

/-- **C26.** Sending a request never fails because the transport refused it. -/
theorem C26_never_refused (E : Env σ) (m : Msg) (s : St σ) : (send E m s).1 ≠ .err (.NetBios .InvalidFrame) := by
  rcases send_cases E m s with ⟨_, _, h⟩ | ⟨_, ⟨e, _, h⟩ | ⟨_, h⟩ | ⟨f, hf, hl, h⟩ | ⟨f, hf, hl, ws, p, q, hpq, ⟨rfl, _, h⟩ | ⟨e, h⟩ | h⟩⟩
  · rw [h]; simp
  · rw [h]; simp
  · rw [h]; simp
  · have := requestFrame_length hf
    simp only [MAX_FRAME_LENGTH] at hl; omega
  · rw [h]; simp
  · rw [h]; simp
  · rw [h]; simp

/-- **C26.** Every packet sent by an operation or a login has at most half the length the transport allows. -/
theorem C26_sent (hlog : Logs E.V log) (op : Op) (s : St σ) (p : Bytes)
    (h : Sent log s.w.srv (runOp E op s).2.w.srv p ∨ Sent log s.w.srv (setupConnection E s).2.w.srv p) : p.length ≤ 4 + 66081 := by
  rcases h with h | h
  · obtain ⟨k, m, b, d, _, _, h1, h2, rfl⟩ := sent_frame hlog h
    rw [frame_length]; omega
  · obtain ⟨c, m, b, d, _, _, h1, h2, rfl⟩ := setup_sent hlog h
    rw [frame_length]; omega

/-! ## C27 -/

/-- **C27 is violated.** Whatever buffer size below 65000 was negotiated, in every session state there is a call that sends a longer
request. (4 bytes of each packet are the transport's.) -/
theorem C27_violated (E : Env σ) (log : σ → List Bytes) (hlog : Logs E.V log) (s : St σ) (hw : Accepting s.w.wsched)
    (hc : ¬ (E.checked = true ∧ s.cli.mid.toNat = 65535)) (hm : s.cli.maxSmbSize < 65000) (share : Share) :
    ∃ path p, log (runOp E (.openfile share path) s).2.w.srv = log s.w.srv ++ [p] ∧ s.cli.maxSmbSize < p.length - 4 := by
  have hn : utf16Len (List.replicate 32500 'a') = 32500 := utf16Len_replicate _ _ (by decide)
  have hb := utf16Len_backslashed (List.replicate 32500 'a')
  rw [hn] at hb
  obtain ⟨f, hf, hl⟩ := frame_open s.cli (OpenMsg.fileRo share.tid (sanitizePath (List.replicate 32500 'a')))
    (by show utf16Len (backslashed _) ≤ _; rw [hb]; decide)
  have hl' : f.length = 65086 := by
    rw [hl]; show 32 + 1 + 48 + 2 + (2 * utf16Len (backslashed _) + 3) = _; rw [hb]
  obtain ⟨ws, ib, _, h⟩ := runOp_single_sends E (.openfile share (List.replicate 32500 'a')) rfl s f hc hf
    (by simp only [maxPayload]; omega) hw
  refine ⟨List.replicate 32500 'a', message f, ?_, ?_⟩
  · rw [h]; exact hlog _ _
  · obtain ⟨hd, e1, e2⟩ := message_eq f
    rw [e2]; simp [e1]; omega

theorem umount_lengths {t : UInt16} {i : Info} {p d : Bytes} (h : (treeDisconnectMsg t).body i = .ok (p, d)) :
    ((treeDisconnectMsg t).params p).length = 0 ∧ d.length = 0 := by cases h; exact ⟨rfl, rfl⟩
theorem close_lengths {t f : UInt16} {i : Info} {p d : Bytes} (h : (closeMsg t f).body i = .ok (p, d)) :
    ((closeMsg t f).params p).length = 6 ∧ d.length = 0 := by cases h; exact ⟨rfl, rfl⟩
theorem read_lengths {t f : UInt16} {o : UInt64} {i : Info} {p d : Bytes} (h : (readMsg t f o).body i = .ok (p, d)) :
    ((readMsg t f o).params p).length = 24 ∧ d.length = 0 := by cases h; exact ⟨rfl, rfl⟩
theorem delete_lengths {t : UInt16} {n : Str} {i : Info} {p d : Bytes} (h : (deleteMsg t n).body i = .ok (p, d)) :
    ((deleteMsg t n).params p).length = 2 ∧ d.length = 2 * utf16Len n + 3 := by cases h; exact ⟨rfl, by simp [encodeUtf16le0]⟩
theorem rmdir_lengths {t : UInt16} {n : Str} {i : Info} {p d : Bytes} (h : (rmdirMsg t n).body i = .ok (p, d)) :
    ((rmdirMsg t n).params p).length = 0 ∧ d.length = 2 * utf16Len n + 3 := by cases h; exact ⟨rfl, by simp [encodeUtf16le0]⟩
theorem notify_lengths {t f : UInt16} {w : UInt32} {i : Info} {p d : Bytes}
    (h : (transactMsg t (notifySetup f w false)).body i = .ok (p, d)) :
    ((transactMsg t (notifySetup f w false)).params p).length = 46 ∧ d.length = 3 := by
  rw [transact_body] at h; cases h; exact ⟨rfl, rfl⟩

theorem treeConnect_lengths {c : Cli} {path password : Str} {p d : Bytes}
    (h : (treeConnectMsg path password).body (requestInfo c (treeConnectMsg path password)) = .ok (p, d)) :
    ((treeConnectMsg path password).params p).length = 8 ∧ d.length = mountLength c.useUnicode path password := by
  have hd := length_treeConnectData c.useUnicode path password
  rw [body_treeConnect_eq, requestInfo_unicode _ _ rfl] at h
  rw [params_treeConnect]
  split at h
  · cases h
    exact ⟨rfl, by rw [hd]; simp only [mountLength, utf8Bytes_eq]⟩
  · cases h

/-- **C27**, as far as it holds (`_partial`: nothing compares a request with the negotiated size): the length of each request is bounded
by its arguments, so a caller who keeps them short enough stays below any buffer size. -/
theorem C27_partial (hlog : Logs E.V log) (op : Op) (s : St σ) (p : Bytes) (h : Sent log s.w.srv (runOp E op s).2.w.srv p) :
    p.length - 4 ≤ 100 + (match op with
      | .mount path password => mountLength s.cli.useUnicode path password
      | .openfile _ path => 2 * utf16Len path
      | .opendir _ path => 2 * utf16Len path
      | .download _ _ path => 2 * utf16Len path
      | .delete _ path => 2 * utf16Len path
      | .rmdir _ path => 2 * utf16Len path
      | .findFirst _ pattern => 2 * utf16Len pattern
      | .findNext _ _ last => 2 * utf16Len last
      | .list .. => 65464
      | _ => 0) := by
  have hs := utf16Len_backslashed
  simp only [backslashed_eq] at hs
  obtain ⟨k, m, b, d, hm, hb, h1, h2, rfl⟩ := sent_frame hlog h
  rw [frame_length]
  have hopen : ∀ {o : OpenMsg} {i : Info} {p d : Bytes}, o.msg.body i = .ok (p, d) →
      (o.msg.params p).length = 48 ∧ d.length = 2 * utf16Len o.filename + 3 := by
    intro o i p d hb
    obtain ⟨_, rfl, rfl⟩ := body_open_ok hb
    rw [params_open]; simp
  have ht2 : ∀ {t : UInt16} {c : SubCmd2} {i : Info} {p d sp : Bytes}, c.parameter = .ok sp → c.data = .ok [] →
      (transact2Msg t c).body i = .ok (p, d) → ((transact2Msg t c).params p).length = 30 ∧ d.length ≤ sp.length + 6 ∧ sp.length ≤ 65464 := by
    intro t c i p d sp h1 h2 hb
    rw [transact2_body t c i sp [] h1 h2] at hb
    have hr : roundUp4n (68 + sp.length) = 68 + sp.length + fillUp4n (68 + sp.length) := by unfold roundUp4n fillUp4n; omega
    have hm : roundUp4n (68 + sp.length) % 4 = 0 := by unfold roundUp4n; omega
    have hf : fillUp4n (68 + sp.length) ≤ 3 := by unfold fillUp4n; omega
    repeat' split at hb
    all_goals cases hb
    rw [params_transact2]; simp; omega
  cases op
  case mount a b =>
    cases hm
    obtain ⟨g1, g2⟩ := treeConnect_lengths hb
    have e : mountLength (s.cli.withMid k).useUnicode (sanitizePath a) b = mountLength s.cli.useUnicode a b := by
      have e2 : (s.cli.withMid k).useUnicode = s.cli.useUnicode := rfl
      simp only [e2, mountLength, hs, utf8Len_sanitize]
    dsimp only
    omega
  case umount => cases hm; have := umount_lengths hb; dsimp only; omega
  case openfile => cases hm; have := hopen hb; simp only [OpenMsg.fileRo, hs] at this ⊢; omega
  case opendir => cases hm; have := hopen hb; simp only [OpenMsg.dir, hs] at this ⊢; omega
  case close => cases hm; have := close_lengths hb; dsimp only; omega
  case read => cases hm; have := read_lengths hb; dsimp only; omega
  case download =>
    rcases hm with rfl | ⟨_, _, _, rfl⟩ | ⟨_, _, rfl⟩
    · have := hopen hb; simp only [OpenMsg.fileRo, hs] at this ⊢; omega
    · have := read_lengths hb; dsimp only; omega
    · have := close_lengths hb; dsimp only; omega
  case delete => cases hm; have := delete_lengths hb; rw [hs] at this; dsimp only; omega
  case rmdir => cases hm; have := rmdir_lengths hb; rw [hs] at this; dsimp only; omega
  case notify => cases hm; have := notify_lengths hb; dsimp only; omega
  case findFirst s n =>
    cases hm
    obtain ⟨sp, e1, e2⟩ := length_findFirst (sanitizePath n) (FileAttr.HIDDEN ||| FileAttr.SYSTEM ||| FileAttr.DIRECTORY)
    have := ht2 e1 rfl hb
    rw [hs] at e2
    dsimp only
    omega
  case findNext s i n =>
    cases hm
    obtain ⟨sp, e1, e2⟩ := length_findNext i n
    have := ht2 e1 rfl hb
    dsimp only
    omega
  case list b s n =>
    rcases hm with rfl | ⟨i, n', rfl⟩
    · obtain ⟨sp, e1, e2⟩ := length_findFirst (sanitizePath n) (FileAttr.HIDDEN ||| FileAttr.SYSTEM ||| FileAttr.DIRECTORY)
      have := ht2 e1 rfl hb
      dsimp only
      omega
    · obtain ⟨sp, e1, e2⟩ := length_findNext i n'
      have := ht2 e1 rfl hb
      dsimp only
      omega

example : ∃ p, Sent Prod.snd (Demo.st []).w.srv (runOp (Demo.env true) (.close Demo.handle) (Demo.st [])).2.w.srv p ∧
    p.length - 4 ≤ 100 + 0 := by
  have h : Sent Prod.snd (Demo.st []).w.srv (runOp (Demo.env true) (.close Demo.handle) (Demo.st [])).2.w.srv _ := ⟨_, rfl, .head _⟩
  exact ⟨_, h, C27_partial (logs_logged _) _ _ _ h⟩

/-! ## C28 -/

theorem ascii_lengths (s : Str) (h : ∀ c ∈ s, c.toNat < 128) : utf16Len s = s.length ∧ (utf8Bytes s).length = s.length := by
  induction s with
  | nil => exact ⟨rfl, rfl⟩
  | cons c s ih =>
    obtain ⟨h1, h2⟩ := ih (fun x hx => h x (.tail _ hx))
    have hc := h c (.head _)
    constructor
    · simp only [utf16Len, h1, List.length_cons]
      rw [if_pos (by omega)]; omega
    · have : (String.utf8EncodeChar c).length = 1 := by
        have hc' : c.toNat ≤ 127 := by omega
        simp [String.utf8EncodeChar, hc']
      simp only [utf8Bytes, List.flatMap_cons, List.length_append, List.length_cons, this]
      simp only [utf8Bytes] at h2
      omega

/-- **C28 is violated.** On a connection negotiated without Unicode, `openfile` sends a request that says it is not Unicode and carries a
UTF-16 name, which for every non-empty ASCII path is not the path in the other encoding. -/
theorem C28_violated (hlog : Logs E.V log) (share : Share) (path : Str) (hp : path ≠ []) (ha : ∀ c ∈ path, c.toNat < 128) (s : St σ)
    (hu : s.cli.useUnicode = false) (p : Bytes) (h : Sent log s.w.srv (runOp E (.openfile share path) s).2.w.srv p) :
    unicodeOf p = some false ∧
    ∃ name, dataOf p = some (0 :: name ++ [0, 0]) ∧ Utf16le (backslashed path) name ∧ name ≠ utf8Bytes (backslashed path) := by
  have h1 := C21_openfile hlog share path s p h
  have h2 := (C09_header E log hlog _ s p h).2.2.2.2.2.2.2.2.2.1
  rw [hu] at h2
  obtain ⟨name, hd, hn, _⟩ := h1.name
  refine ⟨h2, name, hd, hn, ?_⟩
  intro e
  have hl := congrArg List.length e
  obtain ⟨l1, l2⟩ := ascii_lengths path ha
  rw [utf16le_unique hn, length_utf16le, utf16Len_backslashed, backslashed_eq, utf8Len_sanitize, l1, l2] at hl
  exact hp (List.length_eq_zero_iff.mp (by omega))

/-- Such a request is sent. -/
example : ∃ p, Sent Prod.snd (Demo.st []).w.srv
    (runOp (Demo.env true) (.openfile Demo.share ['a']) { Demo.st [] with cli := { Demo.cli with useUnicode := false } }).2.w.srv p :=
  ⟨_, ⟨_, rfl, .head _⟩⟩

/-- **C28**, as far as it holds (`_partial`: on connections without Unicode only `mount` does as the flag says, see `C28_violated`): every
request's flag is what was negotiated (names are UTF-16 by C18 and C24, which is right if that is Unicode), and the path in a `mount` is
encoded as the request's own flag says. -/
theorem C28_partial (hlog : Logs E.V log) (op : Op) (s : St σ) (p : Bytes)
    (h : Sent log s.w.srv (runOp E op s).2.w.srv p) :
    unicodeOf p = some s.cli.useUnicode ∧
    (∀ path password, op = .mount path password → ∃ u, unicodeOf p = some u ∧ IsTreeConnect p u (passwordField password) (backslashed path)) := by
  have h2 := (C09_header E log hlog _ s p h).2.2.2.2.2.2.2.2.2.1
  refine ⟨h2, ?_⟩
  rintro path password rfl
  exact ⟨_, h2, C22_mount hlog path password s p h⟩

example : ∃ p, Sent Prod.snd (Demo.st []).w.srv
      (runOp (Demo.env true) (.mount ['a'] ['b']) { Demo.st [] with cli := { Demo.cli with useUnicode := false } }).2.w.srv p ∧
    unicodeOf p = some false ∧ IsTreeConnect p false (passwordField ['b']) (backslashed ['a']) := by
  have h : Sent Prod.snd (Demo.st []).w.srv
      (runOp (Demo.env true) (.mount ['a'] ['b']) { Demo.st [] with cli := { Demo.cli with useUnicode := false } }).2.w.srv _ := ⟨_, rfl, .head _⟩
  have h' := C28_partial (logs_logged _) _ _ _ h
  obtain ⟨u, h1, h2⟩ := h'.2 _ _ rfl
  have h0 : unicodeOf _ = some false := h'.1
  rw [h0] at h1
  cases h1
  exact ⟨_, h, h0, h2⟩

end Cifs
