import Verif.Props.Endless
/-! # C39: how large a file can be downloaded -/

namespace Cifs
open Spec

variable {σ : Type} {E : Env σ} {log : σ → List Bytes}

theorem yields_short {f chunk : Bytes} (h : Yields f chunk) : chunk.length < 65536 := by
  obtain ⟨ps, pad, _, _, _, h⟩ := h
  exact u16At_small h

theorem downloadLoop_ceiling (hE : E.checked = true) (file : Handle) (k : Nat) : ∀ (data d : Bytes) (s s' : St σ),
    downloadLoop E file k data s = (.ok d, s') →
    s.cli.mid.toNat ≤ s'.cli.mid.toNat ∧ d.length ≤ data.length + (s'.cli.mid.toNat - s.cli.mid.toNat) * 65535 := by
  induction k with
  | zero => intro data d s s' h; cases h
  | succ k ih =>
    intro data d s s' h
    by_cases hl : data.length < file.size.toNat
    · rw [downloadLoop, if_pos hl] at h
      obtain ⟨chunk, s1, hr, h⟩ := M.bind_inv h
      have hm := command_mid (keepsMid_setTid _ _ rfl) hE (show command E _ _ s = _ from hr)
      obtain ⟨_, _, _, _, hy⟩ := read_ok hr
      have hc := yields_short hy
      obtain ⟨h1, h2⟩ := ih _ _ _ _ h
      rw [List.length_append] at h2
      refine ⟨by omega, ?_⟩
      have e : s'.cli.mid.toNat - s.cli.mid.toNat = (s'.cli.mid.toNat - s1.cli.mid.toNat) + 1 := by omega
      rw [e, Nat.add_mul]
      omega
    · rw [downloadLoop, if_neg hl] at h
      cases h
      exact ⟨Nat.le_refl _, by omega⟩

/-- **C39** In a build with overflow checks, a download needs a multiplex id for the request to open the file, one for each request to read
and one for the request to close it; a reply brings at most 65535 bytes. So there is a limit to what can be downloaded, whatever the server
does, and it decreases with every request of the connection. -/
theorem C39_ceiling (hE : E.checked = true) {k : Nat} {share : Share} {path : Str} {s : St σ} {d : Bytes}
    (h : (runOp E (.download k share path) s).1 = .ok (.bytes d)) :
    s.cli.mid.toNat ≤ 65533 ∧ d.length ≤ (65533 - s.cli.mid.toNat) * 65535 := by
  rw [(runOp_download E k share path s).2.1] at h
  rcases hd : download E k share path s with ⟨o, s4⟩
  rw [hd] at h
  obtain rfl : o = .ok d := h
  obtain ⟨file, s1, h1, hd⟩ := M.bind_inv (show (openfile E share path >>= fun file => downloadLoop E file k [] >>= fun data =>
    close E file >>= fun _ => pure data) s = _ from hd)
  obtain ⟨data, s2, h2, hd⟩ := M.bind_inv hd
  obtain ⟨_, s3, h3, hd⟩ := M.bind_inv hd
  cases hd
  have m1 := command_mid (keepsMid_setTid _ _ rfl) hE (show command E _ _ s = _ from h1)
  obtain ⟨m2, hl⟩ := downloadLoop_ceiling hE file k _ _ _ _ h2
  have m3 := command_mid (keepsMid_setTid _ _ rfl) hE (show command E _ _ s2 = _ from h3)
  have := s4.cli.mid.toNat_lt
  refine ⟨by omega, ?_⟩
  rw [List.length_nil, Nat.zero_add] at hl
  exact Nat.le_trans hl (Nat.mul_le_mul_right _ (by omega))

/-- The bound concerns downloads that succeed, and there are such. -/
example : (runOp (Demo.fileEnv true 2 (Demo.chunksOf [1, 2] 1)) (.download 9 Demo.share ['a']) Demo.fileSt).1 = .ok (.bytes [1, 2]) :=
  Demo.isBytes_of (by decide +kernel)

/-- **C39** In a build without overflow checks, there is no limit: multiplex ids are used again, and a file of any size is downloaded. -/
theorem C39_release (hE : E.checked = false) (hlog : Logs E.V log) {path : Str} {content : Bytes} {least : Nat} {idle : σ → Prop}
    {opened : Handle → σ → Prop} {closed : σ → Prop} {share : Share} {own : Nat → Prop} (ho : ∀ mid, own mid)
    (hs : FileServer E.V own share.tid.toNat path content least idle opened closed) (hl : 0 < least) (s : St σ) (hi : idle s.w.srv)
    (hp : Fits s.cli.useUnicode (.openfile share path)) (hw : Accepting s.w.wsched) (hu : Foreign own s.w.inbox.flatten) (budget : Nat)
    (hb : content.length < budget) :
    (runOp E (.download budget share path) s).1 = .ok (.bytes content) ∧ closed (runOp E (.download budget share path) s).2.w.srv ∧
      ∃ h pre req, log (runOp E (.download budget share path) s).2.w.srv = log s.w.srv ++ pre ++ [req] ∧ CloseRequest req h :=
  C39_content_partial hlog hs content.length (Nat.le_mul_of_pos_right _ hl) s hi hp
    ⟨hw, hu, fun _ _ => ho _, fun h => absurd (hE.symm.trans h) nofun⟩ budget hb

/-- A file of four gigabytes, in chunks of 65535 bytes. -/
def Demo.large : Bytes := List.replicate 4294967296 7

theorem Demo.large_length : large.length = 4294967296 := List.length_replicate

theorem Demo.serves_large (own : Nat → Prop) (tid : Nat) (path : Str) :
    FileServer (logged (fileServer 4294967296 (chunksOf large 65535))) own tid path large 65535 (fun _ => True)
      (fun h _ => h = fileHandle (UInt64.ofNat large.length)) (fun _ => True) := by
  have hs := serves_file own large (by rw [large_length]; decide) 65535 (by decide) tid path
  have e : UInt64.ofNat large.length = 4294967296 := by rw [large_length]; rfl
  rw [e] at hs ⊢
  exact hs

/-- Without overflow checks it is downloaded. -/
example : (runOp (Demo.fileEnv false 4294967296 (Demo.chunksOf Demo.large 65535)) (.download 4294967297 Demo.share ['a']) Demo.fileSt).1 =
    .ok (.bytes Demo.large) :=
  (C39_release (E := Demo.fileEnv false 4294967296 (Demo.chunksOf Demo.large 65535)) rfl (logs_logged _) (own := fun _ => True) (fun _ => trivial)
    (Demo.serves_large _ _ _) (by decide) Demo.fileSt trivial (by show utf16Len ['a'] ≤ nameLimit; decide) Demo.accepting_fileSt .nil _
    (by rw [Demo.large_length]; decide)).1

/-- **C39** is violated in builds with overflow checks: a file of four gigabytes cannot be downloaded, though the server serves it. -/
theorem C39_violated : ∃ (E : Env (Unit × List Bytes)) (s : St (Unit × List Bytes)) (share : Share) (content : Bytes) (idle closed : _ → Prop)
    (opened : Handle → _ → Prop), Logs E.V Prod.snd ∧ FileServer E.V (fun _ => True) share.tid.toNat ['a'] content 65535 idle opened closed ∧
      idle s.w.srv ∧ Accepting s.w.wsched ∧ s.w.inbox = [] ∧ Fits s.cli.useUnicode (.openfile share ['a']) ∧
      ∀ budget, (runOp E (.download budget share ['a']) s).1 ≠ .ok (.bytes content) := by
  refine ⟨Demo.fileEnv true 4294967296 (Demo.chunksOf Demo.large 65535), Demo.fileSt, Demo.share, Demo.large, fun _ => True, fun _ => True, _,
    logs_logged _, Demo.serves_large _ _ _, trivial, Demo.accepting_fileSt, rfl, by show utf16Len ['a'] ≤ nameLimit; decide, fun budget h => ?_⟩
  have := (C39_ceiling rfl h).2
  rw [Demo.large_length] at this
  have e : Demo.fileSt.cli.mid.toNat = 7 := rfl
  rw [e] at this
  omega

end Cifs
