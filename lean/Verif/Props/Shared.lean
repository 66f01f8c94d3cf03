import Verif.Spec.Shared
import Verif.Props.Download
/-!
# Downloads of files that others write to (C85)
-/

namespace Cifs
open Spec

variable {σ : Type} {E : Env σ}

/-- **C85** A download returns the content that the file had when it was opened, whatever others do meanwhile; then the file is free again. -/
theorem C85_snapshot {own : Nat → Prop} {path : Str} {least : Nat} {content : σ → Bytes} {free : σ → Prop} {held : Nat → Handle → σ → Prop}
    {share : Share} (hs : SharedFile E.V own share.tid.toNat path least content free held) (n : Nat) (s : St σ) (hi : free s.w.srv)
    (hp : Fits s.cli.useUnicode (.openfile share path)) (hr : Ready E own (n + 2) s) (budget : Nat) (hb : n < budget)
    (hn : ∀ req, (content (E.V.react s.w.srv req).1).length ≤ n * least) :
    ∃ req, OpenRequest req share.tid.toNat path ∧
      (runOp E (.download budget share path) s).1 = .ok (.bytes (content (E.V.react s.w.srv req).1)) ∧
      free (runOp E (.download budget share path) s).2.w.srv := by
  obtain ⟨fr, hfr⟩ := first_fits s.cli (.openfile share path) hp
  have ho := openRequest hfr
  obtain ⟨f, h, h1, h2, h3, h4⟩ := hs.opens _ _ _ _ _ hi ho.1 ho.2.1 ho.2.2
  refine ⟨message fr, ho, ?_⟩
  generalize hv : (E.V.react s.w.srv (message fr)).1 = v1 at h3 h4
  have hl : (content v1).length ≤ n * least := by rw [← hv]; exact hn _
  -- after opening, the server serves one content
  have hF : FileServer E.V own share.tid.toNat path (content v1) least (fun v => v = s.w.srv ∧ False) (fun h v => held 1 h v ∧ content v = content v1) free := by
    refine ⟨fun _ _ h => h.2.elim, fun v req h offset hh hq hlt => ?_, fun v req h hh hq => hs.closes v req 1 h hh.1 hq⟩
    obtain ⟨f, chunk, k1, k2, k3, k4, k5, k6⟩ := hs.reads v req 1 h offset hh.1 hq
    have k6 := (k6 (by unfold LetsWrite; decide)).trans hh.2
    rw [k6] at k3 k4
    exact ⟨f, chunk, k1, k2, k3, k4, k5, k6⟩
  obtain ⟨e1, e2, _, _⟩ := runOp_download E budget share path s
  obtain ⟨s1, g1, g2, g3, g4, g5⟩ := command_serves (keepsMid_setTid _ _ rfl) Handle.reply hr.writes hr.first.1 hr.unread hr.first.2 hfr h1
    (fun i hp => (accept_open hp h).mpr h2)
  obtain ⟨s2, k1, k2, m, k3⟩ := served_loop hF h3 n [] s1 (by rw [g3, hv]; exact ⟨h4, rfl⟩) (List.nil_prefix) (by simpa using hl) (hr.next g2 g4 g5) budget hb
  obtain ⟨cf, hcf⟩ := first_fits s2.cli (.close h) trivial
  obtain ⟨f', c1, c2, c3⟩ := hF.closes _ _ h k2 (closeRequest hcf)
  obtain ⟨s3, d1, d2, d3, d4, d5⟩ := command_serves (keepsMid_setTid _ _ rfl) closeReply k3.writes k3.first.1 k3.unread k3.first.2 hcf c1
    (fun i hp => (accept_close hp).mpr c2)
  have hd : download E budget share path s = (.ok (content v1), s3) := (M.bind_ok g1).trans ((M.bind_ok k1).trans (M.bind_ok d1))
  refine ⟨(e2 _).mpr (by rw [hd]), ?_⟩
  rw [e1, hd]
  show free s3.w.srv
  rw [d3]; exact c3

/-! ## There are such servers -/

/-- A file that others write to: its content, what they are going to write next (with each request, in one go, any number of times), and the
share access of the client's handle, if it has one. -/
structure C85_File where
  content : Bytes
  todo : List (List Bytes)
  share : Option Nat

/-- The others take their turn, unless they are kept from it. -/
def C85_File.turn (v : C85_File) : C85_File :=
  match v.share, v.todo with
  | none, ws :: rest => { v with content := ws.getLastD v.content, todo := rest }
  | some share, ws :: rest => if share / 2 % 2 = 1 then { v with content := ws.getLastD v.content, todo := rest } else v
  | _, [] => v

/-- The share access in a request to open a file. -/
def C85_shareOf (req : Bytes) : Option Nat := (paramsOf req).bind (u32At · 31)

/-- A server with such a file, that sends chunks of at most `n` bytes. -/
def C85_server (n : Nat) : Server C85_File where
  react := fun v req => ({ v.turn with share := if cmdOf req = some 0xa2 then C85_shareOf req else if cmdOf req = some 0x2e then v.turn.share else none },
    [message (Demo.fileReply (UInt64.ofNat v.turn.content.length) (Demo.chunksOf v.turn.content n) req)])
  tail := fun _ => .eof

/-- All contents, now and later, are shorter than `2 ^ 64` bytes. -/
def C85_File.Small (v : C85_File) : Prop := v.content.length < 2 ^ 64 ∧ ∀ ws ∈ v.todo, ∀ w ∈ ws, w.length < 2 ^ 64

theorem turn_small {v : C85_File} (h : v.Small) : v.turn.Small := by
  have hw : ∀ {ws rest}, v.todo = ws :: rest → (ws.getLastD v.content).length < 2 ^ 64 ∧ ∀ ws ∈ rest, ∀ w ∈ ws, w.length < 2 ^ 64 := by
    intro ws rest he
    refine ⟨?_, fun x hx => h.2 x (by rw [he]; exact .tail _ hx)⟩
    cases hc : ws.getLast? with
    | none => rw [List.getLastD_eq_getLast?, hc]; exact h.1
    | some w =>
      rw [List.getLastD_eq_getLast?, hc]
      exact h.2 ws (by rw [he]; exact .head _) w (List.mem_of_getLast? hc)
  unfold C85_File.turn
  split
  · exact hw ‹_›
  · split
    · exact hw ‹_›
    · exact h
  · exact h

/-- **C85** There are such servers, with any contents, and with others that write anything at any time. -/
theorem C85_possible (own : Nat → Prop) (tid : Nat) (path : Str) (n : Nat) (hn : n < 65536) :
    SharedFile (C85_server n) own tid path n C85_File.content (fun v => v.Small) (fun share _ v => v.share = some share ∧ v.Small) := by
  have serves : ∀ (v : C85_File) (req f : Bytes), Demo.fileReply (UInt64.ofNat v.turn.content.length) (Demo.chunksOf v.turn.content n) req = f →
      f.length ≤ maxPayload → Genuine f → midOf (message f) = midOf req → Serves (C85_server n) own v req f := by
    intro v req f he hl hg hm
    refine ⟨[], [], ?_, .nil, .nil, hl, hg, hm⟩
    show List.flatten [message (Demo.fileReply (UInt64.ofNat v.turn.content.length) (Demo.chunksOf v.turn.content n) req)] = _
    rw [he]
    simp
  refine ⟨fun v req access share options hv hc ht ho => ?_, fun v req share h offset hh hq => ?_, fun v req share h hh hq => ?_⟩
  · have hg := Demo.reply_genuine req .Create (.Known .SUCCESS) (Demo.sizeParams (UInt64.ofNat v.turn.content.length)) [] (Demo.has_mid ho.words)
    refine ⟨_, _, serves v req _ ?_ (Demo.frame_short _ _ _ (by show 68 ≤ 100; decide) (by decide)) hg.1 hg.2, Demo.opens req _, ?_, ?_, turn_small hv⟩
    · rw [Demo.fileReply, if_pos hc]
    · show (UInt64.ofNat v.turn.content.length).toNat = v.turn.content.length
      rw [UInt64.toNat_ofNat_of_lt' (by simpa [UInt64.size] using (turn_small hv).1)]
    · show (if cmdOf req = some 0xa2 then C85_shareOf req else _) = _
      obtain ⟨ps, h1, _, _, _, _, _, h2, _⟩ := ho.fields
      rw [if_pos hc, C85_shareOf, h1]
      exact h2
  · have hl : ((v.turn.content.drop offset).take n).length < 65536 := by rw [List.length_take]; omega
    have hg := Demo.reply_genuine req .Read (.Known .SUCCESS) (Demo.readParams ((v.turn.content.drop offset).take n).length) ((v.turn.content.drop offset).take n)
      (Demo.has_mid hq.2.2.words)
    have hsh : v.turn.share = v.share := by unfold C85_File.turn; split <;> first | rfl | (split <;> rfl)
    refine ⟨_, _, serves v req _ ?_ (Demo.frame_short _ _ _ (by show 24 ≤ 100; decide) hl) hg.1 hg.2, Demo.yields req _ hl, List.take_prefix _ _, ?_, ⟨?_, turn_small hh.2⟩, ?_⟩
    · rw [Demo.fileReply, if_neg (by rw [hq.1]; decide), if_pos hq.1, Demo.offset_read hq]; rfl
    · show _ ≤ ((v.turn.content.drop offset).take n).length
      rw [List.length_take, List.length_drop]
      exact Nat.le_refl _
    · show (if cmdOf req = some 0xa2 then _ else if cmdOf req = some 0x2e then v.turn.share else none) = _
      rw [if_neg (by rw [hq.1]; decide), if_pos hq.1, hsh, hh.1]
    · intro hw
      show v.turn.content = v.content
      unfold C85_File.turn
      rw [hh.1]
      split
      · rename_i h _; cases h
      · rename_i h _; cases h; rw [if_neg (show ¬ share / 2 % 2 = 1 from hw)]
      · rfl
  · have hg := Demo.reply_genuine req .Close (.Known .SUCCESS) [] [] (Demo.has_mid hq.2.2.words)
    refine ⟨_, serves v req _ ?_ (Demo.frame_short _ _ _ (by decide) (by decide)) hg.1 hg.2, Demo.closes req, turn_small hh.2⟩
    rw [Demo.fileReply, if_neg (by rw [hq.1]; decide), if_neg (by rw [hq.1]; decide)]

/-- **C85** It takes the share access to achieve this: from a server that lets others write nevertheless, a download may get a content that the
file never had. -/
theorem C85_needed : ∃ (E : Env (Nat × List Bytes)) (s : St (Nat × List Bytes)) (contents : List Bytes) (d : Bytes),
    (∀ v req, ∃ c ∈ contents, (E.V.react v req).2 = [message (Demo.fileReply (UInt64.ofNat c.length) (Demo.chunksOf c 1) req)]) ∧
    (runOp E (.download 3 Demo.share ['a']) s).1 = .ok (.bytes d) ∧ d ∉ contents := by
  refine ⟨{ Demo.env true with V := logged { react := fun v req => (v + 1, [message (Demo.fileReply 2 (Demo.chunksOf (if v < 2 then [1, 1] else [2, 2]) 1) req)]), tail := fun _ => .eof } },
    { cli := Demo.cli, w := { inbox := [], wsched := [.accept 3], out := [], srv := (0, []) } }, [[1, 1], [2, 2]], [1, 2], fun v req => ?_, ?_, by decide⟩
  · by_cases h : v.1 < 2
    · exact ⟨[1, 1], .head _, by show [message (Demo.fileReply 2 (Demo.chunksOf (if v.1 < 2 then _ else _) 1) req)] = _; rw [if_pos h]; rfl⟩
    · exact ⟨[2, 2], .tail _ (.head _), by show [message (Demo.fileReply 2 (Demo.chunksOf (if v.1 < 2 then _ else _) 1) req)] = _; rw [if_neg h]; rfl⟩
  · exact Demo.isBytes_of (by decide +kernel)

/-- non-vacuity of `C85_snapshot`: others write twice before the client opens the file, and are about to write again. -/
example : (runOp { Demo.env true with V := C85_server 2 } (.download 4 Demo.share ['a'])
    { cli := Demo.cli, w := { inbox := [], wsched := [.accept 3], out := [], srv := ⟨[1], [[[2], [3, 4, 5]], [[6]], [[7]]], none⟩ } }).1 = .ok (.bytes [3, 4, 5]) := by
  obtain ⟨req, h1, h2, h3⟩ := C85_snapshot (E := { Demo.env true with V := C85_server 2 }) (share := Demo.share)
    (C85_possible (fun _ => True) Demo.share.tid.toNat ['a'] 2 (by decide)) 3
    { cli := Demo.cli, w := { inbox := [], wsched := [.accept 3], out := [], srv := ⟨[1], [[[2], [3, 4, 5]], [[6]], [[7]]], none⟩ } }
    ⟨by decide, by decide⟩ (by show utf16Len ['a'] ≤ nameLimit; decide)
    ⟨by intro ev he; simp at he; subst he; exact ⟨_, rfl⟩, .nil, fun _ _ => trivial, fun _ => by decide⟩ 4 (by decide)
    (fun req => by show (3 : Nat) ≤ _; decide)
  exact h2

end Cifs
