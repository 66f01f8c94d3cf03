import Verif.Props.Shared
import Verif.Props.Service
/-!
# Reading in pieces from a file that others write to (C85)
-/

namespace Cifs
open Spec

variable {σ : Type} {E : Env σ}

/-- What a chunk has to do with a content: it is what follows the offset there, and is not shorter than promised. -/
def Spec.ChunkOf (content : Bytes) (least : Nat) (p : UInt64 × Bytes) : Prop :=
  p.2 <+: content.drop p.1.toNat ∧ min least (content.length - p.1.toNat) ≤ p.2.length

/-- Reads from a file that is held against others, and closing it. -/
theorem held_reads {own : Nat → Prop} {tid : Nat} {path : Str} {least : Nat} {content : σ → Bytes} {free : σ → Prop} {held : Nat → Handle → σ → Prop}
    (hs : SharedFile E.V own tid path least content free held) {h : Handle} {access : Nat} (hw : ¬ LetsWrite access) (offsets : List UInt64) :
    ∀ (s : St σ), held access h s.w.srv → Ready E own (offsets.length + 1) s →
      ∃ chunks, chunks.length = offsets.length ∧ (∀ p ∈ offsets.zip chunks, ChunkOf (content s.w.srv) least p) ∧
        (runOps E (offsets.map (Op.read h) ++ [.close h]) s).1 = chunks.map (fun c => .ok (.bytes c)) ++ [.ok .unit] ∧
        free (runOps E (offsets.map (Op.read h) ++ [.close h]) s).2.w.srv := by
  induction offsets with
  | nil =>
    intro s hh hr
    obtain ⟨cf, hcf⟩ := first_fits s.cli (.close h) trivial
    obtain ⟨f, c1, c2, c3⟩ := hs.closes _ _ access h hh (closeRequest hcf)
    obtain ⟨s', d1, d2, d3, d4, d5⟩ := command_serves (keepsMid_setTid _ _ rfl) closeReply hr.writes hr.first.1 hr.unread hr.first.2 hcf c1
      (fun i hp => (accept_close hp).mpr c2)
    have hd : runOp E (.close h) s = (.ok .unit, s') := map'_ok d1
    refine ⟨[], rfl, by simp, ?_, ?_⟩
    · show [(runOp E (.close h) s).1] = _
      rw [hd]; rfl
    · show free (runOp E (.close h) s).2.w.srv
      rw [hd]; show free s'.w.srv; rw [d3]; exact c3
  | cons offset rest ih =>
    intro s hh hr
    obtain ⟨fr, hfr⟩ := first_fits s.cli (.read h offset) trivial
    obtain ⟨f, chunk, h1, h2, h3, h4, h5, h6⟩ := hs.reads _ _ access h offset.toNat hh (readRequest hfr)
    have h6 := h6 hw
    rw [h6] at h3 h4
    obtain ⟨s', g1, g2, g3, g4, g5⟩ := command_serves (keepsMid_setTid _ _ rfl) readReply hr.writes hr.first.1 hr.unread hr.first.2 hfr h1
      (fun i hp => (accept_read hp chunk).mpr h2)
    have hd : runOp E (.read h offset) s = (.ok (.bytes chunk), s') := map'_ok g1
    obtain ⟨chunks, k1, k2, k3, k4⟩ := ih s' (by rw [g3]; exact h5) (hr.next g2 g4 g5)
    rw [g3, h6] at k2
    refine ⟨chunk :: chunks, by simp [k1], ?_, ?_, ?_⟩
    · intro p hp
      rcases List.mem_cons.mp hp with rfl | hp
      · exact ⟨h3, h4⟩
      · exact k2 p hp
    · show (runOp E (.read h offset) s).1 :: (runOps E _ (runOp E (.read h offset) s).2).1 = _
      rw [hd]; exact congrArg _ k3
    · show free (runOps E _ (runOp E (.read h offset) s).2).2.w.srv
      rw [hd]; exact k4

/-- **C85** A caller who opens the file and reads from it in pieces, at any offsets and in any order, sees one content: the one that the file
had when it was opened, whatever others do meanwhile. After closing, the file is free again. -/
theorem C85_reads {own : Nat → Prop} {path : Str} {least : Nat} {content : σ → Bytes} {free : σ → Prop} {held : Nat → Handle → σ → Prop}
    {share : Share} (hs : SharedFile E.V own share.tid.toNat path least content free held) (offsets : List UInt64) (s : St σ) (hi : free s.w.srv)
    (hp : Fits s.cli.useUnicode (.openfile share path)) (hr : Ready E own (offsets.length + 2) s) :
    ∃ req h chunks, OpenRequest req share.tid.toNat path ∧ (runOp E (.openfile share path) s).1 = .ok (.handle h) ∧
      h.size.toNat = (content (E.V.react s.w.srv req).1).length ∧ chunks.length = offsets.length ∧
      (∀ p ∈ offsets.zip chunks, ChunkOf (content (E.V.react s.w.srv req).1) least p) ∧
      (runOps E (.openfile share path :: (offsets.map (Op.read h) ++ [.close h])) s).1 =
        .ok (.handle h) :: (chunks.map (fun c => .ok (.bytes c)) ++ [.ok .unit]) ∧
      free (runOps E (.openfile share path :: (offsets.map (Op.read h) ++ [.close h])) s).2.w.srv := by
  obtain ⟨fr, hfr⟩ := first_fits s.cli (.openfile share path) hp
  have ho := openRequest hfr
  obtain ⟨f, h, h1, h2, h3, h4⟩ := hs.opens _ _ _ _ _ hi ho.1 ho.2.1 ho.2.2
  obtain ⟨s1, g1, g2, g3, g4, g5⟩ := command_serves (keepsMid_setTid _ _ rfl) Handle.reply hr.writes hr.first.1 hr.unread hr.first.2 hfr h1
    (fun i hp => (accept_open hp h).mpr h2)
  have hd : runOp E (.openfile share path) s = (.ok (.handle h), s1) := map'_ok g1
  obtain ⟨chunks, k1, k2, k3, k4⟩ := held_reads hs (access := 1) (by unfold LetsWrite; decide) offsets s1 (by rw [g3]; exact h4) (hr.next g2 g4 g5)
  rw [g3] at k2
  refine ⟨message fr, h, chunks, ho, by rw [hd], h3, k1, k2, ?_, ?_⟩
  · show (runOp E (.openfile share path) s).1 :: (runOps E _ (runOp E (.openfile share path) s).2).1 = _
    rw [hd]; exact congrArg _ k3
  · show free (runOps E _ (runOp E (.openfile share path) s).2).2.w.srv
    rw [hd]; exact k4

/-- The file is read from the back to the front, others are about to write with each request. -/
example : ∃ h b, b <+: [3, 4, 5] ∧ 2 ≤ b.length ∧ (runOps { Demo.env true with V := C85_server 2 } [.openfile Demo.share ['a'], .read h 2, .read h 0, .close h]
    { cli := Demo.cli, w := { inbox := [], wsched := [.accept 3], out := [], srv := ⟨[1], [[[2], [3, 4, 5]], [[6]], [[7]]], none⟩ } }).1 =
      [.ok (.handle h), .ok (.bytes [5]), .ok (.bytes b), .ok .unit] := by
  obtain ⟨req, h, chunks, _, _, _, h4, h5, h6, _⟩ := C85_reads (E := { Demo.env true with V := C85_server 2 }) (share := Demo.share)
    (C85_possible (fun _ => True) Demo.share.tid.toNat ['a'] 2 (by decide)) [2, 0]
    { cli := Demo.cli, w := { inbox := [], wsched := [.accept 3], out := [], srv := ⟨[1], [[[2], [3, 4, 5]], [[6]], [[7]]], none⟩ } }
    ⟨by decide, by decide⟩ (by show utf16Len ['a'] ≤ nameLimit; decide)
    ⟨by intro ev he; simp at he; subst he; exact ⟨_, rfl⟩, .nil, fun _ _ => trivial, fun _ => by decide⟩
  match chunks, h4 with
  | [a, b], _ =>
    have ha : a <+: [5] ∧ 1 ≤ a.length := h5 (2, a) (.head _)
    have hb : b <+: [3, 4, 5] ∧ 2 ≤ b.length := h5 (0, b) (.tail _ (.head _))
    have ea : a = [5] := ha.1.eq_of_length_le ha.2
    exact ⟨h, b, hb.1, hb.2, h6.trans (by rw [ea]; rfl)⟩

end Cifs
