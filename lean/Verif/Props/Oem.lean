import Verif.Props.Entries
import Verif.Spec.Oem
/-! # C36, C37: listings in sessions without Unicode -/

namespace Cifs
open Spec

variable {σ : Type}

theorem ascii_wide {s : Str} {b : Bytes} (ha : Ascii s b) (hw : Utf16le s b) : s = [] := by
  have h1 : b.length = s.length := by simpa using congrArg List.length ha.2
  have h2 := congrArg List.length (utf16le_unique hw)
  rw [length_utf16le] at h2
  have h3 : ∀ s : Str, s.length ≤ utf16Len s := by
    intro s
    induction s with
    | nil => exact Nat.le_refl _
    | cons c s ih => rw [utf16Len, List.length_cons]; split <;> omega
  have h4 := h3 s
  exact List.length_eq_zero_iff.mp (by omega)

theorem oem_name {b : Bytes} {d e : DirInfo} (hd : IsEntryIn Ascii b d) (he : IsEntry b e) (hn : d.filename ≠ []) : e.filename ≠ d.filename := by
  obtain ⟨n, nm, h1, h2, h3⟩ := hd.name
  obtain ⟨n', nm', h1', h2', h3'⟩ := he.name
  rw [h1] at h1'; cases h1'
  rw [h2] at h2'; cases h2'
  intro e
  rw [e] at h3'
  exact hn (ascii_wide h3 h3')

theorem oem_misnamed {zero : Bool} {b : Bytes} {ds es : List DirInfo} (hd : EntriesIn Ascii b ds) (he : Listed zero b es) : Misnamed ds es := by
  induction hd generalizing es with
  | none => intro i d e h; simp at h
  | @last b d0 h hd =>
    intro i d e h1 h2
    cases i with
    | succ i => simp at h1
    | zero =>
      cases he with
      | none => simp at h2
      | stop => simp at h2
      | bare => simp at h2
      | last hz h' hd' =>
        simp at h1 h2; subst h1 h2
        exact oem_name hd hd'
      | more h' h0 => rw [h] at h'; cases h'; omega
  | @more b next d0 ds h h0 hl hd hs ih =>
    intro i d e h1 h2
    cases he with
    | none => simp at h2
    | stop => simp at h2
    | bare => simp at h2
    | last hz h' hd' => rw [h] at h'; cases h'; omega
    | @more _ next' e0 es h' h0' hl' hd' hs' =>
      rw [h] at h'; cases h'
      cases i with
      | zero =>
        simp at h1 h2; subst h1 h2
        exact oem_name hd hd'
      | succ i => exact ih hs' i d e (by simpa using h1) (by simpa using h2)

/-- **C36** In a session without Unicode every first page with ASCII names is misread, not only that of `C36_violated`: whatever entries `find_first` returns,
if it returns at all, none of them has the right name. -/
theorem C36_oem {E : Env σ} {log : σ → List Bytes} (hlog : Logs E.V log) {share : Share} {pattern : Str} {s : St σ} {l : List Piece}
    {rest P D : Bytes} (h : Searched E log (.findFirst share pattern) s l rest) (hc : Cuts l P D) {ds : List DirInfo} (hd : EntriesIn Ascii D ds)
    {r : FindFirst2} (hr : (runOp E (.findFirst share pattern) s).1 = .ok (.first r)) : Misnamed ds r.info := by
  rw [first_page hlog h hc] at hr
  cases hp : findFirst2Parse P D with
  | err e => rw [hp] at hr; cases hr
  | panic => rw [hp] at hr; cases hr
  | ok r' =>
    rw [hp] at hr
    cases hr
    exact oem_misnamed hd ((findFirst_parse P D).1 _ |>.mp hp).2.1

/-- **C37** The same for further pages. -/
theorem C37_oem {E : Env σ} {log : σ → List Bytes} (hlog : Logs E.V log) {share : Share} {sid : UInt16} {last : Str} {s : St σ} {l : List Piece}
    {rest P D : Bytes} (h : Searched E log (.findNext share sid last) s l rest) (hc : Cuts l P D) {ds : List DirInfo} (hd : EntriesIn Ascii D ds)
    {r : FindNext2} (hr : (runOp E (.findNext share sid last) s).1 = .ok (.next r)) : Misnamed ds r.info := by
  rw [next_page hlog h hc] at hr
  cases hp : findNext2Parse P D with
  | err e => rw [hp] at hr; cases hr
  | panic => rw [hp] at hr; cases hr
  | ok r' =>
    rw [hp] at hr
    cases hr
    exact oem_misnamed hd ((findNext_parse P D).1 _ |>.mp hp).2.1

namespace Demo

/-- An entry with a name of two bytes, `ca`, which read as UTF-16 are one letter. -/
def oemPair : Bytes := entryBytes.take 60 ++ putU32 2 ++ [0x63, 0x61]
def oemPairDir : DirInfo := { cat with filename := ['c', 'a'] }
def oemPairParams : Bytes :=
  putU16 10 ++ putU16 66 ++ putU16 0 ++ putU16 10 ++ putU16 55 ++ putU16 0 ++ putU16 66 ++ putU16 65 ++ putU16 0 ++ [0, 0]
def oemPairReply : Bytes := reply .Transact2 7 oemPairParams (firstParams ++ oemPair)

theorem oemPairIs : EntriesIn Ascii oemPair [oemPairDir] :=
  .last (by decide +kernel) ⟨⟨_, by decide +kernel, rfl⟩, ⟨_, by decide +kernel, rfl⟩, ⟨_, by decide +kernel, rfl⟩, ⟨_, by decide +kernel, rfl⟩, by decide +kernel,
    ⟨0x21, by decide +kernel, by decide +kernel⟩, ⟨2, [0x63, 0x61], by decide +kernel, by decide +kernel, by decide, by decide⟩⟩

theorem searchedPair : Searched (env true) Prod.snd search (stOf oemCli [[message oemPairReply]]) [whole firstParams oemPair] [] := by
  have := step (r := oemPairReply) (ps := oemPairParams) (ds := firstParams ++ oemPair) (b := [])
    (p := whole firstParams oemPair) (by decide +kernel)
    ⟨10, 55, 66, 65, by decide +kernel, by decide +kernel, by decide +kernel, by decide +kernel, by decide +kernel, by decide +kernel, by decide +kernel,
      by decide +kernel, ⟨by decide, by decide +kernel⟩, ⟨by decide, by decide +kernel⟩⟩ (.nil _)
  rw [List.append_nil] at this
  exact searchedIn oemCli rfl search rfl (by decide +kernel) this

/-- The names in what `find_first` returned. -/
def shownNames : Out Error Val → Option (List Str)
  | .ok (.first r) => some (r.info.map DirInfo.filename)
  | _ => none

/-- non-vacuity of `C36_oem` (`C37_oem` has the same hypotheses): `find_first` does return, with one entry, whose name is another one. -/
example : ∃ r, (runOp (env true) search (stOf oemCli [[message oemPairReply]])).1 = .ok (.first r) ∧ r.info.map DirInfo.filename = [['慣']] ∧
    Misnamed [oemPairDir] r.info := by
  have h : shownNames (runOp (env true) search (stOf oemCli [[message oemPairReply]])).1 = some [['慣']] := by decide +kernel
  revert h
  cases ho : (runOp (env true) search (stOf oemCli [[message oemPairReply]])).1 with
  | ok v =>
    cases v with
    | first r =>
      intro h
      exact ⟨r, rfl, Option.some.inj h, C36_oem (logs_logged script) searchedPair (cuts_whole _ _) oemPairIs ho⟩
    | _ => intro h; cases h
  | _ => intro h; cases h

end Demo

end Cifs
