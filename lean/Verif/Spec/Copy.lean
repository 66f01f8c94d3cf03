import Verif.Spec.Disk
import Verif.Spec.Names
/-!
# Copying a directory with everything below it

The program that a user of the client would write: list the directory, download the files, and go on with the directories in it.
-/

namespace Cifs.Spec

variable {α β : Type}

/-- One program after the other. -/
def Prog.bind (f : α → Prog β) : Prog α → Prog β
  | .done x => f x
  | .call op next => .call op fun o => (next o).bind f

/-- Whatever the operations bring, all of them are of this kind, and so is the result. -/
def Prog.Keeps (P : Op → Prop) (R : α → Prop) : Prog α → Prop
  | .done x => R x
  | .call op next => P op ∧ ∀ o, (next o).Keeps P R

/-- The path of something in a directory. -/
def inside (path name : Str) : Str := path ++ '\\' :: name

/-- The path of something below a directory, by the names on the way. -/
def below (path : Str) : List Str → Str
  | [] => path
  | name :: names => below (inside path name) names

/-- A name that leads from a directory to something in it. -/
def Leads (name : Str) : Prop := IsName name ∧ name ≠ ['.'] ∧ name ≠ ['.', '.']

instance (name : Str) : Decidable (Leads name) := inferInstanceAs (Decidable (_ ∧ _))

/-- The directory itself, or the one that it is in. -/
def Dots (name : Str) : Prop := name = ['.'] ∨ name = ['.', '.']

instance (name : Str) : Decidable (Dots name) := inferInstanceAs (Decidable (_ ∨ _))

/-- The entry is one of a directory (FILE_ATTRIBUTE_DIRECTORY). -/
def isDir (d : DirInfo) : Bool := d.attributes &&& 0x10 != 0

/-- Paths of files with the contents. -/
abbrev Files := List (Str × Bytes)

/-- Copy what was found in a directory, skipping the names that are not to be kept. `sub` copies a directory. -/
def copyEntries (keep : Str → Bool) (k : Nat) (share : Share) (path : Str) (sub : Str → Prog (Option Files)) : List DirInfo → Prog (Option Files)
  | [] => .done (some [])
  | e :: l =>
    if keep e.filename then
      Prog.bind (fun x => match x with
        | none => .done none
        | some x => (copyEntries keep k share path sub l).bind fun y => .done (y.map (x ++ ·)))
        (if isDir e then sub (inside path e.filename)
          else .call (.download k share (inside path e.filename)) fun o => match o with
            | .ok (.bytes contents) => .done (some [(inside path e.filename, contents)])
            | _ => .done none)
    else copyEntries keep k share path sub l

/-- Copy a directory, down to some depth. There is no result if an operation fails, or if the directories go deeper. -/
def copyTree (keep : Str → Bool) (k : Nat) (share : Share) : Nat → Str → Prog (Option Files)
  | 0, _ => .done none
  | d + 1, path => .call (.list k share (inside path ['*'])) fun o => match o with
    | .ok (.entries l) => copyEntries keep k share path (copyTree keep k share d) l
    | _ => .done none

/-- Mount a volume, copy a directory on it, and unmount the volume again. -/
def fetchTree (keep : Str → Bool) (k : Nat) (volume : Str) (d : Nat) (path : Str) : Prog (Option Files) :=
  .call (.mount volume []) fun o => match o with
    | .ok (.share share) => (copyTree keep k share d path).bind fun x => .call (.umount share) fun _ => .done x
    | _ => .done none

/-- How many listings and downloads this takes. -/
def copySteps (keep : Str → Bool) (look : Volume → Str → List DirInfo) (vol : Volume) : Nat → Str → Nat
  | 0, _ => 0
  | d + 1, path => 1 + ((look vol (inside path ['*'])).map fun e =>
      if keep e.filename then if isDir e then copySteps keep look vol d (inside path e.filename) else 1 else 0).sum

/-- The file with these contents is below the directory. -/
def Volume.Has (vol : Volume) (path p : Str) (contents : Bytes) : Prop :=
  ∃ names, names ≠ [] ∧ (∀ n ∈ names, Leads n) ∧ p = below path names ∧ vol p = some (.file contents)

/-- The directory is listed as it is: there is one entry for each thing in it, and no others but those for itself and the one above. -/
structure Shown (look : Volume → Str → List DirInfo) (vol : Volume) (path : Str) : Prop where
  names : ∀ e ∈ look vol (inside path ['*']), Dots e.filename ∨ Leads e.filename
  found : ∀ name, Leads name → vol (inside path name) ≠ none → ∃ e ∈ look vol (inside path ['*']), e.filename = name
  kinds : ∀ e ∈ look vol (inside path ['*']), Leads e.filename →
    if isDir e then vol (inside path e.filename) = some .dir else ∃ contents, vol (inside path e.filename) = some (.file contents)
  once : ((look vol (inside path ['*'])).map (·.filename)).Nodup

/-- A directory that can be copied: the things in it are in directories, at most `d` levels deep; directories are listed as they are; `k` requests
suffice for each listing and each file; and the paths fit into requests. -/
structure Copyable (look : Volume → Str → List DirInfo) (vol : Volume) (k d : Nat) (path : Str) : Prop where
  plain : '/' ∉ path
  root : vol path = some .dir
  closed : ∀ p name, Leads name → vol (inside p name) ≠ none → vol p = some .dir
  deep : ∀ names, (∀ n ∈ names, Leads n) → d < names.length → vol (below path names) = none
  shown : ∀ names, (∀ n ∈ names, Leads n) → vol (below path names) = some .dir → Shown look vol (below path names)
  pages : ∀ names, (∀ n ∈ names, Leads n) → vol (below path names) = some .dir → utf16Len (inside (below path names) ['*']) ≤ 32725 ∧
    (look vol (inside (below path names) ['*'])).length ≤ k ∧ ∀ e ∈ look vol (inside (below path names) ['*']), utf16Len e.filename ≤ 32725
  files : ∀ names, (∀ n ∈ names, Leads n) → ∀ contents, vol (below path names) = some (.file contents) → utf16Len (below path names) ≤ 32766 ∧
    contents.length < k

end Cifs.Spec
