import Verif.Spec.Service
/-!
# A file system, as a service

Volumes with files and directories, which can be mounted, opened, read, watched, deleted and searched. The service is free to choose the numbers
of trees, open files and searches, the parts in which it tells the contents of a file or the results of a search, the changes of a directory that it
reports, and everything else that it says about a file or a share.
-/

namespace Cifs.Spec

variable {α : Type}

/-- A file with its contents, or a directory. -/
inductive Node where
  | file (contents : Bytes)
  | dir

/-- What a volume has, by the paths. -/
abbrev Volume := Str → Option Node

/-- The state of the service. -/
structure Store where
  /-- The volumes, by their names. -/
  disk : Str → Option Volume
  /-- The names of the volumes that are mounted, by the numbers of the trees. -/
  mounted : Nat → Option Str
  /-- What is open, by the numbers of tree and file. -/
  opened : Nat → Nat → Option Node
  /-- The entries that the searches have yet to tell, by the numbers of tree and search. -/
  searches : Nat → Nat → Option (List DirInfo)

/-- The volume that is mounted as a tree. -/
def Store.volume (a : Store) (tid : Nat) : Option Volume :=
  match a.mounted tid with
  | some name => a.disk name
  | none => none

/-- A table with one entry changed. -/
def entry {β : Type} (f : Nat → Option β) (i : Nat) (x : Option β) : Nat → Option β := fun j => if j = i then x else f j

/-- A table of two numbers with one entry changed. -/
def entry2 {β : Type} (f : Nat → Nat → Option β) (i j : Nat) (x : Option β) : Nat → Nat → Option β :=
  fun i' j' => if i' = i ∧ j' = j then x else f i' j'

/-- There is nothing in this directory. -/
def Volume.Empty (vol : Volume) (path : Str) : Prop := ∀ name, vol (path ++ '\\' :: name) = none

/-- The volume without a file or directory. -/
def Volume.without (vol : Volume) (path : Str) : Volume := fun p => if p = path then none else vol p

/-- The store without a file or directory. -/
def Store.without (a : Store) (tid : Nat) (path : Str) : Store :=
  { a with disk := fun name => if a.mounted tid = some name then (a.disk name).map (·.without path) else a.disk name }

/-- What is left of a search. -/
def left (rest : List DirInfo) : Option (List DirInfo) := if rest = [] then none else some rest

/-- The numbers in the call denote nothing. -/
def Store.Invalid (a : Store) : Call → Prop
  | .umount tid => a.mounted tid = none
  | .openfile tid _ | .opendir tid _ | .delete tid _ | .rmdir tid _ | .findFirst tid _ => a.volume tid = none
  | .read tid fid _ => ∀ contents, a.opened tid fid ≠ some (.file contents)
  | .notify tid fid _ => a.opened tid fid ≠ some .dir
  | .close tid fid => a.opened tid fid = none
  | .findNext tid sid _ => a.searches tid sid = none
  | _ => False

/-- There is no number left for a further tree, open file or search. -/
def Store.Full (a : Store) : Call → Prop
  | .mount .. => ∀ i < 65536, a.mounted i ≠ none
  | .openfile tid _ | .opendir tid _ => ∀ i < 65536, a.opened tid i ≠ none
  | .findFirst tid _ => ∀ i < 65536, a.searches tid i ≠ none
  | _ => False

/-- The file system. `look` says what a pattern finds on a volume. -/
inductive FileSystem (look : Volume → Str → List DirInfo) : Store → Call → Answer → Store → Prop
  | mount {a : Store} {password : Bytes} {name : Str} {vol : Volume} {share : Share} (hd : a.disk name = some vol)
      (hf : a.mounted share.tid.toNat = none) :
      FileSystem look a (.mount password name) (.value (.share share)) { a with mounted := entry a.mounted share.tid.toNat (some name) }
  /-- BAD_NETWORK_NAME -/
  | unknown {a : Store} {password : Bytes} {name : Str} (hd : a.disk name = none) : FileSystem look a (.mount password name) (.refused 0xC00000CC) a
  | umount {a : Store} {tid : Nat} {name : Str} (hm : a.mounted tid = some name) :
      FileSystem look a (.umount tid) (.value .unit) { a with mounted := entry a.mounted tid none }
  | open {a : Store} {tid : Nat} {path : Str} {vol : Volume} {contents : Bytes} {h : Handle} (hv : a.volume tid = some vol)
      (hp : vol path = some (.file contents)) (hs : h.size.toNat = contents.length) (ht : h.tid.toNat = tid) (hf : a.opened tid h.fid.toNat = none) :
      FileSystem look a (.openfile tid path) (.value (.handle h)) { a with opened := entry2 a.opened tid h.fid.toNat (some (.file contents)) }
  | opendir {a : Store} {tid : Nat} {path : Str} {vol : Volume} {h : Handle} (hv : a.volume tid = some vol) (hp : vol path = some .dir)
      (ht : h.tid.toNat = tid) (hf : a.opened tid h.fid.toNat = none) :
      FileSystem look a (.opendir tid path) (.value (.handle h)) { a with opened := entry2 a.opened tid h.fid.toNat (some .dir) }
  /-- FILE_IS_A_DIRECTORY -/
  | isDir {a : Store} {c : Call} {tid : Nat} {path : Str} {vol : Volume} (hc : c = .openfile tid path ∨ c = .delete tid path)
      (hv : a.volume tid = some vol) (hp : vol path = some .dir) : FileSystem look a c (.refused 0xC00000BA) a
  /-- NOT_A_DIRECTORY -/
  | isFile {a : Store} {c : Call} {tid : Nat} {path : Str} {vol : Volume} {contents : Bytes} (hc : c = .opendir tid path ∨ c = .rmdir tid path)
      (hv : a.volume tid = some vol) (hp : vol path = some (.file contents)) : FileSystem look a c (.refused 0xC0000103) a
  /-- OBJECT_NAME_NOT_FOUND -/
  | absent {a : Store} {c : Call} {tid : Nat} {path : Str} {vol : Volume}
      (hc : c = .openfile tid path ∨ c = .opendir tid path ∨ c = .delete tid path ∨ c = .rmdir tid path) (hv : a.volume tid = some vol)
      (hp : vol path = none) : FileSystem look a c (.refused 0xC0000034) a
  /-- A part of the file, as long as the service likes. -/
  | read {a : Store} {tid fid offset : Nat} {contents chunk : Bytes} (ho : a.opened tid fid = some (.file contents)) (hc : chunk <+: contents.drop offset)
      (hn : offset < contents.length → chunk ≠ []) : FileSystem look a (.read tid fid offset) (.value (.bytes chunk)) a
  /-- What has changed in the directory, as far as the service likes to tell. -/
  | notify {a : Store} {tid fid what : Nat} {l : List (Str × NotifyAction)} (ho : a.opened tid fid = some .dir) :
      FileSystem look a (.notify tid fid what) (.value (.changes l)) a
  | close {a : Store} {tid fid : Nat} {node : Node} (ho : a.opened tid fid = some node) :
      FileSystem look a (.close tid fid) (.value .unit) { a with opened := entry2 a.opened tid fid none }
  | delete {a : Store} {tid : Nat} {path : Str} {vol : Volume} {contents : Bytes} (hv : a.volume tid = some vol)
      (hp : vol path = some (.file contents)) : FileSystem look a (.delete tid path) (.value .unit) (a.without tid path)
  | rmdir {a : Store} {tid : Nat} {path : Str} {vol : Volume} (hv : a.volume tid = some vol) (hp : vol path = some .dir) (he : vol.Empty path) :
      FileSystem look a (.rmdir tid path) (.value .unit) (a.without tid path)
  /-- DIRECTORY_NOT_EMPTY -/
  | notEmpty {a : Store} {tid : Nat} {path : Str} {vol : Volume} (hv : a.volume tid = some vol) (hp : vol path = some .dir) (he : ¬ vol.Empty path) :
      FileSystem look a (.rmdir tid path) (.refused 0xC0000101) a
  /-- The first entries, as many as the service likes. -/
  | first {a : Store} {tid : Nat} {pattern : Str} {vol : Volume} {r : FindFirst2} {rest : List DirInfo} (hv : a.volume tid = some vol)
      (hl : look vol pattern = r.info ++ rest) (hd : r.done = true ↔ rest = []) (hn : r.done = false → r.info ≠ []) (hf : a.searches tid r.sid.toNat = none) :
      FileSystem look a (.findFirst tid pattern) (.value (.first r)) { a with searches := entry2 a.searches tid r.sid.toNat (left rest) }
  /-- Further entries, as many as the service likes. -/
  | next {a : Store} {tid sid : Nat} {last : Str} {r : FindNext2} {rest : List DirInfo} (hs : a.searches tid sid = some (r.info ++ rest))
      (hd : r.done = true ↔ rest = []) (hn : r.info ≠ []) :
      FileSystem look a (.findNext tid sid last) (.value (.next r)) { a with searches := entry2 a.searches tid sid (left rest) }
  /-- Numbers that denote nothing, in any way. -/
  | invalid {a : Store} {c : Call} {status : UInt32} (h : a.Invalid c) : FileSystem look a c (.refused status) a
  | full {a : Store} {c : Call} {status : UInt32} (h : a.Full c) : FileSystem look a c (.refused status) a

/-- What a user of the file system expects of an operation: `a.Expects look op o a'` says that it may have the outcome `o`, and leave the file
system in the state `a'`. For downloads and listings there is nothing to choose: they bring what is there, and change nothing. -/
inductive Store.Expects (look : Volume → Str → List DirInfo) (a : Store) : Op → Out Error Val → Store → Prop
  /-- Calls of the service itself. -/
  | single {op : Op} {c : Call} {r : Answer} {a' : Store} (hc : callOf op = some c) (hr : FileSystem look a c r a') : Expects look a op r.outcome a'
  | file {k : Nat} {share : Share} {path : Str} {vol : Volume} {contents : Bytes} (hv : a.volume share.tid.toNat = some vol)
      (hp : vol (backslashed path) = some (.file contents)) : Expects look a (.download k share path) (.ok (.bytes contents)) a
  /-- FILE_IS_A_DIRECTORY -/
  | isDir {k : Nat} {share : Share} {path : Str} {vol : Volume} (hv : a.volume share.tid.toNat = some vol) (hp : vol (backslashed path) = some .dir) :
      Expects look a (.download k share path) (.err (.ServerError (.Known .FILE_IS_DIRECTORY))) a
  | absent {k : Nat} {share : Share} {path : Str} {vol : Volume} (hv : a.volume share.tid.toNat = some vol) (hp : vol (backslashed path) = none) :
      Expects look a (.download k share path) (.err (.ServerError (.Known .NAME_NOT_FOUND))) a
  | listed {k : Nat} {share : Share} {pattern : Str} {vol : Volume} (hv : a.volume share.tid.toNat = some vol) :
      Expects look a (.list k share pattern) (.ok (.entries (look vol (backslashed pattern)))) a

/-- The operation can be done: its names fit into requests; for a download or a listing, there is a volume, a number is left, and the budget
suffices. -/
def Store.Can (look : Volume → Str → List DirInfo) (unicode : Bool) (a : Store) (op : Op) : Prop :=
  Fits unicode op ∧ match op with
  | .download k share path => (∃ i, i < 65536 ∧ a.opened share.tid.toNat i = none) ∧
      ∃ vol, a.volume share.tid.toNat = some vol ∧ ∀ contents, vol (backslashed path) = some (.file contents) → contents.length < k
  | .list k share pattern => (∃ i, i < 65536 ∧ a.searches share.tid.toNat i = none) ∧
      ∃ vol, a.volume share.tid.toNat = some vol ∧ (look vol (backslashed pattern)).length ≤ k ∧
        ∀ d ∈ look vol (backslashed pattern), utf16Len d.filename ≤ 32725
  | _ => True

/-- Whatever the file system chooses: the program can do all of its operations, and `Q` holds for its result and the state afterwards. -/
def Prog.Ensures (look : Volume → Str → List DirInfo) (unicode : Bool) (Q : α → Store → Prop) : Prog α → Store → Prop
  | .done x, a => Q x a
  | .call op next, a => a.Can look unicode op ∧ ∀ o a', a.Expects look op o a' → (next o).Ensures look unicode Q a'

end Cifs.Spec
