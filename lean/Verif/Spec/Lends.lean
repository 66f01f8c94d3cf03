import Verif.Spec.Disk
/-!
# What the number of an open file denotes

A CIFS server gives every tree and every open file a number that is not in use. Closing a file frees its number, and unmounting a tree closes its files
and frees its number as well. Free numbers may be given out again.
-/

namespace Cifs.Spec

variable {ι α : Type}

/-- The state of a server with files. A file is what it is (`ι`), wherever it is and whatever is in it. -/
structure Desk (ι : Type) where
  /-- Which file is where: by the number of the tree, and the path. -/
  place : Nat → Str → Option ι
  contents : ι → Bytes
  mounted : Nat → Prop
  /-- Which file a number denotes, by the numbers of tree and file. -/
  denotes : Nat → Nat → Option ι

/-- The numbers in use are the same ones, and denote the same. -/
def Desk.Same (a a' : Desk ι) : Prop := a'.mounted = a.mounted ∧ a'.denotes = a.denotes

/-- These calls give numbers or free them. -/
def Call.Numbers : Call → Prop
  | .mount .. | .umount .. | .openfile .. | .opendir .. | .close .. => True
  | _ => False

/-- A service with files and numbers. Others may change the files at any time, in any way. -/
inductive Lends : Desk ι → Call → Answer → Desk ι → Prop
  | mounted {a a' : Desk ι} {password : Bytes} {name : Str} {share : Share} (hf : ¬ a.mounted share.tid.toNat)
      (hm : a'.mounted = fun t => t = share.tid.toNat ∨ a.mounted t) (hd : a'.denotes = a.denotes) :
      Lends a (.mount password name) (.value (.share share)) a'
  | umounted {a a' : Desk ι} {tid : Nat} (hm : a'.mounted = fun t => t ≠ tid ∧ a.mounted t)
      (hd : a'.denotes = fun t i => if t = tid then none else a.denotes t i) : Lends a (.umount tid) (.value .unit) a'
  | opened {a a' : Desk ι} {c : Call} {tid : Nat} {path : Str} {f : ι} {h : Handle} (hc : c = .openfile tid path ∨ c = .opendir tid path)
      (hp : a.place tid path = some f) (ht : h.tid.toNat = tid) (hf : a.denotes tid h.fid.toNat = none)
      (hm : a'.mounted = a.mounted) (hd : a'.denotes = entry2 a.denotes tid h.fid.toNat (some f)) : Lends a c (.value (.handle h)) a'
  | closed {a a' : Desk ι} {tid fid : Nat} (hm : a'.mounted = a.mounted) (hd : a'.denotes = entry2 a.denotes tid fid none) :
      Lends a (.close tid fid) (.value .unit) a'
  | read {a a' : Desk ι} {tid fid offset : Nat} {f : ι} {chunk : Bytes} (ho : a.denotes tid fid = some f) (hc : chunk <+: (a.contents f).drop offset)
      (hs : a.Same a') : Lends a (.read tid fid offset) (.value (.bytes chunk)) a'
  | refused {a a' : Desk ι} {c : Call} {status : UInt32} (hs : a.Same a') : Lends a c (.refused status) a'
  | other {a a' : Desk ι} {c : Call} {r : Answer} (hn : ¬ c.Numbers) (hr : ∀ tid fid offset, c ≠ .read tid fid offset) (hs : a.Same a') : Lends a c r a'

/-- The operation neither closes this open file nor unmounts its tree. -/
def Spares (h : Handle) : Op → Prop
  | .close file => ¬ (file.tid = h.tid ∧ file.fid = h.fid)
  | .umount share => share.tid ≠ h.tid
  | _ => True

/-- The program neither closes this open file nor unmounts its tree. -/
def Prog.Spares (h : Handle) : Prog α → Prop
  | .done _ => True
  | .call op next => Cifs.Spec.Spares h op ∧ ∀ o, (next o).Spares h

end Cifs.Spec
