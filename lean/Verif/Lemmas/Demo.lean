import Verif.Spec.Log
/-! # A concrete environment, used to show that hypotheses can be met -/

namespace Cifs.Demo
open Spec

/-- A server that plays back prepared answers, one list of segments per request, then closes. -/
def script : Server (List (List Bytes)) where
  react := fun l _ => (l.tail, l.headD [])
  tail := fun _ => .eof

/-- Trivial hash functions. -/
def crypto : Crypto where
  md4 := fun _ => List.replicate 16 1
  hmacMd5 := fun _ _ => List.replicate 16 2
  des := fun _ _ => List.replicate 8 3
  md4_len := fun _ => rfl
  hmacMd5_len := fun _ _ => rfl
  des_len := fun _ _ => rfl
  toUpper := id

/-- The environment: scripted, logging server. -/
def env (checked : Bool) : Env (List (List Bytes) × List Bytes) where
  V := logged script
  C := crypto
  checked := checked
  now := 13370000000000000000
  random := [1, 2, 3, 4, 5, 6, 7, 8]
  random_len := rfl

/-- A client in the middle of a session. -/
def cli : Cli := { auth := defaultAuth, maxSmbSize := 4356, useUnicode := true, uid := 0x1234, mid := 7 }

/-- A session whose server will give the answers `answers`. -/
def st (answers : List (List Bytes)) : St (List (List Bytes) × List Bytes) :=
  { cli := cli, w := { inbox := [], wsched := [.accept 3, .accept 10], out := [], srv := (answers, []) } }

/-- A share. -/
def share : Share := { tid := 0x0801, accessRights := none, guestRights := none, service := [], filesystem := [] }

/-- A handle. -/
def handle : Handle :=
  { tid := 0x0801, fid := 0x4002, oplock := 0, disposition := 1, createTime := 0, accessTime := 0, writeTime := 0, changeTime := 0
    attributes := 0, allocationSize := 0, size := 9, fileType := 0, directory := false }

/-- A reply of a scripted server: successful, with the given command, multiplex id, parameter words and data. -/
def reply (cmd : Cmd) (mid : UInt16) (params data : Bytes) : Bytes :=
  ({ Info.default cmd with flags1 := 0x98, mid := mid } : Info).write ++ [UInt8.ofNat (params.length / 2)] ++ params
    ++ putU16 (UInt16.ofNat data.length) ++ data

/-- Scripts that answer every request with related bytes. -/
def Alike (T : Bytes → Bytes → Prop) (l l' : List (List Bytes)) : Prop := ∀ i, T (l.getD i []).flatten (l'.getD i []).flatten

theorem Alike.tail {T : Bytes → Bytes → Prop} {l l' : List (List Bytes)} (h : Alike T l l') : Alike T l.tail l'.tail := by
  intro i
  have := h (i + 1)
  simpa [List.getD_eq_getElem?_getD] using this

theorem Alike.head {T : Bytes → Bytes → Prop} {l l' : List (List Bytes)} (h : Alike T l l') : T (l.headD []).flatten (l'.headD []).flatten := by
  have := h 0
  cases l <;> cases l' <;> simpa using this

end Cifs.Demo
