import Verif.Model.Basic
/-!
# `src/win.rs`, and the flag sets and command codes of `src/smb/info.rs`, `src/smb/common.rs`, `src/smb/trans.rs`, `src/ntlm/init.rs`

Bit-flag types (bitflags crate) are represented by their raw integer; `from_bits_truncate` is masking with the union of the declared
constants. C-like enums with `TryFromPrimitive` are a table of (code, constructor).
-/

namespace Cifs

/-- /repo/src/win.rs:12-45 `enum NTStatus`. -/
inductive NTStatus where
  | SUCCESS | INVALID_SMB | BAD_TID | BAD_COMMAND | BAD_UID | NON_STANDARD | BUFFER_OVERFLOW | NO_MORE_FILES
  | STOPPED_ON_SYMLINK | NOT_IMPLEMENTED | INVALID_PARAMETER | NO_SUCH_DEVICE | NO_SUCH_FILE | INVALID_DEVICE_REQ
  | MORE_PROCESSING | ACCESS_DENIED | BUFFER_TOO_SMALL | NAME_NOT_FOUND | NAME_COLLISION | PATH_NOT_FOUND | LOGIN_FAILURE
  | BAD_IMPERSONATION | IO_TIMEOUT | FILE_IS_DIRECTORY | NOT_SUPPORTED | NETWORK_NAME_DELETED | USER_SESSION_DELETED
  | NETWORK_SESSION_EXPIRED | TOO_MANY_UIDS | MEDIA_WRITE_PROTECTED | NETWORK_NAME_NOT_FOUND | DIRECTORY_NOT_EMPTY
  deriving Repr, DecidableEq

/-- /repo/src/win.rs:12-45, the discriminants (`nt as u32`). -/
def NTStatus.code : NTStatus → UInt32
  | SUCCESS                 => 0x00000000
  | INVALID_SMB             => 0x00010002
  | BAD_TID                 => 0x00050002
  | BAD_COMMAND             => 0x00160002
  | BAD_UID                 => 0x005b0002
  | NON_STANDARD            => 0x00fb0002
  | BUFFER_OVERFLOW         => 0x80000005
  | NO_MORE_FILES           => 0x80000006
  | STOPPED_ON_SYMLINK      => 0x8000002d
  | NOT_IMPLEMENTED         => 0xc0000002
  | INVALID_PARAMETER       => 0xc000000d
  | NO_SUCH_DEVICE          => 0xc000000e
  | NO_SUCH_FILE            => 0xc000000f
  | INVALID_DEVICE_REQ      => 0xc0000010
  | MORE_PROCESSING         => 0xc0000016
  | ACCESS_DENIED           => 0xc0000022
  | BUFFER_TOO_SMALL        => 0xc0000023
  | NAME_NOT_FOUND          => 0xc0000034
  | NAME_COLLISION          => 0xc0000035
  | PATH_NOT_FOUND          => 0xc000003a
  | LOGIN_FAILURE           => 0xc000006d
  | BAD_IMPERSONATION       => 0xc00000a5
  | IO_TIMEOUT              => 0xc00000b5
  | FILE_IS_DIRECTORY       => 0xc00000ba
  | NOT_SUPPORTED           => 0xc00000bb
  | NETWORK_NAME_DELETED    => 0xc00000c9
  | USER_SESSION_DELETED    => 0xc0000203
  | NETWORK_SESSION_EXPIRED => 0xc000035c
  | TOO_MANY_UIDS           => 0xc000205a
  | MEDIA_WRITE_PROTECTED   => 0xc00000a2
  | NETWORK_NAME_NOT_FOUND  => 0xc00000cc
  | DIRECTORY_NOT_EMPTY     => 0xc0000101

/-- All variants, the domain of the derived `TryFromPrimitive` (/repo/src/win.rs:9). -/
def NTStatus.all : List NTStatus :=
  [.SUCCESS, .INVALID_SMB, .BAD_TID, .BAD_COMMAND, .BAD_UID, .NON_STANDARD, .BUFFER_OVERFLOW, .NO_MORE_FILES,
   .STOPPED_ON_SYMLINK, .NOT_IMPLEMENTED, .INVALID_PARAMETER, .NO_SUCH_DEVICE, .NO_SUCH_FILE, .INVALID_DEVICE_REQ,
   .MORE_PROCESSING, .ACCESS_DENIED, .BUFFER_TOO_SMALL, .NAME_NOT_FOUND, .NAME_COLLISION, .PATH_NOT_FOUND, .LOGIN_FAILURE,
   .BAD_IMPERSONATION, .IO_TIMEOUT, .FILE_IS_DIRECTORY, .NOT_SUPPORTED, .NETWORK_NAME_DELETED, .USER_SESSION_DELETED,
   .NETWORK_SESSION_EXPIRED, .TOO_MANY_UIDS, .MEDIA_WRITE_PROTECTED, .NETWORK_NAME_NOT_FOUND, .DIRECTORY_NOT_EMPTY]

/-- `NTStatus::try_from(u32)` as derived by num_enum (/repo/src/win.rs:9). -/
def NTStatus.tryFrom (n : UInt32) : Option NTStatus := NTStatus.all.find? (fun s => s.code == n)

/-- /repo/src/win.rs:50-62 `enum NotifyAction`. -/
inductive NotifyAction where
  | ADDED | REMOVED | MODIFIED | RENAMED_OLD | RENAMED_NEW | ADDED_STREAM | REMOVED_STREAM | MODIFIED_STREAM | DELETED
  | NOT_TUNNELLED | TUNNELLED_COLLISION
  deriving Repr, DecidableEq

/-- /repo/src/win.rs:50-62, the discriminants. -/
def NotifyAction.code : NotifyAction → UInt32
  | ADDED               => 0x00000001
  | REMOVED             => 0x00000002
  | MODIFIED            => 0x00000003
  | RENAMED_OLD         => 0x00000004
  | RENAMED_NEW         => 0x00000005
  | ADDED_STREAM        => 0x00000006
  | REMOVED_STREAM      => 0x00000007
  | MODIFIED_STREAM     => 0x00000008
  | DELETED             => 0x00000009
  | NOT_TUNNELLED       => 0x0000000a
  | TUNNELLED_COLLISION => 0x0000000b

/-- All variants (/repo/src/win.rs:50-62). -/
def NotifyAction.all : List NotifyAction :=
  [.ADDED, .REMOVED, .MODIFIED, .RENAMED_OLD, .RENAMED_NEW, .ADDED_STREAM, .REMOVED_STREAM, .MODIFIED_STREAM, .DELETED,
   .NOT_TUNNELLED, .TUNNELLED_COLLISION]

/-- `NotifyAction::try_from(u32)` as derived by num_enum (/repo/src/win.rs:47). -/
def NotifyAction.tryFrom (n : UInt32) : Option NotifyAction := NotifyAction.all.find? (fun s => s.code == n)

/-- /repo/src/smb/info.rs:197-210 `enum Cmd`. -/
inductive Cmd where
  | Rmdir | Close | Delete | Read | Transact2 | TreeDisconnect | Negotiate | SessionSetup | TreeConnect | Transact | Create
  | NoCommand
  deriving Repr, DecidableEq

/-- /repo/src/smb/info.rs:197-210, `cmd as u8`. -/
def Cmd.code : Cmd → UInt8
  | Rmdir          => 0x01
  | Close          => 0x04
  | Delete         => 0x06
  | Read           => 0x2e
  | Transact2      => 0x32
  | TreeDisconnect => 0x71
  | Negotiate      => 0x72
  | SessionSetup   => 0x73
  | TreeConnect    => 0x75
  | Transact       => 0xa0
  | Create         => 0xa2
  | NoCommand      => 0xff

/-- All variants (/repo/src/smb/info.rs:197-210). -/
def Cmd.all : List Cmd :=
  [.Rmdir, .Close, .Delete, .Read, .Transact2, .TreeDisconnect, .Negotiate, .SessionSetup, .TreeConnect, .Transact, .Create,
   .NoCommand]

/-- `Cmd::try_from(u8)` as derived by num_enum (/repo/src/smb/info.rs:195). -/
def Cmd.tryFrom (n : UInt8) : Option Cmd := Cmd.all.find? (fun c => c.code == n)

/-! ## Bit flags -/

/-- Union of declared flag constants (bitflags `all()`), 32-bit. -/
def orAll32 (l : List UInt32) : UInt32 := l.foldl (· ||| ·) 0
/-- Union of declared flag constants, 16-bit. -/
def orAll16 (l : List UInt16) : UInt16 := l.foldl (· ||| ·) 0
/-- Union of declared flag constants, 8-bit. -/
def orAll8 (l : List UInt8) : UInt8 := l.foldl (· ||| ·) 0

namespace FileAccessMask
/-! /repo/src/win.rs:67-88 `FileAccessMask` (constants used by the client). -/
def READ : UInt32 := 0x00000001
def READ_EA : UInt32 := 0x00000008
def SYNCHRONIZE : UInt32 := 0x00100000
end FileAccessMask

namespace DirAccessMask
/-- /repo/src/win.rs:91-112, all declared bits of `DirAccessMask`. -/
def all : UInt32 := orAll32
  [0x00000001, 0x00000002, 0x00000004, 0x00000008, 0x00000010, 0x00000020, 0x00000040, 0x00000080, 0x00000100, 0x00010000,
   0x00020000, 0x00040000, 0x00080000, 0x00100000, 0x01000000, 0x02000000, 0x10000000, 0x20000000, 0x40000000, 0x80000000]
/-- `DirAccessMask::from_bits_truncate`. -/
def truncate (b : UInt32) : UInt32 := b &&& all
end DirAccessMask

namespace FileAttr
/-! /repo/src/win.rs:115-128 `FileAttr` (constants used by the client). -/
def HIDDEN : UInt16 := 0x0002
def SYSTEM : UInt16 := 0x0004
def DIRECTORY : UInt16 := 0x0010
end FileAttr

namespace ExtFileAttr
/-- /repo/src/win.rs:131-147, all declared bits of `ExtFileAttr`. -/
def all : UInt32 := orAll32
  [0x00000001, 0x00000002, 0x00000004, 0x00000010, 0x00000020, 0x00000080, 0x00000100, 0x00000800, 0x01000000, 0x02000000,
   0x04000000, 0x08000000, 0x10000000, 0x20000000, 0x80000000]
/-- `ExtFileAttr::from_bits_truncate`. -/
def truncate (b : UInt32) : UInt32 := b &&& all
end ExtFileAttr

/-- /repo/src/win.rs:152 `TreeConnectFlags::EXTENDED_RESPONSE`. -/
def TreeConnectFlags.EXTENDED_RESPONSE : UInt16 := 0x0008

namespace ShareAccess
/-! /repo/src/win.rs:155-160 `ShareAccess`. -/
def READ : UInt32 := 0x00000001
def WRITE : UInt32 := 0x00000002
def DELETE : UInt32 := 0x00000004
end ShareAccess

namespace CreateDisposition
/-- /repo/src/win.rs:170 `CreateDisposition::OPEN`. -/
def OPEN : UInt32 := 0x00000001
/-- /repo/src/win.rs:168-175, all declared bits of `CreateDisposition`. -/
def all : UInt32 := orAll32 [0x00000000, 0x00000001, 0x00000002, 0x00000003, 0x00000004, 0x00000005]
/-- `CreateDisposition::from_bits_truncate`. -/
def truncate (b : UInt32) : UInt32 := b &&& all
end CreateDisposition

namespace CreateOptions
/-! /repo/src/win.rs:177-190 `CreateOptions` (constants used by the client). -/
def DIRECTORY : UInt32 := 0x00000001
def NON_DIRECTORY : UInt32 := 0x00000040
end CreateOptions

/-- /repo/src/win.rs:195 `ImpersonationLevel::IMPERSONATE`. -/
def ImpersonationLevel.IMPERSONATE : UInt32 := 0x00000002

namespace OpLockLevel
/-- /repo/src/win.rs:218-223, all declared bits of `OpLockLevel`. -/
def all : UInt8 := orAll8 [0x00, 0x01, 0x02, 0x03]
/-- `OpLockLevel::from_bits_truncate`. -/
def truncate (b : UInt8) : UInt8 := b &&& all
end OpLockLevel

namespace ResourceType
/-- /repo/src/win.rs:225-231, all declared bits of `ResourceType`. -/
def all : UInt16 := orAll16 [0x0000, 0x0001, 0x0002, 0x0003, 0x0004]
/-- `ResourceType::from_bits_truncate`. -/
def truncate (b : UInt16) : UInt16 := b &&& all
end ResourceType

namespace Flags1
/-! /repo/src/smb/info.rs:107-116 `Flags1`. -/
def CASE_INSENSITIVE : UInt8 := 0x08
def CANONICAL_PATHS : UInt8 := 0x10
def REPLY : UInt8 := 0x80
/-- All declared bits. -/
def all : UInt8 := orAll8 [0x01, 0x02, 0x04, 0x08, 0x10, 0x20, 0x40, 0x80]
/-- `Flags1::from_bits_truncate`. -/
def truncate (b : UInt8) : UInt8 := b &&& all
/-- /repo/src/smb/info.rs:133-135 `Flags1::default`. -/
def default : UInt8 := CASE_INSENSITIVE ||| CANONICAL_PATHS
end Flags1

namespace Flags2
/-! /repo/src/smb/info.rs:118-129 `Flags2`. -/
def LONG_NAMES_ALLOWED : UInt16 := 0x0001
def EAS : UInt16 := 0x0002
def LONG_NAMES_USED : UInt16 := 0x0040
def EXTENDED_SECURITY : UInt16 := 0x0800
def NTSTATUS : UInt16 := 0x4000
def UNICODE : UInt16 := 0x8000
/-- All declared bits. -/
def all : UInt16 := orAll16 [0x0001, 0x0002, 0x0004, 0x0010, 0x0040, 0x0800, 0x1000, 0x2000, 0x4000, 0x8000]
/-- `Flags2::from_bits_truncate`. -/
def truncate (b : UInt16) : UInt16 := b &&& all
/-- /repo/src/smb/info.rs:139-146 `Flags2::default`. -/
def default : UInt16 := UNICODE ||| NTSTATUS ||| EXTENDED_SECURITY ||| LONG_NAMES_USED ||| EAS ||| LONG_NAMES_ALLOWED
/-- bitflags `contains`. -/
def contains (f x : UInt16) : Bool := f &&& x == x
/-- bitflags `set(flag, value)`: insert or remove. -/
def set (f x : UInt16) (v : Bool) : UInt16 := if v then f ||| x else f &&& ~~~x
end Flags2

namespace Capabilities
/-! /repo/src/smb/common.rs:20-41 `Capabilities`. -/
def UNICODE : UInt32 := 0x00000004
def LARGE_FILES : UInt32 := 0x00000008
def NT_SMBS : UInt32 := 0x00000010
def NTSTATUS : UInt32 := 0x00000040
def EXTENDED_SECURITY : UInt32 := 0x80000000
/-- All declared bits. -/
def all : UInt32 := orAll32
  [0x00000001, 0x00000002, 0x00000004, 0x00000008, 0x00000010, 0x00000020, 0x00000040, 0x00000080, 0x00000100, 0x00000200,
   0x00001000, 0x00002000, 0x00004000, 0x00008000, 0x00010000, 0x00800000, 0x02000000, 0x20000000, 0x40000000, 0x80000000]
/-- `Capabilities::from_bits_truncate`. -/
def truncate (b : UInt32) : UInt32 := b &&& all
/-- bitflags `contains`. -/
def contains (f x : UInt32) : Bool := f &&& x == x
end Capabilities

namespace FindFlags
/-- /repo/src/smb/common.rs:139 `FindFlags::CLOSE_ON_EOS`. -/
def CLOSE_ON_EOS : UInt16 := 0x0002
end FindFlags

namespace FindInfoLevel
/-- /repo/src/smb/common.rs:149 `FindInfoLevel::DIRECTORY_INFO`. -/
def DIRECTORY_INFO : UInt16 := 0x0101
end FindInfoLevel

namespace NotifyMode
/-- /repo/src/smb/trans.rs:48-62 `NotifyMode::all()`. -/
def all : UInt32 := orAll32
  [0x00000001, 0x00000002, 0x00000003, 0x00000004, 0x00000008, 0x00000010, 0x00000020, 0x00000040, 0x00000080, 0x00000100,
   0x00000200, 0x00000400, 0x00000800]
end NotifyMode

namespace NtlmFlags
/-! /repo/src/ntlm/init.rs:8-36 `ntlm::Flags`. -/
def UNICODE : UInt32 := 0x00000001
def OEM : UInt32 := 0x00000002
def REQUEST_TARGET : UInt32 := 0x00000004
def NTLM : UInt32 := 0x00000200
def DOMAIN_SUPPLIED : UInt32 := 0x00001000
def WORKSTATION_SUPPLIED : UInt32 := 0x00002000
/-- All declared bits. -/
def all : UInt32 := orAll32
  [0x00000001, 0x00000002, 0x00000004, 0x00000010, 0x00000020, 0x00000040, 0x00000080, 0x00000100, 0x00000200, 0x00000400,
   0x00000800, 0x00001000, 0x00002000, 0x00004000, 0x00008000, 0x00010000, 0x00020000, 0x00040000, 0x00080000, 0x00100000,
   0x00200000, 0x00400000, 0x00800000, 0x02000000, 0x20000000, 0x40000000, 0x80000000]
/-- `Flags::from_bits_truncate`. -/
def truncate (b : UInt32) : UInt32 := b &&& all
/-- bitflags `contains`. -/
def contains (f x : UInt32) : Bool := f &&& x == x
end NtlmFlags

end Cifs
