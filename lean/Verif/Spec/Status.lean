import Verif.Model.Basic
/-!
# Status codes by the protocol

MS-CIFS 2.2.2.4 and MS-ERREF 2.3: the codes, the name the client has for each, and the name in the standard. The first few are the old
class 2 (server) errors, which are sent as the error number times 65536 plus 2.
-/

namespace Cifs.Spec

/-- Error `n` of the class `ERRSRV`. -/
def errSrv (n : Nat) : Nat := 0x10000 * n + 2

/-- Code, name used by the client, name in the standard. -/
def statusTable : List (Nat × String × String) :=
  [(0, "SUCCESS", "STATUS_SUCCESS"),
   (errSrv 1, "INVALID_SMB", "STATUS_INVALID_SMB"),
   (errSrv 5, "BAD_TID", "STATUS_SMB_BAD_TID"),
   (errSrv 22, "BAD_COMMAND", "STATUS_SMB_BAD_COMMAND"),
   (errSrv 91, "BAD_UID", "STATUS_SMB_BAD_UID"),
   (errSrv 251, "NON_STANDARD", "STATUS_SMB_USE_STANDARD"),
   (0x80000005, "BUFFER_OVERFLOW", "STATUS_BUFFER_OVERFLOW"),
   (0x80000006, "NO_MORE_FILES", "STATUS_NO_MORE_FILES"),
   (0x8000002D, "STOPPED_ON_SYMLINK", "STATUS_STOPPED_ON_SYMLINK"),
   (0xC0000002, "NOT_IMPLEMENTED", "STATUS_NOT_IMPLEMENTED"),
   (0xC000000D, "INVALID_PARAMETER", "STATUS_INVALID_PARAMETER"),
   (0xC000000E, "NO_SUCH_DEVICE", "STATUS_NO_SUCH_DEVICE"),
   (0xC000000F, "NO_SUCH_FILE", "STATUS_NO_SUCH_FILE"),
   (0xC0000010, "INVALID_DEVICE_REQ", "STATUS_INVALID_DEVICE_REQUEST"),
   (0xC0000016, "MORE_PROCESSING", "STATUS_MORE_PROCESSING_REQUIRED"),
   (0xC0000022, "ACCESS_DENIED", "STATUS_ACCESS_DENIED"),
   (0xC0000023, "BUFFER_TOO_SMALL", "STATUS_BUFFER_TOO_SMALL"),
   (0xC0000034, "NAME_NOT_FOUND", "STATUS_OBJECT_NAME_NOT_FOUND"),
   (0xC0000035, "NAME_COLLISION", "STATUS_OBJECT_NAME_COLLISION"),
   (0xC000003A, "PATH_NOT_FOUND", "STATUS_OBJECT_PATH_NOT_FOUND"),
   (0xC000006D, "LOGIN_FAILURE", "STATUS_LOGON_FAILURE"),
   (0xC00000A2, "MEDIA_WRITE_PROTECTED", "STATUS_MEDIA_WRITE_PROTECTED"),
   (0xC00000A5, "BAD_IMPERSONATION", "STATUS_BAD_IMPERSONATION_LEVEL"),
   (0xC00000B5, "IO_TIMEOUT", "STATUS_IO_TIMEOUT"),
   (0xC00000BA, "FILE_IS_DIRECTORY", "STATUS_FILE_IS_A_DIRECTORY"),
   (0xC00000BB, "NOT_SUPPORTED", "STATUS_NOT_SUPPORTED"),
   (0xC00000C9, "NETWORK_NAME_DELETED", "STATUS_NETWORK_NAME_DELETED"),
   (0xC00000CC, "NETWORK_NAME_NOT_FOUND", "STATUS_BAD_NETWORK_NAME"),
   (0xC0000101, "DIRECTORY_NOT_EMPTY", "STATUS_DIRECTORY_NOT_EMPTY"),
   (0xC0000203, "USER_SESSION_DELETED", "STATUS_USER_SESSION_DELETED"),
   (0xC000035C, "NETWORK_SESSION_EXPIRED", "STATUS_NETWORK_SESSION_EXPIRED"),
   (0xC000205A, "TOO_MANY_UIDS", "STATUS_SMB_TOO_MANY_UIDS")]

/-- The value of a hexadecimal digit, in lower case. -/
def hexDigit (c : Char) : Option Nat :=
  if '0' ≤ c ∧ c ≤ '9' then some (c.toNat - '0'.toNat) else if 'a' ≤ c ∧ c ≤ 'f' then some (c.toNat - 'a'.toNat + 10) else none

/-- `Hex l n`: the digits `l` mean `n`. -/
inductive Hex : Str → Nat → Prop
  | nil : Hex [] 0
  | snoc {l : Str} {c : Char} {n d : Nat} (h : Hex l n) (hd : hexDigit c = some d) : Hex (l ++ [c]) (16 * n + d)

/-- `StatusText n l`: the text `l` tells the user the status `n`, by its name if the client has one, and else by its number, in at least two
digits and without unnecessary zeros. -/
inductive StatusText (n : Nat) : Str → Prop
  | named {name std : String} (h : (n, name, std) ∈ statusTable) : StatusText n name.toList
  | number {l : Str} (h : ∀ name std, (n, name, std) ∉ statusTable) (hl : Hex l n) (h2 : 2 ≤ l.length) (h0 : 2 < l.length → l.head? ≠ some '0') :
      StatusText n ("Unknown (".toList ++ l ++ ")".toList)

/-- What the user is told instead of the code of a request type (MS-CIFS 2.2.2.1). -/
def commandNames : List (Nat × String) :=
  [(0x01, "Rmdir"), (0x04, "Close"), (0x06, "Delete"), (0x2e, "Read"), (0x32, "Transact2"), (0x71, "TreeDisconnect"), (0x72, "Negotiate"),
   (0x73, "SessionSetup"), (0x75, "TreeConnect"), (0xa0, "Transact"), (0xa2, "Create"), (0xff, "NoCommand")]

/-- The name of a request type. -/
def commandName (code : Nat) : Option String := commandNames.lookup code

end Cifs.Spec
