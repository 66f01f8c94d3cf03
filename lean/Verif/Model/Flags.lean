import Verif.Model.Win
/-!
# All constants of the flag types

`Model/Win` has those that the client uses itself. The types in `src/win.rs` are public, and users compare the fields of results with them.
Constants that are declared as a union of others are written as their value.
-/

namespace Cifs

/-- /repo/src/win.rs:67-88 `FileAccessMask`. -/
def FileAccessMask.table : List (String × UInt32) :=
  [("READ", 0x00000001), ("WRITE", 0x00000002), ("APPEND", 0x00000004), ("READ_EA", 0x00000008), ("WRITE_EA", 0x00000010),
   ("EXECUTE", 0x00000020), ("DELETE_CHILD", 0x00000040), ("READ_ATTRIBUTES", 0x00000080), ("WRITE_ATTRIBUTES", 0x00000100),
   ("DELETE", 0x00010000), ("READ_CONTROL", 0x00020000), ("WRITE_DAC", 0x00040000), ("WRITE_OWNER", 0x00080000),
   ("SYNCHRONIZE", 0x00100000), ("ACCESS_SECURITY", 0x01000000), ("MAXIMUM_ALLOWED", 0x02000000), ("GENERIC_ALL", 0x10000000),
   ("GENERIC_EXECUTE", 0x20000000), ("GENERIC_WRITE", 0x40000000), ("GENERIC_READ", 0x80000000)]

/-- /repo/src/win.rs:91-112 `DirAccessMask`. -/
def DirAccessMask.table : List (String × UInt32) :=
  [("LIST_DIRECTORY", 0x00000001), ("ADD_FILE", 0x00000002), ("ADD_SUBDIRECTORY", 0x00000004), ("READ_EA", 0x00000008),
   ("WRITE_EA", 0x00000010), ("TRAVERSE", 0x00000020), ("DELETE_CHILD", 0x00000040), ("READ_ATTRIBUTES", 0x00000080),
   ("WRITE_ATTRIBUTES", 0x00000100), ("DELETE", 0x00010000), ("READ_CONTROL", 0x00020000), ("WRITE_DAC", 0x00040000),
   ("WRITE_OWNER", 0x00080000), ("SYNCHRONIZE", 0x00100000), ("ACCESS_SECURITY", 0x01000000), ("MAXIMUM_ALLOWED", 0x02000000),
   ("GENERIC_ALL", 0x10000000), ("GENERIC_EXECUTE", 0x20000000), ("GENERIC_WRITE", 0x40000000), ("GENERIC_READ", 0x80000000)]

/-- /repo/src/win.rs:115-128 `FileAttr`. -/
def FileAttr.table : List (String × UInt16) :=
  [("NORMAL", 0x0000), ("READONLY", 0x0001), ("HIDDEN", 0x0002), ("SYSTEM", 0x0004), ("VOLUME", 0x0008), ("DIRECTORY", 0x0010),
   ("ARCHIVE", 0x0020), ("SEARCH_READONLY", 0x0100), ("SEARCH_HIDDEN", 0x0200), ("SEARCH_SYSTEM", 0x0400), ("SEARCH_DIRECTORY", 0x1000),
   ("SEARCH_ARCHIVE", 0x2000)]

/-- /repo/src/win.rs:131-147 `ExtFileAttr`. -/
def ExtFileAttr.table : List (String × UInt32) :=
  [("READONLY", 0x00000001), ("HIDDEN", 0x00000002), ("SYSTEM", 0x00000004), ("DIRECTORY", 0x00000010), ("ARCHIVE", 0x00000020),
   ("NORMAL", 0x00000080), ("TEMP", 0x00000100), ("COMPRESSED", 0x00000800), ("POSIX", 0x01000000), ("BACKUP", 0x02000000),
   ("DELETE_ON_CLOSE", 0x04000000), ("SQUENTIAL_ACCESS", 0x08000000), ("RANDOM_ACCESS", 0x10000000), ("NO_BUFFERING", 0x20000000),
   ("WRITE_THROUGH", 0x80000000)]

/-- /repo/src/win.rs:149-153 `TreeConnectFlags`. -/
def TreeConnectFlags.table : List (String × UInt16) :=
  [("DISCONNECT_TID", 0x0001), ("EXTENDED_SIGNATURE", 0x0004), ("EXTENDED_RESPONSE", 0x0008)]

/-- /repo/src/win.rs:155-160 `ShareAccess`. -/
def ShareAccess.table : List (String × UInt32) :=
  [("NONE", 0x00000000), ("READ", 0x00000001), ("WRITE", 0x00000002), ("DELETE", 0x00000004)]

/-- /repo/src/win.rs:162-166 `CreateFlags`. -/
def CreateFlags.table : List (String × UInt32) :=
  [("REQUEST_OPLOCK", 0x00000002), ("REQUEST_OPBATCH", 0x00000004), ("OPEN_TARGET_DIR", 0x00000008)]

/-- /repo/src/win.rs:168-175 `CreateDisposition`. -/
def CreateDisposition.table : List (String × UInt32) :=
  [("SUPERSEDE", 0x00000000), ("OPEN", 0x00000001), ("CREATE", 0x00000002), ("OPEN_IF", 0x00000003), ("OVERWRITE", 0x00000004),
   ("OVERWRITE_IF", 0x00000005)]

/-- /repo/src/win.rs:177-190 `CreateOptions`. -/
def CreateOptions.table : List (String × UInt32) :=
  [("DIRECTORY", 0x00000001), ("WRITE_THROUGH", 0x00000002), ("SEQUENTIAL_ONLY", 0x00000004), ("NO_BUFFERING", 0x00000008),
   ("NON_DIRECTORY", 0x00000040), ("NO_EA_KNOWLEDGE", 0x00000200), ("RANDOM_ACCESS", 0x00000800), ("DELETE_ON_CLOSE", 0x00001000),
   ("OPEN_BY_FID", 0x00002000), ("INTENT_BACKUP", 0x00004000), ("NO_COMPRESSION", 0x00008000), ("NO_RECALL", 0x00400000)]

/-- /repo/src/win.rs:192-196 `ImpersonationLevel`. -/
def ImpersonationLevel.table : List (String × UInt32) :=
  [("ANONYMOUS", 0x00000000), ("IDENTIFY", 0x00000001), ("IMPERSONATE", 0x00000002)]

/-- /repo/src/win.rs:198-201 `SecurityFlags`. -/
def SecurityFlags.table : List (String × UInt8) :=
  [("CONTEXT_TRACKING", 0x01), ("EFFECTIVE_ONLY", 0x02)]

/-- /repo/src/win.rs:203-216 `SmbFileAttr`. -/
def SmbFileAttr.table : List (String × UInt16) :=
  [("NORMAL", 0x0000), ("READONLY", 0x0001), ("HIDDEN", 0x0002), ("SYSTEM", 0x0004), ("VOLUME", 0x0008), ("DIRECTORY", 0x0010),
   ("ARCHIVE", 0x0020), ("SEARCH_READONLY", 0x0100), ("SEARCH_HIDDEN", 0x0200), ("SEARCH_SYSTEM", 0x0400), ("SEARCH_DIRECTORY", 0x1000),
   ("SEARCH_ARCHIVE", 0x2000)]

/-- /repo/src/win.rs:218-223 `OpLockLevel`. -/
def OpLockLevel.table : List (String × UInt8) :=
  [("NO_LOCK", 0x00), ("EXCLUSIVE", 0x01), ("BATCH", 0x02), ("LEVEL2", 0x03)]

/-- /repo/src/win.rs:225-231 `ResourceType`. -/
def ResourceType.table : List (String × UInt16) :=
  [("DISK", 0x0000), ("BYTE_PIPE", 0x0001), ("MESSAGE_PIPE", 0x0002), ("PRINTER", 0x0003), ("COMM_DEVICE", 0x0004)]

/-- /repo/src/smb/info.rs:107-116 `Flags1`. -/
def Flags1.table : List (String × UInt8) :=
  [("LOCK_AND_READ_OK", 0x01), ("BUFFER_AVAILABLE", 0x02), ("RESERVED1", 0x04), ("CASE_INSENSITIVE", 0x08), ("CANONICAL_PATHS", 0x10),
   ("OPLOCK", 0x20), ("OPBATCH", 0x40), ("REPLY", 0x80)]

/-- /repo/src/smb/info.rs:118-129 `Flags2`. -/
def Flags2.table : List (String × UInt16) :=
  [("LONG_NAMES_ALLOWED", 0x0001), ("EAS", 0x0002), ("SIGNATURE_SUPPORTED", 0x0004), ("SIGNATURE_REQUIRED", 0x0010),
   ("LONG_NAMES_USED", 0x0040), ("EXTENDED_SECURITY", 0x0800), ("DFS", 0x1000), ("PAGING_IO", 0x2000), ("NTSTATUS", 0x4000),
   ("UNICODE", 0x8000)]

/-- /repo/src/smb/common.rs:20-41 `Capabilities`. -/
def Capabilities.table : List (String × UInt32) :=
  [("RAW_MODE", 0x00000001), ("MPX_MODE", 0x00000002), ("UNICODE", 0x00000004), ("LARGE_FILES", 0x00000008), ("NT_SMBS", 0x00000010),
   ("REMOTE_APIS", 0x00000020), ("NTSTATUS", 0x00000040), ("LEVEL2_OPLOCKS", 0x00000080), ("LOCK_AND_READ", 0x00000100),
   ("NT_FIND", 0x00000200), ("DFS", 0x00001000), ("INFOLEVEL_PASS", 0x00002000), ("LARGE_READX", 0x00004000), ("LARGE_WRITEX", 0x00008000),
   ("LWIO", 0x00010000), ("UNIX", 0x00800000), ("COMPRESSED", 0x02000000), ("DYNAMIC_REAUTH", 0x20000000),
   ("PERSISTENT_HANDLES", 0x40000000), ("EXTENDED_SECURITY", 0x80000000)]

/-- /repo/src/smb/common.rs:137-143 `FindFlags`. -/
def FindFlags.table : List (String × UInt16) :=
  [("CLOSE_AFTER_REQ", 0x0001), ("CLOSE_ON_EOS", 0x0002), ("RETURN_RESUME", 0x0004), ("CONTINUE_FROM_LAST", 0x0008),
   ("WITH_BACKUP_INTENT", 0x0010)]

/-- /repo/src/smb/common.rs:145-153 `FindInfoLevel`. -/
def FindInfoLevel.table : List (String × UInt16) :=
  [("STANDARD", 0x0001), ("QUERY_EA_SIZE", 0x0002), ("QUERY_EA_FROM_LIST", 0x0003), ("DIRECTORY_INFO", 0x0101),
   ("FULL_DIRECTORY_INFO", 0x0102), ("NAMES_INFO", 0x0103), ("BOTH_DIRECTORY_INFO", 0x0104)]

/-- /repo/src/smb/trans.rs:48-62 `NotifyMode`. -/
def NotifyMode.table : List (String × UInt32) :=
  [("FILENAME", 0x00000001), ("DIRNAME", 0x00000002), ("NAME", 0x00000003), ("ATTR", 0x00000004), ("SIZE", 0x00000008),
   ("LAST_WRITE", 0x00000010), ("LAST_ACCESS", 0x00000020), ("CREATION", 0x00000040), ("EA", 0x00000080), ("SECURITY", 0x00000100),
   ("STREAM_NAME", 0x00000200), ("STREAM_SIZE", 0x00000400), ("STREAM_WRITE", 0x00000800)]

/-- /repo/src/ntlm/init.rs:8-36 `Flags`. -/
def NtlmFlags.table : List (String × UInt32) :=
  [("UNICODE", 0x00000001), ("OEM", 0x00000002), ("REQUEST_TARGET", 0x00000004), ("SIGN", 0x00000010), ("SEAL", 0x00000020),
   ("DATAGRAM", 0x00000040), ("LMKEY", 0x00000080), ("NETWARE", 0x00000100), ("NTLM", 0x00000200), ("NT_ONLY", 0x00000400),
   ("ANONYMOUS", 0x00000800), ("DOMAIN_SUPPLIED", 0x00001000), ("WORKSTATION_SUPPLIED", 0x00002000), ("LOCAL", 0x00004000),
   ("ALWAYS_SIGN", 0x00008000), ("TARGET_TYPE_DOMAIN", 0x00010000), ("TARGET_TYPE_SERVER", 0x00020000), ("TARGET_TYPE_SHARE", 0x00040000),
   ("NTLM2_KEY", 0x00080000), ("REQ_INIT_RESP", 0x00100000), ("REQ_ACCEPT_RESP", 0x00200000), ("REQ_NONNT_KEY", 0x00400000),
   ("TARGET_INFO", 0x00800000), ("VERSION", 0x02000000), ("BIT128", 0x20000000), ("KEY_EXCHANGE", 0x40000000), ("BIT56", 0x80000000)]

end Cifs
