import Verif.Model.Basic
/-!
# Constants of the documents

Each row has the client's name, the name in the document and the value there. Sections are those of [MS-CIFS] unless noted.
-/

namespace Cifs.Spec

abbrev Rows := List (String × String × Nat)

/-- 2.2.1.4.1 File_Access_Mask. -/
def fileAccess : Rows :=
  [("READ", "FILE_READ_DATA", 0x00000001), ("WRITE", "FILE_WRITE_DATA", 0x00000002), ("APPEND", "FILE_APPEND_DATA", 0x00000004),
   ("READ_EA", "FILE_READ_EA", 0x00000008), ("WRITE_EA", "FILE_WRITE_EA", 0x00000010), ("EXECUTE", "FILE_EXECUTE", 0x00000020),
   ("DELETE_CHILD", "FILE_DELETE_CHILD", 0x00000040), ("READ_ATTRIBUTES", "FILE_READ_ATTRIBUTES", 0x00000080),
   ("WRITE_ATTRIBUTES", "FILE_WRITE_ATTRIBUTES", 0x00000100), ("DELETE", "DELETE", 0x00010000), ("READ_CONTROL", "READ_CONTROL", 0x00020000),
   ("WRITE_DAC", "WRITE_DAC", 0x00040000), ("WRITE_OWNER", "WRITE_OWNER", 0x00080000), ("SYNCHRONIZE", "SYNCHRONIZE", 0x00100000),
   ("ACCESS_SECURITY", "ACCESS_SYSTEM_SECURITY", 0x01000000), ("MAXIMUM_ALLOWED", "MAXIMUM_ALLOWED", 0x02000000),
   ("GENERIC_ALL", "GENERIC_ALL", 0x10000000), ("GENERIC_EXECUTE", "GENERIC_EXECUTE", 0x20000000),
   ("GENERIC_WRITE", "GENERIC_WRITE", 0x40000000), ("GENERIC_READ", "GENERIC_READ", 0x80000000)]

/-- 2.2.1.4.2 Directory_Access_Mask. -/
def dirAccess : Rows :=
  [("LIST_DIRECTORY", "FILE_LIST_DIRECTORY", 0x00000001), ("ADD_FILE", "FILE_ADD_FILE", 0x00000002),
   ("ADD_SUBDIRECTORY", "FILE_ADD_SUBDIRECTORY", 0x00000004), ("READ_EA", "FILE_READ_EA", 0x00000008),
   ("WRITE_EA", "FILE_WRITE_EA", 0x00000010), ("TRAVERSE", "FILE_TRAVERSE", 0x00000020), ("DELETE_CHILD", "FILE_DELETE_CHILD", 0x00000040),
   ("READ_ATTRIBUTES", "FILE_READ_ATTRIBUTES", 0x00000080), ("WRITE_ATTRIBUTES", "FILE_WRITE_ATTRIBUTES", 0x00000100),
   ("DELETE", "DELETE", 0x00010000), ("READ_CONTROL", "READ_CONTROL", 0x00020000), ("WRITE_DAC", "WRITE_DAC", 0x00040000),
   ("WRITE_OWNER", "WRITE_OWNER", 0x00080000), ("SYNCHRONIZE", "SYNCHRONIZE", 0x00100000),
   ("ACCESS_SECURITY", "ACCESS_SYSTEM_SECURITY", 0x01000000), ("MAXIMUM_ALLOWED", "MAXIMUM_ALLOWED", 0x02000000),
   ("GENERIC_ALL", "GENERIC_ALL", 0x10000000), ("GENERIC_EXECUTE", "GENERIC_EXECUTE", 0x20000000),
   ("GENERIC_WRITE", "GENERIC_WRITE", 0x40000000), ("GENERIC_READ", "GENERIC_READ", 0x80000000)]

/-- 2.2.1.2.4 SMB_FILE_ATTRIBUTES. -/
def fileAttributes : Rows :=
  [("NORMAL", "SMB_FILE_ATTRIBUTE_NORMAL", 0x0000), ("READONLY", "SMB_FILE_ATTRIBUTE_READONLY", 0x0001),
   ("HIDDEN", "SMB_FILE_ATTRIBUTE_HIDDEN", 0x0002), ("SYSTEM", "SMB_FILE_ATTRIBUTE_SYSTEM", 0x0004),
   ("VOLUME", "SMB_FILE_ATTRIBUTE_VOLUME", 0x0008), ("DIRECTORY", "SMB_FILE_ATTRIBUTE_DIRECTORY", 0x0010),
   ("ARCHIVE", "SMB_FILE_ATTRIBUTE_ARCHIVE", 0x0020), ("SEARCH_READONLY", "SMB_SEARCH_ATTRIBUTE_READONLY", 0x0100),
   ("SEARCH_HIDDEN", "SMB_SEARCH_ATTRIBUTE_HIDDEN", 0x0200), ("SEARCH_SYSTEM", "SMB_SEARCH_ATTRIBUTE_SYSTEM", 0x0400),
   ("SEARCH_DIRECTORY", "SMB_SEARCH_ATTRIBUTE_DIRECTORY", 0x1000), ("SEARCH_ARCHIVE", "SMB_SEARCH_ATTRIBUTE_ARCHIVE", 0x2000)]

/-- 2.2.1.2.3 SMB_EXT_FILE_ATTR. -/
def extAttributes : Rows :=
  [("READONLY", "ATTR_READONLY", 0x00000001), ("HIDDEN", "ATTR_HIDDEN", 0x00000002), ("SYSTEM", "ATTR_SYSTEM", 0x00000004),
   ("DIRECTORY", "ATTR_DIRECTORY", 0x00000010), ("ARCHIVE", "ATTR_ARCHIVE", 0x00000020), ("NORMAL", "ATTR_NORMAL", 0x00000080),
   ("TEMP", "ATTR_TEMPORARY", 0x00000100), ("COMPRESSED", "ATTR_COMPRESSED", 0x00000800), ("POSIX", "POSIX_SEMANTICS", 0x01000000),
   ("BACKUP", "BACKUP_SEMANTICS", 0x02000000), ("DELETE_ON_CLOSE", "DELETE_ON_CLOSE", 0x04000000),
   ("SQUENTIAL_ACCESS", "SEQUENTIAL_SCAN", 0x08000000), ("RANDOM_ACCESS", "RANDOM_ACCESS", 0x10000000),
   ("NO_BUFFERING", "NO_BUFFERING", 0x20000000), ("WRITE_THROUGH", "WRITE_THROUGH", 0x80000000)]

/-- 2.2.4.55.1 Flags, with the two of [MS-SMB] 2.2.4.7.1. -/
def treeConnectFlags : Rows :=
  [("DISCONNECT_TID", "TREE_CONNECT_ANDX_DISCONNECT_TID", 0x0001), ("EXTENDED_SIGNATURE", "TREE_CONNECT_ANDX_EXTENDED_SIGNATURES", 0x0004),
   ("EXTENDED_RESPONSE", "TREE_CONNECT_ANDX_EXTENDED_RESPONSE", 0x0008)]

/-- 2.2.4.64.1 ShareAccess. -/
def shareAccess : Rows :=
  [("NONE", "FILE_SHARE_NONE", 0), ("READ", "FILE_SHARE_READ", 1), ("WRITE", "FILE_SHARE_WRITE", 2), ("DELETE", "FILE_SHARE_DELETE", 4)]

/-- 2.2.4.64.1 Flags. -/
def createFlags : Rows :=
  [("REQUEST_OPLOCK", "NT_CREATE_REQUEST_OPLOCK", 2), ("REQUEST_OPBATCH", "NT_CREATE_REQUEST_OPBATCH", 4),
   ("OPEN_TARGET_DIR", "NT_CREATE_OPEN_TARGET_DIR", 8)]

/-- 2.2.4.64.1 CreateDisposition. -/
def dispositions : Rows :=
  [("SUPERSEDE", "FILE_SUPERSEDE", 0), ("OPEN", "FILE_OPEN", 1), ("CREATE", "FILE_CREATE", 2), ("OPEN_IF", "FILE_OPEN_IF", 3),
   ("OVERWRITE", "FILE_OVERWRITE", 4), ("OVERWRITE_IF", "FILE_OVERWRITE_IF", 5)]

/-- 2.2.4.64.1 CreateOptions. -/
def createOptions : Rows :=
  [("DIRECTORY", "FILE_DIRECTORY_FILE", 0x00000001), ("WRITE_THROUGH", "FILE_WRITE_THROUGH", 0x00000002),
   ("SEQUENTIAL_ONLY", "FILE_SEQUENTIAL_ONLY", 0x00000004), ("NO_BUFFERING", "FILE_NO_INTERMEDIATE_BUFFERING", 0x00000008),
   ("NON_DIRECTORY", "FILE_NON_DIRECTORY_FILE", 0x00000040), ("NO_EA_KNOWLEDGE", "FILE_NO_EA_KNOWLEDGE", 0x00000200),
   ("RANDOM_ACCESS", "FILE_RANDOM_ACCESS", 0x00000800), ("DELETE_ON_CLOSE", "FILE_DELETE_ON_CLOSE", 0x00001000),
   ("OPEN_BY_FID", "FILE_OPEN_BY_FILE_ID", 0x00002000), ("INTENT_BACKUP", "FILE_OPEN_FOR_BACKUP_INTENT", 0x00004000),
   ("NO_COMPRESSION", "FILE_NO_COMPRESSION", 0x00008000), ("NO_RECALL", "FILE_OPEN_NO_RECALL", 0x00400000)]

/-- 2.2.4.64.1 ImpersonationLevel. -/
def impersonation : Rows :=
  [("ANONYMOUS", "SEC_ANONYMOUS", 0), ("IDENTIFY", "SEC_IDENTIFY", 1), ("IMPERSONATE", "SEC_IMPERSONATE", 2)]

/-- 2.2.4.64.1 SecurityFlags. -/
def securityFlags : Rows :=
  [("CONTEXT_TRACKING", "SMB_SECURITY_CONTEXT_TRACKING", 1), ("EFFECTIVE_ONLY", "SMB_SECURITY_EFFECTIVE_ONLY", 2)]

/-- 2.2.4.64.2 OpLockLevel. -/
def oplockLevels : Rows :=
  [("NO_LOCK", "no OpLock", 0), ("EXCLUSIVE", "exclusive OpLock", 1), ("BATCH", "batch OpLock", 2), ("LEVEL2", "Level II OpLock", 3)]

/-- 2.2.4.64.2 ResourceType. -/
def resourceTypes : Rows :=
  [("DISK", "FileTypeDisk", 0), ("BYTE_PIPE", "FileTypeByteModePipe", 1), ("MESSAGE_PIPE", "FileTypeMessageModePipe", 2),
   ("PRINTER", "FileTypePrinter", 3), ("COMM_DEVICE", "FileTypeCommDevice", 4)]

/-- 2.2.4.64.2 ResourceType: FileTypeUnknown, for which the client has no name. -/
def resourceUnknown : Nat := 0xFFFF

/-- 2.2.3.1 Flags. -/
def flags1 : Rows :=
  [("LOCK_AND_READ_OK", "SMB_FLAGS_LOCK_AND_READ_OK", 0x01), ("BUFFER_AVAILABLE", "SMB_FLAGS_BUF_AVAIL", 0x02), ("RESERVED1", "Reserved", 0x04),
   ("CASE_INSENSITIVE", "SMB_FLAGS_CASE_INSENSITIVE", 0x08), ("CANONICAL_PATHS", "SMB_FLAGS_CANONICALIZED_PATHS", 0x10),
   ("OPLOCK", "SMB_FLAGS_OPLOCK", 0x20), ("OPBATCH", "SMB_FLAGS_OPBATCH", 0x40), ("REPLY", "SMB_FLAGS_REPLY", 0x80)]

/-- 2.2.3.1 Flags2, with those of [MS-SMB] 2.2.3.1. -/
def flags2 : Rows :=
  [("LONG_NAMES_ALLOWED", "SMB_FLAGS2_LONG_NAMES", 0x0001), ("EAS", "SMB_FLAGS2_EAS", 0x0002),
   ("SIGNATURE_SUPPORTED", "SMB_FLAGS2_SMB_SECURITY_SIGNATURE", 0x0004),
   ("SIGNATURE_REQUIRED", "SMB_FLAGS2_SMB_SECURITY_SIGNATURE_REQUIRED", 0x0010), ("LONG_NAMES_USED", "SMB_FLAGS2_IS_LONG_NAME", 0x0040),
   ("EXTENDED_SECURITY", "SMB_FLAGS2_EXTENDED_SECURITY", 0x0800), ("DFS", "SMB_FLAGS2_DFS", 0x1000), ("PAGING_IO", "SMB_FLAGS2_PAGING_IO", 0x2000),
   ("NTSTATUS", "SMB_FLAGS2_NT_STATUS", 0x4000), ("UNICODE", "SMB_FLAGS2_UNICODE", 0x8000)]

/-- 2.2.4.52.2 Capabilities, with those of [MS-SMB] 2.2.4.5.2.1. -/
def capabilities : Rows :=
  [("RAW_MODE", "CAP_RAW_MODE", 0x00000001), ("MPX_MODE", "CAP_MPX_MODE", 0x00000002), ("UNICODE", "CAP_UNICODE", 0x00000004),
   ("LARGE_FILES", "CAP_LARGE_FILES", 0x00000008), ("NT_SMBS", "CAP_NT_SMBS", 0x00000010), ("REMOTE_APIS", "CAP_RPC_REMOTE_APIS", 0x00000020),
   ("NTSTATUS", "CAP_STATUS32", 0x00000040), ("LEVEL2_OPLOCKS", "CAP_LEVEL_II_OPLOCKS", 0x00000080),
   ("LOCK_AND_READ", "CAP_LOCK_AND_READ", 0x00000100), ("NT_FIND", "CAP_NT_FIND", 0x00000200), ("DFS", "CAP_DFS", 0x00001000),
   ("INFOLEVEL_PASS", "CAP_INFOLEVEL_PASSTHRU", 0x00002000), ("LARGE_READX", "CAP_LARGE_READX", 0x00004000),
   ("LARGE_WRITEX", "CAP_LARGE_WRITEX", 0x00008000), ("LWIO", "CAP_LWIO", 0x00010000), ("UNIX", "CAP_UNIX", 0x00800000),
   ("COMPRESSED", "CAP_COMPRESSED_DATA", 0x02000000), ("DYNAMIC_REAUTH", "CAP_DYNAMIC_REAUTH", 0x20000000),
   ("PERSISTENT_HANDLES", "CAP_PERSISTENT_HANDLES", 0x40000000), ("EXTENDED_SECURITY", "CAP_EXTENDED_SECURITY", 0x80000000)]

/-- 2.2.6.2.1 Flags. -/
def findFlags : Rows :=
  [("CLOSE_AFTER_REQ", "SMB_FIND_CLOSE_AFTER_REQUEST", 0x0001), ("CLOSE_ON_EOS", "SMB_FIND_CLOSE_AT_EOS", 0x0002),
   ("RETURN_RESUME", "SMB_FIND_RETURN_RESUME_KEYS", 0x0004), ("CONTINUE_FROM_LAST", "SMB_FIND_CONTINUE_FROM_LAST", 0x0008),
   ("WITH_BACKUP_INTENT", "SMB_FIND_WITH_BACKUP_INTENT", 0x0010)]

/-- 2.2.2.3.1 FIND information levels. -/
def findLevels : Rows :=
  [("STANDARD", "SMB_INFO_STANDARD", 0x0001), ("QUERY_EA_SIZE", "SMB_INFO_QUERY_EA_SIZE", 0x0002),
   ("QUERY_EA_FROM_LIST", "SMB_INFO_QUERY_EAS_FROM_LIST", 0x0003), ("DIRECTORY_INFO", "SMB_FIND_FILE_DIRECTORY_INFO", 0x0101),
   ("FULL_DIRECTORY_INFO", "SMB_FIND_FILE_FULL_DIRECTORY_INFO", 0x0102), ("NAMES_INFO", "SMB_FIND_FILE_NAMES_INFO", 0x0103),
   ("BOTH_DIRECTORY_INFO", "SMB_FIND_FILE_BOTH_DIRECTORY_INFO", 0x0104)]

/-- 2.2.7.4.1 CompletionFilter. -/
def completionFilters : Rows :=
  [("FILENAME", "FILE_NOTIFY_CHANGE_FILE_NAME", 0x00000001), ("DIRNAME", "FILE_NOTIFY_CHANGE_DIR_NAME", 0x00000002),
   ("NAME", "FILE_NOTIFY_CHANGE_NAME", 0x00000003), ("ATTR", "FILE_NOTIFY_CHANGE_ATTRIBUTES", 0x00000004),
   ("SIZE", "FILE_NOTIFY_CHANGE_SIZE", 0x00000008), ("LAST_WRITE", "FILE_NOTIFY_CHANGE_LAST_WRITE", 0x00000010),
   ("LAST_ACCESS", "FILE_NOTIFY_CHANGE_LAST_ACCESS", 0x00000020), ("CREATION", "FILE_NOTIFY_CHANGE_CREATION", 0x00000040),
   ("EA", "FILE_NOTIFY_CHANGE_EA", 0x00000080), ("SECURITY", "FILE_NOTIFY_CHANGE_SECURITY", 0x00000100),
   ("STREAM_NAME", "FILE_NOTIFY_CHANGE_STREAM_NAME", 0x00000200), ("STREAM_SIZE", "FILE_NOTIFY_CHANGE_STREAM_SIZE", 0x00000400),
   ("STREAM_WRITE", "FILE_NOTIFY_CHANGE_STREAM_WRITE", 0x00000800)]

/-- [MS-NLMP] 2.2.2.5 NEGOTIATE; the client's `NETWARE`, `LOCAL`, `TARGET_TYPE_SHARE` and `REQ_ACCEPT_RESP` are reserved bits there and have
their names from the older description of the protocol that the client cites. -/
def negotiateFlags : Rows :=
  [("UNICODE", "NTLMSSP_NEGOTIATE_UNICODE", 0x00000001), ("OEM", "NTLM_NEGOTIATE_OEM", 0x00000002),
   ("REQUEST_TARGET", "NTLMSSP_REQUEST_TARGET", 0x00000004), ("SIGN", "NTLMSSP_NEGOTIATE_SIGN", 0x00000010),
   ("SEAL", "NTLMSSP_NEGOTIATE_SEAL", 0x00000020), ("DATAGRAM", "NTLMSSP_NEGOTIATE_DATAGRAM", 0x00000040),
   ("LMKEY", "NTLMSSP_NEGOTIATE_LM_KEY", 0x00000080), ("NETWARE", "Negotiate Netware", 0x00000100), ("NTLM", "NTLMSSP_NEGOTIATE_NTLM", 0x00000200),
   ("NT_ONLY", "NTLMSSP_NEGOTIATE_NT_ONLY", 0x00000400), ("ANONYMOUS", "ANONYMOUS", 0x00000800),
   ("DOMAIN_SUPPLIED", "NTLMSSP_NEGOTIATE_OEM_DOMAIN_SUPPLIED", 0x00001000),
   ("WORKSTATION_SUPPLIED", "NTLMSSP_NEGOTIATE_OEM_WORKSTATION_SUPPLIED", 0x00002000), ("LOCAL", "Negotiate Local Call", 0x00004000),
   ("ALWAYS_SIGN", "NTLMSSP_NEGOTIATE_ALWAYS_SIGN", 0x00008000), ("TARGET_TYPE_DOMAIN", "NTLMSSP_TARGET_TYPE_DOMAIN", 0x00010000),
   ("TARGET_TYPE_SERVER", "NTLMSSP_TARGET_TYPE_SERVER", 0x00020000), ("TARGET_TYPE_SHARE", "Target Type Share", 0x00040000),
   ("NTLM2_KEY", "NTLMSSP_NEGOTIATE_EXTENDED_SESSIONSECURITY", 0x00080000), ("REQ_INIT_RESP", "NTLMSSP_NEGOTIATE_IDENTIFY", 0x00100000),
   ("REQ_ACCEPT_RESP", "Request Accept Response", 0x00200000), ("REQ_NONNT_KEY", "NTLMSSP_REQUEST_NON_NT_SESSION_KEY", 0x00400000),
   ("TARGET_INFO", "NTLMSSP_NEGOTIATE_TARGET_INFO", 0x00800000), ("VERSION", "NTLMSSP_NEGOTIATE_VERSION", 0x02000000),
   ("BIT128", "NTLMSSP_NEGOTIATE_128", 0x20000000), ("KEY_EXCHANGE", "NTLMSSP_NEGOTIATE_KEY_EXCH", 0x40000000),
   ("BIT56", "NTLMSSP_NEGOTIATE_56", 0x80000000)]

/-- The word `w` has all bits of `v`. -/
def HasBits (w v : Nat) : Prop := w &&& v = v

instance (w v : Nat) : Decidable (HasBits w v) := inferInstanceAs (Decidable (_ = _))

end Cifs.Spec
