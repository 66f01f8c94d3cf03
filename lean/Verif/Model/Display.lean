import Verif.Model.Client
/-!
# The texts of errors

The `Display` implementations of /repo/src/error.rs:22-36, /repo/src/netbios.rs:28-40, /repo/src/smb/error.rs:24-38, /repo/src/ntlm/error.rs:11-20
and /repo/src/smb/info.rs:174-181, and the derived `Debug` of `NTStatus` and `Cmd`, which writes the name of the variant.

The text of an operating system error comes from the standard library and is a parameter.
-/

namespace Cifs

/-- `{:?}` for /repo/src/win.rs:12-45 `NTStatus`. -/
def NTStatus.debug : NTStatus → String
  | SUCCESS                 => "SUCCESS"
  | INVALID_SMB             => "INVALID_SMB"
  | BAD_TID                 => "BAD_TID"
  | BAD_COMMAND             => "BAD_COMMAND"
  | BAD_UID                 => "BAD_UID"
  | NON_STANDARD            => "NON_STANDARD"
  | BUFFER_OVERFLOW         => "BUFFER_OVERFLOW"
  | NO_MORE_FILES           => "NO_MORE_FILES"
  | STOPPED_ON_SYMLINK      => "STOPPED_ON_SYMLINK"
  | NOT_IMPLEMENTED         => "NOT_IMPLEMENTED"
  | INVALID_PARAMETER       => "INVALID_PARAMETER"
  | NO_SUCH_DEVICE          => "NO_SUCH_DEVICE"
  | NO_SUCH_FILE            => "NO_SUCH_FILE"
  | INVALID_DEVICE_REQ      => "INVALID_DEVICE_REQ"
  | MORE_PROCESSING         => "MORE_PROCESSING"
  | ACCESS_DENIED           => "ACCESS_DENIED"
  | BUFFER_TOO_SMALL        => "BUFFER_TOO_SMALL"
  | NAME_NOT_FOUND          => "NAME_NOT_FOUND"
  | NAME_COLLISION          => "NAME_COLLISION"
  | PATH_NOT_FOUND          => "PATH_NOT_FOUND"
  | LOGIN_FAILURE           => "LOGIN_FAILURE"
  | BAD_IMPERSONATION       => "BAD_IMPERSONATION"
  | IO_TIMEOUT              => "IO_TIMEOUT"
  | FILE_IS_DIRECTORY       => "FILE_IS_DIRECTORY"
  | NOT_SUPPORTED           => "NOT_SUPPORTED"
  | NETWORK_NAME_DELETED    => "NETWORK_NAME_DELETED"
  | USER_SESSION_DELETED    => "USER_SESSION_DELETED"
  | NETWORK_SESSION_EXPIRED => "NETWORK_SESSION_EXPIRED"
  | TOO_MANY_UIDS           => "TOO_MANY_UIDS"
  | MEDIA_WRITE_PROTECTED   => "MEDIA_WRITE_PROTECTED"
  | NETWORK_NAME_NOT_FOUND  => "NETWORK_NAME_NOT_FOUND"
  | DIRECTORY_NOT_EMPTY     => "DIRECTORY_NOT_EMPTY"

/-- `{:?}` for /repo/src/smb/info.rs:197-210 `Cmd`. -/
def Cmd.debug : Cmd → String
  | Rmdir          => "Rmdir"
  | Close          => "Close"
  | Delete         => "Delete"
  | Read           => "Read"
  | Transact2      => "Transact2"
  | TreeDisconnect => "TreeDisconnect"
  | Negotiate      => "Negotiate"
  | SessionSetup   => "SessionSetup"
  | TreeConnect    => "TreeConnect"
  | Transact       => "Transact"
  | Create         => "Create"
  | NoCommand      => "NoCommand"

/-- `{}` for an unsigned number. -/
def showDecimal (n : Nat) : Str := Nat.toDigits 10 n

/-- `{:02x}`: lower case, at least two digits. -/
def hex02 (n : Nat) : Str :=
  let digits := Nat.toDigits 16 n
  List.replicate (2 - digits.length) '0' ++ digits

/-- /repo/src/smb/info.rs:184-186 `Status::is_success`. -/
def Status.isSuccess (s : Status) : Bool := s == .Known .SUCCESS

/-- /repo/src/smb/info.rs:188-190 `Status::is_failure`. -/
def Status.isFailure (s : Status) : Bool := !s.isSuccess

/-- /repo/src/smb/info.rs:174-181 `impl Display for Status`. -/
def Status.display : Status → Str
  | .Known x   => x.debug.toList
  | .Unknown x => "Unknown (".toList ++ hex02 x.toNat ++ ")".toList

/-- /repo/src/netbios.rs:28-40 `impl Display for netbios::Error`. -/
def NbError.display (io : IoErr → Str) : NbError → Str
  | .IoError what       => "io error: ".toList ++ io what
  | .CreateSession code => "can't create NBT session: error code 0x".toList ++ hex02 code.toNat
  | .InvalidFrameType v => "invalid NetBIOS message type: 0x".toList ++ hex02 v.toNat
  | .InvalidFrame       => "invalid NetBIOS frame".toList
  | .FrameTooBig        => "frame exceeds maximal size".toList
  | .UnexpectedFrame    => "unexpected NetBIOS frame".toList
  | .UnexpectedEOF      => "unexpected end of stream".toList

/-- The messages of /repo/src/smb/trans2/collector.rs:64,77,99,106. -/
def ReassembleErr.message : ReassembleErr → Str
  | .totalChanged saved total     =>
    "server changed it's mind about total packet size: ".toList ++ showDecimal saved ++ " vs ".toList ++ showDecimal total
  | .duplicate offset             => "got fragment at offset ".toList ++ showDecimal offset ++ " twice".toList
  | .lengthMismatch want got      => "length does not match, want ".toList ++ showDecimal want ++ ", but got ".toList ++ showDecimal got
  | .offsetMismatch got expected  => "offset mismatch, got: ".toList ++ showDecimal got ++ ", expected: ".toList ++ showDecimal expected

/-- /repo/src/smb/error.rs:24-38 `impl Display for smb::Error`. -/
def SmbError.display : SmbError → Str
  | .InvalidHeader         => "invalid header".toList
  | .InvalidData           => "invalid packet data".toList
  | .InvalidCommand cmd    => "invalid command: ".toList ++ hex02 cmd.toNat
  | .NoDialect             => "no supported dialect found".toList
  | .NeedSecurityExt       => "need security extension".toList
  | .ReplyExpected         => "header is marked as request instead of reply".toList
  | .CreatePacket whatnow  => "error creating packet: ".toList ++ whatnow.toList
  | .Reassemble why        => "error reassembling transact2 reply: ".toList ++ why.message
  | .Unsupported what      => "unsupported feature: ".toList ++ what.toList

/-- /repo/src/ntlm/error.rs:11-20 `impl Display for ntlm::Error`; the parameter is the text of /repo/src/ntlm/error.rs:30 with the standard
library's `TryFromIntError`. -/
def NtlmError.display : NtlmError → Str
  | .InputParameter => "invalid input paramater: numeric conversion: out of range integral type conversion attempted".toList
  | .InvalidPacket  => "invalid packet data".toList
  | .NeedAuth       => "authentication not configured".toList

/-- /repo/src/error.rs:22-36 `impl Display for Error`. -/
def Error.display (io : IoErr → Str) : Error → Str
  | .NetBios error            => "NetBios error: ".toList ++ error.display io
  | .SMBError err             => "protocol error: ".toList ++ err.display
  | .NTLMError err            => "NTLM error: ".toList ++ err.display
  | .UnexpectedReply want got => "unexpected reply, want: ".toList ++ want.debug.toList ++ ", got: ".toList ++ got.debug.toList
  | .ServerError status       => "server error: ".toList ++ status.display
  | .InvalidUri               => "URI is invalid".toList

end Cifs
