import Verif.Model.Client
/-!
# The public operations, seen from outside: command codes and trees ([MS-CIFS] 2.2.2.1)
-/

namespace Cifs.Spec

/-- SMB_COM_DELETE_DIRECTORY. -/
def comRmdir : Nat := 0x01
/-- SMB_COM_CLOSE. -/
def comClose : Nat := 0x04
/-- SMB_COM_DELETE. -/
def comDelete : Nat := 0x06
/-- SMB_COM_READ_ANDX. -/
def comRead : Nat := 0x2e
/-- SMB_COM_TRANSACTION2. -/
def comTransact2 : Nat := 0x32
/-- SMB_COM_TREE_DISCONNECT. -/
def comTreeDisconnect : Nat := 0x71
/-- SMB_COM_NEGOTIATE. -/
def comNegotiate : Nat := 0x72
/-- SMB_COM_SESSION_SETUP_ANDX. -/
def comSessionSetup : Nat := 0x73
/-- SMB_COM_TREE_CONNECT_ANDX. -/
def comTreeConnect : Nat := 0x75
/-- SMB_COM_NT_TRANSACT. -/
def comNtTransact : Nat := 0xa0
/-- SMB_COM_NT_CREATE_ANDX. -/
def comCreate : Nat := 0xa2

/-- The command codes an operation may use. -/
def codes : Op → List Nat
  | .mount .. => [comTreeConnect]
  | .umount .. => [comTreeDisconnect]
  | .openfile .. => [comCreate]
  | .opendir .. => [comCreate]
  | .close .. => [comClose]
  | .read .. => [comRead]
  | .download .. => [comCreate, comRead, comClose]
  | .delete .. => [comDelete]
  | .rmdir .. => [comRmdir]
  | .notify .. => [comNtTransact]
  | .findFirst .. => [comTransact2]
  | .findNext .. => [comTransact2]
  | .list .. => [comTransact2]

/-- The tree an operation acts on; `none` where no single one is fixed in advance (`download` opens on the share's tree, then acts on
the tree of the handle). -/
def tree : Op → Option UInt16
  | .mount .. => some 0xffff
  | .umount share => some share.tid
  | .openfile share _ => some share.tid
  | .opendir share _ => some share.tid
  | .close file => some file.tid
  | .read file _ => some file.tid
  | .download .. => none
  | .delete share _ => some share.tid
  | .rmdir share _ => some share.tid
  | .notify handle _ => some handle.tid
  | .findFirst share _ => some share.tid
  | .findNext share _ _ => some share.tid
  | .list _ share _ => some share.tid

/-- Operations that make exactly one request. -/
def single : Op → Bool
  | .download .. => false
  | .list .. => false
  | _ => true

end Cifs.Spec
