import Verif.Spec.Service
import Verif.Spec.Login
/-!
# Names as a server reads them

In [MS-CIFS] strings are null-terminated: a name ends with its first NUL. Only the name in a request to open a file or directory has a length instead.
-/

namespace Cifs.Spec

variable {σ A : Type}

/-- The bytes `b` begin with this text in UTF-16 and its NUL; `rest` comes after. -/
def NulText (text : Str) (b rest : Bytes) : Prop := '\x00' ∉ text ∧ ∃ name, Utf16le text name ∧ b = name ++ [0, 0] ++ rest

/-- The same in bytes. -/
def NulBytes (text : Str) (b rest : Bytes) : Prop := '\x00' ∉ text ∧ b = utf8Bytes text ++ [0] ++ rest

/-- The part of a text in front of its first NUL. -/
def upToNul (text : Str) : Str := text.takeWhile (· ≠ '\x00')

/-- In a request to mount, after the password: the path, and what comes after it. -/
def ReadsShare (unicode : Bool) (req password : Bytes) (path : Str) (rest : Bytes) : Prop :=
  ∃ pad b, dataOf req = some (password ++ pad ++ b) ∧
    if unicode then (pad = [] ∨ pad = [0]) ∧ (43 + password.length + pad.length) % 2 = 0 ∧ NulText path b rest else pad = [] ∧ NulBytes path b rest

/-- The name in the call is what a server reads in the request. -/
def Reads (unicode : Bool) (req : Bytes) : Call → Prop
  | .mount password path => ∃ rest, ReadsShare unicode req password path rest
  | .delete _ path | .rmdir _ path => ∃ b rest, dataOf req = some (4 :: b) ∧ NulText path b rest
  | .findFirst _ pattern => ∃ ps rest, IsTransact2 req 1 ps [] ∧ NulText pattern (ps.drop 12) rest
  | .findNext _ _ last => ∃ ps rest, IsTransact2 req 2 ps [] ∧ NulText last (ps.drop 12) rest
  | _ => True

/-- The call with another name, if its name ends with a NUL. -/
def Call.rename (f : Str → Str) : Call → Call
  | .mount password path => .mount password (f path)
  | .delete tid path => .delete tid (f path)
  | .rmdir tid path => .rmdir tid (f path)
  | .findFirst tid pattern => .findFirst tid (f pattern)
  | .findNext tid sid last => .findNext tid sid (f last)
  | c => c

/-- A server takes the packet `req` for this call: it is a request of this kind, and the server reads this name in it. -/
def Hears (unicode : Bool) (req : Bytes) (c : Call) : Prop := (∃ full, IsCall unicode req (c.rename fun _ => full)) ∧ Reads unicode req c

/-- The server `V` offers the service `Does`, as in `Implements`, for the calls that it hears. -/
def Listens (V : Server σ) (own : Nat → Prop) (unicode : Bool) (uid : Nat) (Does : A → Call → Answer → A → Prop) (rel : A → σ → Prop) : Prop :=
  ∀ a v req c, rel a v → Hears unicode req c → uidOf req = some uid → ∃ r a', Does a c r a' ∧ Answers V own v req c r ∧ rel a' (V.react v req).1

/-- The name in the operation has no NUL, if its request has no length for it. -/
def NulFree : Op → Prop
  | .mount path _ | .delete _ path | .rmdir _ path | .findFirst _ path | .findNext _ _ path => '\x00' ∉ path
  | _ => True

/-- The names in a login without extended security, as a server reads them. -/
def ReadsAccount (req response : Bytes) (user domain : Str) : Prop :=
  ∃ b b' rest, dataOf req = some (response ++ response ++ [0] ++ b) ∧ NulText user b b' ∧ NulText domain b' rest

end Cifs.Spec
