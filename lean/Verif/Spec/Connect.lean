import Verif.Spec.Login
/-!
# Establishing a connection
-/

namespace Cifs.Spec

variable {σ : Type}

/-- RFC 1002 4.3.2 session request: type 0x81, length 68, called and calling name in half-ASCII, each with its length byte 0x20 and its
terminator. -/
def IsSessionRequest (p called calling : Bytes) : Prop :=
  p.length = 72 ∧ u8At p 0 = some 0x81 ∧ u24beAt p 1 = some 68 ∧
    ∃ a b, sliceAt p 4 34 = some ([0x20] ++ a ++ [0x00]) ∧ sliceAt p 38 34 = some ([0x20] ++ b ++ [0x00]) ∧
      decodeHalfAscii a = some called ∧ decodeHalfAscii b = some calling

/-- A connection over which SMB messages can be exchanged: what the caller asked for (a port or none), the ports dialled, the packets sent
so far, the server's state, and the bytes that have arrived. A session request is needed only if port 445 could not be reached, and a
positive response to it. -/
inductive Connected (V : Server σ) (dial : Dial σ) (calling : Bytes) : Option UInt16 → List UInt16 → List Bytes → World σ → σ → Bytes → Prop
  | raw {p : UInt16} {w : World σ} (h : dial p = .ok w) : Connected V dial calling (some p) [p] [] w w.srv w.inbox.flatten
  | direct {w : World σ} (h : dial 445 = .ok w) : Connected V dial calling none [445] [] w w.srv w.inbox.flatten
  | session {w : World σ} {e : IoErr} {p rest : Bytes} (h : dial 445 = .error e) (h' : dial 139 = .ok w)
      (hp : IsSessionRequest p (netbiosName "*SMBSERVER".toList) calling)
      (hr : w.inbox.flatten ++ (V.react w.srv p).2.flatten = [0x82, 0, 0, 0] ++ rest) :
      Connected V dial calling none [445, 139] [p] w (V.react w.srv p).1 rest

end Cifs.Spec
