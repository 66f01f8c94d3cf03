import Verif.Model.Basic
/-!
# Independent specification of text on the wire

UTF-16LE by its definition (Unicode 3.9, D91 and D97), as a relation; UTF-8 is Lean's own `String.utf8EncodeChar`.
-/

namespace Cifs.Spec

/-- `Utf16le s b`: the bytes `b` are the UTF-16LE form of `s`. -/
inductive Utf16le : Str → Bytes → Prop
  /-- Nothing. -/
  | nil : Utf16le [] []
  /-- A character of the basic plane: its number, low byte first. -/
  | basic {c : Char} {lo hi : UInt8} {s : Str} {b : Bytes} (h : c.toNat = lo.toNat + 256 * hi.toNat) (hs : Utf16le s b) :
      Utf16le (c :: s) (lo :: hi :: b)
  /-- Any other character: a surrogate pair, `D800 + x` and `DC00 + y` for the number `10000 + 400 x + y` (hexadecimal). -/
  | pair {c : Char} {l1 h1 l2 h2 : UInt8} {x y : Nat} {s : Str} {b : Bytes} (hx : x < 0x400) (hy : y < 0x400)
      (hc : c.toNat = 0x10000 + 0x400 * x + y) (e1 : l1.toNat + 256 * h1.toNat = 0xD800 + x) (e2 : l2.toNat + 256 * h2.toNat = 0xDC00 + y)
      (hs : Utf16le s b) : Utf16le (c :: s) (l1 :: h1 :: l2 :: h2 :: b)

/-- Number of UTF-16 code units of a string. -/
def utf16Len : Str → Nat
  | [] => 0
  | c :: s => (if c.toNat < 0x10000 then 1 else 2) + utf16Len s

/-- UTF-8, by Lean's definition. -/
def utf8Bytes (s : Str) : Bytes := s.flatMap String.utf8EncodeChar

/-- A path with the separators of the protocol. -/
def backslashed (path : Str) : Str := path.map (fun c => if c = '/' then '\\' else c)

end Cifs.Spec
