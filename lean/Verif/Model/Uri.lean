import Verif.Model.Basic
/-!
# `resolve_smb_uri` (`src/lib.rs`)

The `regex` crate documents leftmost-first semantics: of all matches the one starting leftmost is taken, and among those the one a
backtracking matcher (greedy quantifiers try more first, optional groups try "present" first) finds first. The matcher below is that
backtracking matcher, as the list of all its successes in the order it finds them.
The Unicode classes `\w` and `\d` are parameters that agree with the well-known definition on ASCII.
-/

namespace Cifs

/-- The Unicode character classes of the `regex` crate, known only on ASCII. -/
structure CharClass where
  word : Char → Bool
  digit : Char → Bool
  word_ascii : ∀ c : Char, c.toNat < 128 → word c = (c.isAlphanum || c == '_')
  digit_ascii : ∀ c : Char, c.toNat < 128 → digit c = c.isDigit

/-- Names of the capture groups in /repo/src/lib.rs:434. -/
inductive Grp where
  | domain | user | passwd | host | port | share | path
  deriving Repr, DecidableEq

/-- The regular expressions needed: a character class, a greedy repetition of a class, sequence, greedy optional group, capture. -/
inductive Re where
  | cls (p : Char → Bool)
  | star (p : Char → Bool)
  | seq (a b : Re)
  | opt (a : Re)
  | cap (g : Grp) (a : Re)

/-- One success of the matcher: text consumed, captures made, text left. -/
structure ReMatch where
  text : Str
  caps : List (Grp × Str)
  rest : Str
  deriving Repr, DecidableEq

/-- Greedy `p*`: the longest repetition first. -/
def starRun (p : Char → Bool) : Str → List (Str × Str)
  | [] => [([], [])]
  | c :: cs => if p c then (starRun p cs).map (fun m => (c :: m.1, m.2)) ++ [([], c :: cs)] else [([], c :: cs)]

/-- All successes of `r` at the beginning of the text, in the order of a backtracking matcher. -/
def Re.run : Re → Str → List ReMatch
  | .cls _, [] => []
  | .cls p, c :: cs => if p c then [{ text := [c], caps := [], rest := cs }] else []
  | .star p, s => (starRun p s).map (fun m => { text := m.1, caps := [], rest := m.2 })
  | .seq a b, s =>
    (a.run s).flatMap (fun m => (b.run m.rest).map (fun n => { text := m.text ++ n.text, caps := m.caps ++ n.caps, rest := n.rest }))
  | .opt a, s => a.run s ++ [{ text := [], caps := [], rest := s }]
  | .cap g a, s => (a.run s).map (fun m => { m with caps := (g, m.text) :: m.caps })

/-- A literal string (non-empty). -/
def Re.lit : Char → Str → Re
  | c, [] => .cls (· == c)
  | c, d :: ds => .seq (.cls (· == c)) (Re.lit d ds)

/-- `p+`. -/
def Re.plus (p : Char → Bool) : Re := .seq (.cls p) (.star p)

/-- `regex::Regex::captures`: first success at the leftmost start position that has one. -/
def Re.find (r : Re) : Str → Option ReMatch
  | [] => (r.run []).head?
  | c :: cs => match (r.run (c :: cs)).head? with
    | some m => some m
    | none => r.find cs

variable (K : CharClass)

/-- `[\w\.\+_-]`. -/
def userChar (c : Char) : Bool := K.word c || c == '.' || c == '+' || c == '_' || c == '-'
/-- `[^@]`. -/
def passwdChar (c : Char) : Bool := c != '@'
/-- `[\w\.-]`. -/
def hostChar (c : Char) : Bool := K.word c || c == '.' || c == '-'
/-- `[\w\._-]`. -/
def shareChar (c : Char) : Bool := K.word c || c == '.' || c == '_' || c == '-'
/-- `.`. -/
def pathChar (c : Char) : Bool := c != '\n'

/-- `((?P<domain>\w+);)?` -/
def reDomain : Re := .opt (.seq (.cap .domain (.plus K.word)) (.lit ';' []))
/-- `((?P<user>[\w\.\+_-]+)(:(?P<passwd>[^@]*))?@)?` -/
def reUser : Re :=
  .opt (.seq (.cap .user (.plus (userChar K)))
    (.seq (.opt (.seq (.lit ':' []) (.cap .passwd (.star passwdChar)))) (.lit '@' [])))
/-- `(?P<host>\w[\w\.-]*)` -/
def reHost : Re := .cap .host (.seq (.cls K.word) (.star (hostChar K)))
/-- `(:(?P<port>\d+))?` -/
def rePort : Re := .opt (.seq (.lit ':' []) (.cap .port (.plus K.digit)))
/-- `(?P<share>[\w\._-]+)` -/
def reShare : Re := .cap .share (.plus (shareChar K))
/-- `(/(?P<path>.*))?` -/
def rePath : Re := .opt (.seq (.lit '/' []) (.cap .path (.star pathChar)))

/-- /repo/src/lib.rs:434 `URI_REGEX`. -/
def uriRegex : Re :=
  .seq (.lit 's' ['m', 'b', ':', '/', '/']) (.seq (reDomain K) (.seq (reUser K) (.seq (reHost K) (.seq (rePort K)
    (.seq (.lit '/' []) (.seq (reShare K) rePath))))))

/-- /repo/src/lib.rs:418-426 `CifsConfig`. -/
structure CifsConfig where
  domain : Option Str
  user : Option Str
  password : Option Str
  hostname : Str
  port : Option UInt16
  share : Str
  path : Option Str
  deriving Repr, DecidableEq

/-- `char::to_digit(10)`. -/
def digitVal (c : Char) : Option Nat := if 48 ≤ c.toNat ∧ c.toNat ≤ 57 then some (c.toNat - 48) else none

/-- The digit loop of `u16::from_str_radix(_, 10)` with its overflow checks. -/
def parseU16Loop (acc : Nat) : Str → Option Nat
  | [] => some acc
  | c :: cs =>
    match digitVal c with
    | none => none
    | some d =>
      if 65535 < acc * 10 then none
      else if 65535 < acc * 10 + d then none
      else parseU16Loop (acc * 10 + d) cs

/-- `u16::from_str_radix(s, 10)`: optional leading `+`, at least one digit. -/
def parseU16 (s : Str) : Option UInt16 :=
  match s with
  | [] => none
  | '+' :: [] => none
  | '+' :: cs => (parseU16Loop 0 cs).map UInt16.ofNat
  | cs => (parseU16Loop 0 cs).map UInt16.ofNat

/-- `Captures::name`: the text of a group, if it took part in the match. -/
def ReMatch.name (m : ReMatch) (g : Grp) : Option Str := (m.caps.find? (fun p => p.1 == g)).map (·.2)

/-- /repo/src/lib.rs:431-461 `resolve_smb_uri`; `none` is `Err(Error::InvalidUri)`. -/
def resolveSmbUri (uri : Str) : Option CifsConfig := do
  let m ← (uriRegex K).find uri
  let hostname ← m.name .host
  let port ← match m.name .port with
    | none => some none
    | some p => (parseU16 p).map some
  let share ← m.name .share
  return { domain := m.name .domain, user := m.name .user, password := m.name .passwd, hostname, port, share
           path := m.name .path }

end Cifs
