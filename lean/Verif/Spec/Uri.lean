import Verif.Model.Uri
/-!
# What an SMB URI says

`smb://[domain;][user[:password]@]host[:port]/share[/path]`, read left to right. The character sets are stated here in their own terms; only
the classes "letter, digit or underscore" and "digit" of Unicode are taken from a `CharClass`.
-/

namespace Cifs

/-- The seven parts of a URI as text. -/
structure UriParts where
  domain : Option Str
  user : Option Str
  password : Option Str
  host : Str
  port : Option Str
  share : Str
  path : Option Str
  deriving Repr, DecidableEq

/-- An optional part with what separates it from the parts before and after. -/
def optText (before : Str) (part : Option Str) (after : Str) : Str :=
  match part with
  | some t => before ++ t ++ after
  | none => []

/-- The user part includes the password, if there is one. -/
def userText (p : UriParts) : Str :=
  match p.user with
  | some u => u ++ optText [':'] p.password [] ++ ['@']
  | none => []

/-- The URI that consists of the parts. -/
def UriParts.text (p : UriParts) : Str :=
  ['s', 'm', 'b', ':', '/', '/'] ++ optText [] p.domain [';'] ++ userText p ++ p.host ++ optText [':'] p.port [] ++ ['/'] ++ p.share
    ++ optText ['/'] p.path []

/-- A non-empty text of the given characters. -/
def TextOf (ok : Char → Prop) (t : Str) : Prop := t ≠ [] ∧ ∀ c ∈ t, ok c

/-- The parts use only the characters allowed in them. -/
structure UriParts.Valid (K : CharClass) (p : UriParts) : Prop where
  domain : ∀ t, p.domain = some t → TextOf (fun c => K.word c = true) t
  user : ∀ t, p.user = some t → TextOf (fun c => K.word c = true ∨ c = '.' ∨ c = '+' ∨ c = '-') t
  password : ∀ t, p.password = some t → ∀ c ∈ t, c ≠ '@'
  /-- there is no password without a user -/
  owner : p.user = none → p.password = none
  host : ∃ c t, p.host = c :: t ∧ K.word c = true ∧ ∀ c ∈ t, K.word c = true ∨ c = '.' ∨ c = '-'
  port : ∀ t, p.port = some t → TextOf (fun c => K.digit c = true) t
  share : TextOf (fun c => K.word c = true ∨ c = '.' ∨ c = '-') p.share
  path : ∀ t, p.path = some t → ∀ c ∈ t, c ≠ '\n'

/-- `p` can be read in `u` after the characters `before`, leaving `after`. -/
def Reads (K : CharClass) (u before : Str) (p : UriParts) (after : Str) : Prop := u = before ++ p.text ++ after ∧ p.Valid K

/-- Of two ways to read an optional part, present goes before absent and long before short. -/
def Ahead : Option Str → Option Str → Prop
  | some a, some b => b.length < a.length
  | some _, none => True
  | none, _ => False

/-- The first part in which `p` and `q` differ decides which reading goes first. -/
def UriParts.Before (p q : UriParts) : Prop :=
  Ahead p.domain q.domain ∨ p.domain = q.domain ∧
  (Ahead p.user q.user ∨ p.user = q.user ∧
  (Ahead p.password q.password ∨ p.password = q.password ∧
  (Ahead (some p.host) (some q.host) ∨ p.host = q.host ∧
  (Ahead p.port q.port ∨ p.port = q.port ∧
  (Ahead (some p.share) (some q.share) ∨ p.share = q.share ∧
  Ahead p.path q.path)))))

/-- The reading that is taken: none begins further left, and of those beginning there it goes first. -/
def Taken (K : CharClass) (u before : Str) (p : UriParts) (after : Str) : Prop :=
  Reads K u before p after ∧ ∀ before' q after', Reads K u before' q after' →
    before.length < before'.length ∨ before = before' ∧ (p = q ∧ after = after' ∨ p.Before q)

/-- The number a text denotes in decimal. -/
def decimal (t : Str) : Nat := t.foldl (fun n c => 10 * n + (c.toNat - '0'.toNat)) 0

/-- `n` is the port number that `t` denotes. -/
def PortNumber (t : Str) (n : Nat) : Prop := (∀ c ∈ t, '0'.toNat ≤ c.toNat ∧ c.toNat ≤ '9'.toNat) ∧ n = decimal t ∧ n < 65536

/-- The configuration that consists of the parts. -/
def IsConfig (p : UriParts) (c : CifsConfig) : Prop :=
  c.domain = p.domain ∧ c.user = p.user ∧ c.password = p.password ∧ c.hostname = p.host ∧ c.share = p.share ∧ c.path = p.path ∧
  match p.port, c.port with
  | none, none => True
  | some t, some n => PortNumber t n.toNat
  | _, _ => False

/-- The parts of the URI that a configuration is formatted as. -/
def CifsConfig.parts (c : CifsConfig) : UriParts :=
  { domain := c.domain, user := c.user, password := c.password, host := c.hostname, port := c.port.map (fun n => Nat.toDigits 10 n.toNat)
    share := c.share, path := c.path }

/-- A configuration whose URI can be mistaken for one with a user: the host would be the user, and everything from the port to the first `@`
in the path would be the password. -/
def LooksLikeUser (K : CharClass) (c : CifsConfig) : Prop :=
  c.user = none ∧ c.port ≠ none ∧ ∃ x y, c.path = some (x ++ '@' :: y) ∧ (∀ ch ∈ x, ch ≠ '@') ∧
    ∃ p : UriParts, p.Valid K ∧ p.domain = none ∧ p.user = none ∧ p.text.drop 6 <+: y

end Cifs
