import Verif.Model.Display
/-!
# What `{:?}` shows of a client

The derived `Debug` of /repo/src/lib.rs:26-35 `Cifs` and /repo/src/ntlm/auth.rs:9-15 `Auth`.

Which characters outside of ASCII the standard library prints as they are, and the text of the transport, are parameters.
-/

namespace Cifs

/-- The characters the standard library writes as `\u{...}`: no printable character of ASCII is one of them. -/
structure Printing where
  hidden : Char → Bool
  ascii : ∀ c : Char, 0x20 ≤ c.toNat → c.toNat < 0x7f → hidden c = false

/-- One character of a string in `{:?}`. -/
def escapeDebug (U : Printing) (c : Char) : Str :=
  if c = '\x00' then ['\\', '0']
  else if c = '\t' then ['\\', 't']
  else if c = '\r' then ['\\', 'r']
  else if c = '\n' then ['\\', 'n']
  else if c = '"' then ['\\', '"']
  else if c = '\\' then ['\\', '\\']
  else if U.hidden c then ['\\', 'u', '{'] ++ Nat.toDigits 16 c.toNat ++ ['}']
  else [c]

/-- `{:?}` for a string. -/
def debugStr (U : Printing) (s : Str) : Str := ['"'] ++ s.flatMap (escapeDebug U) ++ ['"']

/-- `{:?}` for /repo/src/ntlm/auth.rs:9-15 `Auth`. -/
def Auth.debug (U : Printing) (a : Auth) : Str :=
  "Auth { user: ".toList ++ debugStr U a.user ++ ", workstation: ".toList ++ debugStr U a.workstation ++
    ", domain: ".toList ++ debugStr U a.domain ++ ", password: ".toList ++ debugStr U a.password ++ " }".toList

/-- `{:?}` for /repo/src/lib.rs:26-35 `Cifs`; `netbios` is the text of the transport. -/
def Cli.debug (U : Printing) (netbios : Str) (c : Cli) : Str :=
  "Cifs { netbios: ".toList ++ netbios ++ ", auth: ".toList ++ c.auth.debug U ++
    ", max_smb_size: ".toList ++ showDecimal c.maxSmbSize ++ ", use_unicode: ".toList ++ (if c.useUnicode then "true" else "false").toList ++
    ", uid: ".toList ++ showDecimal c.uid.toNat ++ ", mid: ".toList ++ showDecimal c.mid.toNat ++ " }".toList

end Cifs
