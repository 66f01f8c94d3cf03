import Verif.Model.Client
/-!
# Comparing clients

Two clients with the same connection and the same session, logged in with whatever credentials; a program built with and without overflow
checks.
-/

namespace Cifs.Spec

variable {σ : Type}

/-- The same connection and the same session: login, next multiplex id, character set. The credentials may differ, and so may the buffer
size the server announced. -/
structure SameSession (s s' : St σ) : Prop where
  wire : s.w = s'.w
  uid : s.cli.uid = s'.cli.uid
  mid : s.cli.mid = s'.cli.mid
  unicode : s.cli.useUnicode = s'.cli.useUnicode

/-- The same program in a release build: no overflow checks. -/
def _root_.Cifs.Env.release (E : Env σ) : Env σ := { E with checked := false }

end Cifs.Spec
