import Verif.Spec.Download
/-!
# A file that others write to

What a server does for a file that other users may write to at any time, and how opening the file keeps them from it: [MS-CIFS] 2.2.4.64.1,
ShareAccess.
-/

namespace Cifs.Spec

variable {σ : Type}

/-- Does this share access let others write (FILE_SHARE_WRITE, bit 1)? -/
def LetsWrite (share : Nat) : Prop := share / 2 % 2 = 1

/-- A server that serves the file `path` on the tree `tid`, whose content in the state `v` is `content v`. Its states: `free`, while the client
does not have the file open; `held share h`, while the client has it open as `h`, with this share access. With every request, others may have
written to the file, unless the client has it open with a share access that does not let them. The server answers each request to read with a
chunk of its own choice, of at least `least` bytes unless the file ends. -/
structure SharedFile (V : Server σ) (own : Nat → Prop) (tid : Nat) (path : Str) (least : Nat) (content : σ → Bytes) (free : σ → Prop)
    (held : Nat → Handle → σ → Prop) : Prop where
  opens : ∀ v req access share options, free v → cmdOf req = some 0xa2 → tidOf req = some tid → IsOpen req (backslashed path) access share options →
    ∃ f h, Serves V own v req f ∧ Opens f h ∧ h.size.toNat = (content (V.react v req).1).length ∧ held share h (V.react v req).1
  reads : ∀ v req share h offset, held share h v → ReadRequest req h offset →
    ∃ f chunk, Serves V own v req f ∧ Yields f chunk ∧ chunk <+: (content (V.react v req).1).drop offset ∧
      min least ((content (V.react v req).1).length - offset) ≤ chunk.length ∧ held share h (V.react v req).1 ∧
      (¬ LetsWrite share → content (V.react v req).1 = content v)
  closes : ∀ v req share h, held share h v → CloseRequest req h → ∃ f, Serves V own v req f ∧ Closes f ∧ free (V.react v req).1

end Cifs.Spec
