import Verif.Spec.Login
/-!
# The headers of the packets of a login
-/

namespace Cifs.Spec

variable {σ : Type}

/-- The headers of the packets of a login begun with a user id, a Unicode setting and a multiplex id: no tree; the user id until the
server assigns another one; the Unicode flag as set at first, and after the negotiation as the server offers it; multiplex ids in
sequence. -/
inductive LoginHeaders (V : Server σ) (v : σ) (b : Bytes) (uid : Nat) (unicode : Bool) (mid : UInt16) : List Bytes → Prop
  | nothing : LoginHeaders V v b uid unicode mid []
  | one {p : Bytes} (h : IsRequestHeader p uid 0xffff unicode) (hm : midOf p = some mid.toNat) : LoginHeaders V v b uid unicode mid [p]
  | two {p p' ps ds b' : Bytes} {v' : σ} {u : Bool} (h : IsRequestHeader p uid 0xffff unicode) (hm : midOf p = some mid.toNat)
      (hr : NegotiateRound V v b p ps ds v' b') (hu : u = true ↔ OffersUnicode ps) (h' : IsRequestHeader p' uid 0xffff u)
      (hm' : midOf p' = some (mid + 1).toNat) : LoginHeaders V v b uid unicode mid [p, p']
  | three {p p' p'' ps ds ps' ds' b' b'' : Bytes} {v' v'' : σ} {u : Bool} {st uid' : Nat} (h : IsRequestHeader p uid 0xffff unicode)
      (hm : midOf p = some mid.toNat) (hr : NegotiateRound V v b p ps ds v' b') (hu : u = true ↔ OffersUnicode ps)
      (h' : IsRequestHeader p' uid 0xffff u) (hm' : midOf p' = some (mid + 1).toNat) (hr' : SetupRound V v' b' p' st uid' ps' ds' v'' b'')
      (h'' : IsRequestHeader p'' uid' 0xffff u) (hm'' : midOf p'' = some (mid + 2).toNat) : LoginHeaders V v b uid unicode mid [p, p', p'']

end Cifs.Spec
