import Verif.Model.Client
/-! # The two halves of `open` -/

namespace Cifs

variable {σ : Type}

/-- The first half of `open`: the transport. -/
def dialled (V : Server σ) (dial : Dial σ) (port : Option UInt16) (a : Auth) : Dialled σ :=
  match port with
  | some p => openRaw dial p
  | none => openNetbios V dial a.workstation

/-- The second half of `open`: the session. -/
def finishOpen (E : Env σ) (auth : Auth) (d : Dialled σ) : Opened σ :=
  match d.outcome, d.world with
  | .ok (), some w =>
    { outcome := (setupConnection E { cli := .init auth, w }).1, state := some (setupConnection E { cli := .init auth, w }).2, ports := d.ports }
  | o, w => { outcome := o.netErr, state := w.map (fun w => { cli := .init auth, w }), ports := d.ports }

theorem openCifs_eq (E : Env σ) (dial : Dial σ) (port : Option UInt16) (auth : Option Auth) :
    openCifs E dial port auth = finishOpen E (auth.getD defaultAuth) (dialled E.V dial port (auth.getD defaultAuth)) := rfl

end Cifs
