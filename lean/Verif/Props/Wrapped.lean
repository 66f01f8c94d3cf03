import Verif.Props.Streams
/-! # C61 when multiplex ids are used again -/

namespace Cifs
open Spec

namespace Demo

/-- The client after 65535 requests. -/
def worn (answers : List (List Bytes)) : St (List (List Bytes) × List Bytes) :=
  { st answers with cli := { (st answers).cli with mid := 65535 } }

/-- The reply to a request to read, with one byte of the file. -/
def oneByte (mid : UInt16) (x : UInt8) : Bytes := reply .Read mid ([0xff, 0, 0, 0, 0, 0, 0, 0, 0, 0, 1, 0] ++ List.replicate 12 0) [x]

/-- What the server answers to the two requests. -/
def ontime : List (List Bytes) := [[message (reply .TreeDisconnect 65535 [] [])], [message (oneByte 0 1)]]

/-- The same, but the reply to a request to read that was given up long ago arrives at last. -/
def belated : List (List Bytes) := [[message (reply .TreeDisconnect 65535 [] [])], [message (oneByte 0 9), message (oneByte 0 1)]]

end Demo

/-- **C61** is violated in builds without overflow checks: when 65536 requests have been made, the multiplex id of the first one is used again,
and a late reply to that one is taken for the reply to the new one. Here the client returns a byte that it asked for long ago. -/
theorem C61_violated : ∃ (E : Env (List (List Bytes) × List Bytes)) (V' : Server (List (List Bytes))) (R : _ → _ → Prop) (s : St _) (s' : St _)
    (ops : List Op), E.checked = false ∧ Logs E.V Prod.snd ∧ NoisyServer (fun m => m < s.cli.mid.toNat) E.V V' R ∧ s.cli = s'.cli ∧
      NoisyWire (fun m => m < s.cli.mid.toNat) R s.w s'.w ∧ (runOps E ops s).1 = [.ok .unit, .ok (.bytes [1])] ∧
      (runOps (E.withV V') ops s').1 = [.ok .unit, .ok (.bytes [9])] := by
  refine ⟨Demo.env false, Demo.script, _, Demo.worn Demo.ontime, { cli := (Demo.worn Demo.ontime).cli, w := { (Demo.worn Demo.ontime).w with srv := Demo.belated } },
    [.umount Demo.share, .read Demo.handle 0], rfl, logs_logged _, Demo.noise _, rfl, ⟨rfl, rfl, ?_, .done⟩, by decide +kernel, by decide +kernel⟩
  intro i
  match i with
  | 0 => exact .same 0 (Demo.reply .TreeDisconnect 65535 [] []) (by decide) .done
  | 1 =>
    refine .reply (Demo.oneByte 0 9) (by decide) ?_ 0 (by decide +kernel) (by decide) ?_
    · exact (C13_accepted_iff _).mp ⟨_, _, rfl⟩
    · exact .same 0 (Demo.oneByte 0 1) (by decide) .done
  | i + 2 => exact .done

end Cifs
