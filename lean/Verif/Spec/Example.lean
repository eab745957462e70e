import Verif.Spec.Wire
import Verif.Spec.Master

/-! Specification of the example master program: what it asks for, when, and with which values. In terms of the requests, callbacks and ticks
of the library's interface. -/

namespace Modbus.Spec

open Modbus

/-- The callback among the observable outputs. -/
def callback? : HMOut → Option MEvent
  | .lib (.event e) => some e
  | _ => none

/-- The callbacks an application got during a history of the device. -/
def callbacks (tr : HMTrace) : List MEvent := (tr.flatMap Prod.snd).filterMap callback?

/-- The value of coil 1 of slave 1 after a callback. -/
def coilAfter (v : Bool) (e : MEvent) : Bool := match e with
  | .coilRead slave adr w => if slave = 1 ∧ adr = 1 then w else v
  | _ => v

/-- The value of holding register 1 of slave 1 after a callback. -/
def regAfter (v : U16) (e : MEvent) : U16 := match e with
  | .hregRead slave adr w => if slave = 1 ∧ adr = 1 then w else v
  | _ => v

/-- The last value of coil 1 of slave 1 the application was given; off before the first one. -/
def lastCoil (tr : HMTrace) : Bool := (callbacks tr).foldl coilAfter false

/-- The last value of holding register 1 of slave 1 the application was given; 0 before the first one. -/
def lastReg (tr : HMTrace) : U16 := (callbacks tr).foldl regAfter 0

/-- The requests of one round: read coil 1 and holding register 1 of slave 1, write coil 0 and holding register 0 of slave 1. -/
def exampleRound (c : Bool) (v : U16) : List MReq :=
  [.readCoils 1 1 1, .readHoldingReg 1 1 1, .writeSingleCoil 0 1 c, .writeSingleReg 0 1 v]

/-- A request call. -/
def HMOp.isRequest : HMOp → Bool
  | .main (.request _) => true
  | _ => false

/-- The histories the example program may have; the number is the number of ticks since the last round (or the start). Request calls come in
rounds of four; a round comes at least 300 ticks after the one before; it writes the values last read; each call is accepted, or turned
down because the queue is full, never for any other reason. -/
inductive ExHistory : HMTrace → Nat → Prop where
  | start : ExHistory [] 0
  | other {tr : HMTrace} {n : Nat} {x : HMOp × List HMOut} : ExHistory tr n → HMOp.isRequest x.1 = false →
      ExHistory (tr ++ [x]) (if x.1 = .main .tick then n + 1 else n)
  | round {tr rd : HMTrace} {n : Nat} : ExHistory tr n → 300 ≤ n →
      rd.map Prod.fst = (exampleRound (lastCoil tr) (lastReg tr)).map (fun r => .main (.request r)) →
      (∀ x ∈ rd, x.2 = [.lib (.ret .sendToQueue)] ∨ x.2 = [.lib (.ret .freeQueueEmpty)]) → ExHistory (tr ++ rd) 0

end Modbus.Spec
