import Verif.Model.BootMaster
import Verif.Spec.Wire
import Verif.Spec.Master

/-! When a line with traffic on it leaves a master device alone until its first request. -/

namespace Modbus.Spec

open Modbus

/-- An event does not come too early: no silence of 1.5 characters ends a reception before the master has ever sent a request (`lib.rxTarget`: the buffer
the driver was last told to receive into). -/
def MBootTimely (d : MasterBoot) : MBOp → Prop
  | .hw .quiet => d.hw.heard = true → d.lib.rxTarget ≠ none
  | _ => True

/-- No event of a history comes too early. -/
def MBootInTime (cfg : Config) : MasterBoot → List MBOp → Prop
  | _, [] => True
  | d, op :: ops => MBootTimely d op ∧ ∀ d' o, mbootStep cfg d op = .ok (d', o) → MBootInTime cfg d' ops

/-- A request to write several values comes with an array of these values. -/
def MBootLegal : MBOp → Prop
  | .main (.request r) => QtyOk r → DataOk r
  | _ => True

/-- The byte whose reception an event completes. -/
def MBootArrived : MBOp → List U8
  | .hw (.char b) => [b]
  | _ => []

/-- The call the main program makes, or the tick of the system timer. -/
def MBootCalled : MBOp → List MOp
  | .main op => [op]
  | _ => []

/-- The events after the `n`-th statement of the initialisation. -/
def afterNext : Nat → List MBOp → List MBOp
  | 0, ops => ops
  | _ + 1, [] => []
  | n + 1, op :: ops => if op = .next then afterNext n ops else afterNext (n + 1) ops

/-- The calls (and ticks) among the events of a master device of `Model/Driver.lean`. -/
def hmCalls (ops : List HMOp) : List MOp :=
  ops.filterMap fun x =>
    match x with
    | .main y => some y
    | _ => none

/-- The bytes among the outputs of a master device: what it writes to the line. -/
def lineBytes (o : List HMOut) : List U8 :=
  o.filterMap fun x =>
    match x with
    | .tdr b => some b
    | _ => none

end Modbus.Spec
