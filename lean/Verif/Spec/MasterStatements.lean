import Verif.Model.MasterStatements
import Verif.Spec.Wire
import Verif.Spec.Master

/-! Histories of the master device whose interrupt handlers may run between any two statements of a poll and of the driver's `send`. -/

namespace Modbus.Spec

open Modbus

/-- A history with the outputs of each event. -/
abbrev MDTrace := List (MDOp × List HMOut)

/-- The bytes written to the transmit register, in order. -/
def lineOf (o : List HMOut) : List U8 :=
  o.filterMap fun x =>
    match x with
    | .tdr b => some b
    | _ => none

/-- The frames the library handed to the driver, in order. -/
def handed (o : List HMOut) : List (List U8) :=
  o.filterMap fun x =>
    match x with
    | .lib (.send f) => some f
    | _ => none

/-- All outputs. -/
def allOuts (tr : MDTrace) : List HMOut := tr.flatMap Prod.snd

/-- The calls of the main program with what the library put out during each of them. -/
def callTrace (tr : MDTrace) : MTrace :=
  tr.filterMap fun x =>
    match x.1 with
    | .op (.main op) => some (op, libOuts x.2)
    | .pollWith _ => some (.poll, libOuts x.2)
    | _ => none

/-- What may happen after initialisation: anything, except that the main program does not initialise again and hands over proper arrays. -/
def MDOp.legal : MDOp → Prop
  | .op (.main op) => op.isMain = true ∧ (∀ m, op ≠ .init m) ∧ ∀ r, op = .request r → QtyOk r → DataOk r
  | _ => True

/-- In no poll of the history the UART's handler runs with an empty transmit register between the first and the third assignment of the driver's `send`
(the steps marked in `Model/MasterStatements.lean`). -/
def Undisturbed (cfg : Config) (d : MasterDev) : List MDOp → Prop
  | [] => True
  | op :: ops =>
    (∀ ints, op = .pollWith ints → noRaceO (masterDevInt cfg) (masterDevPollP cfg) ints d) ∧
    ∀ d' o, masterDevStep cfg d op = .ok (d', o) → Undisturbed cfg d' ops

/-- The request frames of `served`, each as often as it was transmitted. -/
def transmissions (served : List (MReq × Nat)) : List (List U8) := served.flatMap fun x => List.replicate x.2 (reqFrame x.1)

end Modbus.Spec
