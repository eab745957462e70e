import Verif.Model.Driver

/-! What an observer sees of a device with its driver: the bytes written to the transmit register (the line), and the frames the library
handed to the driver. -/

namespace Modbus.Spec

open Modbus

/-- The bytes on the line. -/
def wire : List HOut → List U8
  | [] => []
  | .tdr b :: o => b :: wire o
  | .send _ :: o => wire o

/-- The frames given to the driver. -/
def frames : List HOut → List (List U8)
  | [] => []
  | .tdr _ :: o => frames o
  | .send f :: o => f :: frames o

/-- The bytes a master device writes to the line. -/
def mwire (tr : HMTrace) : List U8 :=
  (tr.flatMap Prod.snd).filterMap fun o =>
    match o with
    | .tdr b => some b
    | _ => none

/-- The outputs of the library among the outputs of a master device. -/
def libOuts (o : List HMOut) : List MOut :=
  o.filterMap fun x =>
    match x with
    | .lib y => some y
    | _ => none

/-- The calls the main program of a master device makes, with what the library puts out during each of them. -/
def mainTrace (tr : HMTrace) : MTrace :=
  tr.filterMap fun x =>
    match x.1 with
    | .main op => some (op, libOuts x.2)
    | _ => none

end Modbus.Spec
