import Verif.Spec.Example
import Verif.Spec.Serial
import Verif.Model.ExampleSlave
import Verif.Model.ExampleMaster

/-! Specification of executions in real time of the two example programs. -/

namespace Modbus.Spec

open Modbus

/-- The device runs the example master program: its events are those of executions of the program, as long as one likes. -/
def RunsExampleMaster (cfg : Config) (x : MDeviceTimed) : Prop := ∀ n, ∃ n', n ≤ n' ∧ ∃ ops e, exMain cfg ops = .ok (e, x.trace n')

/-- The device runs the example slave program from power-on. -/
structure RunsExampleSlave (cfg : Config) (y : DeviceTimed) : Prop where
  init : slaveSysStep cfg (SlaveSys.powerOn xInitMem) (.main (.init .rtu 1)) = .ok (y.st 0, [])
  runs : ∀ n, ∃ n', n ≤ n' ∧ ∃ ops e o, xMain cfg ops = .ok (e, (.main (.init .rtu 1) :: (List.range n').map y.op, o))

end Modbus.Spec
