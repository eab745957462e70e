import Verif.Spec.Bus
import Verif.Spec.Example

/-! Specification of the two example programs on one bus: what a round of the example master does to the slave's data. -/

namespace Modbus.Spec

open Modbus

/-- Everything slave `i` hears during a transaction. -/
def heardIn {ι : Type} (i : ι) (b : BusRound ι) : List HOp := b.ears.flatMap (fun e => (e i).ops) ++ (b.lastEar i).ops

/-- What a master can see of the slave's data, before (`m`) and after (`m'`) a round in which the example master wrote `c` and `v`: coil 0 and
holding register 0 have these values, everything else is unchanged. -/
structure Mirrored (c : Bool) (v : U16) (m m' : AppMem) : Prop where
  coil0 : bitAt m'.coils m'.bools 0 = c
  hreg0 : regAt m'.hregs m'.regs 0 = v
  coils : ∀ a, a ≠ 0 → bitAt m'.coils m'.bools a = bitAt m.coils m.bools a
  hregs : ∀ a, a ≠ 0 → regAt m'.hregs m'.regs a = regAt m.hregs m.regs a
  dins : ∀ a, bitAt m'.dins m'.bools a = bitAt m.dins m.bools a
  inregs : ∀ a, regAt m'.inregs m'.regs a = regAt m.inregs m.regs a

end Modbus.Spec
