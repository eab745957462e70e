import Verif.Model.DeviceStatements
import Verif.Spec.Wire
import Verif.Spec.Protocol

/-! Finite histories of the slave device whose interrupt handlers may run between any two statements of a poll. -/

namespace Modbus.Spec

open Modbus

/-- A history: the events in order, from state `d`. -/
def stmtRun (cfg : Config) (d : SlaveDev) : List SDEv → C (SlaveDev × List HOut)
  | [] => .ok (d, [])
  | e :: es => do
    let (d, o) ← slaveDevStep cfg d e
    let (d, o') ← stmtRun cfg d es
    return (d, o ++ o')

/-- What may happen after initialisation: the application registers its variables inside the tables and does not initialise again. Calls, statements,
interrupts and hardware events are not restricted. -/
def LegalEv (cfg : Config) : SDEv → Prop
  | .app (.appBool _ _) | .app (.appReg _ _) => True
  | .app (.register t a _) => a.toNat < (match t with
      | .coils => cfg.coilsQty | .dins => cfg.dinQty | .inregs => cfg.inregQty | .hregs => cfg.hregQty)
  | .app _ => False
  | _ => True

/-- The main program is in the driver's `send` function, between the assignment of the first pointer and the write to the transmit register. -/
def Sending (d : SlaveDev) : Prop := d.pc = .anLast ∨ d.pc = .anTdr

/-- During the history the UART's interrupt handler never runs with an empty transmit register at such a moment. -/
def SendUndisturbed (cfg : Config) (d : SlaveDev) : List SDEv → Prop
  | [] => True
  | e :: es => (∀ rx, e = .irq (.usart rx true) → ¬ Sending d) ∧
    ∀ d' o, slaveDevStep cfg d e = .ok (d', o) → SendUndisturbed cfg d' es

/-- The device after power-on and initialisation as slave `id` in RTU mode. -/
def stmtStart (mem : AppMem) (id : U8) : SlaveDev :=
  ⟨{ SlaveSys.powerOn mem with lib := slaveInit (Slave.powerOn mem) .rtu id, gap := false }, .out, false⟩

end Modbus.Spec
