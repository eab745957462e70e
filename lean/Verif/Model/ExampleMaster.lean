import Verif.Model.Driver

/-! The example master program: `examples/STM32G070RB_MODBUS_MASTER/Core/Src/main.c` with the callbacks of
`Core/Src/modbus_master_data_interface.c`, on top of library and driver (`Model/Driver.lean`).

Simplifications. `update_modbus_master_manager`, `update_modbus_data` and the interrupt handlers are atomic (the finer grain is that of
`Model/Preempt.lean`); the two calls of the main loop may come in any order (the loop alternates them). -/

namespace Modbus

/-- The variables of `main.c:31-41`. `coil_qty`, `reg_qty` (1) and `request_interval` (300) are never written. -/
structure ExApp where
  /-- `readed_coil` -/
  coil : Bool
  /-- `readed_hreg` -/
  hreg : U16
  /-- `prev_coil_val`, written by the callbacks, never read -/
  prevCoil : Bool
  /-- `prev_hreg_val`, the same -/
  prevHreg : U16
  /-- `update_timer` -/
  timer : U16

/-- The program and its device. `examples/STM32G070RB_MODBUS_MASTER/Core/Src/main.c:45-95`. -/
structure ExMaster where
  sys : MasterSys
  app : ExApp

/-- Initial values, `main.c:31-41`; `UPDATE_INTERVAL_MS` is 300 (`Core/Inc/main.h:9`). -/
def ExMaster.powerOn : ExMaster :=
  { sys := MasterSys.powerOn, app := { coil := false, hreg := 0, prevCoil := false, prevHreg := 0, timer := 300 } }

/-- The callbacks, `modbus_master_data_interface.c:19-91`. Slave 1, address 1 (`Core/Inc/main.h:3-5`). -/
def exCallback (a : ExApp) : MEvent → ExApp
  | .coilRead slave adr v => if slave = 1 then (if adr = 1 then { a with coil := v } else a) else a
  | .hregRead slave adr v => if slave = 1 then (if adr = 1 then { a with hreg := v } else a) else a
  | .coilExc _ => { a with prevCoil := false }
  | .hregExc _ => { a with prevHreg := 0 }
  | _ => a

/-- The callbacks among the outputs of a call of the library, in order.
The callbacks are those of `modbus_master_data_interface.c` modelled by `exCallback` above; no further C counterpart. -/
def exCallbacks (a : ExApp) : List HMOut → ExApp
  | [] => a
  | .lib (.event e) :: os => exCallbacks (exCallback a e) os
  | _ :: os => exCallbacks a os

/-- What happens in the system. `examples/STM32G070RB_MODBUS_MASTER/Core/Src/main.c:45-95`. -/
inductive EOp where
  /-- `update_modbus_master_manager()` in the main loop, `main.c:55` -/
  | poll
  /-- `update_modbus_data()` in the main loop, `main.c:57` -/
  | update
  /-- `SysTick_Handler` -/
  | systick
  /-- the hardware sets RTOF -/
  | rto
  /-- `MODBUS_USART_IRQHandler` -/
  | usart (rx : Option U8) (txe : Bool)
  /-- `MODBUS_TIMER_IRQHandler` -/
  | timer
  deriving DecidableEq

/-- The four calls of `update_modbus_data`, `main.c:79-82`, with the constants of `Core/Inc/main.h:3-7`. -/
def exRequests (a : ExApp) : List MReq :=
  [.readCoils 1 1 1, .readHoldingReg 1 1 1, .writeSingleCoil 0 1 a.coil, .writeSingleReg 0 1 a.hreg]

/-- One event of the device alone. Modelling infrastructure, no C counterpart. -/
def exDevice (cfg : Config) (s : ExMaster) (op : HMOp) : C (ExMaster × HMTrace) := do
  let (m, o) ← masterSysStep cfg s.sys op
  return ({ sys := m, app := exCallbacks s.app o }, [(op, o)])

/-- One event; with the events of the device below it and their outputs. `update_modbus_data` is `main.c:64-85`, `SysTick_Handler`
`main.c:87-95`. -/
def exStep (cfg : Config) (s : ExMaster) : EOp → C (ExMaster × HMTrace)
  | .poll => exDevice cfg s (.main .poll)
  | .update =>
    if s.app.timer = 0 then do
      let (m, tr) ← masterSysRun cfg s.sys ((exRequests s.app).map fun r => .main (.request r))
      return ({ sys := m, app := { s.app with timer := 300 } }, tr)
    else .ok (s, [])
  | .systick => exDevice cfg { s with app := { s.app with timer := if s.app.timer = 0 then 0 else s.app.timer - 1 } } (.main .tick)
  | .rto => exDevice cfg s .rto
  | .usart rx txe => exDevice cfg s (.usart rx txe)
  | .timer => exDevice cfg s .timer

/-- An execution. Modelling infrastructure, no C counterpart. -/
def exRun (cfg : Config) : ExMaster → List EOp → C (ExMaster × HMTrace)
  | s, [] => .ok (s, [])
  | s, op :: ops => do
    let (s, tr) ← exStep cfg s op
    let (s, tr') ← exRun cfg s ops
    return (s, tr ++ tr')

/-- `main`, `main.c:45-60`: initialisation, then the loop and the interrupts. -/
def exMain (cfg : Config) (ops : List EOp) : C (ExMaster × HMTrace) := do
  let (s, tr) ← exDevice cfg ExMaster.powerOn (.main (.init .rtu))
  let (s, tr') ← exRun cfg s ops
  return (s, tr ++ tr')

end Modbus
