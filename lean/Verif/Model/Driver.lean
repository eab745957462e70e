import Verif.Model.Slave
import Verif.Model.Master

/-! Model of the example drivers: `examples/STM32G070RB_MODBUS_SLAVE/Core/Src/modbus_driver_interface.c` (slave) and
`examples/STM32G070RB_MODBUS_MASTER/Drivers/STM32G0_Drivers/modbus_driver_interface.c` (master), each together with the library it
serves.

The hardware is reduced to what the interrupt handlers look at: the status bits RXNE (with the received byte), TXE and RTOF of the UART
and the update interrupt of the timer. Which of them are set when a handler runs is arbitrary, except that RTOF, once set by the
hardware, stays set until the software clears it. The transmit data register is an output. Enabling bits of the control
registers are not modelled: handlers may run at any time (more behaviours than the hardware has). -/

namespace Modbus

/-! ### Line timing -/

/-- `get_RTOR_value`, slave driver `:207-220`, master driver `:213-226` (the same code): length of the 1.5 character timeout in bit times;
`uint32_t` arithmetic. -/
def rtorValue (baud : BitVec 32) : BitVec 32 :=
  if baud ≤ 19200 then 17
  else
    let q := baud / 9600
    let q := q * 83
    let q := q / 10
    if q > 0xFFFFFF then 0xFFFFFF else q

/-- `get_ARR_value`, slave driver `:242-255`, master driver `:247-260` (the same code): reload value of the 3.5 character timer, which
counts microseconds (prescaler `:240` / `:235`); `uint32_t` arithmetic, division by zero is UB. -/
def arrValue (baud : BitVec 32) : C (BitVec 32) :=
  if baud ≤ 19200 then
    let q := baud / 2400
    if q = 0 then .error .divZero else .ok (16042 / q)
  else .ok 1750

/-! ### Slave library and slave driver -/

/-- The slave with its driver. The library gets the driver's functions from `get_slave_RTU_driver_interface` (slave driver `:66-69`). Its
call of `slave_enable_usart_rx_interrupt` (`:91-95`: the receive buffer and the interrupt enable bit) and its subscriptions (`:96-111`: the
callbacks are those of the library) are part of the library's `init`. -/
structure SlaveSys where
  /-- the library -/
  lib : Slave
  /-- `tx_buf.cur_byte_ptr`, as an offset into the response buffer it points into (slave driver `:16-20`, `:40`, `:85`). Before the first
  transmission both pointers are NULL, hence equal. -/
  cur : Nat
  /-- `tx_buf.last_byte_ptr`, the same -/
  last : Nat
  /-- `FRAME_DETECTION_FLAG = FRAME_RECEIVED` -/
  gap : Bool
  /-- the UART's RTOF status bit -/
  rtof : Bool

/-- What happens in the system.
Interrupt handlers: `examples/STM32G070RB_MODBUS_SLAVE/Core/Src/modbus_driver_interface.c:113-163`; `main`: the public functions of `src/modbus_slave.c:66-157`. -/
inductive HOp where
  /-- the main program: `modbus_slave_init`, `check_modbus_request`, registrations, application writes -/
  | main (op : SOp)
  /-- the UART's receiver timeout (1.5 characters) expires: the hardware sets RTOF -/
  | rto
  /-- `MODBUS_USART_IRQHandler` runs; `rx` is the received byte if RXNE is set, `txe` the TXE bit -/
  | usart (rx : Option U8) (txe : Bool)
  /-- `MODBUS_TIMER_IRQHandler` runs with the update bit set -/
  | timer
  deriving DecidableEq

/-- Observable: frames the library hands to the driver, and bytes the driver writes to the transmit register.
`src/modbus_slave.c:197` and `examples/STM32G070RB_MODBUS_SLAVE/Core/Src/modbus_driver_interface.c:81-90`, `:129-142`. -/
inductive HOut where
  | send (bytes : List U8)
  | tdr (b : U8)
  deriving DecidableEq, Repr

/-- `slave_usart_send(tx_msg, msg_len)`, slave driver `:81-90`, called by the library with its response buffer. -/
def slaveUsartSend (s : SlaveSys) : C (SlaveSys × List HOut) :=
  if 0 < s.lib.respLen.toNat then do
    let b ← rd s.lib.resp 0
    return ({ s with cur := 0, last := s.lib.respLen.toNat - 1 }, [.tdr b])
  else .ok (s, [])

/-- The calls of the driver's `send` during an operation of the main program (at most one). The calls are `src/modbus_slave.c:197`. -/
def slaveSends (s : SlaveSys) : List SOut → C (SlaveSys × List HOut)
  | [] => .ok (s, [])
  | .send f :: os => do
    let (s, o) ← slaveUsartSend s
    let (s, o') ← slaveSends s os
    return (s, .send f :: o ++ o')

/-- The operations of the main program. Modelling infrastructure, no C counterpart. -/
def SOp.isMain : SOp → Bool
  | .init _ _ | .poll | .register _ _ _ | .appBool _ _ | .appReg _ _ => true
  | _ => false

/-- First part of the handler, slave driver `:116-128`. Restarting the timer (`:126-127`) is hardware. -/
def slaveIrqRx (cfg : Config) (s : SlaveSys) : Option U8 → C SlaveSys
  | none => .ok s
  | some b => do
    let (l, _) ← slaveStep cfg s.lib (.rxByte b)
    if s.gap then
      let (l, _) ← slaveStep cfg l .frameErr
      return { s with lib := l }
    else return { s with lib := l }

/-- Second part, slave driver `:129-142`. The handler does not look at whether the TXE interrupt is enabled. -/
def slaveIrqTx (cfg : Config) (s : SlaveSys) (txe : Bool) : C (SlaveSys × List HOut) :=
  if txe then
    if s.cur < s.last then do
      let b ← rd s.lib.resp (s.cur + 1)
      return ({ s with cur := s.cur + 1 }, [.tdr b])
    else do
      let (l, _) ← slaveStep cfg s.lib .txDone
      return ({ s with lib := l }, [])
  else .ok (s, [])

/-- Third part, slave driver `:143-151`. RTOF is not cleared here. -/
def slaveIrqRto (cfg : Config) (s : SlaveSys) : C SlaveSys :=
  if s.rtof then do
    let (l, _) ← slaveStep cfg s.lib .t15
    return { s with lib := l, gap := true }
  else .ok s

/-- One event. While RTOF is set, the UART's interrupt is pending again as soon as the handler returns, and the main program does not
advance (slave driver `:150`, the clearing statement is commented out). `init` resets the gap flag (`:78`). The timer handler
(`:154-163`) clears RTOF. -/
def slaveSysStep (cfg : Config) (s : SlaveSys) : HOp → C (SlaveSys × List HOut)
  | .main op =>
    if s.rtof ∨ op.isMain = false then .ok (s, [])
    else do
      let (l, o) ← slaveStep cfg s.lib op
      let g := match op with
        | .init .rtu _ => false
        | _ => s.gap
      slaveSends { s with lib := l, gap := g } o
  | .rto => .ok ({ s with rtof := true }, [])
  | .usart rx txe => do
    let s ← slaveIrqRx cfg s rx
    let (s, o) ← slaveIrqTx cfg s txe
    let s ← slaveIrqRto cfg s
    return (s, o)
  | .timer => do
    let (l, _) ← slaveStep cfg s.lib .t35
    return ({ s with lib := l, gap := false, rtof := false }, [])

/-- An execution. Modelling infrastructure, no C counterpart. -/
def slaveSysRun (cfg : Config) : SlaveSys → List HOp → C (SlaveSys × List HOut)
  | s, [] => .ok (s, [])
  | s, op :: ops => do
    let (s', o) ← slaveSysStep cfg s op
    let (s'', os) ← slaveSysRun cfg s' ops
    return (s'', o ++ os)

/-- At power-on: static variables are 0. Static variables: `examples/STM32G070RB_MODBUS_SLAVE/Core/Src/modbus_driver_interface.c:28-37`. -/
def SlaveSys.powerOn (mem : AppMem) : SlaveSys :=
  { lib := Slave.powerOn mem, cur := 0, last := 0, gap := false, rtof := false }

/-! ### Master library and master driver -/

/-- The master with its driver. The transmit pointers point into the request buffer of message `txMsg`. The library gets the driver's
functions from `get_master_RTU_driver_interface` (master driver `:65-68`). Its calls of `master_enable_usart_rx_interrupt` (`:93-97`) set the
receive target `rxTarget`, its subscriptions (`:103-119`: the callbacks are those of the library) are part of its `init`;
`master_disable_usart_rx_interrupt` (`:98-102`) is never called. -/
structure MasterSys where
  lib : Master
  /-- the message whose request buffer the pointers point into -/
  txMsg : Nat
  /-- `tx_buf.cur_byte_ptr` as an offset (master driver `:16-20`, `:27`) -/
  cur : Nat
  /-- `tx_buf.last_byte_ptr` -/
  last : Nat
  /-- `FRAME_DETECTION_FLAG = FRAME_RECEIVED` -/
  gap : Bool
  /-- the UART's RTOF status bit -/
  rtof : Bool

/-- What happens in the system.
Interrupt handlers: `examples/STM32G070RB_MODBUS_MASTER/Drivers/STM32G0_Drivers/modbus_driver_interface.c:120-169`; `main`: the public functions of `src/modbus_master.c:149-393`. -/
inductive HMOp where
  /-- the main program and the system tick: initialisation, request functions, `update_modbus_master_manager`,
  `update_modbus_master_timout_timer` -/
  | main (op : MOp)
  /-- the hardware sets RTOF -/
  | rto
  /-- `MODBUS_USART_IRQHandler` -/
  | usart (rx : Option U8) (txe : Bool)
  /-- `MODBUS_TIMER_IRQHandler` with the update bit set -/
  | timer
  deriving DecidableEq

/-- Observable: outputs of the library and bytes written to the transmit register.
`examples/STM32G070RB_MODBUS_MASTER/Drivers/STM32G0_Drivers/modbus_driver_interface.c:79-92`, `:135-149`. -/
inductive HMOut where
  | lib (o : MOut)
  | tdr (b : U8)
  deriving DecidableEq, Repr

/-- The operations of the main program. Modelling infrastructure, no C counterpart. -/
def MOp.isMain : MOp → Bool
  | .init _ | .request _ | .poll | .tick => true
  | _ => false

/-- `master_usart_send(tx_msg, msg_len)`, master driver `:79-92`, called with the request buffer of the current message. It also resets the
gap flag and clears RTOF. -/
def masterUsartSend (s : MasterSys) : C (MasterSys × List HMOut) :=
  match s.lib.msgBuf with
  | none => .error .nullDeref
  | some i =>
    if 0 < (s.lib.msgs i).reqLen.toNat then do
      let b ← rd (s.lib.msgs i).req 0
      return ({ s with txMsg := i, cur := 0, last := (s.lib.msgs i).reqLen.toNat - 1, gap := false, rtof := false }, [.tdr b])
    else .ok ({ s with gap := false, rtof := false }, [])

/-- The calls of the driver's `send` during an operation of the main program. The call is `src/modbus_master.c:404`. -/
def masterSends (s : MasterSys) : List MOut → C (MasterSys × List HMOut)
  | [] => .ok (s, [])
  | .send f :: os => do
    let (s, o) ← masterUsartSend s
    let (s, o') ← masterSends s os
    return (s, .lib (.send f) :: o ++ o')
  | x :: os => do
    let (s, o') ← masterSends s os
    return (s, .lib x :: o')

/-- First part of the handler, master driver `:123-134`. -/
def masterIrqRx (cfg : Config) (s : MasterSys) : Option U8 → C MasterSys
  | none => .ok s
  | some b => do
    let (l, _) ← masterStep cfg s.lib (.rxByte b)
    if s.gap then
      let (l, _) ← masterStep cfg l .frameErr
      return { s with lib := l }
    else return { s with lib := l }

/-- Second part, master driver `:135-148`. -/
def masterIrqTx (cfg : Config) (s : MasterSys) (txe : Bool) : C (MasterSys × List HMOut) :=
  if txe then
    if s.cur < s.last then do
      let b ← rd (s.lib.msgs s.txMsg).req (s.cur + 1)
      return ({ s with cur := s.cur + 1 }, [.tdr b])
    else do
      let (l, _) ← masterStep cfg s.lib .txDone
      return ({ s with lib := l }, [])
  else .ok (s, [])

/-- Third part, master driver `:149-157`. Here RTOF is cleared. -/
def masterIrqRto (cfg : Config) (s : MasterSys) : C MasterSys :=
  if s.rtof then do
    let (l, _) ← masterStep cfg s.lib .t15
    return { s with lib := l, gap := true, rtof := false }
  else .ok s

/-- One event. `init` resets the gap flag (`:76`); the timer handler is `:160-169`. -/
def masterSysStep (cfg : Config) (s : MasterSys) : HMOp → C (MasterSys × List HMOut)
  | .main op =>
    if op.isMain = false then .ok (s, [])
    else do
      let (l, o) ← masterStep cfg s.lib op
      let g := match op with
        | .init _ => false
        | _ => s.gap
      masterSends { s with lib := l, gap := g } o
  | .rto => .ok ({ s with rtof := true }, [])
  | .usart rx txe => do
    let s ← masterIrqRx cfg s rx
    let (s, o) ← masterIrqTx cfg s txe
    let s ← masterIrqRto cfg s
    return (s, o)
  | .timer => do
    let (l, _) ← masterStep cfg s.lib .t35
    return ({ s with lib := l, gap := false }, [])

/-- What an observer of the device sees: each event with the outputs it caused. Modelling infrastructure, no C counterpart. -/
abbrev HMTrace := List (HMOp × List HMOut)

/-- An execution. Modelling infrastructure, no C counterpart. -/
def masterSysRun (cfg : Config) : MasterSys → List HMOp → C (MasterSys × HMTrace)
  | s, [] => .ok (s, [])
  | s, op :: ops => do
    let (s', o) ← masterSysStep cfg s op
    let (s'', os) ← masterSysRun cfg s' ops
    return (s'', (op, o) :: os)

/-- At power-on. Static variables: `examples/STM32G070RB_MODBUS_MASTER/Drivers/STM32G0_Drivers/modbus_driver_interface.c:27-35`. -/
def MasterSys.powerOn : MasterSys :=
  { lib := Master.powerOn, txMsg := 0, cur := 0, last := 0, gap := false, rtof := false }

end Modbus
