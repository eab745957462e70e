import Verif.Model.Boot

/-! The master device of the example from power-on: `modbus_master_init` with the driver's functions it calls, statement by statement, and everything after it,
on a line that may carry traffic before the first request. The hardware (`UartHw`) is that of `Model/Boot.lean`: the master's driver uses it in the same way.

In `Model/Driver.lean` a byte that is received before the first request is ignored. Here the handlers run when an enabled interrupt is pending, and follow
whatever pointer they find. Simplifications: the device is initialised once, as its first action; a handler, a poll and a request are atomic. -/

namespace Modbus

/-- The statements of `modbus_master_init(RTU, baud, parity)`. `src/modbus_master.c:311-337`, `:422-461`,
`examples/STM32G070RB_MODBUS_MASTER/Drivers/STM32G0_Drivers/modbus_driver_interface.c:70-77`, `:103-119`. -/
inductive MInitStmt where
  /-- `src/modbus_master.c:313`, `:422-441` -/
  | buffers
  /-- `src/modbus_master.c:314` -/
  | freeInit
  /-- `src/modbus_master.c:315` -/
  | txInit
  /-- `src/modbus_master.c:316`, `:453-461` -/
  | pushAll
  /-- `src/modbus_master.c:318` -/
  | getDriver
  /-- master driver `:211`, the last statement of `USART_module_config` -/
  | uartOn
  /-- master driver `:231` -/
  | nvicUsart
  /-- master driver `:244` -/
  | nvicTimer
  /-- master driver `:76` -/
  | gapClear
  /-- `src/modbus_master.c:322` -/
  | subTx
  /-- `src/modbus_master.c:323` -/
  | subT15
  /-- `src/modbus_master.c:324` -/
  | subT35
  /-- `src/modbus_master.c:325` -/
  | subErr
  /-- `src/modbus_master.c:327` -/
  | clrTx
  /-- `src/modbus_master.c:328` -/
  | clrT15
  /-- `src/modbus_master.c:329` -/
  | clrT35
  /-- `src/modbus_master.c:330` -/
  | clrErr
  /-- `src/modbus_master.c:331` -/
  | clrCrc
  /-- `src/modbus_master.c:333` -/
  | stIdle
  /-- `src/modbus_master.c:334` -/
  | clrRepeat
  /-- `src/modbus_master.c:335`, `:555-558` -/
  | clrTimer
  deriving DecidableEq

/-- In the order of the code. `src/modbus_master.c:313-335`. -/
def masterInitStmts : List MInitStmt :=
  [.buffers, .freeInit, .txInit, .pushAll, .getDriver, .uartOn, .nvicUsart, .nvicTimer, .gapClear, .subTx, .subT15, .subT35, .subErr, .clrTx, .clrT15,
   .clrT35, .clrErr, .clrCrc, .stIdle, .clrRepeat, .clrTimer]

/-- The master device with the driver's static variables. `rx_msg` is the library's `rxTarget`, NULL until the first request is sent (`enable_rcev`,
`src/modbus_master.c:405`). `examples/STM32G070RB_MODBUS_MASTER/Drivers/STM32G0_Drivers/modbus_driver_interface.c:27-35`. -/
structure MasterBoot where
  lib : Master
  /-- `master_msg_tx_complete_cb != NULL` -/
  cbTx : Bool
  /-- `master_t_1_5_char_break_cb != NULL` -/
  cbT15 : Bool
  /-- `master_t_3_5_char_break_cb != NULL` -/
  cbT35 : Bool
  /-- `master_frame_error_cb != NULL` -/
  cbErr : Bool
  /-- the message the transmit pointers point into, as in `MasterSys` -/
  txMsg : Nat
  /-- `tx_buf.cur_byte_ptr` -/
  cur : Nat
  /-- `tx_buf.last_byte_ptr` -/
  last : Nat
  /-- `FRAME_DETECTION_FLAG = FRAME_RECEIVED` -/
  gap : Bool
  hw : UartHw
  /-- the rest of the initialisation -/
  todo : List MInitStmt

/-- At power-on, with the initialisation ahead. `examples/STM32G070RB_MODBUS_MASTER/Drivers/STM32G0_Drivers/modbus_driver_interface.c:27-35`. -/
def MasterBoot.powerOn : MasterBoot :=
  { lib := Master.powerOn, cbTx := false, cbT15 := false, cbT35 := false, cbErr := false, txMsg := 0, cur := 0, last := 0, gap := false,
    hw := UartHw.reset, todo := masterInitStmts }

/-- What a statement does to the library's variables (the lines are at `MInitStmt`). The two loops diverge with more than 255 messages. In the library's model
the driver pointer stands for the subscriptions, too. `src/modbus_master.c:311-337`, `:422-461`. -/
def MInitStmt.lib (cfg : Config) (l : Master) : MInitStmt → C Master
  | .buffers => if 256 ≤ cfg.queueItems then .error .diverge else .ok { l with dataSet := true }
  | .freeInit => .ok { l with freeQ := l.freeQ.init }
  | .txInit => .ok { l with txQ := l.txQ.init }
  | .pushAll =>
    if 256 ≤ cfg.queueItems then .error .diverge
    else do
      let fq ← pushAllLoop cfg.queueItems cfg.queueItems 0 l.freeQ
      return { l with freeQ := fq }
  | .getDriver => .ok { l with drv := true }
  | .clrTx => .ok { l with txf := .cleared }
  | .clrT15 => .ok { l with t15 := .cleared }
  | .clrT35 => .ok { l with t35 := .cleared }
  | .clrErr => .ok { l with ferr := .cleared }
  | .clrCrc => .ok { l with crcf := .cleared }
  | .stIdle => .ok { l with st := .idle }
  | .clrRepeat => .ok { l with repeatCnt := 0 }
  | .clrTimer => .ok { l with timer := 0 }
  | .uartOn | .nvicUsart | .nvicTimer | .gapClear | .subTx | .subT15 | .subT35 | .subErr => .ok l

/-- What a statement does to the driver (the lines are at `MInitStmt`).
`examples/STM32G070RB_MODBUS_MASTER/Drivers/STM32G0_Drivers/modbus_driver_interface.c:70-77`, `:103-119`. -/
def MInitStmt.drv (d : MasterBoot) : MInitStmt → MasterBoot
  | .uartOn => { d with hw := { d.hw with ue := true } }
  | .nvicUsart => { d with hw := { d.hw with nvicU := true } }
  | .nvicTimer => { d with hw := { d.hw with nvicT := true } }
  | .gapClear => { d with gap := false }
  | .subTx => { d with cbTx := true }
  | .subT15 => { d with cbT15 := true }
  | .subT35 => { d with cbT35 := true }
  | .subErr => { d with cbErr := true }
  | _ => d

/-- First part of the UART's handler. `examples/STM32G070RB_MODBUS_MASTER/Drivers/STM32G0_Drivers/modbus_driver_interface.c:123-134`; the callback is
`src/modbus_master.c:616-619`. -/
def mbootIrqRx (d : MasterBoot) : C MasterBoot :=
  match d.hw.rdr with
  | none => .ok d
  | some b =>
    match d.lib.rxTarget with
    | none => .error .nullDeref
    | some _ => do
      let l ← masterRx d.lib b
      let hw := { d.hw with rdr := none, cen := true }
      if d.gap then
        if d.cbErr then return { d with lib := { l with ferr := .set }, hw := hw }
        else .error .nullDeref
      else return { d with lib := l, hw := hw }

/-- Second part. `examples/STM32G070RB_MODBUS_MASTER/Drivers/STM32G0_Drivers/modbus_driver_interface.c:135-148`; the callback is
`src/modbus_master.c:571-574`. -/
def mbootIrqTx (d : MasterBoot) : C (MasterBoot × List HMOut) :=
  if d.hw.txe then
    if d.cur < d.last then do
      let b ← rd (d.lib.msgs d.txMsg).req (d.cur + 1)
      return ({ d with cur := d.cur + 1, hw := { d.hw with txe := false } }, [.tdr b])
    else if d.cbTx then .ok ({ d with lib := { d.lib with txf := .cleared }, hw := { d.hw with txeie := false } }, [])
    else .error .nullDeref
  else .ok (d, [])

/-- Third part; here RTOF is cleared. `examples/STM32G070RB_MODBUS_MASTER/Drivers/STM32G0_Drivers/modbus_driver_interface.c:149-157`; the callback is
`src/modbus_master.c:586-589`. -/
def mbootIrqRto (d : MasterBoot) : MasterBoot :=
  if d.hw.rtof then
    { d with lib := if d.cbT15 then { d.lib with t15 := .set } else d.lib, gap := true, hw := { d.hw with rtof := false } }
  else d

/-- `MODBUS_USART_IRQHandler`. `examples/STM32G070RB_MODBUS_MASTER/Drivers/STM32G0_Drivers/modbus_driver_interface.c:120-158`. -/
def mbootIrqUsart (d : MasterBoot) : C (MasterBoot × List HMOut) := do
  let d ← mbootIrqRx d
  let (d, o) ← mbootIrqTx d
  return (mbootIrqRto d, o)

/-- `MODBUS_TIMER_IRQHandler` with the update flag set. `examples/STM32G070RB_MODBUS_MASTER/Drivers/STM32G0_Drivers/modbus_driver_interface.c:160-169`; the
callback is `src/modbus_master.c:601-604`. -/
def mbootIrqTimer (d : MasterBoot) : C MasterBoot :=
  if d.cbT35 then .ok { d with lib := { d.lib with t35 := .set }, gap := false, hw := { d.hw with uif := false } }
  else .error .nullDeref

/-- `master_usart_send` with the request buffer of the current message, then `master_enable_usart_rx_interrupt` (`src/modbus_master.c:404-405`; the library's
model sets the receive target). `examples/STM32G070RB_MODBUS_MASTER/Drivers/STM32G0_Drivers/modbus_driver_interface.c:79-97`. -/
def mbootSend (d : MasterBoot) : C (MasterBoot × List HMOut) :=
  match d.lib.msgBuf with
  | none => .error .nullDeref
  | some i =>
    if 0 < (d.lib.msgs i).reqLen.toNat then do
      let b ← rd (d.lib.msgs i).req 0
      return ({ d with txMsg := i, cur := 0, last := (d.lib.msgs i).reqLen.toNat - 1, gap := false,
                       hw := { d.hw with txe := false, txeie := true, cen := false, rtof := false, rxneie := true } }, [.tdr b])
    else .ok ({ d with gap := false, hw := { d.hw with cen := false, rtof := false, rxneie := true } }, [])

/-- The calls of the driver during an operation of the main program. `src/modbus_master.c:404-405`. -/
def mbootSends (d : MasterBoot) : List MOut → C (MasterBoot × List HMOut)
  | [] => .ok (d, [])
  | .send f :: os => do
    let (d, o) ← mbootSend d
    let (d, o') ← mbootSends d os
    return (d, .lib (.send f) :: o ++ o')
  | x :: os => do
    let (d, o') ← mbootSends d os
    return (d, .lib x :: o')

/-- What happens. Modelling infrastructure, no C counterpart. -/
inductive MBOp where
  /-- the main program executes the next statement of the initialisation -/
  | next
  /-- it makes another call (a request or a poll; not while the initialisation is under way), or the system tick happens -/
  | main (op : MOp)
  /-- the hardware -/
  | hw (e : HwEv)
  /-- the UART's handler runs, if an enabled interrupt is pending -/
  | usart
  /-- the timer's handler runs, if its interrupt is enabled and pending -/
  | timer
  deriving DecidableEq

/-- A call other than an initialisation. Modelling infrastructure, no C counterpart. -/
def MOp.isCall : MOp → Bool
  | .request _ | .poll | .tick => true
  | _ => false

/-- One event. Handlers: `examples/STM32G070RB_MODBUS_MASTER/Drivers/STM32G0_Drivers/modbus_driver_interface.c:120-169`; main program:
`src/modbus_master.c:149-393`. -/
def mbootStep (cfg : Config) (d : MasterBoot) : MBOp → C (MasterBoot × List HMOut)
  | .next =>
    match d.todo with
    | [] => .ok (d, [])
    | s :: t => do
      let l ← s.lib cfg d.lib
      return ({ s.drv d with lib := l, todo := t }, [])
  | .main op =>
    if op.isCall = true ∧ (d.todo = [] ∨ op = .tick) then do
      let (l, o) ← masterStep cfg d.lib op
      mbootSends { d with lib := l } o
    else .ok (d, [])
  | .hw e => .ok ({ d with hw := hwStep d.hw e }, [])
  | .usart => if d.hw.irqU then mbootIrqUsart d else .ok (d, [])
  | .timer => if d.hw.nvicT && d.hw.uif then do
      let d ← mbootIrqTimer d
      return (d, [])
    else .ok (d, [])

/-- An execution. Modelling infrastructure, no C counterpart. -/
def mbootRun (cfg : Config) : MasterBoot → List MBOp → C (MasterBoot × List HMOut)
  | d, [] => .ok (d, [])
  | d, op :: ops => do
    let (d, o) ← mbootStep cfg d op
    let (d, os) ← mbootRun cfg d ops
    return (d, o ++ os)

end Modbus
