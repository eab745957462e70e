import Verif.Model.Driver

/-! The slave device of the example while it is being initialised: `modbus_slave_init` of the library with the driver's functions it calls, statement by
statement, on a line that may already carry traffic.

`Model/Driver.lean` treats the initialisation as one event, lets the handlers run at any time, and lets them do nothing to the library before the callbacks
are subscribed. Here the interrupt enabling bits and the driver's pointers are explicit: a handler runs only if an enabled interrupt is pending, and it
follows whatever pointer it finds. Simplifications: a handler, a poll, a registration and an application write are atomic; while RTOF is pending the main
program may nevertheless advance (more behaviours than the hardware has); registers that only configure the line are in `Model/DriverInit.lean`. -/

namespace Modbus

/-! ### The UART and the timer -/

/-- What the handlers and the hardware look at. `examples/STM32G070RB_MODBUS_SLAVE/Core/Src/modbus_driver_interface.c:86-95`, `:113-163`, `:204-241`. -/
structure UartHw where
  /-- `CR1.UE`; the receiver, the transmitter, the receiver timeout and its interrupt are enabled by earlier statements (`:181`, `:197`) -/
  ue : Bool
  /-- `CR1.RXNEIE` -/
  rxneie : Bool
  /-- `CR1.TXEIE` -/
  txeie : Bool
  /-- the UART's interrupt is enabled in the interrupt controller (`:228`) -/
  nvicU : Bool
  /-- the timer's interrupt is enabled in the interrupt controller (`:240`) -/
  nvicT : Bool
  /-- RXNE with the byte in the receive data register -/
  rdr : Option U8
  /-- a character has been received since the last receiver timeout -/
  heard : Bool
  /-- TXE -/
  txe : Bool
  /-- RTOF -/
  rtof : Bool
  /-- the timer is running (`TIM_CR1_CEN`) -/
  cen : Bool
  /-- the timer's update flag -/
  uif : Bool

/-- After reset: TXE is set (reference manual), everything else is off. Hardware, no C counterpart. -/
def UartHw.reset : UartHw :=
  { ue := false, rxneie := false, txeie := false, nvicU := false, nvicT := false, rdr := none, heard := false, txe := true, rtof := false,
    cen := false, uif := false }

/-- What the hardware does by itself. Hardware, no C counterpart. -/
inductive HwEv where
  /-- the last bit of a character has been received; overrun detection is disabled (`:199`), so the byte replaces an unread one -/
  | char (b : U8)
  /-- the line has been silent for 1.5 characters since the last character -/
  | quiet
  /-- the transmitter has taken the byte from the transmit data register -/
  | shift
  /-- the 3.5 character timer has reached its reload value (one pulse mode, `:234`) -/
  | expire
  deriving DecidableEq

/-- Its effect. Hardware, no C counterpart. -/
def hwStep (h : UartHw) : HwEv → UartHw
  | .char b => if h.ue then { h with rdr := some b, heard := true } else h
  | .quiet => if h.heard then { h with rtof := true, heard := false } else h
  | .shift => { h with txe := true }
  | .expire => if h.cen then { h with uif := true, cen := false } else h

/-- The UART requests an interrupt, and the interrupt controller lets it through. Hardware, no C counterpart. -/
def UartHw.irqU (h : UartHw) : Bool := h.nvicU && ((h.rdr.isSome && h.rxneie) || (h.txe && h.txeie) || h.rtof)

/-! ### The slave device -/

/-- The statements of `modbus_slave_init(RTU, baud, parity, id)` that handlers and library can see, in `src/modbus_slave.c:121-126`, `:249-319` and
`examples/STM32G070RB_MODBUS_SLAVE/Core/Src/modbus_driver_interface.c:71-111`. -/
inductive InitStmt where
  /-- both buffer pointers, `src/modbus_slave.c:267-268` (the response buffer is not used by handlers) -/
  | buffers
  /-- `src/modbus_slave.c:252` -/
  | msgPtr
  /-- `src/modbus_slave.c:286` -/
  | getDriver
  /-- slave driver `:205`, the last statement of `USART_module_config` -/
  | uartOn
  /-- slave driver `:228` -/
  | nvicUsart
  /-- slave driver `:240` -/
  | nvicTimer
  /-- slave driver `:78` -/
  | gapClear
  /-- slave driver `:93`, called from `src/modbus_slave.c:288` -/
  | rxPtr
  /-- slave driver `:94` -/
  | rxEnable
  /-- `src/modbus_slave.c:289` -/
  | subTx
  /-- `src/modbus_slave.c:290` -/
  | subT15
  /-- `src/modbus_slave.c:291` -/
  | subT35
  /-- `src/modbus_slave.c:292` -/
  | subErr
  /-- `src/modbus_slave.c:311` -/
  | setId (id : U8)
  /-- `src/modbus_slave.c:313` -/
  | stIdle
  /-- `src/modbus_slave.c:315` -/
  | clrT15
  /-- `src/modbus_slave.c:316` -/
  | clrT35
  /-- `src/modbus_slave.c:317` -/
  | clrErr
  /-- `src/modbus_slave.c:318` -/
  | clrTx
  deriving DecidableEq

/-- In the order of the code: `src/modbus_slave.c:123-125`, `:251-252`, `:286-292`, `:311-318`, slave driver `:73-78`, `:93-94`. -/
def slaveInitStmts (id : U8) : List InitStmt :=
  [.buffers, .msgPtr, .getDriver, .uartOn, .nvicUsart, .nvicTimer, .gapClear, .rxPtr, .rxEnable, .subTx, .subT15, .subT35, .subErr,
   .setId id, .stIdle, .clrT15, .clrT35, .clrErr, .clrTx]

/-- The slave device with the driver's static variables, `examples/STM32G070RB_MODBUS_SLAVE/Core/Src/modbus_driver_interface.c:28-37`. -/
structure SlaveBoot where
  /-- the library; its field `subscribed` is set with the last subscription and not looked at by the handlers -/
  lib : Slave
  /-- `rx_msg != NULL` (it then points at the request of the library's message) -/
  rxMsg : Bool
  /-- `slave_msg_tx_complete_cb != NULL` -/
  cbTx : Bool
  /-- `slave_t_1_5_char_break_cb != NULL` -/
  cbT15 : Bool
  /-- `slave_t_3_5_char_break_cb != NULL` -/
  cbT35 : Bool
  /-- `slave_frame_error_cb != NULL` -/
  cbErr : Bool
  /-- `tx_buf.cur_byte_ptr` as in `SlaveSys` -/
  cur : Nat
  /-- `tx_buf.last_byte_ptr` -/
  last : Nat
  /-- `FRAME_DETECTION_FLAG = FRAME_RECEIVED` -/
  gap : Bool
  hw : UartHw
  /-- the rest of the initialisation that is under way -/
  todo : List InitStmt

/-- At power-on. `examples/STM32G070RB_MODBUS_SLAVE/Core/Src/modbus_driver_interface.c:28-37`. -/
def SlaveBoot.powerOn (mem : AppMem) : SlaveBoot :=
  { lib := Slave.powerOn mem, rxMsg := false, cbTx := false, cbT15 := false, cbT35 := false, cbErr := false, cur := 0, last := 0, gap := false,
    hw := UartHw.reset, todo := [] }

/-- One statement of the initialisation (the lines are at `InitStmt`). `src/modbus_slave.c:249-319`,
`examples/STM32G070RB_MODBUS_SLAVE/Core/Src/modbus_driver_interface.c:71-111`. -/
def SlaveBoot.exec (d : SlaveBoot) : InitStmt → SlaveBoot
  | .buffers => { d with lib := { d.lib with dataSet := true } }
  | .msgPtr => { d with lib := { d.lib with msgPtr := true } }
  | .getDriver => { d with lib := { d.lib with drv := true } }
  | .uartOn => { d with hw := { d.hw with ue := true } }
  | .nvicUsart => { d with hw := { d.hw with nvicU := true } }
  | .nvicTimer => { d with hw := { d.hw with nvicT := true } }
  | .gapClear => { d with gap := false }
  | .rxPtr => { d with rxMsg := true }
  | .rxEnable => { d with hw := { d.hw with rxneie := true } }
  | .subTx => { d with cbTx := true }
  | .subT15 => { d with cbT15 := true }
  | .subT35 => { d with cbT35 := true }
  | .subErr => { d with cbErr := true, lib := { d.lib with subscribed := true } }
  | .setId id => { d with lib := { d.lib with id := id } }
  | .stIdle => { d with lib := { d.lib with st := .idle } }
  | .clrT15 => { d with lib := { d.lib with t15 := .cleared } }
  | .clrT35 => { d with lib := { d.lib with t35 := .cleared } }
  | .clrErr => { d with lib := { d.lib with ferr := .cleared } }
  | .clrTx => { d with lib := { d.lib with txf := .cleared } }

/-- First part of the UART's handler: `rx_msg->data[rx_msg->len] = RDR; rx_msg->len++`, the frame error callback, the timer.
`examples/STM32G070RB_MODBUS_SLAVE/Core/Src/modbus_driver_interface.c:116-128`; the callback is `src/modbus_slave.c:360-363`. -/
def bootIrqRx (d : SlaveBoot) : C SlaveBoot :=
  match d.hw.rdr with
  | none => .ok d
  | some b =>
    if d.rxMsg = false ∨ d.lib.dataSet = false then .error .nullDeref
    else do
      let req ← wr d.lib.req d.lib.reqLen.toNat b
      let l := { d.lib with req := req, reqLen := d.lib.reqLen + 1 }
      let hw := { d.hw with rdr := none, cen := true }
      if d.gap then
        if d.cbErr then return { d with lib := { l with ferr := .set }, hw := hw }
        else .error .nullDeref
      else return { d with lib := l, hw := hw }

/-- Second part: the next byte, or the end of the transmission. `examples/STM32G070RB_MODBUS_SLAVE/Core/Src/modbus_driver_interface.c:129-142`; the callback is
`src/modbus_slave.c:327-330`. -/
def bootIrqTx (d : SlaveBoot) : C (SlaveBoot × List HOut) :=
  if d.hw.txe then
    if d.cur < d.last then do
      let b ← rd d.lib.resp (d.cur + 1)
      return ({ d with cur := d.cur + 1, hw := { d.hw with txe := false } }, [.tdr b])
    else if d.cbTx then .ok ({ d with lib := { d.lib with txf := .cleared }, hw := { d.hw with txeie := false } }, [])
    else .error .nullDeref
  else .ok (d, [])

/-- Third part; this callback is checked for NULL. `examples/STM32G070RB_MODBUS_SLAVE/Core/Src/modbus_driver_interface.c:143-151`; the callback is
`src/modbus_slave.c:338-341`. -/
def bootIrqRto (d : SlaveBoot) : SlaveBoot :=
  if d.hw.rtof then
    { d with lib := if d.cbT15 then { d.lib with t15 := .set } else d.lib, gap := true }
  else d

/-- `MODBUS_USART_IRQHandler`, slave driver `examples/STM32G070RB_MODBUS_SLAVE/Core/Src/modbus_driver_interface.c:113-152`. -/
def bootIrqUsart (d : SlaveBoot) : C (SlaveBoot × List HOut) := do
  let d ← bootIrqRx d
  let (d, o) ← bootIrqTx d
  return (bootIrqRto d, o)

/-- `MODBUS_TIMER_IRQHandler` with the update flag set, slave driver `:154-163`; the callback is `src/modbus_slave.c:349-352`.
`examples/STM32G070RB_MODBUS_SLAVE/Core/Src/modbus_driver_interface.c:154-163`. -/
def bootIrqTimer (d : SlaveBoot) : C SlaveBoot :=
  if d.cbT35 then
    .ok { d with lib := { d.lib with t35 := .set }, gap := false, hw := { d.hw with rtof := false, uif := false } }
  else .error .nullDeref

/-- `slave_usart_send`, slave driver `examples/STM32G070RB_MODBUS_SLAVE/Core/Src/modbus_driver_interface.c:81-90`. -/
def bootUsartSend (d : SlaveBoot) : C (SlaveBoot × List HOut) :=
  if 0 < d.lib.respLen.toNat then do
    let b ← rd d.lib.resp 0
    return ({ d with cur := 0, last := d.lib.respLen.toNat - 1, hw := { d.hw with txe := false, txeie := true } }, [.tdr b])
  else .ok (d, [])

/-- The calls of the driver's `send` during an operation of the main program (at most one). The call is `src/modbus_slave.c:197`. -/
def bootSends (d : SlaveBoot) : List SOut → C (SlaveBoot × List HOut)
  | [] => .ok (d, [])
  | .send f :: os => do
    let (d, o) ← bootUsartSend d
    let (d, o') ← bootSends d os
    return (d, .send f :: o ++ o')

/-- What happens. Modelling infrastructure, no C counterpart. -/
inductive BOp where
  /-- the main program calls `modbus_slave_init(RTU, …, id)` -/
  | init (id : U8)
  /-- it executes the next statement of the initialisation -/
  | next
  /-- it makes another call (poll, registration, application write); not while the initialisation is under way -/
  | main (op : SOp)
  /-- the hardware -/
  | hw (e : HwEv)
  /-- the UART's handler runs, if an enabled interrupt is pending -/
  | usart
  /-- the timer's handler runs, if its interrupt is enabled and pending -/
  | timer
  deriving DecidableEq

/-- A call other than an initialisation. Modelling infrastructure, no C counterpart. -/
def SOp.isCall : SOp → Bool
  | .poll | .register _ _ _ | .appBool _ _ | .appReg _ _ => true
  | _ => false

/-- One event. Handlers: `examples/STM32G070RB_MODBUS_SLAVE/Core/Src/modbus_driver_interface.c:113-163`; main program: `src/modbus_slave.c:66-157`. -/
def bootStep (cfg : Config) (d : SlaveBoot) : BOp → C (SlaveBoot × List HOut)
  | .init id => .ok (if d.todo = [] then { d with todo := slaveInitStmts id } else d, [])
  | .next =>
    match d.todo with
    | [] => .ok (d, [])
    | s :: t => .ok ({ d.exec s with todo := t }, [])
  | .main op =>
    if d.todo = [] ∧ op.isCall = true then do
      let (l, o) ← slaveStep cfg d.lib op
      bootSends { d with lib := l } o
    else .ok (d, [])
  | .hw e => .ok ({ d with hw := hwStep d.hw e }, [])
  | .usart => if d.hw.irqU then bootIrqUsart d else .ok (d, [])
  | .timer => if d.hw.nvicT && d.hw.uif then do
      let d ← bootIrqTimer d
      return (d, [])
    else .ok (d, [])

/-- An execution. Modelling infrastructure, no C counterpart. -/
def bootRun (cfg : Config) : SlaveBoot → List BOp → C (SlaveBoot × List HOut)
  | d, [] => .ok (d, [])
  | d, op :: ops => do
    let (d, o) ← bootStep cfg d op
    let (d, os) ← bootRun cfg d ops
    return (d, o ++ os)

end Modbus
