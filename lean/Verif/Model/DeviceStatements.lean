import Verif.Model.Driver
import Verif.Model.Preempt

/-! The slave device (library and example driver) statement by statement: interrupt handlers of the driver may run between any two C statements of
`check_modbus_request` and of the driver's `slave_usart_send` it calls.

`Model/Driver.lean` runs a poll as one event, `Model/Preempt.lean` interrupts polls of the library without its driver. Here the position of the main
program inside a poll is part of the state. The calls of `modbus_RTU_recv`, `parse_master_request_and_prepare_resp` and `modbus_RTU_send` are one step
each; handlers are not interrupted (both have the same priority on the boards); flags are read and written in one access where the source says so. -/

namespace Modbus

/-- Where the main program of the slave is. Each value stands for the statement (or operand of a condition) executed next;
`src/modbus_slave.c:137-239`, `examples/STM32G070RB_MODBUS_SLAVE/Core/Src/modbus_driver_interface.c:81-90`. -/
inductive SPc where
  /-- not in a poll -/
  | out
  /-- `switch`, `src/modbus_slave.c:139` -/
  | enter
  /-- `:164` -/
  | idTest
  /-- `:167` -/
  | idClear
  /-- `:168` -/
  | idRecv
  /-- `:171` -/
  | idErr
  /-- `:173` -/
  | idSt
  /-- `:186`, first operand -/
  | mrF1
  /-- `:186`, second operand -/
  | mrT1
  /-- `:193`, first operand -/
  | mrF2
  /-- `:193`, second operand -/
  | mrT2
  /-- `:188` -/
  | drLen
  /-- `:189` -/
  | drSt
  /-- `:190` -/
  | drErr
  /-- `:191` -/
  | drT35
  /-- `:195` -/
  | anParse
  /-- `:196` -/
  | anFrame
  /-- call of the driver `:197`; its condition and first assignment, driver `:83`, `:85` -/
  | anCur
  /-- driver `:86` -/
  | anLast
  /-- driver `:87` -/
  | anTdr
  /-- driver `:88` -/
  | anTxeie
  /-- `:198` -/
  | anTxf
  /-- `:199` -/
  | anSt
  /-- `:200` -/
  | anT35
  /-- `:216` -/
  | trTest
  /-- `:218` -/
  | trSt
  /-- `:219` -/
  | trResp
  /-- `:220` -/
  | trReq
  /-- `:232` -/
  | dfSt
  /-- `:233` -/
  | dfT15
  /-- `:234` -/
  | dfT35
  /-- `:235` -/
  | dfErr
  /-- `:236` -/
  | dfTx
  /-- `:237` -/
  | dfResp
  /-- `:238` -/
  | dfReq
  deriving DecidableEq, Repr

/-- The slave device with the position of its main program. -/
structure SlaveDev where
  /-- library and driver, `Model/Driver.lean` -/
  sys : SlaveSys
  /-- position of the main program -/
  pc : SPc
  /-- the TXEIE bit of the UART's CR1: the transmit interrupt is enabled (slave driver `:88`, `:139`) -/
  txeie : Bool

/-- One statement. `.send` is recorded when the driver writes the first byte to the transmit register (or when it is given an empty frame).
`src/modbus_slave.c:137-239`, `examples/STM32G070RB_MODBUS_SLAVE/Core/Src/modbus_driver_interface.c:81-90`. -/
def slaveStmt (cfg : Config) (d : SlaveDev) : C (SlaveDev × List HOut) :=
  let s := d.sys
  let l := s.lib
  let go (l : Slave) (pc : SPc) : C (SlaveDev × List HOut) := .ok ({ d with sys := { s with lib := l }, pc := pc }, [])
  match d.pc with
  | .out => .ok (d, [])
  | .enter => go l (match l.st with
    | .idle => .idTest
    | .msgReceived => .mrF1
    | .transmitting => .trTest
    | .unknown => .dfSt)
  | .idTest => go l (if l.t15 = .set then .idClear else .out)
  | .idClear => go { l with t15 := .cleared } .idRecv
  | .idRecv =>
    if l.msgPtr then do
      let r ← rtuRecv l.reqData l.reqLen l.id
      go l (if r ≠ RET_OK then .idErr else .idSt)
    else .error .nullDeref
  | .idErr => go { l with ferr := .set } .idSt
  | .idSt => go { l with st := .msgReceived } .out
  | .mrF1 => go l (if l.ferr = .set then .mrT1 else .mrF2)
  | .mrT1 => go l (if l.t35 = .set then .drLen else .mrF2)
  | .mrF2 => go l (if l.ferr = .cleared then .mrT2 else .out)
  | .mrT2 => go l (if l.t35 = .set then .anParse else .out)
  | .drLen => do go (← slaveReqLen0 l) .drSt
  | .drSt => go { l with st := .idle } .drErr
  | .drErr => go { l with ferr := .cleared } .drT35
  | .drT35 => go { l with t35 := .cleared } .out
  | .anParse => do go (← slaveParse cfg l) .anFrame
  | .anFrame => do go (← slaveFrame l) .anCur
  | .anCur => do
    let _ ← slaveDriverSend l
    if 0 < l.respLen.toNat then .ok ({ d with sys := { s with cur := 0 }, pc := .anLast }, [])
    else .ok ({ d with pc := .anTxf }, [.send []])
  | .anLast => .ok ({ d with sys := { s with last := l.respLen.toNat - 1 }, pc := .anTdr }, [])
  | .anTdr => do
    let b ← rd l.resp 0
    .ok ({ d with pc := .anTxeie }, [.send (l.resp.bytes 0 l.respLen.toNat), .tdr b])
  | .anTxeie => .ok ({ d with txeie := true, pc := .anTxf }, [])
  | .anTxf => go { l with txf := .set } .anSt
  | .anSt => go { l with st := .transmitting } .anT35
  | .anT35 => go { l with t35 := .cleared } .out
  | .trTest => go l (if l.txf = .cleared then .trSt else .out)
  | .trSt => go { l with st := .idle } .trResp
  | .trResp => do go (← slaveRespLen0 l) .trReq
  | .trReq => do go (← slaveReqLen0 l) .out
  | .dfSt => go { l with st := .idle } .dfT15
  | .dfT15 => go { l with t15 := .cleared } .dfT35
  | .dfT35 => go { l with t35 := .cleared } .dfErr
  | .dfErr => go { l with ferr := .cleared } .dfTx
  | .dfTx => go { l with txf := .cleared } .dfResp
  | .dfResp => do go (← slaveRespLen0 l) .dfReq
  | .dfReq => do go (← slaveReqLen0 l) .out

/-- What happens to the device. Modelling infrastructure, no C counterpart. -/
inductive SDEv where
  /-- the main program calls `check_modbus_request` -/
  | call
  /-- the main program executes the next statement of the poll it is in -/
  | stmt
  /-- the main program does something else, between two polls -/
  | app (op : SOp)
  /-- hardware event or interrupt handler (not `.main`) -/
  | irq (h : HOp)
  deriving DecidableEq

/-- TXEIE (`e` before) after an interrupt that found the driver in state `s`: the end of a transmission disables the transmit interrupt.
`examples/STM32G070RB_MODBUS_SLAVE/Core/Src/modbus_driver_interface.c:130-143`, here `:139`. -/
def txeAfter (h : HOp) (e : Bool) (s : SlaveSys) : Bool :=
  match h with
  | .usart _ true => e && decide (s.cur < s.last)
  | _ => e

/-- The interrupt handlers as in `Model/Driver.lean`. `examples/STM32G070RB_MODBUS_SLAVE/Core/Src/modbus_driver_interface.c:113-163`. -/
def slaveDevIrq (cfg : Config) (d : SlaveDev) (h : HOp) : C (SlaveDev × List HOut) := do
  let (s, o) ← slaveSysStep cfg d.sys h
  return ({ d with sys := s, txeie := txeAfter h d.txeie d.sys }, o)

/-- One event. While RTOF is set the main program stands still (`Model/Driver.lean`). Modelling infrastructure, no C counterpart. -/
def slaveDevStep (cfg : Config) (d : SlaveDev) : SDEv → C (SlaveDev × List HOut)
  | .call => .ok (if d.sys.rtof = true ∨ d.pc ≠ .out then d else { d with pc := .enter }, [])
  | .stmt => if d.sys.rtof then .ok (d, []) else slaveStmt cfg d
  | .app op =>
    if d.pc ≠ .out ∨ op = .poll then .ok (d, [])
    else do
      let (s, o) ← slaveSysStep cfg d.sys (.main op)
      return ({ d with sys := s }, o)
  | .irq (.main _) => .ok (d, [])
  | .irq h => slaveDevIrq cfg d h

end Modbus
