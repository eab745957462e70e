import Verif.Model.Driver
import Verif.Model.Preempt

/-! The master device (library and example driver) statement by statement: interrupt handlers of the driver and the system tick may run between any two
C statements of `update_modbus_master_manager` and of the driver's `master_usart_send` it calls.

`Model/Driver.lean` runs a poll as one event, `Model/Preempt.lean` interrupts polls of the library without its driver. Granularity as in
`Model/Preempt.lean`. The transmit pointers of the driver are assigned one after the other: in between they may point into the request buffers of different
messages. The buffers are the rows of one array (`master_RTU_req_buf`, `src/master_internall/modbus_master_RTU.c`), so comparing the pointers compares rows first. -/

namespace Modbus

/-- The master device; `Model/Driver.lean` keeps one row for both transmit pointers, here the row of `last_byte_ptr` is separate.
`examples/STM32G070RB_MODBUS_MASTER/Drivers/STM32G0_Drivers/modbus_driver_interface.c:16-20`, `:27`. -/
structure MasterDev where
  /-- library and driver; `sys.txMsg` is the message into whose request buffer `cur_byte_ptr` points -/
  sys : MasterSys
  /-- the message into whose request buffer `last_byte_ptr` points -/
  lastMsg : Nat

/-- Transmit part of the UART's handler, with the comparison of the two pointers. At power-on both are NULL, like both at offset 0 of row 0: nothing is
before NULL. `examples/STM32G070RB_MODBUS_MASTER/Drivers/STM32G0_Drivers/modbus_driver_interface.c:135-148`. -/
def masterDevTx (cfg : Config) (d : MasterDev) (txe : Bool) : C (MasterDev × List HMOut) :=
  let s := d.sys
  if txe then
    if s.txMsg < d.lastMsg ∨ (s.txMsg = d.lastMsg ∧ s.cur < s.last) then do
      let b ← rd (s.lib.msgs s.txMsg).req (s.cur + 1)
      return ({ d with sys := { s with cur := s.cur + 1 } }, [.tdr b])
    else do
      let (l, _) ← masterStep cfg s.lib .txDone
      return ({ d with sys := { s with lib := l } }, [])
  else .ok (d, [])

/-- An interrupt: the handlers of the driver, the hardware event RTOF, the system tick. Other operations are not interrupts.
`examples/STM32G070RB_MODBUS_MASTER/Drivers/STM32G0_Drivers/modbus_driver_interface.c:120-169`, `src/modbus_master.c:385-391`. -/
def masterDevInt (cfg : Config) (d : MasterDev) : HMOp → C (MasterDev × List HMOut)
  | .usart rx txe => do
    let s ← masterIrqRx cfg d.sys rx
    let (d, o) ← masterDevTx cfg { d with sys := s } txe
    let s ← masterIrqRto cfg d.sys
    return ({ d with sys := s }, o)
  | .main op =>
    if op = .tick then do
      let (s, o) ← masterSysStep cfg d.sys (.main .tick)
      return ({ d with sys := s }, o)
    else .ok (d, [])
  | h => do
    let (s, o) ← masterSysStep cfg d.sys h
    return ({ d with sys := s }, o)

/-- Interrupts one after the other, with their outputs. Modelling infrastructure, no C counterpart. -/
def runIntsO {σ ω ε : Type} (int : σ → ε → C (σ × List ω)) : σ → List ε → C (σ × List ω)
  | s, [] => .ok (s, [])
  | s, e :: l => do
    let (s, o) ← int s e
    let (s, o') ← runIntsO int s l
    return (s, o ++ o')

/-- `runProg` with interrupts that have outputs. Modelling infrastructure, no C counterpart. -/
def runProgO {σ ω ε : Type} (int : σ → ε → C (σ × List ω)) : Prog σ ω ε → List (List ε) → σ → C (σ × List ω)
  | .done, ints, s => runIntsO int s ints.flatten
  | .step _ f k, ints, s => do
    let (s, o1) ← runIntsO int s (ints.headD [])
    let (a, s, o2) ← f s
    let (s, o3) ← runProgO int (k a) ints.tail s
    return (s, o1 ++ (o2 ++ o3))

/-- `noRace` with interrupts that have outputs. Modelling infrastructure, no C counterpart. -/
def noRaceO {σ ω ε : Type} (int : σ → ε → C (σ × List ω)) : Prog σ ω ε → List (List ε) → σ → Prop
  | .done, _, _ => True
  | .step race f k, ints, s =>
    (∀ e ∈ ints.headD [], race s e = false) ∧
    ∀ s1 o1 a s2 o2, runIntsO int s (ints.headD []) = .ok (s1, o1) → f s1 = .ok (a, s2, o2) → noRaceO int (k a) ints.tail s2

/-- Modelling infrastructure, no C counterpart. -/
abbrev DProg := Prog MasterDev HMOut HMOp

/-- Code of the library, in the device; none of it is marked. Modelling infrastructure, no C counterpart. -/
def liftP : MProg → DProg
  | .done => .done
  | .step _ f k => .step free
      (fun d => do
        let (a, l, o) ← f d.sys.lib
        return (a, { d with sys := { d.sys with lib := l } }, o.map .lib))
      fun a => liftP (k a)

/-- The UART's handler runs and finds the transmit register empty. Modelling infrastructure, no C counterpart. -/
def HMOp.isTxe : HMOp → Bool
  | .usart _ txe => txe
  | _ => false

/-- An assignment of the driver. Modelling infrastructure, no C counterpart. -/
def drvAssign (f : MasterDev → MasterDev) (k : DProg) : DProg := assign f k

/-- An assignment of the driver before which the UART's handler with an empty transmit register is marked. Modelling infrastructure, no C counterpart. -/
def drvMarked (f : MasterDev → C (MasterDev × List HMOut)) (k : DProg) : DProg :=
  .step (fun _ e => e.isTxe) (fun d => do let (d, o) ← f d; return ((), d, o)) fun _ => k

/-- `master_usart_send(tx_msg, msg_len)`: the last three assignments `:89-91` (the one in the middle stops the timer, which is hardware).
`examples/STM32G070RB_MODBUS_MASTER/Drivers/STM32G0_Drivers/modbus_driver_interface.c:88-91`. -/
def masterUsartTailP (k : DProg) : DProg :=
  drvAssign (fun d => { d with sys := { d.sys with gap := false } })
    (drvAssign id
      (drvAssign (fun d => { d with sys := { d.sys with rtof := false } }) k))

/-- `master_usart_send(tx_msg, msg_len)` with the request buffer of message `i` and length `n`; enabling the transmit interrupt (`:86`) has no effect in the
model, which allows the handler to run at any time.
`examples/STM32G070RB_MODBUS_MASTER/Drivers/STM32G0_Drivers/modbus_driver_interface.c:79-92`. -/
def masterUsartSendP (i n : Nat) (k : DProg) : DProg :=
  if 0 < n then
    drvAssign (fun d => { d with sys := { d.sys with txMsg := i, cur := 0 } })
      (drvMarked (fun d => .ok ({ d with sys := { d.sys with last := n - 1 }, lastMsg := i }, []))
        (drvMarked (fun d => do let b ← rd (d.sys.lib.msgs i).req 0; return (d, [.tdr b]))
          (drvAssign id (masterUsartTailP k))))
  else masterUsartTailP k

/-- Message and length handed to the driver, `src/modbus_master.c:404`. -/
def masterSendArgs (s : Master) : C (Nat × Nat) :=
  match s.msgBuf with
  | none => .error .nullDeref
  | some i => .ok (i, (s.msgs i).reqLen.toNat)

/-- `modbus_master_send_req_from_msg_buf`, `src/modbus_master.c:402-408`, with the driver's function opened. The frame is recorded as an output when the
driver is called. -/
def masterDevSendP : DProg :=
  .step free
    (fun d => do
      let o ← masterDrvSend d.sys.lib
      let x ← masterSendArgs d.sys.lib
      return (x, d, o.map .lib))
    fun x => masterUsartSendP x.1 x.2
      (liftP (assignC masterEnableRx (assign (fun s => { s with txf := .set }) (assign (fun s => { s with st := .transmitting }) .done))))

/-- `modbus_master_idle_state_handling`, `src/modbus_master.c:647-654`. -/
def masterDevIdleP (cfg : Config) : DProg :=
  test (fun d => d.sys.lib.txQ.available)
    (assignC (fun d => do
        let (x, tq) ← d.sys.lib.txQ.pop cfg.queueItems
        return { d with sys := { d.sys with lib := { d.sys.lib with msgBuf := x, txQ := tq } } })
      masterDevSendP)
    .done

/-- `update_modbus_master_manager`, `src/modbus_master.c:351-374`. -/
def masterDevPollP (cfg : Config) : DProg :=
  .step free (fun d => .ok (d.sys.lib.st, d, [])) fun st =>
    match st with
    | .idle => masterDevIdleP cfg
    | .repeatRequest => masterDevSendP
    | .transmitting => liftP (masterTransmittingP cfg)
    | .waiting => liftP (masterWaitingP cfg)
    | .received => liftP (masterReceivedP cfg)

/-- What can happen to the device: an interrupt, a call of the main program other than a poll, or a poll with interrupts before every statement.
Modelling infrastructure, no C counterpart. -/
inductive MDOp where
  | op (h : HMOp)
  | pollWith (ints : List (List HMOp))
  deriving DecidableEq

/-- One of them; a poll without interrupts is a poll. Modelling infrastructure, no C counterpart. -/
def masterDevStep (cfg : Config) (d : MasterDev) : MDOp → C (MasterDev × List HMOut)
  | .pollWith ints => runProgO (masterDevInt cfg) (masterDevPollP cfg) ints d
  | .op (.main op) =>
    if op = .poll then runProgO (masterDevInt cfg) (masterDevPollP cfg) [] d
    else do
      let (s, o) ← masterSysStep cfg d.sys (.main op)
      return ({ d with sys := s }, o)
  | .op h => masterDevInt cfg d h

/-- A history. Modelling infrastructure, no C counterpart. -/
def masterDevRun (cfg : Config) : MasterDev → List MDOp → C (MasterDev × List (MDOp × List HMOut))
  | d, [] => .ok (d, [])
  | d, op :: ops => do
    let (d, o) ← masterDevStep cfg d op
    let (d, tr) ← masterDevRun cfg d ops
    return (d, (op, o) :: tr)

/-- At power-on. `examples/STM32G070RB_MODBUS_MASTER/Drivers/STM32G0_Drivers/modbus_driver_interface.c:27-35`. -/
def MasterDev.powerOn : MasterDev := { sys := MasterSys.powerOn, lastMsg := 0 }

end Modbus
