import Verif.Model.MasterStatements

/-! The master device with the position of its main program inside a poll as part of the state, for executions in real time: an event is one statement
of `update_modbus_master_manager`, its state handlers and the driver's `master_usart_send`, or one interrupt (driver, system tick).

Statements as in `Model/MasterStatements.lean`: the calls of `modbus_RTU_recv`, `modbus_master_read_slave_resp` and of the queue's functions are one step
each; handlers are not interrupted; flags are read and written in one access where the source says so. The values of local variables that outlive a
statement are part of the position. -/

namespace Modbus

/-- Where the main program of the master is. Each value stands for the statement (or operand of a condition) executed next;
`src/modbus_master.c:351-374`, `:402-408`, `:647-903`, `examples/STM32G070RB_MODBUS_MASTER/Drivers/STM32G0_Drivers/modbus_driver_interface.c:79-92`. -/
inductive MPc where
  /-- not in a poll -/
  | out
  /-- `switch`, `src/modbus_master.c:353` -/
  | enter
  /-- `:649` -/
  | idTest
  /-- `:651` -/
  | idPop
  /-- call of the driver `:404`; its condition and first assignment, driver `:81`, `:83` -/
  | snCur
  /-- driver `:84`; request buffer of message `i`, `n` bytes -/
  | snLast (i n : Nat)
  /-- driver `:85` -/
  | snTdr (i n : Nat)
  /-- driver `:86` -/
  | snTxeie
  /-- driver `:89` -/
  | snGap
  /-- driver `:90` -/
  | snTim
  /-- driver `:91` -/
  | snRtof
  /-- `:405` -/
  | snRx
  /-- `:406` -/
  | snTxf
  /-- `:407` -/
  | snSt
  /-- `:669` -/
  | trTest
  /-- `:671` -/
  | trLen
  /-- `:672` -/
  | trTimer
  /-- `:673` -/
  | trSt
  /-- `:690` -/
  | wtT15
  /-- `:694` -/
  | wtTimer
  /-- `:746` -/
  | rcId
  /-- `:747` -/
  | rcT15 (id : U8)
  /-- `:748` -/
  | rcT35 (id : U8)
  /-- `:749` -/
  | rcRecv (id : U8)
  /-- `:752` -/
  | rcErrTimer
  /-- `:753` -/
  | rcErrFlag
  /-- `:758` -/
  | rcSkip
  /-- `:762` -/
  | rcOkTimer
  /-- `:754`, `:763` -/
  | rcSt
  /-- `:718` -/
  | toSlave
  /-- `:719` -/
  | toAdr (slave : U8)
  /-- `:720` -/
  | toQty (slave : U8) (adr : U16)
  /-- `:721` -/
  | toFc (slave : U8) (adr qty : U16)
  /-- `:723` -/
  | toRep (slave fc : U8) (adr qty : U16)
  /-- `:900` -/
  | enCnt
  /-- `:901` -/
  | enPush
  /-- `:902` -/
  | enSt
  /-- `:784`, first operand -/
  | rvF1
  /-- `:784`, second operand -/
  | rvT1
  /-- `:788`, first operand -/
  | rvC2
  /-- `:788`, second operand -/
  | rvT2
  /-- `:792`, first operand -/
  | rvF3
  /-- `:792`, second operand -/
  | rvC3
  /-- `:792`, third operand -/
  | rvT3
  /-- `:813` -/
  | coProc
  /-- `:833`, `:868` -/
  | feCnt (e : RespErr)
  /-- `:834`, `:869` -/
  | feTest (e : RespErr)
  /-- `:836`, `:871` -/
  | feSt (e : RespErr)
  /-- `:837`, `:872` -/
  | feFlag (e : RespErr)
  /-- `:838`, `:873` -/
  | feLen
  /-- `:844`, `:879` -/
  | cmSlave (e : RespErr)
  /-- `:845`, `:880` -/
  | cmFc (e : RespErr) (slave : U8)
  /-- `:847`, `:882` -/
  | cmRep (e : RespErr) (slave fc : U8)
  deriving DecidableEq, Repr

/-- The master device with the position of its main program. -/
structure MasterPcDev where
  /-- library and driver, `Model/MasterStatements.lean` -/
  dev : MasterDev
  /-- position of the main program -/
  pc : MPc
  /-- the TXEIE bit of the UART's CR1: the transmit interrupt is enabled (driver `:86`, `:145`) -/
  txeie : Bool

/-- The flag that an error handler clears: the CRC error flag (`src/modbus_master.c:837`) or the frame error flag (`:872`). -/
def clearErr (e : RespErr) (l : Master) : Master :=
  match e with
  | .crc => { l with crcf := .cleared }
  | _ => { l with ferr := .cleared }

/-- One statement. `.send` is recorded when the driver writes the first byte to the transmit register (or when it is given an empty frame).
`src/modbus_master.c:351-374`, `:402-408`, `:647-903`, `examples/STM32G070RB_MODBUS_MASTER/Drivers/STM32G0_Drivers/modbus_driver_interface.c:79-92`. -/
def masterStmt (cfg : Config) (d : MasterPcDev) : C (MasterPcDev × List HMOut) :=
  let s := d.dev.sys
  let l := s.lib
  let hw (s : MasterSys) (pc : MPc) : C (MasterPcDev × List HMOut) := .ok ({ d with dev := { d.dev with sys := s }, pc := pc }, [])
  let go (l : Master) (pc : MPc) : C (MasterPcDev × List HMOut) := hw { s with lib := l } pc
  match d.pc with
  | .out => .ok (d, [])
  | .enter => go l (match l.st with
    | .idle => .idTest
    | .repeatRequest => .snCur
    | .transmitting => .trTest
    | .waiting => .wtT15
    | .received => .rvF1)
  | .idTest => go l (if l.txQ.available then .idPop else .out)
  | .idPop => do
    let (x, tq) ← l.txQ.pop cfg.queueItems
    go { l with msgBuf := x, txQ := tq } .snCur
  | .snCur => do
    let _ ← masterDrvSend l
    let (i, n) ← masterSendArgs l
    if 0 < n then hw { s with txMsg := i, cur := 0 } (.snLast i n)
    else .ok ({ d with pc := .snGap }, [.lib (.send [])])
  | .snLast i n => .ok ({ d with dev := { sys := { s with last := n - 1 }, lastMsg := i }, pc := .snTdr i n }, [])
  | .snTdr i n => do
    let b ← rd (l.msgs i).req 0
    .ok ({ d with pc := .snTxeie }, [.lib (.send ((l.msgs i).req.bytes 0 n)), .tdr b])
  | .snTxeie => .ok ({ d with txeie := true, pc := .snGap }, [])
  | .snGap => hw { s with gap := false } .snTim
  | .snTim => hw s .snRtof
  | .snRtof => hw { s with rtof := false } .snRx
  | .snRx => do go (← masterEnableRx l) .snTxf
  | .snTxf => go { l with txf := .set } .snSt
  | .snSt => go { l with st := .transmitting } .out
  | .trTest => go l (if l.txf = .cleared then .trLen else .out)
  | .trLen => do go (← clearRespLen l) .trTimer
  | .trTimer => go { l with timer := cfg.respTimeout } .trSt
  | .trSt => go { l with st := .waiting } .out
  | .wtT15 => go l (if l.t15 = .set then .rcId else .wtTimer)
  | .wtTimer => go l (if l.timer = 1 then .toSlave else .out)
  | .rcId => do
    let m ← curMsg l
    let id ← rd m.req idxSlaveAdr
    go l (.rcT15 id)
  | .rcT15 id => go { l with t15 := .cleared } (.rcT35 id)
  | .rcT35 id => go { l with t35 := .cleared } (.rcRecv id)
  | .rcRecv id => do
    let m ← curMsg l
    let r ← rtuRecv (some m.resp) m.respLen id
    go l (if RET_ERROR_CRC = r then .rcErrTimer else if RET_ERROR_SLAVE_ID = r then .rcSkip else .rcOkTimer)
  | .rcErrTimer => go { l with timer := 0 } .rcErrFlag
  | .rcErrFlag => go { l with crcf := .set } .rcSt
  | .rcSkip => do go (← clearRespLen l) .out
  | .rcOkTimer => go { l with timer := 0 } .rcSt
  | .rcSt => go { l with st := .received } .out
  | .toSlave => do
    let m ← curMsg l
    let x ← rd m.req idxSlaveAdr
    go l (.toAdr x)
  | .toAdr slave => do
    let m ← curMsg l
    let x ← readU16 m.req idxRequestAdr
    go l (.toQty slave x)
  | .toQty slave adr => do
    let m ← curMsg l
    let x ← readU16 m.req idxRequestQty
    go l (.toFc slave adr x)
  | .toFc slave adr qty => do
    let m ← curMsg l
    let x ← rd m.resp idxFunctionCode
    go l (.toRep slave x adr qty)
  | .toRep slave fc adr qty =>
    .ok ({ d with pc := .enCnt }, [.lib (.event (.timeoutErr { slave := slave, fc := fc, adr := adr, qty := qty, err := .timeout }))])
  | .enCnt => go { l with repeatCnt := 0 } .enPush
  | .enPush => do
    let (fq, mb) ← l.freeQ.push cfg.queueItems l.msgBuf
    go { l with freeQ := fq, msgBuf := mb } .enSt
  | .enSt => go { l with st := .idle } .out
  | .rvF1 => go l (if l.ferr = .set then .rvT1 else .rvC2)
  | .rvT1 => go l (if l.t35 = .set then .feCnt .frame else .rvC2)
  | .rvC2 => go l (if l.crcf = .set then .rvT2 else .rvF3)
  | .rvT2 => go l (if l.t35 = .set then .feCnt .crc else .rvF3)
  | .rvF3 => go l (if l.ferr = .cleared then .rvC3 else .out)
  | .rvC3 => go l (if l.crcf = .cleared then .rvT3 else .out)
  | .rvT3 => go l (if l.t35 = .set then .coProc else .out)
  | .coProc => do
    let ev ← (match l.msgBuf with
      | none => .ok []
      | some i => do
        let (_, ev) ← readSlaveResp l.dataSet (l.msgs i)
        return ev : C (List MEvent))
    .ok ({ d with pc := .enCnt }, ev.map fun e => .lib (.event e))
  | .feCnt e => go { l with repeatCnt := l.repeatCnt + 1 } (.feTest e)
  | .feTest e => go l (if l.repeatCnt.toNat ≤ cfg.repeatMax then .feSt e else .cmSlave e)
  | .feSt e => go { l with st := .repeatRequest } (.feFlag e)
  | .feFlag e => go (clearErr e l) .feLen
  | .feLen => do go (← clearRespLen l) .out
  | .cmSlave e => do
    let m ← curMsg l
    let x ← rd m.resp idxSlaveAdr
    go l (.cmFc e x)
  | .cmFc e slave => do
    let m ← curMsg l
    let x ← rd m.resp idxFunctionCode
    go l (.cmRep e slave x)
  | .cmRep e slave fc =>
    .ok ({ d with pc := .enCnt }, [.lib (.event (.commErr { slave := slave, fc := fc &&& ~~~exceptionCodeMask, adr := 0, qty := 0, err := e }))])

/-- What happens to the device. Modelling infrastructure, no C counterpart. -/
inductive MSEv where
  /-- the main program calls `update_modbus_master_manager` -/
  | call
  /-- the main program executes the next statement of the poll it is in -/
  | stmt
  /-- the main program does something else, between two polls -/
  | app (op : MOp)
  /-- hardware event, interrupt handler of the driver or system tick -/
  | irq (h : HMOp)
  deriving DecidableEq

/-- The driver has bytes left to transmit: `cur_byte_ptr < last_byte_ptr`, as in `masterDevTx`.
`examples/STM32G070RB_MODBUS_MASTER/Drivers/STM32G0_Drivers/modbus_driver_interface.c:137`. -/
def MasterDev.more (d : MasterDev) : Bool := decide (d.sys.txMsg < d.lastMsg ∨ (d.sys.txMsg = d.lastMsg ∧ d.sys.cur < d.sys.last))

/-- TXEIE (`e` before) after an interrupt that found the driver in state `d`: the end of a transmission disables the transmit interrupt.
`examples/STM32G070RB_MODBUS_MASTER/Drivers/STM32G0_Drivers/modbus_driver_interface.c:135-148`, here `:145`. -/
def mtxeAfter (h : HMOp) (e : Bool) (d : MasterDev) : Bool :=
  match h with
  | .usart _ true => e && d.more
  | _ => e

/-- One event. Modelling infrastructure, no C counterpart. -/
def masterPcStep (cfg : Config) (d : MasterPcDev) : MSEv → C (MasterPcDev × List HMOut)
  | .call => .ok (if d.pc ≠ .out then d else { d with pc := .enter }, [])
  | .stmt => masterStmt cfg d
  | .app op =>
    if d.pc ≠ .out ∨ op = .poll then .ok (d, [])
    else do
      let (s, o) ← masterSysStep cfg d.dev.sys (.main op)
      return ({ d with dev := { d.dev with sys := s } }, o)
  | .irq h => do
    let (v, o) ← masterDevInt cfg d.dev h
    return ({ d with dev := v, txeie := mtxeAfter h d.txeie d.dev }, o)

end Modbus
