import Verif.Model.Slave
import Verif.Model.Master

/-! The two poll functions as sequences of atomic C statements which interrupts may separate.

`Model/Slave.lean` and `Model/Master.lean` treat a poll as one atomic operation. On the target the driver's callbacks and
the driver's reception of bytes run in interrupt handlers (`examples/STM32G070RB_MODBUS_SLAVE/Core/Src/modbus_driver_interface.c:109-163`),
the response timer may tick in one, and any of them may occur between two statements of a poll. Here a poll is a `Prog`, whose steps are
single C statements or single operands of a condition, and `runProg` executes it with arbitrary interrupts before every step.

Simplifications. The flags are one byte (enum) or one word (timer) objects, read and written in one access; the sources do not declare
them `volatile`, we assume the compiler nevertheless performs every access where it is written. The calls of `modbus_RTU_recv`,
`parse_master_request_and_prepare_resp`, `modbus_RTU_send`, `modbus_master_read_slave_resp` and of the queue functions are one step
each. Interrupt handlers are not themselves interrupted. The request functions of the master share no variable with the interrupt
handlers (they use the two queues, the request half of a free message and nothing else) and stay atomic operations. -/

namespace Modbus

/-- A piece of main-program code: atomic steps on the shared state `σ` that may produce outputs `ω` and a value kept in local
variables. `race` names the interrupts `ε` whose arrival immediately before the step we want to be able to exclude; it has no
influence on the execution. Modelling infrastructure, no C counterpart. -/
inductive Prog (σ ω ε : Type) : Type 1 where
  | done
  | step {α : Type} (race : σ → ε → Bool) (f : σ → C (α × σ × List ω)) (k : α → Prog σ ω ε)

/-- The interrupts `l` one after the other. Modelling infrastructure, no C counterpart. -/
def runInts {σ ε : Type} (int : σ → ε → C σ) : σ → List ε → C σ
  | s, [] => .ok s
  | s, e :: l => do
    let s ← int s e
    runInts int s l

/-- Execute `p`; `ints` lists the interrupts occurring before its first, second, … step, those left over occur after its end.
Modelling infrastructure, no C counterpart. -/
def runProg {σ ω ε : Type} (int : σ → ε → C σ) : Prog σ ω ε → List (List ε) → σ → C (σ × List ω)
  | .done, ints, s => do
    let s ← runInts int s ints.flatten
    return (s, [])
  | .step _ f k, ints, s => do
    let s ← runInts int s (ints.headD [])
    let (a, s, o) ← f s
    let (s, o') ← runProg int (k a) ints.tail s
    return (s, o ++ o')

/-- No interrupt arrives immediately before a step that names it as a race. The state passed to `race` is the one before these
interrupts. Modelling infrastructure, no C counterpart. -/
def noRace {σ ω ε : Type} (int : σ → ε → C σ) : Prog σ ω ε → List (List ε) → σ → Prop
  | .done, _, _ => True
  | .step race f k, ints, s =>
    (∀ e ∈ ints.headD [], race s e = false) ∧
    ∀ s1 a s2 o, runInts int s (ints.headD []) = .ok s1 → f s1 = .ok (a, s2, o) → noRace int (k a) ints.tail s2

section helpers
variable {σ ω ε : Type}

/-- No interrupt is excluded. Modelling infrastructure, no C counterpart. -/
def free : σ → ε → Bool := fun _ _ => false

/-- An assignment. Modelling infrastructure, no C counterpart. -/
def assign (f : σ → σ) (k : Prog σ ω ε) : Prog σ ω ε := .step free (fun s => .ok ((), f s, [])) fun _ => k

/-- An assignment through a pointer that may be NULL. Modelling infrastructure, no C counterpart. -/
def assignC (f : σ → C σ) (k : Prog σ ω ε) : Prog σ ω ε := .step free (fun s => do let s ← f s; return ((), s, [])) fun _ => k

/-- Evaluation of (one operand of) a condition. Modelling infrastructure, no C counterpart. -/
def test (c : σ → Bool) (p q : Prog σ ω ε) : Prog σ ω ε := .step free (fun s => .ok (c s, s, [])) fun b => if b then p else q

end helpers

/-! ### Slave -/

/-- The interrupts of the slave: the callbacks of `src/modbus_slave.c:327-363` and reception of a byte by the driver. -/
inductive SEv where
  | t15 | t35 | frameErr | txDone | rxByte (b : U8)
  deriving DecidableEq, Repr

/-- The corresponding operation of the base model. Modelling infrastructure, no C counterpart. -/
def SEv.op : SEv → SOp
  | .t15 => .t15
  | .t35 => .t35
  | .frameErr => .frameErr
  | .txDone => .txDone
  | .rxByte b => .rxByte b

/-- Effect of an interrupt. Modelling infrastructure, no C counterpart (the handlers are those of the base model, `src/modbus_slave.c:327-363`). -/
def slaveInt (cfg : Config) (s : Slave) (e : SEv) : C Slave := do
  let (s, _) ← slaveStep cfg s e.op
  return s

/-- `slave_msg_ptr->req.len = 0`. `src/modbus_slave.c:188`, `:220`, `:238`. -/
def slaveReqLen0 (s : Slave) : C Slave := if s.msgPtr then .ok { s with reqLen := 0 } else .error .nullDeref
/-- `slave_msg_ptr->resp.len = 0`. `src/modbus_slave.c:219`, `:237`. -/
def slaveRespLen0 (s : Slave) : C Slave := if s.msgPtr then .ok { s with respLen := 0 } else .error .nullDeref

/-- Modelling infrastructure, no C counterpart. -/
abbrev SProg := Prog Slave SOut SEv

/-- `handle_modbus_slave_idle_state`, `src/modbus_slave.c:162-175`. -/
def slaveIdleP : SProg :=
  test (fun s => s.t15 = .set)
    (assign (fun s => { s with t15 := .cleared })
      (.step free
        (fun s => if s.msgPtr then do let r ← rtuRecv s.reqData s.reqLen s.id; return (r, s, []) else .error .nullDeref)
        fun r =>
          if r ≠ RET_OK then
            assign (fun s => { s with ferr := .set }) (assign (fun s => { s with st := .msgReceived }) .done)
          else assign (fun s => { s with st := .msgReceived }) .done))
    .done

/-- First branch of `handle_modbus_slave_msg_recived_state`, `src/modbus_slave.c:188-191`. -/
def slaveDropP : SProg :=
  assignC slaveReqLen0
    (assign (fun s => { s with st := .idle })
      (assign (fun s => { s with ferr := .cleared })
        (assign (fun s => { s with t35 := .cleared }) .done)))

/-- Second branch, `src/modbus_slave.c:195-200`. -/
def slaveAnswerP (cfg : Config) : SProg :=
  assignC (slaveParse cfg)
    (assignC slaveFrame
      (.step free (fun s => do let o ← slaveDriverSend s; return ((), s, o)) fun _ =>
        assign (fun s => { s with txf := .set })
          (assign (fun s => { s with st := .transmitting })
            (assign (fun s => { s with t35 := .cleared }) .done))))

/-- `handle_modbus_slave_msg_recived_state`, `src/modbus_slave.c:184-206`; `&&` evaluates its second operand only when the first
holds. -/
def slaveMsgReceivedP (cfg : Config) : SProg :=
  let second : SProg :=
    test (fun s => s.ferr = .cleared) (test (fun s => s.t35 = .set) (slaveAnswerP cfg) .done) .done
  test (fun s => s.ferr = .set) (test (fun s => s.t35 = .set) slaveDropP second) second

/-- `handle_modbus_slave_transmitting_resp_state`, `src/modbus_slave.c:214-222`. -/
def slaveTransmittingP : SProg :=
  test (fun s => s.txf = .cleared)
    (assign (fun s => { s with st := .idle })
      (assignC slaveRespLen0 (assignC slaveReqLen0 .done)))
    .done

/-- `handle_modbus_slave_default_state`, `src/modbus_slave.c:230-239`. -/
def slaveDefaultP : SProg :=
  assign (fun s => { s with st := .idle })
    (assign (fun s => { s with t15 := .cleared })
      (assign (fun s => { s with t35 := .cleared })
        (assign (fun s => { s with ferr := .cleared })
          (assign (fun s => { s with txf := .cleared })
            (assignC slaveRespLen0 (assignC slaveReqLen0 .done))))))

/-- `check_modbus_request`, `src/modbus_slave.c:137-154`. -/
def slavePollP (cfg : Config) : SProg :=
  .step free (fun s => .ok (s.st, s, [])) fun st =>
    match st with
    | .idle => slaveIdleP
    | .msgReceived => slaveMsgReceivedP cfg
    | .transmitting => slaveTransmittingP
    | .unknown => slaveDefaultP

/-! ### Master -/

/-- The interrupts of the master: the callbacks of `src/modbus_master.c:571-619`, reception of a byte by the driver and the tick
`:385-391`. -/
inductive MEv where
  | t15 | t35 | frameErr | txDone | rxByte (b : U8) | tick
  deriving DecidableEq, Repr

/-- The corresponding operation of the base model. Modelling infrastructure, no C counterpart. -/
def MEv.op : MEv → MOp
  | .t15 => .t15
  | .t35 => .t35
  | .frameErr => .frameErr
  | .txDone => .txDone
  | .rxByte b => .rxByte b
  | .tick => .tick

/-- Effect of an interrupt. Modelling infrastructure, no C counterpart (the handlers are those of the base model, `src/modbus_master.c:571-621`). -/
def masterInt (cfg : Config) (s : Master) (e : MEv) : C Master := do
  let (s, _) ← masterStep cfg s e.op
  return s

/-- Modelling infrastructure, no C counterpart. -/
abbrev MProg := Prog Master MOut MEv

/-- `RTU_driver->send(msg_buf->req.data, msg_buf->req.len)`, `src/modbus_master.c:404`. -/
def masterDrvSend (s : Master) : C (List MOut) :=
  if s.drv = false then .error .nullDeref
  else match s.msgBuf with
  | none => .error .nullDeref
  | some i =>
    if s.dataSet = false then .error .nullDeref
    else .ok [.send ((s.msgs i).req.bytes 0 (s.msgs i).reqLen.toNat)]

/-- `RTU_driver->enable_rcev(&msg_buf->resp)`, `src/modbus_master.c:405`. -/
def masterEnableRx (s : Master) : C Master :=
  if s.drv = false then .error .nullDeref
  else match s.msgBuf with
  | none => .error .nullDeref
  | some i => .ok { s with rxTarget := some i }

/-- A received byte. Modelling infrastructure, no C counterpart. -/
def MEv.isRx : MEv → Bool
  | .rxByte _ => true
  | _ => false

/-- `modbus_master_send_req_from_msg_buf`, `src/modbus_master.c:402-408`. -/
def masterSendP : MProg :=
  .step free (fun s => do let o ← masterDrvSend s; return ((), s, o)) fun _ =>
    assignC masterEnableRx
      (assign (fun s => { s with txf := .set })
        (assign (fun s => { s with st := .transmitting }) .done))

/-- `modbus_master_idle_state_handling`, `src/modbus_master.c:647-654`. -/
def masterIdleP (cfg : Config) : MProg :=
  test (fun s => s.txQ.available)
    (assignC (fun s => do let (x, tq) ← s.txQ.pop cfg.queueItems; return { s with msgBuf := x, txQ := tq }) masterSendP)
    .done

/-- `modbus_master_transmitting_state_handling`, `src/modbus_master.c:667-675`. -/
def masterTransmittingP (cfg : Config) : MProg :=
  test (fun s => s.txf = .cleared)
    (assignC clearRespLen
      (assign (fun s => { s with timer := cfg.respTimeout })
        (assign (fun s => { s with st := .waiting }) .done)))
    .done

/-- `modbus_master_msg_process_end`, `src/modbus_master.c:898-903`. -/
def masterProcessEndP (cfg : Config) : MProg :=
  assign (fun s => { s with repeatCnt := 0 })
    (assignC (fun s => do let (fq, mb) ← s.freeQ.push cfg.queueItems s.msgBuf; return { s with freeQ := fq, msgBuf := mb })
      (assign (fun s => { s with st := .idle }) .done))

/-- `modbus_master_resp_timeout_handle` followed by `modbus_master_msg_process_end`, `src/modbus_master.c:695-696`, `:715-724`: four
reads into a local report, then the callback. -/
def masterTimeoutP (cfg : Config) : MProg :=
  .step free (fun s => do let m ← curMsg s; let x ← rd m.req idxSlaveAdr; return (x, s, [])) fun slave =>
    .step free (fun s => do let m ← curMsg s; let x ← readU16 m.req idxRequestAdr; return (x, s, [])) fun adr =>
      .step free (fun s => do let m ← curMsg s; let x ← readU16 m.req idxRequestQty; return (x, s, [])) fun qty =>
        .step free (fun s => do let m ← curMsg s; let x ← rd m.resp idxFunctionCode; return (x, s, [])) fun fc =>
          .step free (fun s => .ok ((), s,
              [.event (.timeoutErr { slave := slave, fc := fc, adr := adr, qty := qty, err := .timeout })])) fun _ =>
            masterProcessEndP cfg

/-- `modbus_master_RTU_recv_state_handle`, `src/modbus_master.c:743-765`. A byte received between the address check and the
reset of the length (`:749-757`) is marked as a race. -/
def masterRecvP : MProg :=
  .step free (fun s => do let m ← curMsg s; let x ← rd m.req idxSlaveAdr; return (x, s, [])) fun id =>
    assign (fun s => { s with t15 := .cleared })
      (assign (fun s => { s with t35 := .cleared })
        (.step free (fun s => do let m ← curMsg s; let r ← rtuRecv (some m.resp) m.respLen id; return (r, s, [])) fun r =>
          if RET_ERROR_CRC = r then
            assign (fun s => { s with timer := 0 })
              (assign (fun s => { s with crcf := .set })
                (assign (fun s => { s with st := .received }) .done))
          else if RET_ERROR_SLAVE_ID = r then
            .step (fun _ e => e.isRx) (fun s => do let s ← clearRespLen s; return ((), s, [])) fun _ => .done
          else
            assign (fun s => { s with timer := 0 })
              (assign (fun s => { s with st := .received }) .done)))

/-- `modbus_master_resp_waiting_state_handling`, `src/modbus_master.c:688-699`. -/
def masterWaitingP (cfg : Config) : MProg :=
  test (fun s => s.t15 = .set) masterRecvP
    (test (fun s => s.timer = 1) (masterTimeoutP cfg) .done)

/-- `modbus_master_msg_recived_correctly_state_handle`, `src/modbus_master.c:811-815`. -/
def masterCorrectP (cfg : Config) : MProg :=
  .step free
    (fun s => do
      let ev ← (match s.msgBuf with
        | none => .ok []
        | some i => do
          let (_, ev) ← readSlaveResp s.dataSet (s.msgs i)
          return ev : C (List MEvent))
      return ((), s, ev.map .event)) fun _ =>
    masterProcessEndP cfg

/-- The report and end of transaction at `src/modbus_master.c:842-848` and `:877-883`. A byte received between the two reads of the
response buffer is marked as a race. -/
def masterCommP (cfg : Config) (e : RespErr) : MProg :=
  .step free (fun s => do let m ← curMsg s; let x ← rd m.resp idxSlaveAdr; return (x, s, [])) fun slave =>
    .step (fun _ e => e.isRx) (fun s => do let m ← curMsg s; let x ← rd m.resp idxFunctionCode; return (x, s, [])) fun fc =>
      .step free (fun s => .ok ((), s,
          [.event (.commErr { slave := slave, fc := fc &&& ~~~exceptionCodeMask, adr := 0, qty := 0, err := e })])) fun _ =>
        masterProcessEndP cfg

/-- `modbus_master_RTU_CRC_error_state_handling`, `src/modbus_master.c:831-850`. -/
def masterCrcErrorP (cfg : Config) : MProg :=
  assign (fun s => { s with repeatCnt := s.repeatCnt + 1 })
    (test (fun s => s.repeatCnt.toNat ≤ cfg.repeatMax)
      (assign (fun s => { s with st := .repeatRequest })
        (assign (fun s => { s with crcf := .cleared })
          (assignC clearRespLen .done)))
      (masterCommP cfg .crc))

/-- `modbus_master_frame_error_state_handling`, `src/modbus_master.c:866-885`. -/
def masterFrameErrorP (cfg : Config) : MProg :=
  assign (fun s => { s with repeatCnt := s.repeatCnt + 1 })
    (test (fun s => s.repeatCnt.toNat ≤ cfg.repeatMax)
      (assign (fun s => { s with st := .repeatRequest })
        (assign (fun s => { s with ferr := .cleared })
          (assignC clearRespLen .done)))
      (masterCommP cfg .frame))

/-- Third condition of `modbus_master_resp_recived_state_handling`, `src/modbus_master.c:792-795`. -/
def masterReceived3P (cfg : Config) : MProg :=
  test (fun s => s.ferr = .cleared)
    (test (fun s => s.crcf = .cleared) (test (fun s => s.t35 = .set) (masterCorrectP cfg) .done) .done) .done

/-- `modbus_master_resp_recived_state_handling`, `src/modbus_master.c:782-800`. With a frame error and a CRC error pending, a 3.5 character callback
between the first test of the 3.5 character flag (`:784`) and the second (`:788`) is marked as a race. -/
def masterReceivedP (cfg : Config) : MProg :=
  test (fun s => s.ferr = .set)
    (test (fun s => s.t35 = .set) (masterFrameErrorP cfg)
      (.step (fun s e => s.crcf = .set ∧ e = .t35) (fun s => .ok (decide (s.crcf = .set), s, [])) fun b =>
        if b then
          .step (fun _ e => e = .t35) (fun s => .ok (decide (s.t35 = .set), s, [])) fun b =>
            if b then masterCrcErrorP cfg else masterReceived3P cfg
        else masterReceived3P cfg))
    (test (fun s => s.crcf = .set)
      (test (fun s => s.t35 = .set) (masterCrcErrorP cfg) (masterReceived3P cfg))
      (masterReceived3P cfg))

/-- `update_modbus_master_manager`, `src/modbus_master.c:351-374`. -/
def masterPollP (cfg : Config) : MProg :=
  .step free (fun s => .ok (s.st, s, [])) fun st =>
    match st with
    | .idle => masterIdleP cfg
    | .repeatRequest => masterSendP
    | .transmitting => masterTransmittingP cfg
    | .waiting => masterWaitingP cfg
    | .received => masterReceivedP cfg

/-! ### Histories -/

/-- What can happen to the slave: an operation of the base model, or a poll that is interrupted. Modelling infrastructure, no C counterpart. -/
inductive SPOp where
  | op (o : SOp)
  | pollWith (ints : List (List SEv))
  deriving DecidableEq

/-- One of them. Modelling infrastructure, no C counterpart. -/
def slavePStep (cfg : Config) (s : Slave) : SPOp → C (Slave × List SOut)
  | .op o => slaveStep cfg s o
  | .pollWith ints => runProg (slaveInt cfg) (slavePollP cfg) ints s

/-- An execution with interrupted polls. Modelling infrastructure, no C counterpart. -/
def slavePRun (cfg : Config) : Slave → List SPOp → C (Slave × List SOut)
  | s, [] => .ok (s, [])
  | s, op :: ops => do
    let (s', o) ← slavePStep cfg s op
    let (s'', os) ← slavePRun cfg s' ops
    return (s'', o ++ os)

/-- What can happen to the master: an operation of the base model, or a poll that is interrupted. Modelling infrastructure, no C counterpart. -/
inductive MPOp where
  | op (o : MOp)
  | pollWith (ints : List (List MEv))
  deriving DecidableEq

/-- One of them. Modelling infrastructure, no C counterpart. -/
def masterPStep (cfg : Config) (s : Master) : MPOp → C (Master × List MOut)
  | .op o => masterStep cfg s o
  | .pollWith ints => runProg (masterInt cfg) (masterPollP cfg) ints s

/-- An execution with interrupted polls. Modelling infrastructure, no C counterpart. -/
def masterPRun (cfg : Config) : Master → List MPOp → C (Master × List (MPOp × List MOut))
  | s, [] => .ok (s, [])
  | s, op :: ops => do
    let (s', o) ← masterPStep cfg s op
    let (s'', tr) ← masterPRun cfg s' ops
    return (s'', (op, o) :: tr)

end Modbus
