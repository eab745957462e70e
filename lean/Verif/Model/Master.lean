import Verif.Model.MasterPdu
import Verif.Model.Queue
import Verif.Model.Rtu

/-! Model of `src/modbus_master.c`: the master state machine, its request interface, timer and driver callbacks.

An execution is a list of operations `MOp`. Simplification (base model): a callback never interrupts an API call or
`update_modbus_master_manager` half way; see `Model/Preempt.lean` for interrupted polls. -/

namespace Modbus

/-- `modbus_master_state_t`, `src/common/modbus_type.h:129-136`. -/
inductive MasterSt where
  | idle | repeatRequest | transmitting | waiting | received
  deriving DecidableEq, Repr

/-- `modbus_master_req_ret_t`, `src/modbus_public_type.h:60-66`. -/
inductive ReqRet where
  | sendToQueue | freeQueueEmpty | pduError | rtuSendError
  deriving DecidableEq, Repr

/-- The statics of `src/modbus_master.c:47-65`. Messages are identified by their index in `modbus_msg[]`. -/
structure Master where
  /-- `modbus_master_manager_state_machine` -/
  st : MasterSt
  /-- `RTU_driver != NULL`; the callbacks are subscribed at the same time (`modbus_master.c:318-325`) -/
  drv : Bool
  /-- `master_free_queue` -/
  freeQ : Queue Nat
  /-- `master_tx_rx_queue` -/
  txQ : Queue Nat
  /-- `modbus_msg[]` and the buffers -/
  msgs : Nat → MMsg
  /-- the `data` pointers are non NULL (they are set or cleared all together, `modbus_master.c:422-441`) -/
  dataSet : Bool
  /-- `msg_buf` -/
  msgBuf : Option Nat
  /-- `modbus_master_resp_timeout_timer` (`uint32_t`; it is only ever set to the configured timeout or to 0 and
  decremented when non zero, so a natural number), set by `modbus_master_enable_resp_timeout_timer` (`modbus_master.c:543-546`) and
  `modbus_master_disable_resp_timeout_timer` (`modbus_master.c:555-558`), which are written out where they are called -/
  timer : Nat
  /-- `modbus_master_msg_repeat_couter` -/
  repeatCnt : U8
  /-- `MODBUS_MASTER_TIMER_1_5_CHAR_FLAG` -/
  t15 : Flag
  /-- `MODBUS_MASTER_TIMER_3_5_CHAR_FLAG` -/
  t35 : Flag
  /-- `MODBUS_MASTER_FRAME_ERROR_FLAG` -/
  ferr : Flag
  /-- `MODBUS_MASTER_REQ_TRANSMITION_FLAG` -/
  txf : Flag
  /-- `MODBUS_MASTER_RTU_CRC_ERROR_FLAG` -/
  crcf : Flag
  /-- the driver's receive target (`enable_rcev(&msg->resp)`), e.g. `rx_msg` of the example driver -/
  rxTarget : Option Nat

/-- A zero initialised message. Static storage, `src/modbus_master.c:56`. -/
def MMsg.zero : MMsg := { req := Buf.zero, reqLen := 0, resp := Buf.zero, respLen := 0 }

/-- Power-on state, `src/modbus_master.c:47-65`. -/
def Master.powerOn : Master :=
  { st := .idle, drv := false, freeQ := Queue.zero, txQ := Queue.zero, msgs := fun _ => MMsg.zero, dataSet := false,
    msgBuf := none, timer := 0, repeatCnt := 0,
    t15 := .unknown, t35 := .unknown, ferr := .unknown, txf := .unknown, crcf := .unknown, rxTarget := none }

/-- The request interface, `src/modbus_master.c:149-295`. -/
inductive MReq where
  /-- `modbus_master_read_coils(adr, qty, slave)` -/
  | readCoils (adr qty : U16) (slave : U8)
  /-- `modbus_master_read_discrete_inputs(adr, qty, slave)` -/
  | readDiscreteInputs (adr qty : U16) (slave : U8)
  /-- `modbus_master_read_input_reg(adr, qty, slave)` -/
  | readInputReg (adr qty : U16) (slave : U8)
  /-- `modbus_master_read_holding_reg(adr, qty, slave)` -/
  | readHoldingReg (adr qty : U16) (slave : U8)
  /-- `modbus_master_write_single_coil(adr, slave, value)` -/
  | writeSingleCoil (adr : U16) (slave : U8) (v : Bool)
  /-- `modbus_master_write_single_reg(adr, slave, value)` -/
  | writeSingleReg (adr : U16) (slave : U8) (v : U16)
  /-- `modbus_master_write_multiple_reg(adr, qty, slave, ptr)` -/
  | writeMultipleReg (adr qty : U16) (slave : U8) (data : Option (List U16))
  /-- `modbus_master_write_multiple_coils(adr, qty, slave, ptr)` -/
  | writeMultipleCoils (adr qty : U16) (slave : U8) (data : Option (List Bool))
  deriving DecidableEq, Repr

/-- The parameter struct each of the eight functions builds, `src/modbus_master.c:151`, `:171`, `:191`, `:211`, `:231`,
`:251`, `:272`, `:293`. -/
def MReq.param : MReq → ReqParam
  | .readCoils adr qty s => { fc := fcReadCoils, adr := adr, qty := qty, slaveId := s, coil := false, coils := none, reg := 0, regs := none }
  | .readDiscreteInputs adr qty s => { fc := fcReadDiscreteInputs, adr := adr, qty := qty, slaveId := s, coil := false, coils := none, reg := 0, regs := none }
  | .readInputReg adr qty s => { fc := fcReadInputRegisters, adr := adr, qty := qty, slaveId := s, coil := false, coils := none, reg := 0, regs := none }
  | .readHoldingReg adr qty s => { fc := fcReadHoldingRegisters, adr := adr, qty := qty, slaveId := s, coil := false, coils := none, reg := 0, regs := none }
  | .writeSingleCoil adr s v => { fc := fcWriteSingleCoil, adr := adr, qty := 0, slaveId := s, coil := v, coils := none, reg := 0, regs := none }
  | .writeSingleReg adr s v => { fc := fcWriteSingleRegister, adr := adr, qty := 0, slaveId := s, coil := false, coils := none, reg := v, regs := none }
  | .writeMultipleReg adr qty s d => { fc := fcWriteMultipleRegisters, adr := adr, qty := qty, slaveId := s, coil := false, coils := none, reg := 0, regs := d }
  | .writeMultipleCoils adr qty s d => { fc := fcWriteMultipleCoils, adr := adr, qty := qty, slaveId := s, coil := false, coils := d, reg := 0, regs := none }

/-- Operations visible at the master's interfaces. Public functions: `src/modbus_master.c:149-393`; driver callbacks: `:571-621`. -/
inductive MOp where
  /-- `modbus_master_init(mode, baud, parity)` -/
  | init (mode : Mode)
  /-- one of the eight request functions -/
  | request (r : MReq)
  /-- `update_modbus_master_manager()` -/
  | poll
  /-- `update_modbus_master_timout_timer()` -/
  | tick
  /-- driver calls the 1.5 char callback -/
  | t15
  /-- driver calls the 3.5 char callback -/
  | t35
  /-- driver calls the frame error callback -/
  | frameErr
  /-- driver calls the transmission complete callback -/
  | txDone
  /-- driver stores a received byte -/
  | rxByte (b : U8)
  deriving DecidableEq, Repr

/-- Observable outputs: return values of request calls, driver `send`, application callbacks.
`src/modbus_master.c:404`, `:484-513`; callbacks: `src/modbus_master_data_interface.h`. -/
inductive MOut where
  | ret (r : ReqRet)
  | send (bytes : List U8)
  | event (e : MEvent)
  deriving DecidableEq, Repr

/-- Replace one message. Modelling infrastructure, no C counterpart. -/
def setMsg (f : Nat → MMsg) (i : Nat) (m : MMsg) : Nat → MMsg := fun j => if j = i then m else f j

/-- The push loop of `push_all_available_msg_buffer_to_free_queue`, `src/modbus_master.c:456-460`. -/
def pushAllLoop (N : Nat) : (n i : Nat) → Queue Nat → C (Queue Nat)
  | 0, _, q => .ok q
  | n + 1, i, q => do
    let (q, _) ← q.push N (some i)
    pushAllLoop N n (i + 1) q

/-- `modbus_master_init`, `src/modbus_master.c:311-336` with `register_msg_req_resp_data_buffers` (`:422-441`) and
`push_all_available_msg_buffer_to_free_queue` (`:453-461`). Their loop counters are `uint8_t`, so more than 255 messages
make them loop for ever. `msg_buf` and the messages' lengths are not reset. The driver's own `init` (hardware) is not
modelled. -/
def masterInit (cfg : Config) (s : Master) (mode : Mode) : C Master :=
  if 256 ≤ cfg.queueItems then .error .diverge
  else do
    let fq ← pushAllLoop cfg.queueItems cfg.queueItems 0 s.freeQ.init
    return { s with
      dataSet := decide (mode = .rtu), freeQ := fq, txQ := s.txQ.init, drv := true,
      txf := .cleared, t15 := .cleared, t35 := .cleared, ferr := .cleared, crcf := .cleared,
      st := .idle, repeatCnt := 0, timer := 0 }

/-- `master_functions_mapper`, `src/modbus_master.c:122-131`. -/
def reqMapper : List (U8 × (Bool → MMsg → ReqParam → C (Ret × MMsg))) :=
  [(fcReadCoils, readCoilsReq), (fcReadDiscreteInputs, readDiscreteInputsReq),
   (fcReadHoldingRegisters, readHoldingRegReq), (fcReadInputRegisters, readInputRegReq),
   (fcWriteSingleCoil, writeSingleCoilReq), (fcWriteSingleRegister, writeSingleRegReq),
   (fcWriteMultipleCoils, writeMultipleCoilsReq), (fcWriteMultipleRegisters, writeMultipleRegReq)]

/-- The loop of `generate_request_PDU_data`, `src/modbus_master.c:526-532` (does not stop at the first match). -/
def reqMapperLoop (dataSet : Bool) (p : ReqParam) :
    List (U8 × (Bool → MMsg → ReqParam → C (Ret × MMsg))) → Ret × MMsg → C (Ret × MMsg)
  | [], x => .ok x
  | (c, act) :: rest, x =>
    if c = p.fc then do
      let x ← act dataSet x.2 p
      reqMapperLoop dataSet p rest x
    else reqMapperLoop dataSet p rest x

/-- `generate_request_PDU_data`, `src/modbus_master.c:522-534`. -/
def generatePdu (dataSet : Bool) (m : MMsg) (p : ReqParam) : C (Ret × MMsg) :=
  reqMapperLoop dataSet p reqMapper (RET_ERROR_UNKNOWN_MAPPER_FUN_CODE, m)

/-- `generate_request`, `src/modbus_master.c:484-505`. The message popped from the free queue is dropped on the two error
paths. -/
def generateRequest (cfg : Config) (s : Master) (p : ReqParam) : C (ReqRet × Master) := do
  let (x, fq) ← s.freeQ.pop cfg.queueItems
  match x with
  | none => return (.freeQueueEmpty, { s with freeQ := fq })
  | some i =>
    let (r, m) ← generatePdu s.dataSet (s.msgs i) p
    if r < 0 then return (.pduError, { s with freeQ := fq, msgs := setMsg s.msgs i m })
    else
      let (r, b, l) ← rtuSend (if s.dataSet then some m.req else none) m.reqLen p.slaveId
      let m := { m with req := b.getD m.req, reqLen := l }
      if RET_ERROR = r then return (.rtuSendError, { s with freeQ := fq, msgs := setMsg s.msgs i m })
      else
        let (tq, _) ← s.txQ.push cfg.queueItems (some i)
        return (.sendToQueue, { s with freeQ := fq, txQ := tq, msgs := setMsg s.msgs i m })

/-- `modbus_master_send_req_from_msg_buf`, `src/modbus_master.c:402-408`. Dereferencing a NULL driver or message is UB; the
driver is given `len` bytes from `req.data`. -/
def masterSend (s : Master) : C (Master × List MOut) :=
  if s.drv = false then .error .nullDeref
  else match s.msgBuf with
  | none => .error .nullDeref
  | some i =>
    if s.dataSet = false then .error .nullDeref
    else .ok ({ s with rxTarget := some i, txf := .set, st := .transmitting },
              [.send ((s.msgs i).req.bytes 0 (s.msgs i).reqLen.toNat)])

/-- `modbus_master_idle_state_handling`, `src/modbus_master.c:647-654`. -/
def masterIdle (cfg : Config) (s : Master) : C (Master × List MOut) :=
  if s.txQ.available then do
    let (x, tq) ← s.txQ.pop cfg.queueItems
    masterSend { s with msgBuf := x, txQ := tq }
  else .ok (s, [])

/-- `msg_buf->resp.len = 0`. `src/modbus_master.c:671`, `:758`, `:838`, `:873`. -/
def clearRespLen (s : Master) : C Master :=
  match s.msgBuf with
  | none => .error .nullDeref
  | some i => .ok { s with msgs := setMsg s.msgs i { s.msgs i with respLen := 0 } }

/-- `modbus_master_transmitting_state_handling`, `src/modbus_master.c:667-675`. -/
def masterTransmitting (cfg : Config) (s : Master) : C (Master × List MOut) :=
  if s.txf = .cleared then do
    let s ← clearRespLen s
    return ({ s with timer := cfg.respTimeout, st := .waiting }, [])
  else .ok (s, [])

/-- `modbus_master_msg_process_end`, `src/modbus_master.c:898-903`. -/
def masterProcessEnd (cfg : Config) (s : Master) : C Master := do
  let (fq, mb) ← s.freeQ.push cfg.queueItems s.msgBuf
  return { s with repeatCnt := 0, freeQ := fq, msgBuf := mb, st := .idle }

/-- `msg_buf` dereferenced: the current message, UB if `msg_buf` or its `data` pointers are NULL (every use below accesses
the data). `src/modbus_master.c:404-405`, `:718-721`, `:746-749` and others. -/
def curMsg (s : Master) : C MMsg :=
  match s.msgBuf with
  | none => .error .nullDeref
  | some i => if s.dataSet then .ok (s.msgs i) else .error .nullDeref

/-- `modbus_master_resp_timeout_handle`, `src/modbus_master.c:715-724`. -/
def masterTimeoutReport (s : Master) : C MEvent := do
  let m ← curMsg s
  let slave ← rd m.req idxSlaveAdr
  let adr ← readU16 m.req idxRequestAdr
  let qty ← readU16 m.req idxRequestQty
  let fc ← rd m.resp idxFunctionCode
  return .timeoutErr { slave := slave, fc := fc, adr := adr, qty := qty, err := .timeout }

/-- `modbus_master_RTU_recv_state_handle`, `src/modbus_master.c:743-765`. -/
def masterRecv (s : Master) : C (Master × List MOut) := do
  let m ← curMsg s
  let id ← rd m.req idxSlaveAdr
  let s := { s with t15 := .cleared, t35 := .cleared }
  let r ← rtuRecv (some m.resp) m.respLen id
  if RET_ERROR_CRC = r then return ({ s with timer := 0, crcf := .set, st := .received }, [])
  else if RET_ERROR_SLAVE_ID = r then
    let s ← clearRespLen s
    return (s, [])
  else return ({ s with timer := 0, st := .received }, [])

/-- `modbus_master_resp_waiting_state_handling`, `src/modbus_master.c:688-699`. -/
def masterWaiting (cfg : Config) (s : Master) : C (Master × List MOut) :=
  if s.t15 = .set then masterRecv s
  else if s.timer = 1 then do
    let e ← masterTimeoutReport s
    let s ← masterProcessEnd cfg s
    return (s, [.event e])
  else .ok (s, [])

/-- `modbus_master_msg_recived_correctly_state_handle`, `src/modbus_master.c:811-815` (status ignored). `msg_buf` is
non NULL here; were it NULL, `modbus_master_read_slave_resp` would do nothing. -/
def masterCorrect (cfg : Config) (s : Master) : C (Master × List MOut) := do
  let ev ← (match s.msgBuf with
    | none => .ok []
    | some i => do
      let (_, ev) ← readSlaveResp s.dataSet (s.msgs i)
      return ev : C (List MEvent))
  let s ← masterProcessEnd cfg s
  return (s, ev.map .event)

/-- The report built at `src/modbus_master.c:843-846` and `:878-881`; the struct is `static`, its address and quantity are
never written and so remain 0. -/
def masterCommReport (s : Master) (e : RespErr) : C MEvent := do
  let m ← curMsg s
  let slave ← rd m.resp idxSlaveAdr
  let fc ← rd m.resp idxFunctionCode
  return .commErr { slave := slave, fc := fc &&& ~~~exceptionCodeMask, adr := 0, qty := 0, err := e }

/-- `modbus_master_RTU_CRC_error_state_handling`, `src/modbus_master.c:831-850`. The counter is a `uint8_t`. -/
def masterCrcError (cfg : Config) (s : Master) : C (Master × List MOut) := do
  let s := { s with repeatCnt := s.repeatCnt + 1 }
  if s.repeatCnt.toNat ≤ cfg.repeatMax then
    let s ← clearRespLen s
    return ({ s with st := .repeatRequest, crcf := .cleared }, [])
  else
    let e ← masterCommReport s .crc
    let s ← masterProcessEnd cfg s
    return (s, [.event e])

/-- `modbus_master_frame_error_state_handling`, `src/modbus_master.c:866-885`. -/
def masterFrameError (cfg : Config) (s : Master) : C (Master × List MOut) := do
  let s := { s with repeatCnt := s.repeatCnt + 1 }
  if s.repeatCnt.toNat ≤ cfg.repeatMax then
    let s ← clearRespLen s
    return ({ s with st := .repeatRequest, ferr := .cleared }, [])
  else
    let e ← masterCommReport s .frame
    let s ← masterProcessEnd cfg s
    return (s, [.event e])

/-- `modbus_master_resp_recived_state_handling`, `src/modbus_master.c:782-800`. -/
def masterReceived (cfg : Config) (s : Master) : C (Master × List MOut) :=
  if s.ferr = .set ∧ s.t35 = .set then masterFrameError cfg s
  else if s.crcf = .set ∧ s.t35 = .set then masterCrcError cfg s
  else if s.ferr = .cleared ∧ s.crcf = .cleared ∧ s.t35 = .set then masterCorrect cfg s
  else .ok (s, [])

/-- `update_modbus_master_manager`, `src/modbus_master.c:351-374`. -/
def masterPoll (cfg : Config) (s : Master) : C (Master × List MOut) :=
  match s.st with
  | .idle => masterIdle cfg s
  | .repeatRequest => masterSend s
  | .transmitting => masterTransmitting cfg s
  | .waiting => masterWaiting cfg s
  | .received => masterReceived cfg s

/-- Reception of a byte by the driver into the buffer last given to `enable_rcev`
(`examples/STM32G070RB_MODBUS_MASTER/Drivers/STM32G0_Drivers/modbus_driver_interface.c:123-126`: `data[len] = b; len++`
with `len` a `uint8_t`). Before the first `enable_rcev` reception is disabled. -/
def masterRx (s : Master) (b : U8) : C Master :=
  match s.rxTarget with
  | none => .ok s
  | some i =>
    if s.dataSet then do
      let m := s.msgs i
      let r ← wr m.resp m.respLen.toNat b
      return { s with msgs := setMsg s.msgs i { m with resp := r, respLen := m.respLen + 1 } }
    else .error .nullDeref

/-- One operation. The callbacks are those of `src/modbus_master.c:571-619`; they exist for the driver only after it has
been subscribed. `tick` is `src/modbus_master.c:385-391`. -/
def masterStep (cfg : Config) (s : Master) : MOp → C (Master × List MOut)
  | .init mode => do
    let s ← masterInit cfg s mode
    return (s, [])
  | .request r => do
    let (c, s) ← generateRequest cfg s r.param
    return (s, [.ret c])
  | .poll => masterPoll cfg s
  | .tick => .ok (if s.timer ≠ 0 then { s with timer := s.timer - 1 } else s, [])
  | .t15 => .ok (if s.drv then { s with t15 := .set } else s, [])
  | .t35 => .ok (if s.drv then { s with t35 := .set } else s, [])
  | .frameErr => .ok (if s.drv then { s with ferr := .set } else s, [])
  | .txDone => .ok (if s.drv then { s with txf := .cleared } else s, [])
  | .rxByte b => do
    let s ← masterRx s b
    return (s, [])

/-- What an observer sees: each operation with the outputs it caused, in order. Modelling infrastructure, no C counterpart. -/
abbrev MTrace := List (MOp × List MOut)

/-- An execution: the operations one after the other. Modelling infrastructure, no C counterpart. -/
def masterRun (cfg : Config) : Master → List MOp → C (Master × MTrace)
  | s, [] => .ok (s, [])
  | s, op :: ops => do
    let (s', o) ← masterStep cfg s op
    let (s'', tr) ← masterRun cfg s' ops
    return (s'', (op, o) :: tr)

end Modbus
