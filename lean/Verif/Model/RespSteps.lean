import Verif.Model.ParseSteps

/-! The master's poll with interrupts between any two reads of the response buffer.

`Model/Preempt.lean` executes `modbus_RTU_recv` and `modbus_master_read_slave_resp` as one step each. Both work on the response half of the current
message, into which the driver's interrupt handler stores received bytes; the second calls the application once for every value. Here each read of a
byte of that buffer and each callback is a step of its own, and interrupts may occur before every one of them.

The request half of the message is not touched by interrupts; reading it is not a step of its own. Simplifications: `read_u16_from_buf` reads the high byte
first (C leaves the order of the two operands open); the compiler performs every access where it is written (the buffer is not declared `volatile`). -/

namespace Modbus

/-- Code that reads bytes of the response buffer, one at a time, calls the application, and may be undefined. Modelling infrastructure, no C counterpart. -/
inductive RespM (α : Type) : Type where
  | ret (a : α)
  | err (u : UB)
  | rd (i : Nat) (k : U8 → RespM α)
  | emit (e : MEvent) (k : RespM α)

/-- Sequential composition. Modelling infrastructure, no C counterpart. -/
def RespM.bind {α β : Type} : RespM α → (α → RespM β) → RespM β
  | .ret a, f => f a
  | .err u, _ => .err u
  | .rd i k, f => .rd i fun b => (k b).bind f
  | .emit e k, f => .emit e (k.bind f)

instance : Monad RespM where
  pure := .ret
  bind := RespM.bind

/-- Code that neither reads the response buffer nor calls the application. Modelling infrastructure, no C counterpart. -/
def RespM.lift {α : Type} : C α → RespM α
  | .ok a => .ret a
  | .error u => .err u

/-- Read of one byte of the 256 byte response buffer. Modelling infrastructure, no C counterpart. -/
def rdResp (i : Nat) : RespM U8 := if i < rtuBufferSize then .rd i .ret else .err .oobRead

/-- `read_u16_from_buf(&resp[i])`, `src/common/buf_rw.c:41-44`. -/
def readRespU16 (i : Nat) : RespM U16 := do
  let hi ← rdResp i
  let lo ← rdResp (i + 1)
  return u16of hi lo

/-- Callbacks one after the other. Modelling infrastructure, no C counterpart. -/
def callApp : List MEvent → RespM Unit
  | [] => .ret ()
  | e :: l => .emit e (callApp l)

/-- The bit delivering loops, `src/master_internall/modbus_master_PDU.c:591-604` (coils) and `:619-632` (discrete inputs): `n` more
iterations from `i`. -/
def deliverBitsR (ev : U16 → Bool → MEvent) (adr : U16) : (n i : Nat) → RespM Unit
  | 0, _ => .ret ()
  | n + 1, i => do
    let x ← rdResp (idxRespReadData + i / 8)
    if x &&& BitVec.ofNat 8 (2 ^ (i % 8)) ≠ 0 then callApp [ev (adr + BitVec.ofNat 16 i) true]
    else callApp [ev (adr + BitVec.ofNat 16 i) false]
    deliverBitsR ev adr n (i + 1)

/-- The register delivering loops, `src/master_internall/modbus_master_PDU.c:646-653` (input registers) and `:667-674` (holding registers). -/
def deliverRegsR (ev : U16 → U16 → MEvent) (adr : U16) : (n i : Nat) → RespM Unit
  | 0, _ => .ret ()
  | n + 1, i => do
    let v ← readRespU16 (idxRespReadData + i * 2)
    callApp [ev (adr + BitVec.ofNat 16 i) v]
    deliverRegsR ev adr n (i + 1)

/-- `update_master_data_from_modbus_msg`, `src/master_internall/modbus_master_PDU.c:549-577`. -/
def updateMasterDataR (m : MMsg) : RespM Ret := do
  let slave ← rdResp idxSlaveAdr
  let fc ← rdResp idxFunctionCode
  let adr ← RespM.lift (readU16 m.req idxRequestAdr)
  let qty ← RespM.lift (readU16 m.req idxRequestQty)
  if fc = fcReadCoils then
    deliverBitsR (.coilRead slave) adr qty.toNat 0
    return RET_OK
  else if fc = fcReadDiscreteInputs then
    deliverBitsR (.disinRead slave) adr qty.toNat 0
    return RET_OK
  else if fc = fcReadInputRegisters then
    deliverRegsR (.inregRead slave) adr qty.toNat 0
    return RET_OK
  else if fc = fcReadHoldingRegisters then
    deliverRegsR (.hregRead slave) adr qty.toNat 0
    return RET_OK
  else return RET_ERROR

/-- `report_write_operation_confirmation`, `src/master_internall/modbus_master_PDU.c:688-712`. -/
def reportWriteConfirmationR (m : MMsg) : RespM Ret := do
  let slave ← rdResp idxSlaveAdr
  let adr ← RespM.lift (readU16 m.req idxRequestAdr)
  let fc ← rdResp idxFunctionCode
  if fc = fcWriteSingleCoil then
    callApp [.coilWrite slave adr 1]
    return RET_OK
  else if fc = fcWriteSingleRegister then
    callApp [.hregWrite slave adr 1]
    return RET_OK
  else if fc = fcWriteMultipleCoils then
    let qty ← RespM.lift (readU16 m.req idxRequestQty)
    callApp [.coilWrite slave adr qty]
    return RET_OK
  else
    let qty ← RespM.lift (readU16 m.req idxRequestQty)
    callApp [.hregWrite slave adr qty]
    return RET_OK

/-- `process_modbus_exception_code`, `src/master_internall/modbus_master_PDU.c:773-784`. -/
def processExceptionR (m : MMsg) : RespM Ret := do
  let slave ← rdResp idxSlaveAdr
  let fc ← rdResp idxFunctionCode
  let code ← rdResp idxRespExceptionCode
  let adr ← RespM.lift (readU16 m.req idxRequestAdr)
  let qty ← RespM.lift (readU16 m.req idxRequestQty)
  callApp (sendExceptionReport { slave := slave, fc := fc &&& ~~~exceptionCodeMask, code := code, adr := adr, qty := qty }).2
  return RET_OK

/-- `modbus_master_function_mapper`, `src/master_internall/modbus_master_PDU.c:62-71`, with the one line handlers `:368-475`. -/
def respMapperR : List (U8 × (MMsg → RespM Ret)) :=
  [(fcReadCoils, updateMasterDataR), (fcReadDiscreteInputs, updateMasterDataR),
   (fcReadHoldingRegisters, updateMasterDataR), (fcReadInputRegisters, updateMasterDataR),
   (fcWriteSingleCoil, reportWriteConfirmationR), (fcWriteSingleRegister, reportWriteConfirmationR),
   (fcWriteMultipleCoils, reportWriteConfirmationR), (fcWriteMultipleRegisters, reportWriteConfirmationR)]

/-- The loop of `process_modbus_response`, `src/master_internall/modbus_master_PDU.c:843-851`. -/
def respMapperLoopR (m : MMsg) (fc : U8) : List (U8 × (MMsg → RespM Ret)) → RespM Ret
  | [] => .ret RET_ERROR
  | (c, act) :: rest => if c = fc then act m else respMapperLoopR m fc rest

/-- `process_modbus_response`, `src/master_internall/modbus_master_PDU.c:838-852`. -/
def processResponseR (m : MMsg) : RespM Ret := do
  let fc ← RespM.lift (rd m.req idxFunctionCode)
  respMapperLoopR m fc respMapperR

/-- `modbus_master_read_slave_resp` after its NULL checks, `src/master_internall/modbus_master_PDU.c:348-354`. Of the argument only the request is used: every
read of the response goes to the buffer itself. -/
def readSlaveRespR (m : MMsg) : RespM Ret := do
  let fc ← rdResp idxFunctionCode
  if fc &&& exceptionCodeMask = exceptionCodeMask then processExceptionR m else processResponseR m

/-! ### The poll -/

/-- As a piece of a poll working on the response half of message `i`. Modelling infrastructure, no C counterpart. -/
def RespM.toProg {α : Type} (i : Nat) : RespM α → (α → MProg) → MProg
  | .ret a, k => k a
  | .err u, _ => .step (α := Unit) free (fun _ => .error u) fun _ => .done
  | .rd j f, k => .step free (fun s => .ok ((s.msgs i).resp j, s, [])) fun b => (f b).toProg i k
  | .emit e m, k => .step free (fun s => .ok ((), s, [.event e])) fun _ => m.toProg i k

/-- As a piece of a poll of the master, reading the response half of message `i`. Modelling infrastructure, no C counterpart. -/
def ReqM.toMProg {α : Type} (i : Nat) : ReqM α → (α → MProg) → MProg
  | .ret a, k => k a
  | .err u, _ => .step (α := Unit) free (fun _ => .error u) fun _ => .done
  | .rd j f, k => .step free (fun s => .ok ((s.msgs i).resp j, s, [])) fun b => (f b).toMProg i k

/-- What follows the call of `modbus_RTU_recv` in `modbus_master_RTU_recv_state_handle`, `src/modbus_master.c:749-764`. -/
def masterAfterRecvP (r : Ret) : MProg :=
  if RET_ERROR_CRC = r then
    assign (fun s => { s with timer := 0 })
      (assign (fun s => { s with crcf := .set })
        (assign (fun s => { s with st := .received }) .done))
  else if RET_ERROR_SLAVE_ID = r then
    .step (fun _ e => e.isRx) (fun s => do let s ← clearRespLen s; return ((), s, [])) fun _ => .done
  else
    assign (fun s => { s with timer := 0 })
      (assign (fun s => { s with st := .received }) .done)

/-- `modbus_master_RTU_recv_state_handle`, `src/modbus_master.c:743-765`. -/
def masterRecvF : MProg :=
  .step free (fun s => do let m ← curMsg s; let x ← rd m.req idxSlaveAdr; return (x, s, [])) fun id =>
    assign (fun s => { s with t15 := .cleared })
      (assign (fun s => { s with t35 := .cleared })
        (.step free
          (fun s => do
            let m ← curMsg s
            match s.msgBuf with
            | none => .error .nullDeref
            | some i => return ((i, m.respLen), s, []))
          fun x => (rtuRecvR x.2 id).toMProg x.1 masterAfterRecvP))

/-- `modbus_master_resp_waiting_state_handling`, `src/modbus_master.c:688-699`. -/
def masterWaitingF (cfg : Config) : MProg :=
  test (fun s => s.t15 = .set) masterRecvF
    (test (fun s => s.timer = 1) (masterTimeoutP cfg) .done)

/-- `modbus_master_msg_recived_correctly_state_handle`, `src/modbus_master.c:811-815`, with the NULL checks of `modbus_master_read_slave_resp`
(`src/master_internall/modbus_master_PDU.c:343-346`). -/
def masterCorrectF (cfg : Config) : MProg :=
  .step free
    (fun s => .ok (match s.msgBuf with
      | none => none
      | some i => if RET_OK ≠ checkNullPtr s.dataSet then none else some (i, s.msgs i), s, []))
    fun x => match x with
      | none => masterProcessEndP cfg
      | some y => (readSlaveRespR y.2).toProg y.1 fun _ => masterProcessEndP cfg

/-- Third condition of `modbus_master_resp_recived_state_handling`, `src/modbus_master.c:792-795`. -/
def masterReceived3F (cfg : Config) : MProg :=
  test (fun s => s.ferr = .cleared)
    (test (fun s => s.crcf = .cleared) (test (fun s => s.t35 = .set) (masterCorrectF cfg) .done) .done) .done

/-- `modbus_master_resp_recived_state_handling`, `src/modbus_master.c:782-800`; marked as in `masterReceivedP`. -/
def masterReceivedF (cfg : Config) : MProg :=
  test (fun s => s.ferr = .set)
    (test (fun s => s.t35 = .set) (masterFrameErrorP cfg)
      (.step (fun s e => s.crcf = .set ∧ e = .t35) (fun s => .ok (decide (s.crcf = .set), s, [])) fun b =>
        if b then
          .step (fun _ e => e = .t35) (fun s => .ok (decide (s.t35 = .set), s, [])) fun b =>
            if b then masterCrcErrorP cfg else masterReceived3F cfg
        else masterReceived3F cfg))
    (test (fun s => s.crcf = .set)
      (test (fun s => s.t35 = .set) (masterCrcErrorP cfg) (masterReceived3F cfg))
      (masterReceived3F cfg))

/-- `update_modbus_master_manager`, `src/modbus_master.c:351-374`. -/
def masterPollF (cfg : Config) : MProg :=
  .step free (fun s => .ok (s.st, s, [])) fun st =>
    match st with
    | .idle => masterIdleP cfg
    | .repeatRequest => masterSendP
    | .transmitting => masterTransmittingP cfg
    | .waiting => masterWaitingF cfg
    | .received => masterReceivedF cfg

/-- One operation, a poll being interrupted at this granularity. Modelling infrastructure, no C counterpart. -/
def masterFStep (cfg : Config) (s : Master) : MPOp → C (Master × List MOut)
  | .op o => masterStep cfg s o
  | .pollWith ints => runProg (masterInt cfg) (masterPollF cfg) ints s

/-- An execution. Modelling infrastructure, no C counterpart. -/
def masterFRun (cfg : Config) : Master → List MPOp → C (Master × List (MPOp × List MOut))
  | s, [] => .ok (s, [])
  | s, op :: ops => do
    let (s', o) ← masterFStep cfg s op
    let (s'', tr) ← masterFRun cfg s' ops
    return (s'', (op, o) :: tr)

end Modbus
