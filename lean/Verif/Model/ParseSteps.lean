import Verif.Model.Preempt

/-! The slave's poll with interrupts between any two reads of the request buffer.

`Model/Preempt.lean` executes `modbus_RTU_recv` and `parse_master_request_and_prepare_resp` as one step each. Both work on the request
buffer into which the driver's interrupt handler stores received bytes. Here each of their reads of a byte of that buffer is a step of its own, and
interrupts may occur before every one of them.

What the two functions do between two such reads uses only variables no interrupt handler touches (the response buffer and its length, the data
tables, the application's variables, locals), so it is done together with the read before it; the new response and the new values
of the application's variables become visible at the end of the call. Simplifications: `read_u16_from_buf` reads the high byte first (C leaves the order of
the two operands open); the compiler performs every access where it is written (the buffer is not declared `volatile`). -/

namespace Modbus

/-- Code that reads bytes of the request buffer, one at a time, and may be undefined. Modelling infrastructure, no C counterpart. -/
inductive ReqM (α : Type) : Type where
  | ret (a : α)
  | err (u : UB)
  | rd (i : Nat) (k : U8 → ReqM α)

/-- Sequential composition. Modelling infrastructure, no C counterpart. -/
def ReqM.bind {α β : Type} : ReqM α → (α → ReqM β) → ReqM β
  | .ret a, f => f a
  | .err u, _ => .err u
  | .rd i k, f => .rd i fun b => (k b).bind f

instance : Monad ReqM where
  pure := .ret
  bind := ReqM.bind

/-- Code that does not read the request buffer. Modelling infrastructure, no C counterpart. -/
def ReqM.lift {α : Type} : C α → ReqM α
  | .ok a => .ret a
  | .error u => .err u

/-- Read of one byte of the 256 byte request buffer. Modelling infrastructure, no C counterpart. -/
def rdReq (i : Nat) : ReqM U8 := if i < rtuBufferSize then .rd i .ret else .err .oobRead

/-- `read_u16_from_buf(&req[i])`, `src/common/buf_rw.c:41-44`. -/
def readReqU16 (i : Nat) : ReqM U16 := do
  let hi ← rdReq i
  let lo ← rdReq (i + 1)
  return u16of hi lo

/-- `for (i = i0; i < i0 + n; i++) body`, see `forLoop`. Modelling infrastructure, no C counterpart. -/
def forLoopR {σ ρ : Type} (body : Nat → σ → ReqM (Ctl σ ρ)) : (n i : Nat) → σ → ReqM (Ctl σ ρ)
  | 0, _, s => .ret (.next s)
  | n + 1, i, s => do
    match ← body i s with
    | .next s' => forLoopR body n (i + 1) s'
    | .brk s' => .ret (.brk s')
    | .ret r => .ret (.ret r)

/-! ### `modbus_RTU_recv` -/

/-- The `while (data_buf_len--)` loop of `calculate_CRC`, `src/common/modbus_crc.c:52-57`. -/
def crcLoopR : (n pos : Nat) → U16 → ReqM U16
  | 0, _, crc => .ret crc
  | n + 1, pos, crc => do
    let x ← rdReq pos
    crcLoopR n (pos + 1) (crcByte crc x)

/-- `modbus_RTU_recv`, `src/common/modbus_RTU.c:78-90`; the length is passed by value. -/
def rtuRecvR (len id : U8) : ReqM Ret := do
  let x ← rdReq idxSlaveAdr
  if id ≠ x then return RET_ERROR_SLAVE_ID
  else
    let crc ← crcLoopR len.toNat 0 0xFFFF
    if crc ≠ 0 then return RET_ERROR_CRC else return RET_OK

/-! ### `parse_master_request_and_prepare_resp` -/

/-- `check_read_req_data_correcntess`, `src/slave_internall/modbus_slave_PDU.c:673-693`. -/
def checkReadReqR (s : Pdu) (maxQty appQty : Nat) : ReqM (Ret × Pdu) := do
  let adr ← readReqU16 idxRequestAdr
  let qty ← readReqU16 idxRequestQty
  if qty.toNat = 0 ∨ maxQty < qty.toNat then
    let s ← ReqM.lift (setExceptionCodeResp s excIllegalDataValue)
    return (RET_ERROR, s)
  else if adr.toNat + qty.toNat > appQty % 65536 then
    let s ← ReqM.lift (setExceptionCodeResp s excIllegalDataAddress)
    return (RET_ERROR, s)
  else
    return (RET_OK, s)

/-- `check_write_req_byte_count_correctenss`, `src/slave_internall/modbus_slave_PDU.c:743-757`. -/
def checkWriteReqByteCountR (s : Pdu) : ReqM (Ret × Pdu) := do
  let bc ← rdReq idxRequestByteCnt
  let qty ← readReqU16 idxRequestQty
  if bc = coilDinByteCount qty then return (RET_OK, s)
  else
    let s ← ReqM.lift (setExceptionCodeResp s excIllegalDataValue)
    return (RET_ERROR, s)

/-- `check_write_req_reg_byte_count_correctenss`, `src/slave_internall/modbus_slave_PDU.c:773-786`. -/
def checkWriteReqRegByteCountR (s : Pdu) : ReqM (Ret × Pdu) := do
  let bc ← rdReq idxRequestByteCnt
  let qty ← readReqU16 idxRequestQty
  if bc.toNat = qty.toNat * 2 then return (RET_OK, s)
  else
    let s ← ReqM.lift (setExceptionCodeResp s excIllegalDataValue)
    return (RET_ERROR, s)

/-- `check_write_req_data_correctness`, `src/slave_internall/modbus_slave_PDU.c:711-727`. -/
def checkWriteReqR (s : Pdu) (maxQty appQty : Nat) : ReqM (Ret × Pdu) := do
  let fc ← rdReq idxFunctionCode
  let (st, s) ← checkReadReqR s maxQty appQty
  if st = RET_OK then
    if fc = fcWriteMultipleCoils then checkWriteReqByteCountR s
    else checkWriteReqRegByteCountR s
  else return (st, s)

/-- `handle_slave_read_coil_service`, `src/slave_internall/modbus_slave_PDU.c:148-168`: address and quantity are read again; the loop does not read the
request. -/
def readCoilServiceR (cfg : Config) (s : Pdu) : ReqM (Ret × Pdu) := do
  let adr ← readReqU16 idxRequestAdr
  let qty ← readReqU16 idxRequestQty
  ReqM.lift (do
    let byteCnt := coilDinByteCount qty
    let resp ← wr s.resp idxRespReadByteCnt byteCnt
    let resp ← clearStatusBytes resp idxRespReadData byteCnt.toNat
    match ← forLoop (readCoilBody cfg adr) qty.toNat 0 (RET_OK, { s with resp := resp }) with
    | .ret r => return r
    | .next (v, s) | .brk (v, s) => updateMsgLenAndRetStatus s v byteCnt)

/-- `modbus_slave_read_coils`, `src/slave_internall/modbus_slave_PDU.c:123-135`. -/
def slaveReadCoilsR (cfg : Config) (s : Pdu) : ReqM (Ret × Pdu) := do
  let resp ← ReqM.lift (wr s.resp idxFunctionCode fcReadCoils)
  let (st, s) ← checkReadReqR { s with resp := resp } maxReadCoilsQty cfg.coilsQty
  if RET_ERROR ≠ st then readCoilServiceR cfg s else return (st, s)

/-- `handle_slave_read_discrete_inputs_service`, `src/slave_internall/modbus_slave_PDU.c:211-234`. -/
def readDinServiceR (cfg : Config) (s : Pdu) : ReqM (Ret × Pdu) := do
  let adr ← readReqU16 idxRequestAdr
  let qty ← readReqU16 idxRequestQty
  ReqM.lift (do
    let byteCnt := coilDinByteCount qty
    let resp ← wr s.resp idxRespReadByteCnt byteCnt
    let resp ← clearStatusBytes resp idxRespReadData byteCnt.toNat
    match ← forLoop (readDinBody cfg adr) qty.toNat 0 (RET_OK, { s with resp := resp }) with
    | .ret e => nomatch e
    | .next (v, s) | .brk (v, s) => updateMsgLenAndRetStatus s v byteCnt)

/-- `modbus_slave_read_discrete_inputs`, `src/slave_internall/modbus_slave_PDU.c:184-194`. -/
def slaveReadDiscreteInputsR (cfg : Config) (s : Pdu) : ReqM (Ret × Pdu) := do
  let resp ← ReqM.lift (wr s.resp idxFunctionCode fcReadDiscreteInputs)
  let (st, s) ← checkReadReqR { s with resp := resp } maxReadDiscreteInputsQty cfg.dinQty
  if RET_OK = st then readDinServiceR cfg s else return (st, s)

/-- `handle_slave_read_holding_reg_service`, `src/slave_internall/modbus_slave_PDU.c:275-297`, and
`handle_slave_read_input_reg_service`, `:340-361`. -/
def readRegServiceR (size : Nat) (tab : AppMem → Table) (s : Pdu) : ReqM (Ret × Pdu) := do
  let adr ← readReqU16 idxRequestAdr
  let qty ← readReqU16 idxRequestQty
  ReqM.lift (do
    let byteCnt : U8 := BitVec.ofNat 8 (2 * qty.toNat)
    let resp ← wr s.resp idxRespReadByteCnt byteCnt
    match ← forLoop (readRegBody size tab adr) qty.toNat 0 (RET_OK, { s with resp := resp }) with
    | .ret e => nomatch e
    | .next (v, s) | .brk (v, s) => updateMsgLenAndRetStatus s v byteCnt)

/-- `modbus_slave_read_holding_reg`, `src/slave_internall/modbus_slave_PDU.c:249-259`. -/
def slaveReadHoldingRegR (cfg : Config) (s : Pdu) : ReqM (Ret × Pdu) := do
  let resp ← ReqM.lift (wr s.resp idxFunctionCode fcReadHoldingRegisters)
  let (st, s) ← checkReadReqR { s with resp := resp } maxReadRegQty cfg.hregQty
  if RET_OK = st then readRegServiceR (tableSize cfg.hregQty) AppMem.hregs s else return (st, s)

/-- `modbus_slave_read_input_reg`, `src/slave_internall/modbus_slave_PDU.c:314-324`. -/
def slaveReadInputRegR (cfg : Config) (s : Pdu) : ReqM (Ret × Pdu) := do
  let resp ← ReqM.lift (wr s.resp idxFunctionCode fcReadInputRegisters)
  let (st, s) ← checkReadReqR { s with resp := resp } maxReadRegQty cfg.inregQty
  if RET_OK = st then readRegServiceR (tableSize cfg.inregQty) AppMem.inregs s else return (st, s)

/-- `modbus_slave_write_single_coil`, `src/slave_internall/modbus_slave_PDU.c:376-390`: address and state are read once. -/
def slaveWriteSingleCoilR (cfg : Config) (s : Pdu) : ReqM (Ret × Pdu) := do
  let adr ← readReqU16 idxRequestAdr
  let st ← readReqU16 idxRespWriteSingleData
  ReqM.lift (do
    let resp ← wr s.resp idxFunctionCode fcWriteSingleCoil
    let (r, s) ← checkWriteSingleCoil cfg { s with resp := resp } adr st
    if r = RET_OK then writeSingleCoilService cfg s adr st else return (r, s))

/-- Body of the loop of `set_coil_din_value_from_modbus_msg`,
`src/slave_internall/modbus_slave_PDU.c:806-820`. -/
def setCoilsBodyR (size : Nat) (t : Table) (adr : U16) (i : Nat) (x : Ret × (Ptr → Bool)) :
    ReqM (Ctl (Ret × (Ptr → Bool)) Empty) := do
  let byte ← rdReq (idxRequestWriteMultiData + i / 8)
  ReqM.lift (do
    let y ← if byte &&& BitVec.ofNat 8 (2 ^ (i % 8)) ≠ 0
      then setCoilState size t x.2 (adr + BitVec.ofNat 16 i) true
      else setCoilState size t x.2 (adr + BitVec.ofNat 16 i) false
    if y.1 = RET_ERROR then return .brk y else return .next y)

/-- `set_coil_din_value_from_modbus_msg`, `src/slave_internall/modbus_slave_PDU.c:803-822`. -/
def setCoilsFromMsgR (cfg : Config) (s : Pdu) (adr qty : U16) : ReqM (Ret × (Ptr → Bool)) := do
  match ← forLoopR (setCoilsBodyR (tableSize cfg.coilsQty) s.mem.coils adr) qty.toNat 0
      (RET_OK, s.mem.bools) with
  | .ret e => nomatch e
  | .next y | .brk y => return y

/-- `modbus_slave_write_multiple_coils`, `src/slave_internall/modbus_slave_PDU.c:466-490`. -/
def slaveWriteMultipleCoilsR (cfg : Config) (s : Pdu) : ReqM (Ret × Pdu) := do
  let resp ← ReqM.lift (wr s.resp idxFunctionCode fcWriteMultipleCoils)
  let (st, s) ← checkWriteReqR { s with resp := resp } maxWriteCoilsQty cfg.coilsQty
  if RET_OK = st then
    let adr ← readReqU16 idxRequestAdr
    let qty ← readReqU16 idxRequestQty
    let (st, bools) ← setCoilsFromMsgR cfg s adr qty
    ReqM.lift (do
      let s := { s with mem := { s.mem with bools := bools } }
      if RET_OK = st then
        let resp ← writeU16 s.resp idxRespWriteAdr adr
        let resp ← writeU16 resp idxRespWriteMultipleDataQty qty
        return (st, { s with resp := resp, respLen := writeMultiRespLen })
      else
        let s ← setExceptionCodeResp s excServerDeviceFailure
        return (st, s))
  else return (st, s)

/-- `handle_slave_write_single_reg_service`, `src/slave_internall/modbus_slave_PDU.c:534-550`: the address is read again. -/
def writeSingleRegServiceR (cfg : Config) (s : Pdu) : ReqM (Ret × Pdu) := do
  let adr ← readReqU16 idxRequestAdr
  let v ← readReqU16 idxRequestQty
  ReqM.lift (do
    let (st, regs) ← setRegisterValue (tableSize cfg.hregQty) s.mem.hregs s.mem.regs adr v
    let s := { s with mem := { s.mem with regs := regs } }
    if RET_OK = st then
      let resp ← writeU16 s.resp idxRespWriteAdr adr
      let resp ← writeU16 resp idxRespWriteSingleData v
      return (st, { s with resp := resp, respLen := writeSingleRespLen })
    else
      let s ← setExceptionCodeResp s excServerDeviceFailure
      return (st, s))

/-- `modbus_slave_write_single_reg`, `src/slave_internall/modbus_slave_PDU.c:504-520`. -/
def slaveWriteSingleRegR (cfg : Config) (s : Pdu) : ReqM (Ret × Pdu) := do
  let adr ← readReqU16 idxRequestAdr
  let resp ← ReqM.lift (wr s.resp idxFunctionCode fcWriteSingleRegister)
  let s := { s with resp := resp }
  if cfg.hregQty ≤ adr.toNat then
    let s ← ReqM.lift (setExceptionCodeResp s excIllegalDataAddress)
    return (RET_ERROR, s)
  else writeSingleRegServiceR cfg s

/-- Body of the loop of `handle_slave_write_multiple_reg_service`,
`src/slave_internall/modbus_slave_PDU.c:598-603`. -/
def writeRegsBodyR (size : Nat) (t : Table) (adr : U16) (i : Nat) (x : Ret × (Ptr → U16)) :
    ReqM (Ctl (Ret × (Ptr → U16)) Empty) := do
  let v ← readReqU16 (idxRequestWriteMultiData + i * 2)
  ReqM.lift (do
    let y ← setRegisterValue size t x.2 (adr + BitVec.ofNat 16 i) v
    if RET_ERROR = y.1 then return .brk y else return .next y)

/-- `handle_slave_write_multiple_reg_service`, `src/slave_internall/modbus_slave_PDU.c:592-615`. -/
def writeMultipleRegServiceR (cfg : Config) (s : Pdu) : ReqM (Ret × Pdu) := do
  let adr ← readReqU16 idxRequestAdr
  let qty ← readReqU16 idxRequestQty
  let y ← match ← forLoopR (writeRegsBodyR (tableSize cfg.hregQty) s.mem.hregs adr) qty.toNat 0
      (RET_OK, s.mem.regs) with
    | .ret e => nomatch e
    | .next y | .brk y => pure y
  ReqM.lift (do
    let s := { s with mem := { s.mem with regs := y.2 } }
    if RET_OK = y.1 then
      let resp ← writeU16 s.resp idxRespWriteAdr adr
      let resp ← writeU16 resp idxRespWriteMultipleDataQty qty
      return (y.1, { s with resp := resp, respLen := writeMultiRespLen })
    else
      let s ← setExceptionCodeResp s excServerDeviceFailure
      return (y.1, s))

/-- `modbus_slave_write_multiple_reg`, `src/slave_internall/modbus_slave_PDU.c:565-576`. -/
def slaveWriteMultipleRegR (cfg : Config) (s : Pdu) : ReqM (Ret × Pdu) := do
  let resp ← ReqM.lift (wr s.resp idxFunctionCode fcWriteMultipleRegisters)
  let (st, s) ← checkWriteReqR { s with resp := resp } maxWriteRegQty cfg.hregQty
  if RET_OK = st then writeMultipleRegServiceR cfg s else return (st, s)

/-- `modbus_slave_function_mapper`, `src/slave_internall/modbus_slave_PDU.c:44-53`. -/
def slaveMapperR (cfg : Config) : List (U8 × (Pdu → ReqM (Ret × Pdu))) :=
  [(fcReadCoils, slaveReadCoilsR cfg),
   (fcReadDiscreteInputs, slaveReadDiscreteInputsR cfg),
   (fcReadHoldingRegisters, slaveReadHoldingRegR cfg),
   (fcReadInputRegisters, slaveReadInputRegR cfg),
   (fcWriteSingleCoil, slaveWriteSingleCoilR cfg),
   (fcWriteSingleRegister, slaveWriteSingleRegR cfg),
   (fcWriteMultipleCoils, slaveWriteMultipleCoilsR cfg),
   (fcWriteMultipleRegisters, slaveWriteMultipleRegR cfg)]

/-- `parse_master_request_and_prepare_resp` after its NULL checks, `src/slave_internall/modbus_slave_PDU.c:88-108`. -/
def parseRequestR (cfg : Config) (s : Pdu) : ReqM (Ret × Pdu) := do
  let fc ← rdReq idxFunctionCode
  match (slaveMapperR cfg).find? (fun e => fc == e.1) with
  | some e => e.2 s
  | none =>
    let x ← rdReq idxFunctionCode
    ReqM.lift (do
      let resp ← wr s.resp idxFunctionCode x
      let s ← setExceptionCodeResp { s with resp := resp } excIllegalFunction
      return (RET_ERROR_UNKNOWN_MAPPER_FUN_CODE, s))

/-! ### The poll -/

/-- As a piece of a poll: every read of the request buffer is a step. Modelling infrastructure, no C counterpart. -/
def ReqM.toProg {α : Type} : ReqM α → (α → SProg) → SProg
  | .ret a, k => k a
  | .err u, _ => .step (α := Unit) free (fun _ => .error u) fun _ => .done
  | .rd i f, k => .step free (fun s => .ok (s.req i, s, [])) fun b => (f b).toProg k

/-- `handle_modbus_slave_idle_state`, `src/modbus_slave.c:162-175`. -/
def slaveIdleF : SProg :=
  test (fun s => s.t15 = .set)
    (assign (fun s => { s with t15 := .cleared })
      (.step free
        (fun s => if s.msgPtr = false ∨ s.dataSet = false then .error .nullDeref else .ok ((s.reqLen, s.id), s, []))
        fun x => (rtuRecvR x.1 x.2).toProg fun r =>
          if r ≠ RET_OK then
            assign (fun s => { s with ferr := .set }) (assign (fun s => { s with st := .msgReceived }) .done)
          else assign (fun s => { s with st := .msgReceived }) .done))
    .done

/-- The call of `parse_master_request_and_prepare_resp`, `src/modbus_slave.c:195`, with its NULL checks (`src/slave_internall/modbus_slave_PDU.c:83-86`). The
component `req` of the record handed to `parseRequestR` is not used by it: every read of the request goes to the buffer itself. -/
def slaveParseF (cfg : Config) (rest : SProg) : SProg :=
  .step free
    (fun s => .ok (if s.msgPtr = false ∨ s.dataSet = false then none
      else some ({ req := s.req, resp := s.resp, respLen := s.respLen, mem := s.mem } : Pdu), s, []))
    fun x => match x with
      | none => rest
      | some p => (parseRequestR cfg p).toProg fun r =>
        assign (fun s => { s with resp := r.2.resp, respLen := r.2.respLen, mem := r.2.mem }) rest

/-- Second branch of `handle_modbus_slave_msg_recived_state`, `src/modbus_slave.c:195-200`. -/
def slaveAnswerF (cfg : Config) : SProg :=
  slaveParseF cfg
    (assignC slaveFrame
      (.step free (fun s => do let o ← slaveDriverSend s; return ((), s, o)) fun _ =>
        assign (fun s => { s with txf := .set })
          (assign (fun s => { s with st := .transmitting })
            (assign (fun s => { s with t35 := .cleared }) .done))))

/-- `handle_modbus_slave_msg_recived_state`, `src/modbus_slave.c:184-206`. -/
def slaveMsgReceivedF (cfg : Config) : SProg :=
  let second : SProg :=
    test (fun s => s.ferr = .cleared) (test (fun s => s.t35 = .set) (slaveAnswerF cfg) .done) .done
  test (fun s => s.ferr = .set) (test (fun s => s.t35 = .set) slaveDropP second) second

/-- `check_modbus_request`, `src/modbus_slave.c:137-154`. -/
def slavePollF (cfg : Config) : SProg :=
  .step free (fun s => .ok (s.st, s, [])) fun st =>
    match st with
    | .idle => slaveIdleF
    | .msgReceived => slaveMsgReceivedF cfg
    | .transmitting => slaveTransmittingP
    | .unknown => slaveDefaultP

/-- One operation, a poll being interrupted at this granularity. Modelling infrastructure, no C counterpart. -/
def slaveFStep (cfg : Config) (s : Slave) : SPOp → C (Slave × List SOut)
  | .op o => slaveStep cfg s o
  | .pollWith ints => runProg (slaveInt cfg) (slavePollF cfg) ints s

/-- An execution. Modelling infrastructure, no C counterpart. -/
def slaveFRun (cfg : Config) : Slave → List SPOp → C (Slave × List SOut)
  | s, [] => .ok (s, [])
  | s, op :: ops => do
    let (s', o) ← slaveFStep cfg s op
    let (s'', os) ← slaveFRun cfg s' ops
    return (s'', o ++ os)

end Modbus
