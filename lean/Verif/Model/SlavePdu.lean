import Verif.Model.SlaveData
import Verif.Model.PduCommon

/-! Model of `src/slave_internall/modbus_slave_PDU.c`. -/

namespace Modbus

/-- What the PDU handlers work on: `modbus_msg_t` (`src/common/modbus_type.h:198-202`, request buffer,
response buffer and response length; the handlers never look at the request length) and the
application data. -/
structure Pdu where
  req : Buf
  resp : Buf
  respLen : U8
  mem : AppMem

/-- `set_exception_code_resp`, `src/slave_internall/modbus_slave_PDU.c:626-631`. -/
def setExceptionCodeResp (s : Pdu) (code : U8) : C Pdu := do
  let fc ← rd s.resp idxFunctionCode
  let resp ← wr s.resp idxFunctionCode (fc ||| exceptionCodeMask)
  let resp ← wr resp idxRespExceptionCode code
  return { s with resp := resp, respLen := exceptionCodeRespLen }

/-- `update_msg_len_and_ret_status`, `src/slave_internall/modbus_slave_PDU.c:646-657`. -/
def updateMsgLenAndRetStatus (s : Pdu) (lastRet : Ret) (byteCnt : U8) : C (Ret × Pdu) :=
  if RET_ERROR ≠ lastRet then .ok (RET_OK, { s with respLen := readRespLen + byteCnt })
  else .ok (RET_ERROR, s)

/-- `check_read_req_data_correcntess`, `src/slave_internall/modbus_slave_PDU.c:673-693`.
`app_data_qty` is a `uint16_t` parameter, so the macro passed is truncated; `adr + data_qty` is
computed in `int`. -/
def checkReadReq (s : Pdu) (maxQty appQty : Nat) : C (Ret × Pdu) := do
  let adr ← readU16 s.req idxRequestAdr
  let qty ← readU16 s.req idxRequestQty
  if qty.toNat = 0 ∨ maxQty < qty.toNat then
    let s ← setExceptionCodeResp s excIllegalDataValue
    return (RET_ERROR, s)
  else if adr.toNat + qty.toNat > appQty % 65536 then
    let s ← setExceptionCodeResp s excIllegalDataAddress
    return (RET_ERROR, s)
  else
    return (RET_OK, s)

/-- `check_write_req_byte_count_correctenss`, `src/slave_internall/modbus_slave_PDU.c:743-757`. -/
def checkWriteReqByteCount (s : Pdu) : C (Ret × Pdu) := do
  let bc ← rd s.req idxRequestByteCnt
  let qty ← readU16 s.req idxRequestQty
  if bc = coilDinByteCount qty then return (RET_OK, s)
  else
    let s ← setExceptionCodeResp s excIllegalDataValue
    return (RET_ERROR, s)

/-- `check_write_req_reg_byte_count_correctenss`, `src/slave_internall/modbus_slave_PDU.c:773-786`;
the comparison is done in `int`. -/
def checkWriteReqRegByteCount (s : Pdu) : C (Ret × Pdu) := do
  let bc ← rd s.req idxRequestByteCnt
  let qty ← readU16 s.req idxRequestQty
  if bc.toNat = qty.toNat * 2 then return (RET_OK, s)
  else
    let s ← setExceptionCodeResp s excIllegalDataValue
    return (RET_ERROR, s)

/-- `check_write_req_data_correctness`, `src/slave_internall/modbus_slave_PDU.c:711-727`. -/
def checkWriteReq (s : Pdu) (maxQty appQty : Nat) : C (Ret × Pdu) := do
  let fc ← rd s.req idxFunctionCode
  let (st, s) ← checkReadReq s maxQty appQty
  if st = RET_OK then
    if fc = fcWriteMultipleCoils then checkWriteReqByteCount s
    else checkWriteReqRegByteCount s
  else return (st, s)

/-- Body of the loop of `handle_slave_read_coil_service`, `src/slave_internall/modbus_slave_PDU.c:157-166`.
State: last value read and message; on a missing variable the C code returns from inside the loop.
`resp[3 + i/8] |= (val << (i % 8))` is computed in `int` and truncated to a byte. -/
def readCoilBody (cfg : Config) (adr : U16) (i : Nat) (x : Ret × Pdu) : C (Ctl (Ret × Pdu) (Ret × Pdu)) := do
  let s := x.2
  let v ← getCoilDinState (tableSize cfg.coilsQty) s.mem.coils s.mem.bools (adr + BitVec.ofNat 16 i)
  if RET_ERROR = v then
    let s ← setExceptionCodeResp s excServerDeviceFailure
    return .ret (RET_ERROR, s)
  else
    let old ← rd s.resp (idxRespReadData + i / 8)
    let resp ← wr s.resp (idxRespReadData + i / 8) (old ||| BitVec.ofInt 8 (v * 2 ^ (i % 8)))
    return .next (v, { s with resp := resp })

/-- `handle_slave_read_coil_service`, `src/slave_internall/modbus_slave_PDU.c:148-168`. -/
def readCoilService (cfg : Config) (s : Pdu) : C (Ret × Pdu) := do
  let adr ← readU16 s.req idxRequestAdr
  let qty ← readU16 s.req idxRequestQty
  let byteCnt := coilDinByteCount qty
  let resp ← wr s.resp idxRespReadByteCnt byteCnt
  let resp ← clearStatusBytes resp idxRespReadData byteCnt.toNat
  match ← forLoop (readCoilBody cfg adr) qty.toNat 0 (RET_OK, { s with resp := resp }) with
  | .ret r => return r
  | .next (v, s) | .brk (v, s) => updateMsgLenAndRetStatus s v byteCnt

/-- `modbus_slave_read_coils`, `src/slave_internall/modbus_slave_PDU.c:123-135`. -/
def slaveReadCoils (cfg : Config) (s : Pdu) : C (Ret × Pdu) := do
  let resp ← wr s.resp idxFunctionCode fcReadCoils
  let (st, s) ← checkReadReq { s with resp := resp } maxReadCoilsQty cfg.coilsQty
  if RET_ERROR ≠ st then readCoilService cfg s else return (st, s)

/-- Body of the loop of `handle_slave_read_discrete_inputs_service`,
`src/slave_internall/modbus_slave_PDU.c:220-232` (leaves the loop by `break`). -/
def readDinBody (cfg : Config) (adr : U16) (i : Nat) (x : Ret × Pdu) : C (Ctl (Ret × Pdu) Empty) := do
  let s := x.2
  let v ← getCoilDinState (tableSize cfg.dinQty) s.mem.dins s.mem.bools (adr + BitVec.ofNat 16 i)
  if RET_ERROR = v then
    let s ← setExceptionCodeResp s excServerDeviceFailure
    return .brk (v, s)
  else
    let old ← rd s.resp (idxRespReadData + i / 8)
    let resp ← wr s.resp (idxRespReadData + i / 8) (old ||| BitVec.ofInt 8 (v * 2 ^ (i % 8)))
    return .next (v, { s with resp := resp })

/-- `handle_slave_read_discrete_inputs_service`, `src/slave_internall/modbus_slave_PDU.c:211-234`. -/
def readDinService (cfg : Config) (s : Pdu) : C (Ret × Pdu) := do
  let adr ← readU16 s.req idxRequestAdr
  let qty ← readU16 s.req idxRequestQty
  let byteCnt := coilDinByteCount qty
  let resp ← wr s.resp idxRespReadByteCnt byteCnt
  let resp ← clearStatusBytes resp idxRespReadData byteCnt.toNat
  match ← forLoop (readDinBody cfg adr) qty.toNat 0 (RET_OK, { s with resp := resp }) with
  | .ret e => nomatch e
  | .next (v, s) | .brk (v, s) => updateMsgLenAndRetStatus s v byteCnt

/-- `modbus_slave_read_discrete_inputs`, `src/slave_internall/modbus_slave_PDU.c:184-194`. -/
def slaveReadDiscreteInputs (cfg : Config) (s : Pdu) : C (Ret × Pdu) := do
  let resp ← wr s.resp idxFunctionCode fcReadDiscreteInputs
  let (st, s) ← checkReadReq { s with resp := resp } maxReadDiscreteInputsQty cfg.dinQty
  if RET_OK = st then readDinService cfg s else return (st, s)

/-- Body of the register read loops, `src/slave_internall/modbus_slave_PDU.c:283-295` (holding registers)
and `:347-359` (input registers), which differ only in the table. `(modbus_reg_t)val` truncates to 16 bits. -/
def readRegBody (size : Nat) (tab : AppMem → Table) (adr : U16) (i : Nat) (x : Ret × Pdu) :
    C (Ctl (Ret × Pdu) Empty) := do
  let s := x.2
  let v ← getRegisterState size (tab s.mem) s.mem.regs (adr + BitVec.ofNat 16 i)
  if RET_ERROR = v then
    let s ← setExceptionCodeResp s excServerDeviceFailure
    return .brk (v, s)
  else
    let resp ← writeU16 s.resp (idxRespReadData + i * 2) (BitVec.ofInt 16 v)
    return .next (v, { s with resp := resp })

/-- `handle_slave_read_holding_reg_service`, `src/slave_internall/modbus_slave_PDU.c:275-297`, and
`handle_slave_read_input_reg_service`, `:340-361`: the same code on two tables.
`modbus_byte_count_t byte_cnt = 2 * reg_qty` truncates to 8 bits. -/
def readRegService (size : Nat) (tab : AppMem → Table) (s : Pdu) : C (Ret × Pdu) := do
  let adr ← readU16 s.req idxRequestAdr
  let qty ← readU16 s.req idxRequestQty
  let byteCnt : U8 := BitVec.ofNat 8 (2 * qty.toNat)
  let resp ← wr s.resp idxRespReadByteCnt byteCnt
  match ← forLoop (readRegBody size tab adr) qty.toNat 0 (RET_OK, { s with resp := resp }) with
  | .ret e => nomatch e
  | .next (v, s) | .brk (v, s) => updateMsgLenAndRetStatus s v byteCnt

/-- `modbus_slave_read_holding_reg`, `src/slave_internall/modbus_slave_PDU.c:249-259`. -/
def slaveReadHoldingReg (cfg : Config) (s : Pdu) : C (Ret × Pdu) := do
  let resp ← wr s.resp idxFunctionCode fcReadHoldingRegisters
  let (st, s) ← checkReadReq { s with resp := resp } maxReadRegQty cfg.hregQty
  if RET_OK = st then readRegService (tableSize cfg.hregQty) AppMem.hregs s else return (st, s)

/-- `modbus_slave_read_input_reg`, `src/slave_internall/modbus_slave_PDU.c:314-324`. -/
def slaveReadInputReg (cfg : Config) (s : Pdu) : C (Ret × Pdu) := do
  let resp ← wr s.resp idxFunctionCode fcReadInputRegisters
  let (st, s) ← checkReadReq { s with resp := resp } maxReadRegQty cfg.inregQty
  if RET_OK = st then readRegService (tableSize cfg.inregQty) AppMem.inregs s else return (st, s)

/-- `check_write_single_coil_req_data_correctness`, `src/slave_internall/modbus_slave_PDU.c:406-422`.
Here the macro is compared directly (no truncation). -/
def checkWriteSingleCoil (cfg : Config) (s : Pdu) (adr st : U16) : C (Ret × Pdu) := do
  if st ≠ 0x0000 ∧ st ≠ 0xFF00 then
    let s ← setExceptionCodeResp s excIllegalDataValue
    return (RET_ERROR, s)
  else if adr.toNat ≥ cfg.coilsQty then
    let s ← setExceptionCodeResp s excIllegalDataAddress
    return (RET_ERROR, s)
  else return (RET_OK, s)

/-- `handle_slave_write_single_coil_service`, `src/slave_internall/modbus_slave_PDU.c:437-452`. -/
def writeSingleCoilService (cfg : Config) (s : Pdu) (adr st : U16) : C (Ret × Pdu) := do
  let (r, bools) ← setCoilState (tableSize cfg.coilsQty) s.mem.coils s.mem.bools adr (st != 0)
  let s := { s with mem := { s.mem with bools := bools } }
  if RET_OK = r then
    let resp ← writeU16 s.resp idxRespWriteAdr adr
    let resp ← writeU16 resp idxRespWriteSingleData st
    return (r, { s with resp := resp, respLen := writeSingleRespLen })
  else
    let s ← setExceptionCodeResp s excServerDeviceFailure
    return (r, s)

/-- `modbus_slave_write_single_coil`, `src/slave_internall/modbus_slave_PDU.c:376-390`. -/
def slaveWriteSingleCoil (cfg : Config) (s : Pdu) : C (Ret × Pdu) := do
  let adr ← readU16 s.req idxRequestAdr
  let st ← readU16 s.req idxRespWriteSingleData
  let resp ← wr s.resp idxFunctionCode fcWriteSingleCoil
  let (r, s) ← checkWriteSingleCoil cfg { s with resp := resp } adr st
  if r = RET_OK then writeSingleCoilService cfg s adr st else return (r, s)

/-- Body of the loop of `set_coil_din_value_from_modbus_msg`,
`src/slave_internall/modbus_slave_PDU.c:806-820`. -/
def setCoilsBody (size : Nat) (t : Table) (req : Buf) (adr : U16) (i : Nat) (x : Ret × (Ptr → Bool)) :
    C (Ctl (Ret × (Ptr → Bool)) Empty) := do
  let byte ← rd req (idxRequestWriteMultiData + i / 8)
  let y ← if byte &&& BitVec.ofNat 8 (2 ^ (i % 8)) ≠ 0
    then setCoilState size t x.2 (adr + BitVec.ofNat 16 i) true
    else setCoilState size t x.2 (adr + BitVec.ofNat 16 i) false
  if y.1 = RET_ERROR then return .brk y else return .next y

/-- `set_coil_din_value_from_modbus_msg`, `src/slave_internall/modbus_slave_PDU.c:803-822`
(called with `data_state_ptr = &req[7]` and the coil table). -/
def setCoilsFromMsg (cfg : Config) (s : Pdu) (adr qty : U16) : C (Ret × (Ptr → Bool)) := do
  match ← forLoop (setCoilsBody (tableSize cfg.coilsQty) s.mem.coils s.req adr) qty.toNat 0
      (RET_OK, s.mem.bools) with
  | .ret e => nomatch e
  | .next y | .brk y => return y

/-- `modbus_slave_write_multiple_coils`, `src/slave_internall/modbus_slave_PDU.c:466-490`. -/
def slaveWriteMultipleCoils (cfg : Config) (s : Pdu) : C (Ret × Pdu) := do
  let resp ← wr s.resp idxFunctionCode fcWriteMultipleCoils
  let (st, s) ← checkWriteReq { s with resp := resp } maxWriteCoilsQty cfg.coilsQty
  if RET_OK = st then
    let adr ← readU16 s.req idxRequestAdr
    let qty ← readU16 s.req idxRequestQty
    let (st, bools) ← setCoilsFromMsg cfg s adr qty
    let s := { s with mem := { s.mem with bools := bools } }
    if RET_OK = st then
      let resp ← writeU16 s.resp idxRespWriteAdr adr
      let resp ← writeU16 resp idxRespWriteMultipleDataQty qty
      return (st, { s with resp := resp, respLen := writeMultiRespLen })
    else
      let s ← setExceptionCodeResp s excServerDeviceFailure
      return (st, s)
  else return (st, s)

/-- `handle_slave_write_single_reg_service`, `src/slave_internall/modbus_slave_PDU.c:534-550`. -/
def writeSingleRegService (cfg : Config) (s : Pdu) : C (Ret × Pdu) := do
  let adr ← readU16 s.req idxRequestAdr
  let v ← readU16 s.req idxRequestQty
  let (st, regs) ← setRegisterValue (tableSize cfg.hregQty) s.mem.hregs s.mem.regs adr v
  let s := { s with mem := { s.mem with regs := regs } }
  if RET_OK = st then
    let resp ← writeU16 s.resp idxRespWriteAdr adr
    let resp ← writeU16 resp idxRespWriteSingleData v
    return (st, { s with resp := resp, respLen := writeSingleRespLen })
  else
    let s ← setExceptionCodeResp s excServerDeviceFailure
    return (st, s)

/-- `modbus_slave_write_single_reg`, `src/slave_internall/modbus_slave_PDU.c:504-520`. -/
def slaveWriteSingleReg (cfg : Config) (s : Pdu) : C (Ret × Pdu) := do
  let adr ← readU16 s.req idxRequestAdr
  let resp ← wr s.resp idxFunctionCode fcWriteSingleRegister
  let s := { s with resp := resp }
  if cfg.hregQty ≤ adr.toNat then
    let s ← setExceptionCodeResp s excIllegalDataAddress
    return (RET_ERROR, s)
  else writeSingleRegService cfg s

/-- Body of the loop of `handle_slave_write_multiple_reg_service`,
`src/slave_internall/modbus_slave_PDU.c:598-603`. -/
def writeRegsBody (size : Nat) (t : Table) (req : Buf) (adr : U16) (i : Nat) (x : Ret × (Ptr → U16)) :
    C (Ctl (Ret × (Ptr → U16)) Empty) := do
  let v ← readU16 req (idxRequestWriteMultiData + i * 2)
  let y ← setRegisterValue size t x.2 (adr + BitVec.ofNat 16 i) v
  if RET_ERROR = y.1 then return .brk y else return .next y

/-- `handle_slave_write_multiple_reg_service`, `src/slave_internall/modbus_slave_PDU.c:592-615`. -/
def writeMultipleRegService (cfg : Config) (s : Pdu) : C (Ret × Pdu) := do
  let adr ← readU16 s.req idxRequestAdr
  let qty ← readU16 s.req idxRequestQty
  let y ← match ← forLoop (writeRegsBody (tableSize cfg.hregQty) s.mem.hregs s.req adr) qty.toNat 0
      (RET_OK, s.mem.regs) with
    | .ret e => nomatch e
    | .next y | .brk y => pure y
  let s := { s with mem := { s.mem with regs := y.2 } }
  if RET_OK = y.1 then
    let resp ← writeU16 s.resp idxRespWriteAdr adr
    let resp ← writeU16 resp idxRespWriteMultipleDataQty qty
    return (y.1, { s with resp := resp, respLen := writeMultiRespLen })
  else
    let s ← setExceptionCodeResp s excServerDeviceFailure
    return (y.1, s)

/-- `modbus_slave_write_multiple_reg`, `src/slave_internall/modbus_slave_PDU.c:565-576`. -/
def slaveWriteMultipleReg (cfg : Config) (s : Pdu) : C (Ret × Pdu) := do
  let resp ← wr s.resp idxFunctionCode fcWriteMultipleRegisters
  let (st, s) ← checkWriteReq { s with resp := resp } maxWriteRegQty cfg.hregQty
  if RET_OK = st then writeMultipleRegService cfg s else return (st, s)

/-- `modbus_slave_function_mapper`, `src/slave_internall/modbus_slave_PDU.c:44-53`. -/
def slaveMapper (cfg : Config) : List (U8 × (Pdu → C (Ret × Pdu))) :=
  [(fcReadCoils, slaveReadCoils cfg),
   (fcReadDiscreteInputs, slaveReadDiscreteInputs cfg),
   (fcReadHoldingRegisters, slaveReadHoldingReg cfg),
   (fcReadInputRegisters, slaveReadInputReg cfg),
   (fcWriteSingleCoil, slaveWriteSingleCoil cfg),
   (fcWriteSingleRegister, slaveWriteSingleReg cfg),
   (fcWriteMultipleCoils, slaveWriteMultipleCoils cfg),
   (fcWriteMultipleRegisters, slaveWriteMultipleReg cfg)]

/-- `parse_master_request_and_prepare_resp` after its NULL checks,
`src/slave_internall/modbus_slave_PDU.c:88-108`: first matching entry of the mapper, otherwise
exception 01. -/
def parseRequest (cfg : Config) (s : Pdu) : C (Ret × Pdu) := do
  let fc ← rd s.req idxFunctionCode
  match (slaveMapper cfg).find? (fun e => fc == e.1) with
  | some e => e.2 s
  | none =>
    let x ← rd s.req idxFunctionCode
    let resp ← wr s.resp idxFunctionCode x
    let s ← setExceptionCodeResp { s with resp := resp } excIllegalFunction
    return (RET_ERROR_UNKNOWN_MAPPER_FUN_CODE, s)

end Modbus
