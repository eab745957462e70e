import Verif.Model.PduCommon

/-! Model of `src/master_internall/modbus_master_PDU.c`. -/

namespace Modbus

/-- `modbus_msg_t`, `src/common/modbus_type.h:182-202`, together with the two buffers its `data` pointers refer to
(`src/master_internall/modbus_master_RTU.c:28-29`). Whether the pointers are NULL is kept outside, see `Master.dataSet`. -/
structure MMsg where
  /-- `*req.data` -/
  req : Buf
  /-- `req.len` -/
  reqLen : U8
  /-- `*resp.data` -/
  resp : Buf
  /-- `resp.len` -/
  respLen : U8

/-- `req_input_param_struct_t`, `src/common/modbus_type.h:255-265`. The caller's arrays are lists: reading past the end
of the list is an out of bounds read of the caller's array, `none` is a NULL pointer. -/
structure ReqParam where
  fc : U8
  adr : U16
  qty : U16
  slaveId : U8
  coil : Bool
  coils : Option (List Bool)
  reg : U16
  regs : Option (List U16)

/-- `*(ptr + i)` in a caller supplied array. `src/master_internall/modbus_master_PDU.c:271`, `:319`. -/
def callerRd {α : Type} (p : Option (List α)) (i : Nat) : C α :=
  match p with
  | none => .error .nullDeref
  | some l =>
    match l[i]? with
    | some v => .ok v
    | none => .error .oobRead

/-- `modbus_read_data_t`, `src/modbus_public_type.h:112-122` (argument of the exception callbacks). -/
structure ExcReport where
  slave : U8
  fc : U8
  code : U8
  adr : U16
  qty : U16
  deriving DecidableEq, Repr

/-- `modbus_master_resp_read_error_t`, `src/modbus_public_type.h:71-76`. -/
inductive RespErr where
  | crc | timeout | frame
  deriving DecidableEq, Repr

/-- `modbus_master_error_report_t`, `src/modbus_public_type.h:103-110`. -/
structure ErrReport where
  slave : U8
  fc : U8
  adr : U16
  qty : U16
  err : RespErr
  deriving DecidableEq, Repr

/-- Calls of the master application's callbacks, `src/modbus_master_data_interface.h:26-42`. -/
inductive MEvent where
  | coilRead (slave : U8) (adr : U16) (v : Bool)
  | disinRead (slave : U8) (adr : U16) (v : Bool)
  | inregRead (slave : U8) (adr : U16) (v : U16)
  | hregRead (slave : U8) (adr : U16) (v : U16)
  | coilWrite (slave : U8) (adr : U16) (qty : U16)
  | hregWrite (slave : U8) (adr : U16) (qty : U16)
  | coilExc (r : ExcReport)
  | disinExc (r : ExcReport)
  | hregExc (r : ExcReport)
  | inregExc (r : ExcReport)
  | timeoutErr (r : ErrReport)
  | commErr (r : ErrReport)
  deriving DecidableEq, Repr

/-- `check_null_ptr_correctness`, `src/master_internall/modbus_master_PDU.c:728-739`; the message pointer itself is
never NULL at the call sites (`src/modbus_master.c:488-492`, `:813`, where it has been dereferenced before). -/
def checkNullPtr (dataSet : Bool) : Ret := if dataSet then RET_OK else RET_NULL_PTR_ERROR

/-- `modbus_get_max_len_2_read`, `src/master_internall/modbus_master_PDU.c:516-533`. -/
def maxLenToRead (fc : U8) : Nat :=
  if fc = fcReadCoils then maxReadCoilsQty
  else if fc = fcReadDiscreteInputs then maxReadDiscreteInputsQty
  else maxReadRegQty

/-- `read_reg_request`, `src/master_internall/modbus_master_PDU.c:491-505`. -/
def readRegRequest (m : MMsg) (fc : U8) (adr qty : U16) : C (Ret × MMsg) :=
  if qty.toNat ≤ maxLenToRead fc ∧ minRegCoilQty ≤ qty.toNat then do
    let b ← wr m.req idxFunctionCode fc
    let b ← writeU16 b idxRequestAdr adr
    let b ← writeU16 b idxRequestQty qty
    return (RET_OK, { m with req := b, reqLen := readRequestLen })
  else .ok (RET_ERROR, m)

/-- `modbus_master_read_holding_reg_req`, `src/master_internall/modbus_master_PDU.c:88-98`. -/
def readHoldingRegReq (dataSet : Bool) (m : MMsg) (p : ReqParam) : C (Ret × MMsg) :=
  if RET_OK = checkNullPtr dataSet then readRegRequest m fcReadHoldingRegisters p.adr p.qty
  else .ok (RET_NULL_PTR_ERROR, m)

/-- `modbus_master_read_input_reg_req`, `src/master_internall/modbus_master_PDU.c:113-123`. -/
def readInputRegReq (dataSet : Bool) (m : MMsg) (p : ReqParam) : C (Ret × MMsg) :=
  if RET_OK = checkNullPtr dataSet then readRegRequest m fcReadInputRegisters p.adr p.qty
  else .ok (RET_NULL_PTR_ERROR, m)

/-- `modbus_master_read_discrete_inputs_req`, `src/master_internall/modbus_master_PDU.c:138-148`. -/
def readDiscreteInputsReq (dataSet : Bool) (m : MMsg) (p : ReqParam) : C (Ret × MMsg) :=
  if RET_OK = checkNullPtr dataSet then readRegRequest m fcReadDiscreteInputs p.adr p.qty
  else .ok (RET_NULL_PTR_ERROR, m)

/-- `modbus_master_read_coils_req`, `src/master_internall/modbus_master_PDU.c:163-173`. -/
def readCoilsReq (dataSet : Bool) (m : MMsg) (p : ReqParam) : C (Ret × MMsg) :=
  if RET_OK = checkNullPtr dataSet then readRegRequest m fcReadCoils p.adr p.qty
  else .ok (RET_NULL_PTR_ERROR, m)

/-- `modbus_master_write_single_reg_req`, `src/master_internall/modbus_master_PDU.c:188-203`. -/
def writeSingleRegReq (dataSet : Bool) (m : MMsg) (p : ReqParam) : C (Ret × MMsg) :=
  if RET_OK = checkNullPtr dataSet then do
    let b ← wr m.req idxFunctionCode fcWriteSingleRegister
    let b ← writeU16 b idxRequestAdr p.adr
    let b ← writeU16 b idxRequestQty p.reg
    return (RET_OK, { m with req := b, reqLen := writeSingleRequestLen })
  else .ok (RET_NULL_PTR_ERROR, m)

/-- `modbus_master_write_single_coil_req`, `src/master_internall/modbus_master_PDU.c:218-233`
(`coil_2_write * COIL_ON`, `COIL_ON = 0xFF00`, `bool` is 0 or 1, narrowed to 16 bits). -/
def writeSingleCoilReq (dataSet : Bool) (m : MMsg) (p : ReqParam) : C (Ret × MMsg) :=
  if RET_OK = checkNullPtr dataSet then do
    let b ← wr m.req idxFunctionCode fcWriteSingleCoil
    let b ← writeU16 b idxRequestAdr p.adr
    let b ← writeU16 b idxRequestQty (BitVec.ofNat 16 ((if p.coil then 1 else 0) * 0xFF00))
    return (RET_OK, { m with req := b, reqLen := writeSingleRequestLen })
  else .ok (RET_NULL_PTR_ERROR, m)

/-- Body of the loop at `src/master_internall/modbus_master_PDU.c:269-273`. -/
def reqRegsBody (regs : Option (List U16)) (i : Nat) (b : Buf) : C (Ctl Buf Empty) := do
  let v ← callerRd regs i
  let b ← writeU16 b (idxRequestWriteMultiData + i * 2) v
  return .next b

/-- `modbus_master_write_multiple_reg_req`, `src/master_internall/modbus_master_PDU.c:250-279`. The byte count
`obj_qty * 2` and the length are narrowed to `uint8_t`. -/
def writeMultipleRegReq (dataSet : Bool) (m : MMsg) (p : ReqParam) : C (Ret × MMsg) :=
  if RET_OK ≠ checkNullPtr dataSet then .ok (RET_NULL_PTR_ERROR, m)
  else if maxWriteRegQty < p.qty.toNat ∨ p.qty.toNat < minRegCoilQty then .ok (RET_ERROR, m)
  else do
    let b ← wr m.req idxFunctionCode fcWriteMultipleRegisters
    let b ← writeU16 b idxRequestAdr p.adr
    let b ← writeU16 b idxRequestQty p.qty
    let b ← wr b idxRequestByteCnt (BitVec.ofNat 8 (p.qty.toNat * 2))
    match ← forLoop (reqRegsBody p.regs) p.qty.toNat 0 b with
    | .ret e => nomatch e
    | .next b | .brk b =>
      let bc ← rd b idxRequestByteCnt
      return (RET_OK, { m with req := b, reqLen := writeMultiRequestLen + bc })

/-- Body of the loop at `src/master_internall/modbus_master_PDU.c:317-321`: `data << (i % 8)` in `int`, the result of
`|=` narrowed to a byte. -/
def reqCoilsBody (coils : Option (List Bool)) (i : Nat) (b : Buf) : C (Ctl Buf Empty) := do
  let v ← callerRd coils i
  let old ← rd b (idxRequestWriteMultiData + i / 8)
  let b ← wr b (idxRequestWriteMultiData + i / 8)
    (old ||| BitVec.ofInt 8 ((if v then (1 : Int) else 0) * 2 ^ (i % 8)))
  return .next b

/-- `modbus_master_write_multiple_coils_req`, `src/master_internall/modbus_master_PDU.c:296-325`. -/
def writeMultipleCoilsReq (dataSet : Bool) (m : MMsg) (p : ReqParam) : C (Ret × MMsg) :=
  if RET_OK ≠ checkNullPtr dataSet then .ok (RET_NULL_PTR_ERROR, m)
  else if maxWriteCoilsQty < p.qty.toNat ∨ p.qty.toNat < minRegCoilQty then .ok (RET_ERROR, m)
  else do
    let byteCount := coilDinByteCount p.qty
    let b ← wr m.req idxFunctionCode fcWriteMultipleCoils
    let b ← writeU16 b idxRequestAdr p.adr
    let b ← writeU16 b idxRequestQty p.qty
    let b ← wr b idxRequestByteCnt byteCount
    let b ← clearStatusBytes b idxRequestWriteMultiData byteCount.toNat
    match ← forLoop (reqCoilsBody p.coils) p.qty.toNat 0 b with
    | .ret e => nomatch e
    | .next b | .brk b =>
      let bc ← rd b idxRequestByteCnt
      return (RET_OK, { m with req := b, reqLen := writeMultiRequestLen + bc })

/-! Processing of responses. Each function yields its status and the callbacks it made, in order. -/

/-- Body of the bit delivering loops, `src/master_internall/modbus_master_PDU.c:593-603` (coils) and `:621-631`
(discrete inputs), which differ only in the callback. `data_adr + i` is narrowed to 16 bits by the callback's parameter. -/
def deliverBitBody (resp : Buf) (ev : U16 → Bool → MEvent) (adr : U16) (i : Nat) (out : List MEvent) :
    C (Ctl (List MEvent) Empty) := do
  let x ← rd resp (idxRespReadData + i / 8)
  if x &&& BitVec.ofNat 8 (2 ^ (i % 8)) ≠ 0 then
    return .next (out ++ [ev (adr + BitVec.ofNat 16 i) true])
  else
    return .next (out ++ [ev (adr + BitVec.ofNat 16 i) false])

/-- Body of the register delivering loops, `src/master_internall/modbus_master_PDU.c:648-652` (input registers) and
`:669-673` (holding registers). -/
def deliverRegBody (resp : Buf) (ev : U16 → U16 → MEvent) (adr : U16) (i : Nat) (out : List MEvent) :
    C (Ctl (List MEvent) Empty) := do
  let v ← readU16 resp (idxRespReadData + i * 2)
  return .next (out ++ [ev (adr + BitVec.ofNat 16 i) v])

/-- The list a loop without `return` ends with. Modelling infrastructure, no C counterpart. -/
def loopOut {σ : Type} : Ctl σ Empty → σ
  | .next s => s
  | .brk s => s
  | .ret e => nomatch e

/-- `update_master_coils_frmo_modbus_msg` and `update_master_dis_in_from_modbus_msg`,
`src/master_internall/modbus_master_PDU.c:591-604` and `:619-632`. -/
def deliverBits (qty : U16) (resp : Buf) (ev : U16 → Bool → MEvent) (adr : U16) : C (List MEvent) := do
  let c ← forLoop (deliverBitBody resp ev adr) qty.toNat 0 []
  return loopOut c

/-- `update_input_reg_from_modbus_msg` and `update_holding_reg_from_modbus_msg`,
`src/master_internall/modbus_master_PDU.c:646-653` and `:667-674`. -/
def deliverRegs (qty : U16) (resp : Buf) (ev : U16 → U16 → MEvent) (adr : U16) : C (List MEvent) := do
  let c ← forLoop (deliverRegBody resp ev adr) qty.toNat 0 []
  return loopOut c

/-- `update_master_data_from_modbus_msg`, `src/master_internall/modbus_master_PDU.c:549-577`. The function code of the
*response* selects the decoder, address and quantity come from the *request*. -/
def updateMasterData (m : MMsg) : C (Ret × List MEvent) := do
  let slave ← rd m.resp idxSlaveAdr
  let fc ← rd m.resp idxFunctionCode
  let adr ← readU16 m.req idxRequestAdr
  let qty ← readU16 m.req idxRequestQty
  if fc = fcReadCoils then return (RET_OK, ← deliverBits qty m.resp (.coilRead slave) adr)
  else if fc = fcReadDiscreteInputs then return (RET_OK, ← deliverBits qty m.resp (.disinRead slave) adr)
  else if fc = fcReadInputRegisters then return (RET_OK, ← deliverRegs qty m.resp (.inregRead slave) adr)
  else if fc = fcReadHoldingRegisters then return (RET_OK, ← deliverRegs qty m.resp (.hregRead slave) adr)
  else return (RET_ERROR, [])

/-- `report_write_operation_confirmation`, `src/master_internall/modbus_master_PDU.c:688-712`. -/
def reportWriteConfirmation (m : MMsg) : C (Ret × List MEvent) := do
  let slave ← rd m.resp idxSlaveAdr
  let adr ← readU16 m.req idxRequestAdr
  let fc ← rd m.resp idxFunctionCode
  if fc = fcWriteSingleCoil then return (RET_OK, [.coilWrite slave adr 1])
  else if fc = fcWriteSingleRegister then return (RET_OK, [.hregWrite slave adr 1])
  else if fc = fcWriteMultipleCoils then
    let qty ← readU16 m.req idxRequestQty
    return (RET_OK, [.coilWrite slave adr qty])
  else
    let qty ← readU16 m.req idxRequestQty
    return (RET_OK, [.hregWrite slave adr qty])

/-- `modbus_response_contain_exception_code`, `src/master_internall/modbus_master_PDU.c:754-757`. -/
def respContainsException (m : MMsg) : C Bool := do
  let fc ← rd m.resp idxFunctionCode
  return decide (fc &&& exceptionCodeMask = exceptionCodeMask)

/-- `send_exception_code_report_data`, `src/master_internall/modbus_master_PDU.c:800-825`. -/
def sendExceptionReport (r : ExcReport) : Ret × List MEvent :=
  if r.fc = fcReadCoils ∨ r.fc = fcWriteSingleCoil ∨ r.fc = fcWriteMultipleCoils then (RET_OK, [.coilExc r])
  else if r.fc = fcReadDiscreteInputs then (RET_OK, [.disinExc r])
  else if r.fc = fcReadHoldingRegisters ∨ r.fc = fcWriteSingleRegister ∨ r.fc = fcWriteMultipleRegisters then
    (RET_OK, [.hregExc r])
  else if r.fc = fcReadInputRegisters then (RET_OK, [.inregExc r])
  else (RET_ERROR, [])

/-- `process_modbus_exception_code`, `src/master_internall/modbus_master_PDU.c:773-784` (the status of the report is
dropped). -/
def processException (m : MMsg) : C (Ret × List MEvent) := do
  let slave ← rd m.resp idxSlaveAdr
  let fc ← rd m.resp idxFunctionCode
  let code ← rd m.resp idxRespExceptionCode
  let adr ← readU16 m.req idxRequestAdr
  let qty ← readU16 m.req idxRequestQty
  return (RET_OK, (sendExceptionReport { slave := slave, fc := fc &&& ~~~exceptionCodeMask, code := code, adr := adr, qty := qty }).2)

/-- `modbus_master_function_mapper`, `src/master_internall/modbus_master_PDU.c:62-71`, with the one line handlers
`:368-475`. -/
def respMapper : List (U8 × (MMsg → C (Ret × List MEvent))) :=
  [(fcReadCoils, updateMasterData), (fcReadDiscreteInputs, updateMasterData),
   (fcReadHoldingRegisters, updateMasterData), (fcReadInputRegisters, updateMasterData),
   (fcWriteSingleCoil, reportWriteConfirmation), (fcWriteSingleRegister, reportWriteConfirmation),
   (fcWriteMultipleCoils, reportWriteConfirmation), (fcWriteMultipleRegisters, reportWriteConfirmation)]

/-- The loop of `process_modbus_response`, `src/master_internall/modbus_master_PDU.c:843-851`. -/
def respMapperLoop (m : MMsg) (fc : U8) : List (U8 × (MMsg → C (Ret × List MEvent))) → C (Ret × List MEvent)
  | [] => .ok (RET_ERROR, [])
  | (c, act) :: rest => if c = fc then act m else respMapperLoop m fc rest

/-- `process_modbus_response`, `src/master_internall/modbus_master_PDU.c:838-852`: the function code of the *request*
selects the handler. -/
def processResponse (m : MMsg) : C (Ret × List MEvent) := do
  let fc ← rd m.req idxFunctionCode
  respMapperLoop m fc respMapper

/-- `modbus_master_read_slave_resp`, `src/master_internall/modbus_master_PDU.c:341-355`. -/
def readSlaveResp (dataSet : Bool) (m : MMsg) : C (Ret × List MEvent) :=
  if RET_OK ≠ checkNullPtr dataSet then .ok (RET_NULL_PTR_ERROR, [])
  else do
    if ← respContainsException m then processException m else processResponse m

end Modbus
