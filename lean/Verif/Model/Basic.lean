/-! Basic vocabulary of the model: machine integers, undefined behaviour, buffers, loops, constants. -/

namespace Modbus

/-- `uint8_t`. Modelling infrastructure, no C counterpart. -/
abbrev U8 := BitVec 8
/-- `uint16_t`. Modelling infrastructure, no C counterpart. -/
abbrev U16 := BitVec 16

/-- Kinds of undefined behaviour (or non termination) the model can exhibit. Modelling infrastructure, no C counterpart. -/
inductive UB where
  | oobRead | oobWrite | nullDeref | divZero | diverge
  deriving DecidableEq, Repr

/-- Outcome of a piece of C code: a value, or undefined behaviour. Modelling infrastructure, no C counterpart. -/
abbrev C (α : Type) := Except UB α

/-- A 256 byte RTU buffer (`MODBUS_RTU_BUFFER_SIZE`, `src/common/modbus_type.h:33`). Only indices
below 256 are accessible, see `rd` and `wr`. -/
abbrev Buf := Nat → U8

/-- `MODBUS_RTU_BUFFER_SIZE`, `src/common/modbus_type.h:33`. -/
abbrev rtuBufferSize : Nat := 256

/-- `MODBUS_PDU_MAX_LEN`, `src/common/modbus_type.h:36`. -/
abbrev pduMaxLen : Nat := 253

/-- The zero initialised buffer. Modelling infrastructure, no C counterpart (C: static storage, e.g. `src/modbus_slave.c:37-39`). -/
def Buf.zero : Buf := fun _ => 0

/-- C read `b[i]` of a 256 byte buffer. Modelling infrastructure, no C counterpart. -/
def rd (b : Buf) (i : Nat) : C U8 :=
  if i < rtuBufferSize then .ok (b i) else .error .oobRead

/-- Pure update of one cell. Modelling infrastructure, no C counterpart. -/
def Buf.set (b : Buf) (i : Nat) (v : U8) : Buf := fun j => if j = i then v else b j

/-- C write `b[i] = v` of a 256 byte buffer. Modelling infrastructure, no C counterpart. -/
def wr (b : Buf) (i : Nat) (v : U8) : C Buf :=
  if i < rtuBufferSize then .ok (b.set i v) else .error .oobWrite

/-- The `n` bytes of a buffer starting at `pos`. Modelling infrastructure, no C counterpart. -/
def Buf.bytes (b : Buf) (pos n : Nat) : List U8 := (List.range n).map fun i => b (pos + i)

/-- `modbus_ret_t`, `src/common/modbus_type.h:108-124`: an enum that includes negative values and
`0xFFFF`, hence represented by a (at least 32 bit) signed integer. -/
abbrev Ret := Int

/-! Return codes, `src/common/modbus_type.h:108-124`. -/
/-- `RET_ERROR_EXCEPTION_CODE_RECIVED`, `src/common/modbus_type.h:110`. -/
abbrev RET_ERROR_EXCEPTION_CODE_RECIVED : Ret := -12
/-- `RET_ERROR_UNKNOWN_MAPPER_FUN_CODE`, `src/common/modbus_type.h:111`. -/
abbrev RET_ERROR_UNKNOWN_MAPPER_FUN_CODE : Ret := -11
/-- `RET_NULL_PTR_ERROR`, `src/common/modbus_type.h:112`. -/
abbrev RET_NULL_PTR_ERROR : Ret := -10
/-- `RET_ERROR_CRC`, `src/common/modbus_type.h:119`. -/
abbrev RET_ERROR_CRC : Ret := -3
/-- `RET_ERROR_SLAVE_ID`, `src/common/modbus_type.h:120`. -/
abbrev RET_ERROR_SLAVE_ID : Ret := -2
/-- `RET_ERROR`, `src/common/modbus_type.h:121`. -/
abbrev RET_ERROR : Ret := -1
/-- `RET_OK`, `src/common/modbus_type.h:122`. -/
abbrev RET_OK : Ret := 0

/-- `modbus_status_flag_t`, `src/common/modbus_type.h:152-157`. -/
inductive Flag where
  | cleared | set | unknown
  deriving DecidableEq, Repr

/-- `modbus_mode_t`, `src/modbus_public_type.h:30-34`. -/
inductive Mode where
  | rtu | unknownMode
  deriving DecidableEq, Repr

/-! Function codes, `src/modbus_public_type.h:81-91`. -/
/-- `MODBUS_READ_COILS_FUNC_CODE`, `src/modbus_public_type.h:83`. -/
abbrev fcReadCoils : U8 := 0x01
/-- `MODBUS_READ_DISCRETE_INPUTS_FUNC_CODE`, `src/modbus_public_type.h:84`. -/
abbrev fcReadDiscreteInputs : U8 := 0x02
/-- `MODBUS_READ_HOLDING_REGISTERS_FUNC_CODE`, `src/modbus_public_type.h:85`. -/
abbrev fcReadHoldingRegisters : U8 := 0x03
/-- `MODBUS_READ_INPUT_REGISTERS_FUNC_CODE`, `src/modbus_public_type.h:86`. -/
abbrev fcReadInputRegisters : U8 := 0x04
/-- `MODBUS_WRITE_SINGLE_COIL_FUNC_CODE`, `src/modbus_public_type.h:87`. -/
abbrev fcWriteSingleCoil : U8 := 0x05
/-- `MODBUS_WRITE_SINGLE_REGISTER_FUNC_CODE`, `src/modbus_public_type.h:88`. -/
abbrev fcWriteSingleRegister : U8 := 0x06
/-- `MODBUS_WRITE_MULTIPLE_COILS_FUNC_CODE`, `src/modbus_public_type.h:89`. -/
abbrev fcWriteMultipleCoils : U8 := 0x0F
/-- `MODBUS_WRITE_MULTIPLE_REGISTER_FUNC_CODE`, `src/modbus_public_type.h:90`. -/
abbrev fcWriteMultipleRegisters : U8 := 0x10

/-! Exception codes, `src/modbus_public_type.h:49-55`. -/
/-- `MODBUS_ILLEGAL_FUNCTION_ERROR`, `src/modbus_public_type.h:51`. -/
abbrev excIllegalFunction : U8 := 0x01
/-- `MODBUS_ILLEGAL_DATA_ADDRESS_ERROR`, `src/modbus_public_type.h:52`. -/
abbrev excIllegalDataAddress : U8 := 0x02
/-- `MODBUS_ILLEGAL_DATA_VALUE_ERROR`, `src/modbus_public_type.h:53`. -/
abbrev excIllegalDataValue : U8 := 0x03
/-- `MODBUS_SERVER_DEVICE_FAILURE_ERROR`, `src/modbus_public_type.h:54`. -/
abbrev excServerDeviceFailure : U8 := 0x04

/-! Quantity limits, `src/common/modbus_type.h:41-57`. -/
/-- `MODBUS_MAX_READ_DISCRETE_INPUTS_QTY`, `src/common/modbus_type.h:42`. -/
abbrev maxReadDiscreteInputsQty : Nat := 0x7D0
/-- `MODBUS_MAX_READ_COILS_QTY`, `src/common/modbus_type.h:45`. -/
abbrev maxReadCoilsQty : Nat := 0x7D0
/-- `MODBUS_MAX_WRITE_COILS_QTY`, `src/common/modbus_type.h:48`. -/
abbrev maxWriteCoilsQty : Nat := 0x7B0
/-- `MODBUS_MAX_READ_REG_QTY`, `src/common/modbus_type.h:51`. -/
abbrev maxReadRegQty : Nat := 0x7D
/-- `MODBUS_MAX_WRITE_REG_QTY`, `src/common/modbus_type.h:54`. -/
abbrev maxWriteRegQty : Nat := 0x7B
/-- `MODBUS_MIN_REG_COIL_QTY`, `src/common/modbus_type.h:57`. -/
abbrev minRegCoilQty : Nat := 1

/-! Frame indices, `src/common/modbus_type.h:62-77`. -/
/-- `MODBUS_SLAVE_ADR_IDX`, `src/common/modbus_type.h:63`. -/
abbrev idxSlaveAdr : Nat := 0
/-- `MODBUS_FUNCTION_CODE_IDX`, `src/common/modbus_type.h:65`. -/
abbrev idxFunctionCode : Nat := 1
/-- `MODBUS_REQUEST_ADR_IDX`, `src/common/modbus_type.h:66`. -/
abbrev idxRequestAdr : Nat := 2
/-- `MODBUS_REQUEST_QTY_IDX`, `src/common/modbus_type.h:67`. -/
abbrev idxRequestQty : Nat := 4
/-- `MODBUS_REQUEST_WRITE_SINGLE_DATA_IDX`, `src/common/modbus_type.h:68`. -/
abbrev idxRequestWriteSingleData : Nat := 4
/-- `MODBUS_REQUEST_BYTE_CNT_IDX`, `src/common/modbus_type.h:69`. -/
abbrev idxRequestByteCnt : Nat := 6
/-- `MODBUS_REQUEST_WRITE_MULTI_DATA_IDX`, `src/common/modbus_type.h:70`. -/
abbrev idxRequestWriteMultiData : Nat := 7
/-- `MODBUS_RESP_READ_BYTE_CNT_IDX`, `src/common/modbus_type.h:71`. -/
abbrev idxRespReadByteCnt : Nat := 2
/-- `MODBUS_RESP_READ_DATA_IDX`, `src/common/modbus_type.h:72`. -/
abbrev idxRespReadData : Nat := 3
/-- `MODBUS_RESP_WRITE_ADR_IDX`, `src/common/modbus_type.h:74`. -/
abbrev idxRespWriteAdr : Nat := 2
/-- `MODBUS_RESP_WRITE_SINGLE_DATA_IDX`, `src/common/modbus_type.h:75`. -/
abbrev idxRespWriteSingleData : Nat := 4
/-- `MODBUS_RESP_WRITE_MULTIPLE_DATA_QTY_IDX`, `src/common/modbus_type.h:76`. -/
abbrev idxRespWriteMultipleDataQty : Nat := 4
/-- `MODBUS_RESP_EXCEPTION_CODE_IDX`, `src/common/modbus_type.h:77`. -/
abbrev idxRespExceptionCode : Nat := 2

/-! Lengths, `src/common/modbus_type.h:80-88`. -/
/-- `MODBUS_READ_REQUEST_LEN`, `src/common/modbus_type.h:80`. -/
abbrev readRequestLen : U8 := 6
/-- `MODBUS_WRITE_SINGLE_REQUEST_LEN`, `src/common/modbus_type.h:81`. -/
abbrev writeSingleRequestLen : U8 := 6
/-- `MODBUS_WRITE_MULTI_REQUEST_LEN`, `src/common/modbus_type.h:82`. -/
abbrev writeMultiRequestLen : U8 := 7
/-- `MODBUS_READ_RESP_LEN`, `src/common/modbus_type.h:83`. -/
abbrev readRespLen : U8 := 3
/-- `MODBUS_WRITE_SINGLE_RESP_LEN`, `src/common/modbus_type.h:84`. -/
abbrev writeSingleRespLen : U8 := 6
/-- `MODBUS_WRITE_MULTI_RESP_LEN`, `src/common/modbus_type.h:85`. -/
abbrev writeMultiRespLen : U8 := 6
/-- `MODBUS_EXCEPTION_CODE_RESP_LEN`, `src/common/modbus_type.h:86`. -/
abbrev exceptionCodeRespLen : U8 := 3
/-- `MODBUS_EXCEPTION_CODE_MASK`, `src/common/modbus_type.h:88`. -/
abbrev exceptionCodeMask : U8 := 0x80

/-- Configuration macros: `src/modbus_config.h:26-34` and the derived table sizes of
`src/slave_internall/modbus_slave_data.h:31-62`. Theorems quantify over it. -/
structure Config where
  /-- `MAIN_APP_COILS_QTY` -/
  coilsQty : Nat
  /-- `MAIN_APP_DISCRET_INPUTS_QTY` -/
  dinQty : Nat
  /-- `MAIN_APP_INPUT_REG_QTY` -/
  inregQty : Nat
  /-- `MAIN_APP_HOLDING_REG_QTY` -/
  hregQty : Nat
  /-- `MODBUS_MASTER_MAX_MSG_QUEUE_ITEMS` -/
  queueItems : Nat
  /-- `MODBUS_MASTER_RESP_TIME_OUT_MS` -/
  respTimeout : Nat
  /-- `MODBUS_MASTER_REQ_REPEAT_ON_ANY_ERROR` -/
  repeatMax : Nat
  deriving DecidableEq, Repr

/-- The configuration shipped in `src/modbus_config.h:26-34`. -/
def Config.default : Config :=
  { coilsQty := 100, dinQty := 100, inregQty := 100, hregQty := 100,
    queueItems := 5, respTimeout := 1000, repeatMax := 3 }

/-- Size of a data table: `src/slave_internall/modbus_slave_data.h:31-62`
(`#if QTY < 65535 … #define SIZE QTY … #else … 65535`). -/
def tableSize (qty : Nat) : Nat := if qty < 65535 then qty else 65535

/-- How one iteration of a C loop ends: fall through, `break`, or `return`. Modelling infrastructure, no C counterpart. -/
inductive Ctl (σ ρ : Type) where
  | next (s : σ)
  | brk (s : σ)
  | ret (r : ρ)

/-- `for (i = i0; i < i0 + n; i++) body`, with `break` and `return`. Modelling infrastructure, no C counterpart. -/
def forLoop {σ ρ : Type} (body : Nat → σ → C (Ctl σ ρ)) : (n i : Nat) → σ → C (Ctl σ ρ)
  | 0, _, s => .ok (.next s)
  | n + 1, i, s => do
    match ← body i s with
    | .next s' => forLoop body n (i + 1) s'
    | .brk s' => .ok (.brk s')
    | .ret r => .ok (.ret r)

end Modbus
