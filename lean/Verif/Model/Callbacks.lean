import Verif.Model.Master

/-! Polls of the master in which the application calls the library from inside the callbacks.

`Model/Master.lean` lists the callbacks a poll makes and assumes that they do nothing to the library. Here each callback is a call of
application code, at the place where the C code makes it, and that code may call the library: the request functions, and (to show what that
does) `update_modbus_master_manager` itself. What the application calls is given as a script: `script[k]` lists the calls made inside the `k`-th
callback of the poll, in order; every application, whatever it decides on, produces some script. The code around a callback reads the library's
state again after it.

Simplification: the callbacks made by a nested `update_modbus_master_manager` call nothing in turn. -/

namespace Modbus

/-- A call of the library from inside a callback. `src/modbus_master.h:32-45`. -/
inductive AppCall where
  /-- one of the eight request functions -/
  | request (r : MReq)
  /-- `update_modbus_master_manager()` -/
  | poll
  deriving DecidableEq

/-- The calls made inside one callback, with what they return or cause. Request functions: `src/modbus_master.c:149-295`;
poll: `src/modbus_master.c:351-374`. -/
def appCalls (cfg : Config) : Master → List AppCall → C (Master × List MOut)
  | s, [] => .ok (s, [])
  | s, .request r :: cs => do
    let (c, s) ← generateRequest cfg s r.param
    let (s, o) ← appCalls cfg s cs
    return (s, .ret c :: o)
  | s, .poll :: cs => do
    let (s, o1) ← masterPoll cfg s
    let (s, o2) ← appCalls cfg s cs
    return (s, o1 ++ o2)

/-- State in the middle of a poll: the library's variables, what the application will do in the callbacks still to come, and what has
been observed so far. Modelling infrastructure, no C counterpart. -/
structure CbState where
  lib : Master
  script : List (List AppCall)
  out : List MOut

/-- One callback: the application sees the event and then makes its calls. The callbacks are those of
`src/modbus_master_data_interface.h:26-42`. -/
def callback (cfg : Config) (e : MEvent) (x : CbState) : C CbState := do
  let (s, o) ← appCalls cfg x.lib (x.script.headD [])
  return { lib := s, script := x.script.tail, out := x.out ++ .event e :: o }

/-- Several callbacks in a row. Modelling infrastructure, no C counterpart. -/
def callbacks (cfg : Config) : List MEvent → CbState → C CbState
  | [], x => .ok x
  | e :: es, x => do
    let x ← callback cfg e x
    callbacks cfg es x

/-- Body of the bit delivering loops, `src/master_internall/modbus_master_PDU.c:593-603` and `:621-631`. The response is read from the message's
buffer in every round. -/
def deliverBitBodyCb (cfg : Config) (i : Nat) (ev : U16 → Bool → MEvent) (adr : U16) (k : Nat) (x : CbState) : C (Ctl CbState Empty) := do
  let b ← rd (x.lib.msgs i).resp (idxRespReadData + k / 8)
  if b &&& BitVec.ofNat 8 (2 ^ (k % 8)) ≠ 0 then do
    let x ← callback cfg (ev (adr + BitVec.ofNat 16 k) true) x
    return .next x
  else do
    let x ← callback cfg (ev (adr + BitVec.ofNat 16 k) false) x
    return .next x

/-- Body of the register delivering loops, `src/master_internall/modbus_master_PDU.c:648-652` and `:669-673`. -/
def deliverRegBodyCb (cfg : Config) (i : Nat) (ev : U16 → U16 → MEvent) (adr : U16) (k : Nat) (x : CbState) : C (Ctl CbState Empty) := do
  let v ← readU16 (x.lib.msgs i).resp (idxRespReadData + k * 2)
  let x ← callback cfg (ev (adr + BitVec.ofNat 16 k) v) x
  return .next x

/-- `update_master_coils_frmo_modbus_msg` and `update_master_dis_in_from_modbus_msg`,
`src/master_internall/modbus_master_PDU.c:591-604` and `:619-632`. -/
def deliverBitsCb (cfg : Config) (qty : U16) (i : Nat) (ev : U16 → Bool → MEvent) (adr : U16) (x : CbState) : C CbState := do
  let c ← forLoop (deliverBitBodyCb cfg i ev adr) qty.toNat 0 x
  return loopOut c

/-- `update_input_reg_from_modbus_msg` and `update_holding_reg_from_modbus_msg`,
`src/master_internall/modbus_master_PDU.c:646-653` and `:667-674`. -/
def deliverRegsCb (cfg : Config) (qty : U16) (i : Nat) (ev : U16 → U16 → MEvent) (adr : U16) (x : CbState) : C CbState := do
  let c ← forLoop (deliverRegBodyCb cfg i ev adr) qty.toNat 0 x
  return loopOut c

/-- `update_master_data_from_modbus_msg`, `src/master_internall/modbus_master_PDU.c:549-577`. -/
def updateMasterDataCb (cfg : Config) (i : Nat) (x : CbState) : C CbState := do
  let slave ← rd (x.lib.msgs i).resp idxSlaveAdr
  let fc ← rd (x.lib.msgs i).resp idxFunctionCode
  let adr ← readU16 (x.lib.msgs i).req idxRequestAdr
  let qty ← readU16 (x.lib.msgs i).req idxRequestQty
  if fc = fcReadCoils then deliverBitsCb cfg qty i (.coilRead slave) adr x
  else if fc = fcReadDiscreteInputs then deliverBitsCb cfg qty i (.disinRead slave) adr x
  else if fc = fcReadInputRegisters then deliverRegsCb cfg qty i (.inregRead slave) adr x
  else if fc = fcReadHoldingRegisters then deliverRegsCb cfg qty i (.hregRead slave) adr x
  else return x

/-- `report_write_operation_confirmation`, `src/master_internall/modbus_master_PDU.c:688-712`: everything is read before the one callback. -/
def reportWriteConfirmationCb (cfg : Config) (i : Nat) (x : CbState) : C CbState := do
  let (_, evs) ← reportWriteConfirmation (x.lib.msgs i)
  callbacks cfg evs x

/-- `process_modbus_exception_code`, `src/master_internall/modbus_master_PDU.c:773-784`: everything is read before the one callback. -/
def processExceptionCb (cfg : Config) (i : Nat) (x : CbState) : C CbState := do
  let (_, evs) ← processException (x.lib.msgs i)
  callbacks cfg evs x

/-- `modbus_master_function_mapper`, `src/master_internall/modbus_master_PDU.c:62-71`, with the one line handlers `:368-475`. -/
def respMapperCb : List (U8 × (Config → Nat → CbState → C CbState)) :=
  [(fcReadCoils, updateMasterDataCb), (fcReadDiscreteInputs, updateMasterDataCb),
   (fcReadHoldingRegisters, updateMasterDataCb), (fcReadInputRegisters, updateMasterDataCb),
   (fcWriteSingleCoil, reportWriteConfirmationCb), (fcWriteSingleRegister, reportWriteConfirmationCb),
   (fcWriteMultipleCoils, reportWriteConfirmationCb), (fcWriteMultipleRegisters, reportWriteConfirmationCb)]

/-- The loop of `process_modbus_response`, `src/master_internall/modbus_master_PDU.c:843-851`. -/
def respMapperLoopCb (cfg : Config) (i : Nat) (fc : U8) (x : CbState) : List (U8 × (Config → Nat → CbState → C CbState)) → C CbState
  | [] => .ok x
  | (c, act) :: rest => if c = fc then act cfg i x else respMapperLoopCb cfg i fc x rest

/-- `modbus_master_read_slave_resp`, `src/master_internall/modbus_master_PDU.c:341-355`, with `process_modbus_response` (`:838-852`). The
message is passed by pointer: message `i` throughout, whatever happens to `msg_buf` meanwhile. -/
def readSlaveRespCb (cfg : Config) (i : Nat) (x : CbState) : C CbState :=
  if RET_OK ≠ checkNullPtr x.lib.dataSet then .ok x
  else do
    if ← respContainsException (x.lib.msgs i) then processExceptionCb cfg i x
    else do
      let fc ← rd (x.lib.msgs i).req idxFunctionCode
      respMapperLoopCb cfg i fc x respMapperCb

/-- `modbus_master_msg_process_end`, `src/modbus_master.c:898-903`. -/
def processEndCb (cfg : Config) (x : CbState) : C CbState := do
  let s ← masterProcessEnd cfg x.lib
  return { x with lib := s }

/-- `modbus_master_msg_recived_correctly_state_handle`, `src/modbus_master.c:811-815`. -/
def masterCorrectCb (cfg : Config) (x : CbState) : C CbState := do
  let x ← (match x.lib.msgBuf with
    | none => .ok x
    | some i => readSlaveRespCb cfg i x : C CbState)
  processEndCb cfg x

/-- The timeout branch of `modbus_master_resp_waiting_state_handling`, `src/modbus_master.c:693-697`, with `modbus_master_resp_timeout_handle`
(`:715-724`). -/
def masterTimeoutCb (cfg : Config) (x : CbState) : C CbState := do
  let e ← masterTimeoutReport x.lib
  let x ← callback cfg e x
  processEndCb cfg x

/-- `modbus_master_resp_waiting_state_handling`, `src/modbus_master.c:688-699`. -/
def masterWaitingCb (cfg : Config) (x : CbState) : C CbState :=
  if x.lib.t15 = .set then do
    let (s, _) ← masterRecv x.lib
    return { x with lib := s }
  else if x.lib.timer = 1 then masterTimeoutCb cfg x
  else .ok x

/-- `modbus_master_RTU_CRC_error_state_handling`, `src/modbus_master.c:831-850`. -/
def masterCrcErrorCb (cfg : Config) (x : CbState) : C CbState := do
  let s := { x.lib with repeatCnt := x.lib.repeatCnt + 1 }
  if s.repeatCnt.toNat ≤ cfg.repeatMax then
    let s ← clearRespLen s
    return { x with lib := { s with st := .repeatRequest, crcf := .cleared } }
  else
    let e ← masterCommReport s .crc
    let x ← callback cfg e { x with lib := s }
    processEndCb cfg x

/-- `modbus_master_frame_error_state_handling`, `src/modbus_master.c:866-885`. -/
def masterFrameErrorCb (cfg : Config) (x : CbState) : C CbState := do
  let s := { x.lib with repeatCnt := x.lib.repeatCnt + 1 }
  if s.repeatCnt.toNat ≤ cfg.repeatMax then
    let s ← clearRespLen s
    return { x with lib := { s with st := .repeatRequest, ferr := .cleared } }
  else
    let e ← masterCommReport s .frame
    let x ← callback cfg e { x with lib := s }
    processEndCb cfg x

/-- `modbus_master_resp_recived_state_handling`, `src/modbus_master.c:782-800`. -/
def masterReceivedCb (cfg : Config) (x : CbState) : C CbState :=
  if x.lib.ferr = .set ∧ x.lib.t35 = .set then masterFrameErrorCb cfg x
  else if x.lib.crcf = .set ∧ x.lib.t35 = .set then masterCrcErrorCb cfg x
  else if x.lib.ferr = .cleared ∧ x.lib.crcf = .cleared ∧ x.lib.t35 = .set then masterCorrectCb cfg x
  else .ok x

/-- `update_modbus_master_manager`, `src/modbus_master.c:351-374`, by an application whose callbacks follow `script`. The other states make
no callbacks. -/
def masterPollCb (cfg : Config) (s : Master) (script : List (List AppCall)) : C (Master × List MOut) :=
  match s.st with
  | .waiting => do
    let x ← masterWaitingCb cfg { lib := s, script := script, out := [] }
    return (x.lib, x.out)
  | .received => do
    let x ← masterReceivedCb cfg { lib := s, script := script, out := [] }
    return (x.lib, x.out)
  | _ => masterPoll cfg s

/-- What can happen to the master: an operation of the base model, or a poll by an application whose callbacks call the library. Modelling
infrastructure, no C counterpart. -/
inductive MCOp where
  | op (o : MOp)
  | pollCb (script : List (List AppCall))
  deriving DecidableEq

/-- One of them. Modelling infrastructure, no C counterpart. -/
def masterCStep (cfg : Config) (s : Master) : MCOp → C (Master × List MOut)
  | .op o => masterStep cfg s o
  | .pollCb script => masterPollCb cfg s script

/-- An execution. Modelling infrastructure, no C counterpart. -/
def masterCRun (cfg : Config) : Master → List MCOp → C (Master × List (MCOp × List MOut))
  | s, [] => .ok (s, [])
  | s, op :: ops => do
    let (s', o) ← masterCStep cfg s op
    let (s'', tr) ← masterCRun cfg s' ops
    return (s'', (op, o) :: tr)

end Modbus
