import Verif.Model.SlavePdu
import Verif.Model.Rtu

/-! Model of `src/modbus_slave.c`: the slave state machine with its driver callbacks.

An execution is a list of operations `SOp`. Simplification (base model): a callback never interrupts
`check_modbus_request` half way; see `Model/Preempt.lean` for interrupted polls. -/

namespace Modbus

/-- `modbus_slave_state_t`, `src/common/modbus_type.h:141-147`. -/
inductive SlaveSt where
  | idle | msgReceived | transmitting | unknown
  deriving DecidableEq, Repr

/-- The statics of `src/modbus_slave.c:35-43`, the two RTU buffers of
`src/slave_internall/modbus_slave_RTU.c:10-11`, and the application data. -/
structure Slave where
  /-- `modbus_slave_ID` -/
  id : U8
  /-- `slave_manager_state_machine` -/
  st : SlaveSt
  /-- `slave_RTU_driver != NULL` -/
  drv : Bool
  /-- `slave_msg_ptr != NULL` -/
  msgPtr : Bool
  /-- `slave_msg.req.data` and `slave_msg.resp.data` point to the RTU buffers (else NULL) -/
  dataSet : Bool
  /-- the driver has been given the callbacks and the receive buffer (`modbus_slave.c:287-292`) -/
  subscribed : Bool
  /-- `slave_RTU_req_buf` -/
  req : Buf
  /-- `slave_msg.req.len` -/
  reqLen : U8
  /-- `slave_RTU_resp_buf` -/
  resp : Buf
  /-- `slave_msg.resp.len` -/
  respLen : U8
  /-- `TIMER_1_5_CHAR_FLAG` -/
  t15 : Flag
  /-- `TIMER_3_5_CHAR_FLAG` -/
  t35 : Flag
  /-- `FRAME_ERROR_FLAG` -/
  ferr : Flag
  /-- `RESP_TRANSMITION_FLAG` -/
  txf : Flag
  /-- tables and application variables -/
  mem : AppMem

/-- Power-on state: `src/modbus_slave.c:35-43` and zero initialised buffers. -/
def Slave.powerOn (mem : AppMem) : Slave :=
  { id := 0, st := .unknown, drv := false, msgPtr := false, dataSet := false, subscribed := false,
    req := Buf.zero, reqLen := 0, resp := Buf.zero, respLen := 0,
    t15 := .unknown, t35 := .unknown, ferr := .unknown, txf := .unknown, mem := mem }

/-- Which table a registration call addresses, `src/modbus_slave.c:66-108`. -/
inductive TabSel where
  | coils | dins | inregs | hregs
  deriving DecidableEq, Repr

/-- Operations visible at the slave's interfaces. Public functions: `src/modbus_slave.c:66-157`; driver callbacks: `:327-363`. -/
inductive SOp where
  /-- `modbus_slave_init(mode, baud, parity, id)` -/
  | init (mode : Mode) (id : U8)
  /-- `check_modbus_request()` -/
  | poll
  /-- driver calls the 1.5 char callback -/
  | t15
  /-- driver calls the 3.5 char callback -/
  | t35
  /-- driver calls the frame error callback -/
  | frameErr
  /-- driver calls the transmission complete callback -/
  | txDone
  /-- driver stores a received byte -/
  | rxByte (b : U8)
  /-- `register_app_data_to_modbus_slave_…_table(adr, ptr)` -/
  | register (tab : TabSel) (adr : U16) (p : Option Ptr)
  /-- the application changes one of its Boolean variables -/
  | appBool (p : Ptr) (v : Bool)
  /-- the application changes one of its 16 bit variables -/
  | appReg (p : Ptr) (v : U16)
  deriving DecidableEq

/-- Observable output: `slave_RTU_driver->send(data, len)`, recorded as the bytes to be sent. `src/modbus_slave.c:197`. -/
inductive SOut where
  | send (bytes : List U8)
  deriving DecidableEq, Repr

/-- `modbus_slave_init`, `src/modbus_slave.c:121-126` with `:249-319`. The message lengths are not reset.
The driver's own `init(baud, parity)` (hardware) is not modelled. -/
def slaveInit (s : Slave) (mode : Mode) (id : U8) : Slave :=
  { s with
    msgPtr := true,
    dataSet := if mode = .rtu then true else s.dataSet,
    drv := decide (mode = .rtu),
    subscribed := if mode = .rtu then true else s.subscribed,
    id := id, st := .idle,
    t15 := .cleared, t35 := .cleared, ferr := .cleared, txf := .cleared }

/-- `slave_msg.req.data` as a possibly NULL pointer. `src/modbus_slave.c:267`. -/
def Slave.reqData (s : Slave) : Option Buf := if s.dataSet then some s.req else none
/-- `slave_msg.resp.data` as a possibly NULL pointer. `src/modbus_slave.c:268`. -/
def Slave.respData (s : Slave) : Option Buf := if s.dataSet then some s.resp else none

/-- `handle_modbus_slave_idle_state`, `src/modbus_slave.c:162-175`. -/
def slaveIdle (s : Slave) : C (Slave × List SOut) :=
  if s.t15 = .set then
    if s.msgPtr then do
      let r ← rtuRecv s.reqData s.reqLen s.id
      return ({ s with t15 := .cleared, ferr := if r ≠ RET_OK then .set else s.ferr, st := .msgReceived }, [])
    else .error .nullDeref
  else .ok (s, [])

/-- `parse_master_request_and_prepare_resp(slave_msg_ptr)` including its NULL checks,
`src/slave_internall/modbus_slave_PDU.c:80-109` (the return value is ignored by the caller,
`src/modbus_slave.c:195`). -/
def slaveParse (cfg : Config) (s : Slave) : C Slave :=
  if s.msgPtr = false ∨ s.dataSet = false then .ok s
  else do
    let (_, p) ← parseRequest cfg { req := s.req, resp := s.resp, respLen := s.respLen, mem := s.mem }
    return { s with req := p.req, resp := p.resp, respLen := p.respLen, mem := p.mem }

/-- `modbus_RTU_send(slave_msg_ptr->resp.data, &slave_msg_ptr->resp.len, modbus_slave_ID)`,
`src/modbus_slave.c:196` (return value ignored). -/
def slaveFrame (s : Slave) : C Slave :=
  if s.msgPtr then do
    let (_, b, l) ← rtuSend s.respData s.respLen s.id
    return { s with resp := b.getD s.resp, respLen := l }
  else .error .nullDeref

/-- `slave_RTU_driver->send(slave_msg_ptr->resp.data, slave_msg_ptr->resp.len)`, `src/modbus_slave.c:197`:
the output records the bytes handed over. A NULL driver or a NULL data buffer is UB. -/
def slaveDriverSend (s : Slave) : C (List SOut) :=
  if s.drv = false then .error .nullDeref
  else if s.dataSet = false then .error .nullDeref
  else .ok [.send (s.resp.bytes 0 s.respLen.toNat)]

/-- `handle_modbus_slave_msg_recived_state`, `src/modbus_slave.c:184-206`. -/
def slaveMsgReceived (cfg : Config) (s : Slave) : C (Slave × List SOut) :=
  if s.ferr = .set ∧ s.t35 = .set then
    if s.msgPtr then
      .ok ({ s with reqLen := 0, st := .idle, ferr := .cleared, t35 := .cleared }, [])
    else .error .nullDeref
  else if s.ferr = .cleared ∧ s.t35 = .set then do
    let s ← slaveParse cfg s
    let s ← slaveFrame s
    let out ← slaveDriverSend s
    return ({ s with txf := .set, st := .transmitting, t35 := .cleared }, out)
  else .ok (s, [])

/-- `handle_modbus_slave_transmitting_resp_state`, `src/modbus_slave.c:214-222`. -/
def slaveTransmitting (s : Slave) : C (Slave × List SOut) :=
  if s.txf = .cleared then
    if s.msgPtr then .ok ({ s with st := .idle, respLen := 0, reqLen := 0 }, [])
    else .error .nullDeref
  else .ok (s, [])

/-- `handle_modbus_slave_default_state`, `src/modbus_slave.c:230-239`. -/
def slaveDefault (s : Slave) : C (Slave × List SOut) :=
  if s.msgPtr then
    .ok ({ s with st := .idle, t15 := .cleared, t35 := .cleared, ferr := .cleared, txf := .cleared,
                  respLen := 0, reqLen := 0 }, [])
  else .error .nullDeref

/-- `check_modbus_request`, `src/modbus_slave.c:137-154`. -/
def slavePoll (cfg : Config) (s : Slave) : C (Slave × List SOut) :=
  match s.st with
  | .idle => slaveIdle s
  | .msgReceived => slaveMsgReceived cfg s
  | .transmitting => slaveTransmitting s
  | .unknown => slaveDefault s

/-- Registration, `src/modbus_slave.c:66-108`. -/
def slaveRegister (cfg : Config) (m : AppMem) (tab : TabSel) (adr : U16) (p : Option Ptr) : C AppMem :=
  match tab with
  | .coils => do return { m with coils := ← registerAt (tableSize cfg.coilsQty) m.coils adr p }
  | .dins => do return { m with dins := ← registerAt (tableSize cfg.dinQty) m.dins adr p }
  | .inregs => do return { m with inregs := ← registerAt (tableSize cfg.inregQty) m.inregs adr p }
  | .hregs => do return { m with hregs := ← registerAt (tableSize cfg.hregQty) m.hregs adr p }

/-- One operation. The callbacks of `src/modbus_slave.c:327-363` only exist for the driver after it has been
subscribed; a driver event before that has no effect on the library. Reception of a byte follows the
contract used by the example driver
(`examples/STM32G070RB_MODBUS_SLAVE/Core/Src/modbus_driver_interface.c:113-128`): `data[len] = b; len++` with
`len` a `uint8_t`. -/
def slaveStep (cfg : Config) (s : Slave) : SOp → C (Slave × List SOut)
  | .init mode id => .ok (slaveInit s mode id, [])
  | .poll => slavePoll cfg s
  | .t15 => .ok (if s.subscribed then { s with t15 := .set } else s, [])
  | .t35 => .ok (if s.subscribed then { s with t35 := .set } else s, [])
  | .frameErr => .ok (if s.subscribed then { s with ferr := .set } else s, [])
  | .txDone => .ok (if s.subscribed then { s with txf := .cleared } else s, [])
  | .rxByte b =>
    if s.subscribed then do
      let req ← wr s.req s.reqLen.toNat b
      return ({ s with req := req, reqLen := s.reqLen + 1 }, [])
    else .ok (s, [])
  | .register tab adr p => do
    let m ← slaveRegister cfg s.mem tab adr p
    return ({ s with mem := m }, [])
  | .appBool p v => .ok ({ s with mem := { s.mem with bools := fun q => if q = p then v else s.mem.bools q } }, [])
  | .appReg p v => .ok ({ s with mem := { s.mem with regs := fun q => if q = p then v else s.mem.regs q } }, [])

/-- An execution: the operations one after the other, outputs concatenated. Modelling infrastructure, no C counterpart. -/
def slaveRun (cfg : Config) : Slave → List SOp → C (Slave × List SOut)
  | s, [] => .ok (s, [])
  | s, op :: ops => do
    let (s', o) ← slaveStep cfg s op
    let (s'', os) ← slaveRun cfg s' ops
    return (s'', o ++ os)

end Modbus
