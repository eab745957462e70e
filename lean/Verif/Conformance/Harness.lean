import Verif.Model.Slave
import Verif.Model.Master

/-! Replay of the repository's own unit tests (`/repo/test/modbus/*_test.c`) against the model.

These are tests of the model, not proofs of properties: they show that the definitions of `Verif.Model` give the values the
authors' tests expect of the C code. Each test starts from the power-on state followed by the group's set-up code (the C
tests run one after the other in one process). Names in comments are the line of the `TEST(...)` in the C file. -/

namespace Modbus.Conformance

/-- The configuration of the unit tests: `src/modbus_config.h:26-28` and
`test/modbus/modbus_unit_test_config.h:21-24`. -/
def cfg : Config :=
  { coilsQty := 2001, dinQty := 2001, inregQty := 126, hregQty := 126, queueItems := 5, respTimeout := 1000, repeatMax := 3 }

/-- Did the code run without undefined behaviour, ending in a state that passes the check? -/
def holds {α : Type} (x : C α) (p : α → Bool) : Bool :=
  match x with
  | .ok a => p a
  | .error _ => false

/-- A buffer with the given first bytes. -/
def bufOf (bs : List U8) : Buf := fun i => bs.getD i 0

/-- The slave's application variables of `test/modbus/mock_slave_app_data.c`: coil `i` is boolean `i`, discrete input `i`
boolean `3000 + i`, holding register `i` word `i`, input register `i` word `3000 + i`. -/
def fullMem : AppMem :=
  { coils := fun i => if i < 2001 then some i else none, dins := fun i => if i < 2001 then some (3000 + i) else none,
    hregs := fun i => if i < 126 then some i else none, inregs := fun i => if i < 126 then some (3000 + i) else none,
    bools := fun _ => false, regs := fun _ => 0 }

/-- Give booleans `base, base+1, …` these values. -/
def setBools (m : AppMem) (base : Nat) (l : List Bool) : AppMem :=
  { m with bools := fun p => if base ≤ p ∧ p < base + l.length then l.getD (p - base) false else m.bools p }

/-- Give words `base, base+1, …` these values. -/
def setRegs (m : AppMem) (base : Nat) (l : List U16) : AppMem :=
  { m with regs := fun p => if base ≤ p ∧ p < base + l.length then l.getD (p - base) 0 else m.regs p }

/-- The first `n` of `v, ¬v, v, …` (`mock_set_expected_slave_coils_alternately` and friends). -/
def alternating (v : Bool) : Nat → List Bool
  | 0 => []
  | n + 1 => v :: alternating (!v) n

/-! ## The world of `master_RTU_test.c` -/

/-- The master, the slave's memory and what the master told the application. -/
structure W where
  m : Master
  mem : AppMem
  outs : List MOut

/-- One action of a test. -/
inductive T where
  /-- a call or driver event of the master -/
  | op (o : MOp)
  /-- `parse_master_request_and_prepare_resp(msg_buf)` and `modbus_RTU_send` of the response -/
  | resp (id : U8)
  /-- `memcpy(msg_buf->resp.data, …)`, `msg_buf->resp.len = …` -/
  | respIs (bs : List U8)
  /-- `msg_buf->resp.data[i] = v` -/
  | poke (i : Nat) (v : U8)
  /-- `set_new_CRC_val(&msg_buf->resp, 0)` -/
  | zeroCrc
  /-- `modbus_master_resp_timeout_timer = n` -/
  | timer (n : Nat)

/-- Edit the current message; the test dereferences `msg_buf`. -/
def onMsg (w : W) (f : MMsg → C MMsg) : C W :=
  match w.m.msgBuf with
  | none => .error .nullDeref
  | some i => do
    let x ← f (w.m.msgs i)
    return { w with m := { w.m with msgs := setMsg w.m.msgs i x } }

/-- Perform one action. -/
def act (w : W) : T → C W
  | .op o => do
    let (m, out) ← masterStep cfg w.m o
    return { w with m := m, outs := w.outs ++ out }
  | .resp id =>
    match w.m.msgBuf with
    | none => .error .nullDeref
    | some i => do
      let x := w.m.msgs i
      let (_, p) ← parseRequest cfg { req := x.req, resp := x.resp, respLen := x.respLen, mem := w.mem }
      let (_, b, l) ← rtuSend (some p.resp) p.respLen id
      return { w with mem := p.mem, m := { w.m with msgs := setMsg w.m.msgs i { x with resp := b.getD p.resp, respLen := l } } }
  | .respIs bs => onMsg w fun x => .ok { x with resp := bufOf bs, respLen := BitVec.ofNat 8 bs.length }
  | .poke i v => onMsg w fun x => do
    let r ← wr x.resp i v
    return { x with resp := r }
  | .zeroCrc => onMsg w fun x => do
    let r ← wr x.resp (x.respLen.toNat - 2) 0
    let r ← wr r (x.respLen.toNat - 1) 0
    return { x with resp := r }
  | .timer n => .ok { w with m := { w.m with timer := n } }

/-- Perform a list of actions. -/
def acts (w : W) : List T → C W
  | [] => .ok w
  | t :: ts => do
    let w ← act w t
    acts w ts

/-- `update_modbus_master_manager()`. -/
def p : List T := [.op .poll]

/-- `generate_send_req_sequence`, `master_RTU_test.c`. -/
def sendSeq : List T := p ++ p ++ [.op .txDone] ++ p ++ p
/-- `generate_resp_using_slave_lib`. -/
def respSeq (id : U8) : List T := [.resp id] ++ p ++ p
/-- `generate_msg_T_1_5_char_brake_sequence`. -/
def t15Seq : List T := [.op .t15] ++ p ++ p
/-- `generate_msg_T_3_5_char_brake_sequence`. -/
def t35Seq : List T := [.op .t35] ++ p
/-- `generate_read_frame_error_catch_sequance(id, n)`. -/
def frameErrSeq (id : U8) : Nat → List T
  | 0 => []
  | n + 1 => sendSeq ++ respSeq id ++ t15Seq ++ [.op .frameErr] ++ t35Seq ++ frameErrSeq id n
/-- `generate_read_rtu_crc_error_catch_sequance(id, n)`. -/
def crcErrSeq (id : U8) : Nat → List T
  | 0 => []
  | n + 1 => sendSeq ++ respSeq id ++ [.zeroCrc] ++ t15Seq ++ t35Seq ++ crcErrSeq id n
/-- `generate_send_req_read_resp_msg_sequance(id)`. -/
def exchange (id : U8) : List T := sendSeq ++ respSeq id ++ t15Seq ++ t35Seq

/-- `modbus_master_read_coils(adr, qty, id)`. -/
def readCoils (adr qty : U16) (id : U8) : List T := [.op (.request (.readCoils adr qty id))]

/-- Run a test: power-on, `modbus_master_init(RTU, …)`, the actions. -/
def test (mem : AppMem) (ts : List T) : C W := acts { m := Master.powerOn, mem := mem, outs := [] } (.op (.init .rtu) :: ts)

/-- `msg_buf->…`, with a default when NULL. -/
def W.msg (w : W) : MMsg := match w.m.msgBuf with
  | some i => w.m.msgs i
  | none => MMsg.zero

/-- The events the application was told, in order. -/
def W.events (w : W) : List MEvent := w.outs.filterMap fun o => match o with
  | .event e => some e
  | _ => none

/-- `mock_master_coil_data[adr]`: the last coil value delivered for this address. -/
def W.coil (w : W) (adr : U16) : Bool := w.events.foldl (fun v e => match e with
  | .coilRead _ a b => if a = adr then b else v
  | _ => v) false

/-- `mock_master_holding_reg[adr]`. -/
def W.hreg (w : W) (adr : U16) : U16 := w.events.foldl (fun v e => match e with
  | .hregRead _ a b => if a = adr then b else v
  | _ => v) 0

end Modbus.Conformance
