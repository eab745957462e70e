import Verif.Conformance.Harness

/-! Replay of `slave_RTU_init_test.c`, `slave_RTU_test.c`, `slave_PDU_resp_test.c`, `slave_PDU_exception_code_test.c` and
`master_PDU_read_test.c` (`/repo/test/modbus`). Line numbers are those of `TEST(...)`. Omitted: assertions on the mock UART;
NULL pointers passed to `parse_master_request_and_prepare_resp` (`slave_PDU_resp_test.c:38,44,56`), which no caller does. -/

namespace Modbus.Conformance

/-! ## `slave_RTU_init_test.c` -/

-- 38, 45, 51
example : (slaveInit (Slave.powerOn fullMem) .rtu 0x12).dataSet = true := by decide +kernel
example : (slaveInit (Slave.powerOn fullMem) .rtu 0x12).drv = true := by decide +kernel
example : (slaveInit (Slave.powerOn fullMem) .unknownMode 0).drv = false := by decide +kernel
-- 69, 84–117 (callbacks), 120, 131, 142
example : (let s := slaveInit (Slave.powerOn fullMem) .rtu 0x12
    decide (s.st = .idle) && s.subscribed && decide (s.id = 0x12) && decide (s.t15 = .cleared) && decide (s.t35 = .cleared) &&
    decide (s.ferr = .cleared) && decide (s.txf = .cleared)) = true := by decide +kernel

/-! ## `slave_RTU_test.c` -/

/-- The initialised slave. -/
def sl : Slave := slaveInit (Slave.powerOn fullMem) .rtu 0x12

-- 32
example : holds (slaveStep cfg { sl with st := .unknown } .poll) (fun x => decide (x.1.st = .idle)) = true := by decide +kernel
-- 39, 49, 59, 69
example : holds (slaveStep cfg sl (.register .coils 3 (some 7777))) (fun x => decide (x.1.mem.coils 3 = some 7777)) = true := by decide +kernel
example : holds (slaveStep cfg sl (.register .dins 3 (some 7777))) (fun x => decide (x.1.mem.dins 3 = some 7777)) = true := by decide +kernel
example : holds (slaveStep cfg sl (.register .inregs 3 (some 7777))) (fun x => decide (x.1.mem.inregs 3 = some 7777)) = true := by decide +kernel
example : holds (slaveStep cfg sl (.register .hregs 3 (some 7777))) (fun x => decide (x.1.mem.hregs 3 = some 7777)) = true := by decide +kernel

/-- The request frame the tests put into the slave's buffer (`modbus_master_read_coils_req`, `modbus_RTU_send`), its CRC changed
by `d`; coils 1 and 2 on. -/
def given (id : U8) (d : U8) : C Slave := do
  let (_, x) ← readCoilsReq true MMsg.zero { fc := 0, adr := 1, qty := 2, slaveId := 0, coil := false, coils := none, reg := 0, regs := none }
  let (_, b, l) ← rtuSend (some x.req) x.reqLen id
  let b := b.getD Buf.zero
  let b ← wr b (l.toNat - 1) (b (l.toNat - 1) + d)
  return { sl with req := b, reqLen := l, mem := setBools fullMem 1 [true, true] }

/-- Run these operations; the check sees the final state and what was sent. -/
def after (s : C Slave) (l : List SOp) (p : Slave → List SOut → Bool) : Bool :=
  holds (do let s ← s; slaveRun cfg s l) (fun x => p x.1 x.2)

-- 79, 119
example : after (given 0x99 0) [.t15] (fun s _ => decide (s.st = .idle)) = true := by decide +kernel
example : after (given 0x99 0) [.t15, .poll] (fun s _ => decide (s.st = .msgReceived)) = true := by decide +kernel
example : after (given 0x12 0) [.t15, .poll] (fun s _ => decide (s.st = .msgReceived)) = true := by decide +kernel
-- 98: another slave's frame
example : after (given 0x99 0) [.t15, .poll, .poll, .poll, .t35, .poll] (fun s o =>
    decide (s.st = .idle) && decide (s.reqLen = 0) && decide (o = [])) = true := by decide +kernel
-- 135: a character between T1.5 and T3.5
example : after (given 0x12 0) [.t15, .poll, .poll, .frameErr, .poll, .t35, .poll] (fun s o =>
    decide (s.st = .idle) && decide (o = [])) = true := by decide +kernel
-- 160: wrong CRC
example : after (given 0x12 1) [.t15, .poll, .poll, .poll, .t35, .poll] (fun s o =>
    decide (s.st = .idle) && decide (o = [])) = true := by decide +kernel
-- 187, 218: the response
example : after (given 0x12 0) [.t15, .poll, .poll, .poll, .t35, .poll] (fun s o =>
    decide (s.st = .transmitting) && decide (o = [.send [0x12, 0x01, 0x01, 0x03, 0x15, 0x0D]]) &&
    decide (s.resp.bytes 0 6 = [0x12, 0x01, 0x01, 0x03, 0x15, 0x0D])) = true := by decide +kernel
-- 251
example : after (given 0x12 0) [.t15, .poll, .poll, .poll, .t35, .poll, .txDone, .poll] (fun s _ =>
    decide (s.st = .idle) && decide (s.reqLen = 0) && decide (s.respLen = 0)) = true := by decide +kernel

/-! ## `slave_PDU_resp_test.c` -/

/-- The parameters. -/
def pr (adr qty : U16) (reg : U16 := 0) (coil : Bool := false) (regs : Option (List U16) := none) (coils : Option (List Bool) := none) : ReqParam :=
  { fc := 0, adr := adr, qty := qty, slaveId := 0, coil := coil, coils := coils, reg := reg, regs := regs }

/-- A request built by the master library, edited, parsed by the slave library; response bytes from the function code on. -/
def answer (f : Bool → MMsg → ReqParam → C (Ret × MMsg)) (x : ReqParam) (edit : Buf → C Buf) (mem : AppMem) : C Pdu := do
  let (_, m) ← f true MMsg.zero x
  let b ← edit m.req
  let (_, p) ← parseRequest cfg { req := b, resp := Buf.zero, respLen := 0, mem := mem }
  return p

/-- The response is these bytes after the address byte, and its length accordingly. -/
def answers (f : Bool → MMsg → ReqParam → C (Ret × MMsg)) (x : ReqParam) (mem : AppMem) (bs : List U8) : Bool :=
  holds (answer f x .ok mem) (fun p => decide (p.resp.bytes 1 bs.length = bs) && decide (p.respLen.toNat = bs.length + 1))
/-- Coils `0, 1, …` afterwards. -/
def coilsAre (f : Bool → MMsg → ReqParam → C (Ret × MMsg)) (x : ReqParam) (mem : AppMem) (l : List Bool) : Bool :=
  holds (answer f x .ok mem) (fun p => decide ((List.range l.length).map p.mem.bools = l))
/-- Holding registers `0, 1, …` afterwards. -/
def hregsAre (f : Bool → MMsg → ReqParam → C (Ret × MMsg)) (x : ReqParam) (mem : AppMem) (l : List U16) : Bool :=
  holds (answer f x .ok mem) (fun p => decide ((List.range l.length).map p.mem.regs = l))

/-- Coils `0…` alternate. -/
def altCoils (n : Nat) : AppMem := setBools fullMem 0 (alternating true n)
/-- Discrete inputs `0…` alternate. -/
def altDins (n : Nat) : AppMem := setBools fullMem 3000 (alternating true n)

-- 69, 90, 111, 132, 153
example : answers readCoilsReq (pr 0 5) (altCoils 5) [0x01, 0x01, 0x15] = true := by decide +kernel
example : answers readCoilsReq (pr 0 8) (altCoils 8) [0x01, 0x01, 0x55] = true := by decide +kernel
example : answers readCoilsReq (pr 0 9) (altCoils 9) [0x01, 0x02, 0x55, 0x01] = true := by decide +kernel
example : answers readCoilsReq (pr 0 16) (altCoils 16) [0x01, 0x02, 0x55, 0x55] = true := by decide +kernel
example : answers readCoilsReq (pr 0 17) (altCoils 17) [0x01, 0x03, 0x55, 0x55, 0x01] = true := by decide +kernel
-- 175, 194, 213, 233, 254
example : answers readDiscreteInputsReq (pr 0 5) (altDins 5) [0x02, 0x01, 0x15] = true := by decide +kernel
example : answers readDiscreteInputsReq (pr 0 8) (altDins 8) [0x02, 0x01, 0x55] = true := by decide +kernel
example : answers readDiscreteInputsReq (pr 0 9) (altDins 9) [0x02, 0x02, 0x55, 0x01] = true := by decide +kernel
example : answers readDiscreteInputsReq (pr 0 16) (altDins 16) [0x02, 0x02, 0x55, 0x55] = true := by decide +kernel
example : answers readDiscreteInputsReq (pr 0 17) (altDins 17) [0x02, 0x03, 0x55, 0x55, 0x01] = true := by decide +kernel
-- 276, 296
example : answers readHoldingRegReq (pr 0 1) (setRegs fullMem 0 [0xA55A]) [0x03, 0x02, 0xA5, 0x5A] = true := by decide +kernel
example : answers readHoldingRegReq (pr 0 3) (setRegs fullMem 0 [0xA55A, 0x5AA5, 0xA55A])
    [0x03, 0x06, 0xA5, 0x5A, 0x5A, 0xA5, 0xA5, 0x5A] = true := by decide +kernel
-- 319, 339
example : answers readInputRegReq (pr 0 1) (setRegs fullMem 3000 [0xA55A]) [0x04, 0x02, 0xA5, 0x5A] = true := by decide +kernel
example : answers readInputRegReq (pr 0 3) (setRegs fullMem 3000 [0xA55A, 0x5AA5, 0xA55A])
    [0x04, 0x06, 0xA5, 0x5A, 0x5A, 0xA5, 0xA5, 0x5A] = true := by decide +kernel
-- 362, 381
example : answers writeSingleCoilReq (pr 0 0 0 true) fullMem [0x05, 0x00, 0x00, 0xFF, 0x00] = true := by decide +kernel
example : coilsAre writeSingleCoilReq (pr 1 0 0 true) fullMem [false, true, false] = true := by decide +kernel
-- 399, 421
example : answers writeMultipleCoilsReq (pr 0 5 (coils := some (alternating true 5))) fullMem [0x0F, 0x00, 0x00, 0x00, 0x05] = true := by
  decide +kernel
example : coilsAre writeMultipleCoilsReq (pr 0 5 (coils := some (alternating true 5))) fullMem
    (alternating true 5 ++ List.replicate 11 false) = true := by decide +kernel
-- 448, 469
example : answers writeMultipleCoilsReq (pr 0 8 (coils := some (alternating true 8))) fullMem [0x0F, 0x00, 0x00, 0x00, 0x08] = true := by
  decide +kernel
example : coilsAre writeMultipleCoilsReq (pr 0 8 (coils := some (alternating true 8))) fullMem
    (alternating true 8 ++ List.replicate 8 false) = true := by decide +kernel
-- 494, 516
example : answers writeMultipleCoilsReq (pr 0 9 (coils := some (alternating true 9))) fullMem [0x0F, 0x00, 0x00, 0x00, 0x09] = true := by
  decide +kernel
example : coilsAre writeMultipleCoilsReq (pr 0 9 (coils := some (alternating true 9))) fullMem
    (alternating true 9 ++ List.replicate 8 false) = true := by decide +kernel
-- 550, 572
example : answers writeMultipleCoilsReq (pr 0 16 (coils := some (alternating true 16))) fullMem [0x0F, 0x00, 0x00, 0x00, 0x10] = true := by
  decide +kernel
example : coilsAre writeMultipleCoilsReq (pr 0 16 (coils := some (alternating true 16))) fullMem
    (alternating true 16 ++ List.replicate 8 false) = true := by decide +kernel
-- 606, 628
example : answers writeMultipleCoilsReq (pr 0 17 (coils := some (alternating true 17))) fullMem [0x0F, 0x00, 0x00, 0x00, 0x11] = true := by
  decide +kernel
example : coilsAre writeMultipleCoilsReq (pr 0 17 (coils := some (alternating true 17))) fullMem
    (alternating true 17 ++ List.replicate 7 false) = true := by decide +kernel
-- 672, 689, 707, 729
example : answers writeSingleRegReq (pr 0 0 0x5A5A) fullMem [0x06, 0x00, 0x00, 0x5A, 0x5A] = true := by decide +kernel
example : hregsAre writeSingleRegReq (pr 1 0 0x5A5A) fullMem [0, 0x5A5A, 0] = true := by decide +kernel
example : answers writeMultipleRegReq (pr 1 3 (regs := some [0x5A5A, 0xA5A5, 0x5A5A])) fullMem [0x10, 0x00, 0x01, 0x00, 0x03] = true := by
  decide +kernel
example : hregsAre writeMultipleRegReq (pr 1 3 (regs := some [0x5A5A, 0xA5A5, 0x5A5A])) fullMem [0, 0x5A5A, 0xA5A5, 0x5A5A, 0] = true := by
  decide +kernel

/-! ## `slave_PDU_exception_code_test.c` -/

/-- The (edited) request is answered by this exception: the two bytes after the address, length 3. -/
def except (f : Bool → MMsg → ReqParam → C (Ret × MMsg)) (x : ReqParam) (edit : Buf → C Buf) (mem : AppMem) (fc code : U8) : Bool :=
  holds (answer f x edit mem) (fun p => decide (p.resp.bytes 1 2 = [fc, code]) && decide (p.respLen = 3))
/-- `increase_obj_qty_in_req_frame` -/
def incQty (b : Buf) : C Buf := do let q ← readU16 b 4; writeU16 b 4 (q + 1)
/-- `set_zero_obj_qty_in_req_frame` -/
def zeroQty (b : Buf) : C Buf := writeU16 b 4 0
/-- `set_out_of_range_obj_adress` -/
def adrTo (a : U16) (b : Buf) : C Buf := writeU16 b 2 a
/-- `increase_byte_count_in_req_frame` -/
def incBytes (b : Buf) : C Buf := wr b 6 (b 6 + 1)
/-- `mock_clear_modbus_slave_…_data_table` -/
def cleared : AppMem := AppMem.empty

-- 38: unsupported function code
example : holds (parseRequest cfg { req := bufOf [0x01, 0x07, 0x41, 0xE2], resp := Buf.zero, respLen := 0, mem := fullMem })
    (fun x => decide (x.2.resp.bytes 1 2 = [0x87, 0x01]) && decide (x.2.respLen = 3)) = true := by decide +kernel
-- 56, 74, 92, 110, 126
example : except readCoilsReq (pr 0 2000) incQty fullMem 0x81 3 = true := by decide +kernel
example : except readCoilsReq (pr 0 2000) zeroQty fullMem 0x81 3 = true := by decide +kernel
example : except readCoilsReq (pr 0 1) (adrTo 2001) fullMem 0x81 2 = true := by decide +kernel
example : except readCoilsReq (pr 2000 2) .ok fullMem 0x81 2 = true := by decide +kernel
example : except readCoilsReq (pr 1 4) .ok cleared 0x81 4 = true := by decide +kernel
-- 145, 162, 180, 198, 214
example : except readDiscreteInputsReq (pr 0 2000) incQty fullMem 0x82 3 = true := by decide +kernel
example : except readDiscreteInputsReq (pr 0 2000) zeroQty fullMem 0x82 3 = true := by decide +kernel
example : except readDiscreteInputsReq (pr 0 1) (adrTo 2001) fullMem 0x82 2 = true := by decide +kernel
example : except readDiscreteInputsReq (pr 2000 2) .ok fullMem 0x82 2 = true := by decide +kernel
example : except readDiscreteInputsReq (pr 1 4) .ok cleared 0x82 4 = true := by decide +kernel
-- 233, 250, 268, 285, 301
example : except readInputRegReq (pr 0 125) incQty fullMem 0x84 3 = true := by decide +kernel
example : except readInputRegReq (pr 0 125) zeroQty fullMem 0x84 3 = true := by decide +kernel
example : except readInputRegReq (pr 0 1) (adrTo 126) fullMem 0x84 2 = true := by decide +kernel
example : except readInputRegReq (pr 125 2) .ok fullMem 0x84 2 = true := by decide +kernel
example : except readInputRegReq (pr 1 4) .ok cleared 0x84 4 = true := by decide +kernel
-- 321, 339, 357, 375, 391
example : except readHoldingRegReq (pr 0 125) incQty fullMem 0x83 3 = true := by decide +kernel
example : except readHoldingRegReq (pr 0 125) zeroQty fullMem 0x83 3 = true := by decide +kernel
example : except readHoldingRegReq (pr 0 1) (adrTo 126) fullMem 0x83 2 = true := by decide +kernel
example : except readHoldingRegReq (pr 125 2) .ok fullMem 0x83 2 = true := by decide +kernel
example : except readHoldingRegReq (pr 1 4) .ok cleared 0x83 4 = true := by decide +kernel
-- 411, 432, 450
example : except writeSingleCoilReq (pr 0 0 0 true) (fun b => writeU16 b 4 0xFFFF) fullMem 0x85 3 = true := by decide +kernel
example : except writeSingleCoilReq (pr 0 0 0 true) (adrTo 2001) fullMem 0x85 2 = true := by decide +kernel
example : except writeSingleCoilReq (pr 1 0 0 true) .ok cleared 0x85 4 = true := by decide +kernel
-- 483, 502
example : except writeSingleRegReq (pr 0 0 0x5A5A) (adrTo 126) fullMem 0x86 2 = true := by decide +kernel
example : except writeSingleRegReq (pr 1 0 0x5A5A) .ok cleared 0x86 4 = true := by decide +kernel
/-- `modbus_coil_disin_t coil_2_write[20] = {!!COIL_ON}` -/
def c20 : Option (List Bool) := some (true :: List.replicate 19 false)
/-- `modbus_reg_t hreg_2_write[20] = {0x5a5a}` -/
def r20 : Option (List U16) := some (0x5A5A :: List.replicate 19 0)
-- 521 (the quantity set to the limit + 1 in the frame), 541, 562, 583, 603, 622
example : except writeMultipleCoilsReq (pr 0 20 (coils := c20)) (fun b => writeU16 b 4 1969) fullMem 0x8F 3 = true := by decide +kernel
example : except writeMultipleCoilsReq (pr 0 20 (coils := c20)) zeroQty fullMem 0x8F 3 = true := by decide +kernel
example : except writeMultipleCoilsReq (pr 0 20 (coils := c20)) incBytes fullMem 0x8F 3 = true := by decide +kernel
example : except writeMultipleCoilsReq (pr 0 20 (coils := c20)) (adrTo 2001) fullMem 0x8F 2 = true := by decide +kernel
example : except writeMultipleCoilsReq (pr 2000 2 (coils := c20)) .ok fullMem 0x8F 2 = true := by decide +kernel
example : except writeMultipleCoilsReq (pr 1 4 (coils := c20)) .ok cleared 0x8F 4 = true := by decide +kernel
-- 643, 663, 684, 705, 725, 744
example : except writeMultipleRegReq (pr 0 20 (regs := r20)) (fun b => writeU16 b 4 124) fullMem 0x90 3 = true := by decide +kernel
example : except writeMultipleRegReq (pr 0 20 (regs := r20)) zeroQty fullMem 0x90 3 = true := by decide +kernel
example : except writeMultipleRegReq (pr 0 20 (regs := r20)) incBytes fullMem 0x90 3 = true := by decide +kernel
example : except writeMultipleRegReq (pr 0 20 (regs := r20)) (adrTo 126) fullMem 0x90 2 = true := by decide +kernel
example : except writeMultipleRegReq (pr 125 2 (regs := r20)) .ok fullMem 0x90 2 = true := by decide +kernel
example : except writeMultipleRegReq (pr 1 4 (regs := r20)) .ok cleared 0x90 4 = true := by decide +kernel

/-! ## `master_PDU_read_test.c` -/

/-- Request, slave's response, `modbus_master_read_slave_resp`: the application is told exactly these events. -/
def tells (f : Bool → MMsg → ReqParam → C (Ret × MMsg)) (x : ReqParam) (mem : AppMem) (es : List MEvent) : Bool :=
  holds (do
    let (_, m) ← f true MMsg.zero x
    let (_, p) ← parseRequest cfg { req := m.req, resp := Buf.zero, respLen := 0, mem := mem }
    readSlaveResp true { m with resp := p.resp, respLen := p.respLen }) (fun r => decide (r.2 = es))

/-- One event for each of the values, at consecutive addresses. -/
def each {α : Type} (ev : U16 → α → MEvent) : Nat → List α → List MEvent
  | _, [] => []
  | a, v :: l => ev (BitVec.ofNat 16 a) v :: each ev (a + 1) l
/-- `v, ~v, v, …` -/
def altRegs (v : U16) : Nat → List U16
  | 0 => []
  | n + 1 => v :: altRegs (~~~v) n

-- 58–93
example : holds (readSlaveResp false MMsg.zero) (fun r => decide (r.1 = RET_NULL_PTR_ERROR)) = true := by decide +kernel
-- 98, 116, 134, 151, 169
example : tells readCoilsReq (pr 1 4) (setBools fullMem 1 (alternating true 4)) (each (.coilRead 0) 1 (alternating true 4)) = true := by decide +kernel
example : tells readCoilsReq (pr 1 8) (setBools fullMem 1 (alternating true 8)) (each (.coilRead 0) 1 (alternating true 8)) = true := by decide +kernel
example : tells readCoilsReq (pr 1 9) (setBools fullMem 1 (alternating true 9)) (each (.coilRead 0) 1 (alternating true 9)) = true := by decide +kernel
example : tells readCoilsReq (pr 1 16) (setBools fullMem 1 (alternating true 16)) (each (.coilRead 0) 1 (alternating true 16)) = true := by decide +kernel
example : tells readCoilsReq (pr 1 17) (setBools fullMem 1 (alternating true 17)) (each (.coilRead 0) 1 (alternating true 17)) = true := by decide +kernel
-- 187, 205, 223, 241, 259
example : tells readDiscreteInputsReq (pr 1 4) (setBools fullMem 3001 (alternating true 4)) (each (.disinRead 0) 1 (alternating true 4)) = true := by decide +kernel
example : tells readDiscreteInputsReq (pr 1 8) (setBools fullMem 3001 (alternating true 8)) (each (.disinRead 0) 1 (alternating true 8)) = true := by decide +kernel
example : tells readDiscreteInputsReq (pr 1 9) (setBools fullMem 3001 (alternating true 9)) (each (.disinRead 0) 1 (alternating true 9)) = true := by decide +kernel
example : tells readDiscreteInputsReq (pr 1 16) (setBools fullMem 3001 (alternating true 16)) (each (.disinRead 0) 1 (alternating true 16)) = true := by decide +kernel
example : tells readDiscreteInputsReq (pr 1 17) (setBools fullMem 3001 (alternating true 17)) (each (.disinRead 0) 1 (alternating true 17)) = true := by decide +kernel
-- 277, 294, 311, 328, 345
example : tells readInputRegReq (pr 1 4) (setRegs fullMem 3001 (altRegs 0x5A5A 4)) (each (.inregRead 0) 1 (altRegs 0x5A5A 4)) = true := by decide +kernel
example : tells readInputRegReq (pr 1 8) (setRegs fullMem 3001 (altRegs 0x5A5A 8)) (each (.inregRead 0) 1 (altRegs 0x5A5A 8)) = true := by decide +kernel
example : tells readInputRegReq (pr 1 9) (setRegs fullMem 3001 (altRegs 0x5A5A 9)) (each (.inregRead 0) 1 (altRegs 0x5A5A 9)) = true := by decide +kernel
example : tells readInputRegReq (pr 1 16) (setRegs fullMem 3001 (altRegs 0x5A5A 16)) (each (.inregRead 0) 1 (altRegs 0x5A5A 16)) = true := by decide +kernel
example : tells readInputRegReq (pr 1 17) (setRegs fullMem 3001 (altRegs 0x5A5A 17)) (each (.inregRead 0) 1 (altRegs 0x5A5A 17)) = true := by decide +kernel
-- 362, 380, 398, 416, 434
example : tells readHoldingRegReq (pr 3 6) (setRegs fullMem 3 (altRegs 0x5A5A 6)) (each (.hregRead 0) 3 (altRegs 0x5A5A 6)) = true := by decide +kernel
example : tells readHoldingRegReq (pr 3 8) (setRegs fullMem 3 (altRegs 0x5A5A 8)) (each (.hregRead 0) 3 (altRegs 0x5A5A 8)) = true := by decide +kernel
example : tells readHoldingRegReq (pr 3 9) (setRegs fullMem 3 (altRegs 0x5A5A 9)) (each (.hregRead 0) 3 (altRegs 0x5A5A 9)) = true := by decide +kernel
example : tells readHoldingRegReq (pr 3 16) (setRegs fullMem 3 (altRegs 0x5A5A 16)) (each (.hregRead 0) 3 (altRegs 0x5A5A 16)) = true := by decide +kernel
example : tells readHoldingRegReq (pr 3 17) (setRegs fullMem 3 (altRegs 0x5A5A 17)) (each (.hregRead 0) 3 (altRegs 0x5A5A 17)) = true := by decide +kernel
-- 452, 470, 487, 507
example : tells writeSingleCoilReq (pr 3 0 0 true) fullMem [.coilWrite 0 3 1] = true := by decide +kernel
example : tells writeSingleRegReq (pr 5 0 0x1234) fullMem [.hregWrite 0 5 1] = true := by decide +kernel
example : tells writeMultipleCoilsReq (pr 5 10 (coils := some (alternating true 10))) fullMem [.coilWrite 0 5 10] = true := by decide +kernel
example : tells writeMultipleRegReq (pr 5 4 (regs := some (altRegs 0x1234 4))) fullMem [.hregWrite 0 5 4] = true := by decide +kernel

end Modbus.Conformance
