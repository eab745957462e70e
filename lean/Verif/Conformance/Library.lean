import Verif.Conformance.Harness

/-! Replay of the unit tests of the library parts: `modbus_CRC_test.c`, `modbus_RTU_test.c`, `modbus_queue_test.c`,
`modbus_data_test.c`, `master_PDU_req_test.c`, `master_RTU_req_gen_test.c`, `master_RTU_init_test.c` (all in `/repo/test/modbus`).
Line numbers are those of `TEST(...)`. Omitted: assertions on the mock UART, and (PDU tests) a NULL message pointer, which the
model rules out at its call sites; a message with NULL data pointers stands for it. -/

namespace Modbus.Conformance

/-! ## `modbus_CRC_test.c` -/

-- 18, 28
example : holds (calculateCRC (bufOf [0x01, 0x03, 0x5A, 0x5A, 0x00, 0x05]) 6) (fun c => decide (c = 0x02B7)) = true := by
  decide +kernel
example : holds (calculateCRC (bufOf [0x01, 0x03, 0x5A, 0x5A, 0x00, 0x05, 0x23, 0x54]) 8) (fun c => decide (c = 0xFEEE)) = true := by
  decide +kernel

/-! ## `modbus_RTU_test.c` -/

/-- `modbus_RTU_send` on a buffer. -/
def sendOf (bs : List U8) (len id : U8) : C (Ret × Option Buf × U8) := rtuSend (some (bufOf bs)) len id

-- 27: the slave address is written to byte 0
example : holds (sendOf [] 15 2) (fun r => decide ((r.2.1.getD Buf.zero) 0 = 2)) = true := by decide +kernel
-- 36: the CRC is appended, low byte first
example : holds (sendOf [0x00, 0x03, 0x00, 0x01, 0x00, 0x05] 6 2) (fun r => decide (r.1 = RET_OK) && decide (r.2.2 = 8) &&
    decide ((r.2.1.getD Buf.zero).bytes 0 8 = [0x02, 0x03, 0x00, 0x01, 0x00, 0x05, 0xD4, 0x3A])) = true := by decide +kernel
-- 50
example : holds (rtuSend none 5 2) (fun r => decide (r.1 = RET_ERROR)) = true := by decide +kernel
-- 61, 71
example : holds (sendOf [] 253 2) (fun r => decide (r.1 = RET_OK)) = true := by decide +kernel
example : holds (sendOf [] 254 2) (fun r => decide (r.1 = RET_ERROR)) = true := by decide +kernel
-- 81, 92: own / foreign address
example : holds (do let r ← sendOf [] 2 2; rtuRecv r.2.1 r.2.2 2) (fun r => decide (r = RET_OK)) = true := by decide +kernel
example : holds (do let r ← sendOf [] 2 2; rtuRecv r.2.1 r.2.2 3) (fun r => decide (r = RET_ERROR_SLAVE_ID)) = true := by decide +kernel
-- 105, 115: right / wrong CRC
example : holds (rtuRecv (some (bufOf [0x02, 0x03, 0x00, 0x01, 0x00, 0x05, 0xD4, 0x3A])) 8 2) (fun r => decide (r = RET_OK)) = true := by
  decide +kernel
example : holds (rtuRecv (some (bufOf [0x02, 0x03, 0x00, 0x01, 0x00, 0x05, 0xAA, 0xAA])) 8 2) (fun r => decide (r = RET_ERROR_CRC)) = true := by
  decide +kernel

/-! ## `modbus_queue_test.c` -/

/-- A sequence of pushes (of a message number) and pops; the popped pointers and the caller's pointers after a push are collected. -/
inductive Q where
  | push (i : Nat)
  | pop

/-- Run it. -/
def queueOps : Queue Nat × List (Option Nat) → List Q → C (Queue Nat × List (Option Nat))
  | x, [] => .ok x
  | x, .push i :: l => do
    let (q, p) ← Queue.push 5 x.1 (some i)
    queueOps (q, x.2 ++ [p]) l
  | x, .pop :: l => do
    let (p, q) ← Queue.pop 5 x.1
    queueOps (q, x.2 ++ [p]) l

/-- Head, tail, number of items after the operations. -/
def qState (l : List Q) (h t n : Nat) : Bool := holds (queueOps (Queue.zero.init, []) l) (fun x =>
  decide (x.1.head.toNat = h) && decide (x.1.tail.toNat = t) && decide (x.1.items.toNat = n))
/-- The pointers collected. -/
def qPtrs (l : List Q) : List (Option Nat) := match queueOps (Queue.zero.init, []) l with
  | .ok x => x.2
  | .error _ => []
/-- Fill the queue. -/
def fill : List Q := [.push 0, .push 1, .push 2, .push 3, .push 4]

-- 31, 39, 48
example : qState [] 0 0 0 = true := by decide +kernel
example : qState [.push 0] 1 0 1 = true := by decide +kernel
example : holds (queueOps (Queue.zero.init, []) [.push 0]) (fun x => decide (x.1.arr x.1.tail.toNat = some 0)) = true := by decide +kernel
-- 56, 75: a full queue refuses, and leaves the caller's pointer
example : qState fill 0 0 5 = true := by decide +kernel
example : qState (fill ++ [.push 7]) 0 0 5 = true := by decide +kernel
example : qPtrs (fill ++ [.push 7]) = [none, none, none, none, none, some 7] := by decide +kernel
-- 88: an accepted push clears the caller's pointer
example : qPtrs [.push 0] = [none] := by decide +kernel
-- 98, 110, 119
example : qState [.push 0, .pop] 1 1 0 = true := by decide +kernel
example : qPtrs [.push 0, .pop] = [none, some 0] := by decide +kernel
example : qPtrs [.pop] = [none] := by decide +kernel
-- 127
example : qState (fill ++ [.pop, .push 0]) 1 1 5 = true := by decide +kernel
-- 147
example : qState (fill ++ [.pop, .pop, .pop, .pop, .pop]) 0 0 0 = true := by decide +kernel
example : qState (fill ++ [.pop, .pop, .pop, .pop, .pop, .push 0]) 1 0 1 = true := by decide +kernel
example : qState (fill ++ [.pop, .pop, .pop, .pop, .pop, .push 0, .pop]) 1 1 0 = true := by decide +kernel

/-! ## `modbus_data_test.c` -/

/-- An empty pointer table. -/
def noTable : Table := fun _ => none

-- 23, 33 (and 73, 83): register, read
example : holds (registerAt 2001 noTable 1 (some 9)) (fun t => decide (t 1 = some 9)) = true := by decide +kernel
example : holds (do let t ← registerAt 2001 noTable 1 (some 9); getCoilDinState 2001 t (fun q => decide (q = 9)) 1)
    (fun r => decide (r = 1)) = true := by decide +kernel
-- 43 (93): not registered
example : holds (getCoilDinState 2001 noTable (fun _ => true) 1) (fun r => decide (r = RET_ERROR)) = true := by decide +kernel
-- 49, 63
example : holds (setCoilState 2001 fullMem.coils fullMem.bools 1 true) (fun r => decide (r.1 = RET_OK) && r.2 1) = true := by decide +kernel
example : holds (setCoilState 2001 noTable fullMem.bools 1 true) (fun r => decide (r.1 = RET_ERROR) && !(r.2 1)) = true := by decide +kernel
-- 101, 111, 121 (128, 138, 148)
example : holds (registerAt 126 noTable 1 (some 9)) (fun t => decide (t 1 = some 9)) = true := by decide +kernel
example : holds (do let t ← registerAt 126 noTable 1 (some 9); getRegisterState 126 t (fun _ => 0xA5A5) 1)
    (fun r => decide (r = 0xA5A5)) = true := by decide +kernel
example : holds (getRegisterState 126 noTable (fun _ => 0xA5A5) 1) (fun r => decide (r = RET_ERROR)) = true := by decide +kernel
-- 154, 168
example : holds (setRegisterValue 126 fullMem.hregs fullMem.regs 1 0x5A5A) (fun r => decide (r.1 = RET_OK) && decide (r.2 1 = 0x5A5A)) = true := by
  decide +kernel
example : holds (setRegisterValue 126 noTable fullMem.regs 1 0x5A5A) (fun r => decide (r.1 = RET_ERROR) && decide (r.2 1 = 0)) = true := by
  decide +kernel

/-! ## `master_PDU_req_test.c` -/

/-- `req_input_param_struct_t req = {0}` with the given fields. -/
def prm (adr qty : U16) (reg : U16 := 0) (coil : Bool := false) (regs : Option (List U16) := none) (coils : Option (List Bool) := none) : ReqParam :=
  { fc := 0, adr := adr, qty := qty, slaveId := 0, coil := coil, coils := coils, reg := reg, regs := regs }

/-- The request function's status is `r`, the request has length `len` and these bytes from the function code on. -/
def mkReq (f : Bool → MMsg → ReqParam → C (Ret × MMsg)) (x : ReqParam) (len : U8) (bs : List U8) : Bool :=
  holds (f true MMsg.zero x) (fun y => decide (y.1 = RET_OK) && decide (y.2.reqLen = len) && decide (y.2.req.bytes 1 bs.length = bs))
/-- The request function returns this error. -/
def failReq (f : Bool → MMsg → ReqParam → C (Ret × MMsg)) (ds : Bool) (x : ReqParam) (r : Ret) : Bool :=
  holds (f ds MMsg.zero x) (fun y => decide (y.1 = r))

-- 34, 44, 61, 74, 86: read holding registers
example : failReq readHoldingRegReq false (prm 0x30 1) RET_NULL_PTR_ERROR = true := by decide +kernel
example : mkReq readHoldingRegReq (prm 0x30 1) 6 [0x03, 0x00, 0x30, 0x00, 0x01] = true := by decide +kernel
example : mkReq readHoldingRegReq (prm 0x30 125) 6 [] = true := by decide +kernel
example : failReq readHoldingRegReq true (prm 0x30 126) RET_ERROR = true := by decide +kernel
example : failReq readHoldingRegReq true (prm 0x30 0) RET_ERROR = true := by decide +kernel
-- 98, 108, 124, 137, 149: read input registers
example : failReq readInputRegReq false (prm 5 1) RET_NULL_PTR_ERROR = true := by decide +kernel
example : mkReq readInputRegReq (prm 5 1) 6 [0x04, 0x00, 0x05, 0x00, 0x01] = true := by decide +kernel
example : mkReq readInputRegReq (prm 5 125) 6 [] = true := by decide +kernel
example : failReq readInputRegReq true (prm 5 126) RET_ERROR = true := by decide +kernel
example : failReq readInputRegReq true (prm 5 0) RET_ERROR = true := by decide +kernel
-- 161, 171, 187, 203, 215: read discrete inputs
example : failReq readDiscreteInputsReq false (prm 3 5) RET_NULL_PTR_ERROR = true := by decide +kernel
example : mkReq readDiscreteInputsReq (prm 3 5) 6 [0x02, 0x00, 0x03, 0x00, 0x05] = true := by decide +kernel
example : mkReq readDiscreteInputsReq (prm 3 2000) 6 [0x02, 0x00, 0x03, 0x07, 0xD0] = true := by decide +kernel
example : failReq readDiscreteInputsReq true (prm 3 2001) RET_ERROR = true := by decide +kernel
example : failReq readDiscreteInputsReq true (prm 3 0) RET_ERROR = true := by decide +kernel
-- 227, 237, 254, 266, 279: read coils
example : failReq readCoilsReq false (prm 3 5) RET_NULL_PTR_ERROR = true := by decide +kernel
example : mkReq readCoilsReq (prm 3 5) 6 [0x01, 0x00, 0x03, 0x00, 0x05] = true := by decide +kernel
example : mkReq readCoilsReq (prm 3 2000) 6 [] = true := by decide +kernel
example : failReq readCoilsReq true (prm 3 2001) RET_ERROR = true := by decide +kernel
example : failReq readCoilsReq true (prm 3 0) RET_ERROR = true := by decide +kernel
-- 291, 304: write single register
example : failReq writeSingleRegReq false (prm 9 0 0x12) RET_NULL_PTR_ERROR = true := by decide +kernel
example : mkReq writeSingleRegReq (prm 9 0 0x12) 6 [0x06, 0x00, 0x09, 0x00, 0x12] = true := by decide +kernel
-- 322, 332: write single coil
example : failReq writeSingleCoilReq false (prm 9 0) RET_NULL_PTR_ERROR = true := by decide +kernel
example : mkReq writeSingleCoilReq (prm 9 0 0 true) 6 [0x05, 0x00, 0x09, 0xFF, 0x00] = true := by decide +kernel
-- 350, 360, 384, 400, 416: write multiple registers
example : failReq writeMultipleRegReq false (prm 1 1) RET_NULL_PTR_ERROR = true := by decide +kernel
example : mkReq writeMultipleRegReq (prm 8 5 (regs := some [0x5A5A, 0xA5A5, 0x5A5A, 0xA5A5, 0x5A5A])) 17
    [0x10, 0x00, 0x08, 0x00, 0x05, 0x0A, 0x5A, 0x5A, 0xA5, 0xA5, 0x5A, 0x5A, 0xA5, 0xA5, 0x5A, 0x5A] = true := by decide +kernel
example : mkReq writeMultipleRegReq (prm 0x80 123 (regs := some (List.replicate 123 0))) 253 [] = true := by decide +kernel
example : failReq writeMultipleRegReq true (prm 0x80 126 (regs := some (List.replicate 124 0))) RET_ERROR = true := by decide +kernel
example : failReq writeMultipleRegReq true (prm 0x80 0) RET_ERROR = true := by decide +kernel
-- 430, 440, 463, 506, 521: write multiple coils (487, 1968 coils, is too large to evaluate in the kernel; C29 covers it)
example : failReq writeMultipleCoilsReq false (prm 1 1) RET_NULL_PTR_ERROR = true := by decide +kernel
example : mkReq writeMultipleCoilsReq (prm 9 5 (coils := some (alternating true 5))) 8 [0x0F, 0x00, 0x09, 0x00, 0x05, 0x01, 0x15] = true := by
  decide +kernel
example : mkReq writeMultipleCoilsReq (prm 9 16 (coils := some (alternating true 16))) 9
    [0x0F, 0x00, 0x09, 0x00, 0x10, 0x02, 0x55, 0x55] = true := by decide +kernel
example : failReq writeMultipleCoilsReq true (prm 0 2001 (coils := some (true :: List.replicate 1968 false))) RET_ERROR = true := by
  decide +kernel
example : failReq writeMultipleCoilsReq true (prm 0 0) RET_ERROR = true := by decide +kernel

/-! ## `master_RTU_req_gen_test.c` -/

/-- After initialisation and this request: the value returned, and the frame in the first message buffer. -/
def generates (r : MReq) (frame : List U8) : Bool :=
  holds (test fullMem [.op (.request r)]) (fun w => decide (w.outs = [.ret .sendToQueue]) &&
    decide (w.m.txQ.arr w.m.txQ.tail.toNat = some 0) && decide ((w.m.msgs 0).reqLen.toNat = frame.length) &&
    decide ((w.m.msgs 0).req.bytes 0 frame.length = frame))
/-- With all five message buffers popped from the free queue by the test. -/
def noBuffer (r : MReq) : Bool := holds (do
    let w ← test fullMem []
    let (_, q) ← Queue.pop 5 w.m.freeQ
    let (_, q) ← Queue.pop 5 q
    let (_, q) ← Queue.pop 5 q
    let (_, q) ← Queue.pop 5 q
    let (_, q) ← Queue.pop 5 q
    acts { w with m := { w.m with freeQ := q } } [.op (.request r)]) (fun w => decide (w.outs = [.ret .freeQueueEmpty]))
/-- The request is refused by the PDU layer. -/
def refused (r : MReq) : Bool := holds (test fullMem [.op (.request r)]) (fun w => decide (w.outs = [.ret .pduError]))

-- 49, 68, 86
example : generates (.readHoldingReg 2 1 5) [0x05, 0x03, 0x00, 0x02, 0x00, 0x01, 0x24, 0x4E] = true := by decide +kernel
example : noBuffer (.readHoldingReg 2 1 5) = true := by decide +kernel
example : refused (.readHoldingReg 2 126 5) = true := by decide +kernel
-- 100, 121, 139
example : generates (.readInputReg 5 3 2) [0x02, 0x04, 0x00, 0x05, 0x00, 0x03, 0xA0, 0x39] = true := by decide +kernel
example : noBuffer (.readInputReg 5 3 2) = true := by decide +kernel
example : refused (.readInputReg 5 126 2) = true := by decide +kernel
-- 154, 175, 192
example : generates (.readCoils 5 3 8) [0x08, 0x01, 0x00, 0x05, 0x00, 0x03, 0x6C, 0x93] = true := by decide +kernel
example : noBuffer (.readCoils 5 3 8) = true := by decide +kernel
example : refused (.readCoils 5 2001 8) = true := by decide +kernel
-- 206, 226, 244
example : generates (.readDiscreteInputs 5 3 8) [0x08, 0x02, 0x00, 0x05, 0x00, 0x03, 0x28, 0x93] = true := by decide +kernel
example : noBuffer (.readDiscreteInputs 5 3 8) = true := by decide +kernel
example : refused (.readDiscreteInputs 5 2001 8) = true := by decide +kernel
-- 259, 280
example : generates (.writeSingleCoil 5 1 true) [0x01, 0x05, 0x00, 0x05, 0xFF, 0x00, 0x9C, 0x3B] = true := by decide +kernel
example : noBuffer (.writeSingleCoil 5 1 true) = true := by decide +kernel
-- 298, 319
example : generates (.writeSingleReg 0x25 0x11 0x5A5A) [0x11, 0x06, 0x00, 0x25, 0x5A, 0x5A, 0x20, 0x0A] = true := by decide +kernel
example : noBuffer (.writeSingleReg 0x25 0x11 0x5A5A) = true := by decide +kernel
-- 338, 358, 377
example : generates (.writeMultipleReg 2 4 9 (some [0x2001, 0x2002, 0x2003, 0x2004]))
    [0x09, 0x10, 0x00, 0x02, 0x00, 0x04, 0x08, 0x20, 0x01, 0x20, 0x02, 0x20, 0x03, 0x20, 0x04, 0xC8, 0x00] = true := by decide +kernel
example : noBuffer (.writeMultipleReg 2 4 9 (some [0x2001, 0x2002, 0x2003, 0x2004])) = true := by decide +kernel
example : refused (.writeMultipleReg 2 124 9 (some [0x2001, 0x2002, 0x2003, 0x2004])) = true := by decide +kernel
-- 392, 412, 431
example : generates (.writeMultipleCoils 2 4 9 (some [true, false, true, true]))
    [0x09, 0x0F, 0x00, 0x02, 0x00, 0x04, 0x01, 0x0D, 0x87, 0x35] = true := by decide +kernel
example : noBuffer (.writeMultipleCoils 2 4 9 (some [true, false, true, true])) = true := by decide +kernel
example : refused (.writeMultipleCoils 2 1969 9 (some [true, false, true, true])) = true := by decide +kernel

/-! ## `master_RTU_init_test.c` -/

-- 35: in an unknown mode the buffers are not registered
example : holds (masterStep cfg Master.powerOn (.init .unknownMode)) (fun x => !x.1.dataSet) = true := by decide +kernel
-- 45–145: RTU mode
example : holds (masterStep cfg Master.powerOn (.init .rtu)) (fun x =>
    x.1.dataSet && decide (x.1.txQ.head = 0) && decide (x.1.txQ.tail = 0) && decide (x.1.freeQ.head = 0) && decide (x.1.freeQ.tail = 0) &&
    decide (x.1.freeQ.items = 5) && x.1.drv && decide (x.1.st = .idle) && decide (x.1.txf = .cleared) && decide (x.1.t15 = .cleared) &&
    decide (x.1.t35 = .cleared) && decide (x.1.ferr = .cleared) && decide (x.1.crcf = .cleared)) = true := by decide +kernel

end Modbus.Conformance
