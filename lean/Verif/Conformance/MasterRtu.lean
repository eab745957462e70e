import Verif.Conformance.Harness

/-! Replay of `test/modbus/master_RTU_test.c` (state machine of the master); line numbers are those of `TEST(...)`.
Omitted: assertions on the mock UART itself (Rx/Tx interrupt enable flags), which has no counterpart in `Model/Master.lean`,
and lines 1147, 1166, 1182, 1200, which the runner skips with the shipped retry limit. -/

namespace Modbus.Conformance

/-- Memory after `mock_slave_coil[0] = mock_slave_coil[1] = ON`. -/
def mem01 : AppMem := setBools fullMem 0 [true, true]

-- 74, 80: the response timer
example : holds (test fullMem [.timer 1000, .op .tick]) (fun w => decide (w.m.timer = 999)) = true := by decide +kernel
example : holds (test fullMem [.timer 0, .op .tick]) (fun w => decide (w.m.timer = 0)) = true := by decide +kernel

-- 90, 101, 112, 124, 135: idle -> transmitting; send is called with msg_buf->req.data, reception goes to msg_buf->resp
example : holds (test fullMem (readCoils 2 2 9 ++ p)) (fun w =>
    decide (w.outs = [.ret .sendToQueue, .send (w.msg.req.bytes 0 w.msg.reqLen.toNat)]) &&
    decide (w.m.msgBuf.isSome = true) && decide (w.m.rxTarget = w.m.msgBuf) && decide (w.m.txf = .set)) = true := by decide +kernel

-- 148, 160: transmission complete
example : holds (test fullMem (readCoils 2 2 9 ++ p ++ [.op .txDone])) (fun w => decide (w.m.txf = .cleared)) = true := by
  decide +kernel

-- 173, 188, 204: request transmitted -> waiting for the response, timer started, response length 0
example : holds (test fullMem (readCoils 2 2 9 ++ p ++ p ++ p ++ [.op .txDone] ++ p)) (fun w =>
    decide (w.m.timer = 1000) && decide (w.m.st = .waiting) && decide (w.m.msgBuf.isSome = true) &&
    decide (w.msg.respLen = 0)) = true := by decide +kernel

-- 221, 235
example : holds (test fullMem (readCoils 2 2 9 ++ p ++ [.op .txDone] ++ p)) (fun w =>
    decide (w.m.t15 = .cleared) && decide (w.m.t35 = .cleared)) = true := by decide +kernel

-- 249, 265, 279: CRC error at T1.5
example : holds (test fullMem (readCoils 2 2 9 ++ sendSeq ++ respSeq 9 ++ [.zeroCrc] ++ t15Seq ++ p)) (fun w =>
    decide (w.m.crcf = .set) && decide (w.m.st = .received) && decide (w.m.timer = 0)) = true := by decide +kernel

-- 295: wrong slave address at T1.5
example : holds (test fullMem (readCoils 2 2 9 ++ sendSeq ++ respSeq 9 ++ [.poke 0 10] ++ t15Seq ++ p)) (fun w =>
    decide (w.m.msgBuf.isSome = true) && decide (w.msg.respLen = 0)) = true := by decide +kernel

-- 310, 325: good frame at T1.5
example : holds (test fullMem (readCoils 2 2 9 ++ sendSeq ++ respSeq 9 ++ t15Seq ++ p)) (fun w =>
    decide (w.m.timer = 0) && decide (w.m.st = .received)) = true := by decide +kernel

-- 340, 361, 379, 397: response timeout
example : holds (test fullMem (readCoils 2 2 9 ++ sendSeq ++ respSeq 9 ++ p ++ [.timer 20] ++ p ++ [.timer 1] ++ p)) (fun w =>
    decide (w.events = [.timeoutErr (ErrReport.mk 9 1 2 2 .timeout)]) && decide (w.m.msgBuf = none) &&
    decide (w.m.repeatCnt = 0) && decide (w.m.st = .idle)) = true := by decide +kernel

-- 415: a response of another slave does not stop the timer
example : holds (test fullMem (readCoils 2 2 9 ++ sendSeq ++ respSeq 9 ++ [.poke 0 10] ++ p ++ [.timer 20] ++ p ++ t15Seq ++ p ++ p))
    (fun w => decide (w.m.timer = 20)) = true := by decide +kernel
example : holds (test fullMem (readCoils 2 2 9 ++ sendSeq ++ respSeq 9 ++ [.poke 0 10] ++ p ++ [.timer 20] ++ p ++ t15Seq ++ p ++ p
      ++ p ++ [.timer 1] ++ p))
    (fun w => decide (w.events = [.timeoutErr (ErrReport.mk 9 1 2 2 .timeout)])) = true := by decide +kernel

-- 442: twice
example : holds (test fullMem (readCoils 2 2 9 ++ sendSeq ++ respSeq 9 ++ [.poke 0 10] ++ p ++ [.timer 20] ++ p ++ t15Seq ++ p ++ p
      ++ [.timer 15] ++ p ++ t15Seq ++ p ++ p)) (fun w => decide (w.m.timer = 15)) = true := by decide +kernel
example : holds (test fullMem (readCoils 2 2 9 ++ sendSeq ++ respSeq 9 ++ [.poke 0 10] ++ p ++ [.timer 20] ++ p ++ t15Seq ++ p ++ p
      ++ [.timer 15] ++ p ++ t15Seq ++ p ++ p ++ p ++ [.timer 1] ++ p))
    (fun w => decide (w.events = [.timeoutErr (ErrReport.mk 9 1 2 2 .timeout)])) = true := by decide +kernel

-- 476: a response is processed (the C test sets coils 1 and 2)
example : holds (test (setBools fullMem 1 [true, true]) (readCoils 1 2 3 ++ exchange 3)) (fun w =>
    w.coil 1 && w.coil 2) = true := by decide +kernel
-- 499, 539, 553
example : holds (test mem01 (readCoils 1 2 3 ++ exchange 3)) (fun w =>
    decide (w.m.timer = 0) && decide (w.m.msgBuf = none) && decide (w.m.st = .idle)) = true := by decide +kernel

-- 513: exception response
example : holds (test mem01 (readCoils 1 2 3 ++ sendSeq ++ [.respIs [0x03, 0x81, 0x02, 0x60, 0x51]] ++ t15Seq ++ t35Seq)) (fun w =>
    decide (w.events = [.coilExc (ExcReport.mk 3 1 2 1 2)])) = true := by decide +kernel

-- 568, 583: one frame error
example : holds (test mem01 (readCoils 1 2 3 ++ frameErrSeq 3 1)) (fun w =>
    decide (w.m.repeatCnt = 1) && decide (w.m.st = .repeatRequest) && decide (w.m.ferr = .cleared)) = true := by decide +kernel
-- 598: as many frame errors as retries
example : holds (test mem01 (readCoils 1 2 3 ++ frameErrSeq 3 3)) (fun w =>
    decide (w.m.st = .repeatRequest) && decide (w.m.ferr = .cleared)) = true := by decide +kernel
-- 614, 632, 680, 697: a good response after one frame error
example : holds (test mem01 (readCoils 1 2 3 ++ frameErrSeq 3 1 ++ exchange 3)) (fun w =>
    decide (w.coil 1 = true) && decide (w.coil 2 = false) && decide (w.m.timer = 0) && decide (w.m.repeatCnt = 0) &&
    decide (w.m.msgBuf = none) && decide (w.m.st = .idle)) = true := by decide +kernel
-- 650: an exception response after one frame error
example : holds (test mem01 (readCoils 1 2 2 ++ sendSeq ++ frameErrSeq 2 1 ++ sendSeq ++ respSeq 2 ++
      [.respIs [0x02, 0x81, 0x02, 0x31, 0x91]] ++ t15Seq ++ t35Seq)) (fun w =>
    decide (w.events = [.coilExc (ExcReport.mk 2 1 2 1 2)])) = true := by decide +kernel
-- 714, 762, 777: a good response after three frame errors
example : holds (test mem01 (readCoils 1 2 3 ++ frameErrSeq 3 3 ++ exchange 3)) (fun w =>
    decide (w.coil 1 = true) && decide (w.coil 2 = false) && decide (w.m.timer = 0) && decide (w.m.repeatCnt = 0)) = true := by
  decide +kernel
-- 732
example : holds (test mem01 (readCoils 1 2 3 ++ sendSeq ++ frameErrSeq 3 3 ++ sendSeq ++ respSeq 3 ++
      [.respIs [0x03, 0x81, 0x02, 0x60, 0x51]] ++ t15Seq ++ t35Seq)) (fun w =>
    decide (w.events = [.coilExc (ExcReport.mk 3 1 2 1 2)])) = true := by decide +kernel
-- 793, 811, 827, 842: more frame errors than retries
example : holds (test mem01 (readCoils 1 2 3 ++ frameErrSeq 3 4)) (fun w =>
    decide (w.events = [.commErr (ErrReport.mk 3 1 0 0 .frame)]) && decide (w.m.msgBuf = none) && decide (w.m.st = .idle) &&
    decide (w.m.repeatCnt = 0)) = true := by decide +kernel

-- 857, 872: one CRC error
example : holds (test mem01 (readCoils 1 2 3 ++ crcErrSeq 3 1)) (fun w =>
    decide (w.m.repeatCnt = 1) && decide (w.m.st = .repeatRequest) && decide (w.m.crcf = .cleared)) = true := by decide +kernel
-- 887
example : holds (test mem01 (readCoils 1 2 3 ++ crcErrSeq 3 3)) (fun w =>
    decide (w.m.st = .repeatRequest) && decide (w.m.crcf = .cleared)) = true := by decide +kernel
-- 903, 921, 969, 986
example : holds (test mem01 (readCoils 1 2 3 ++ crcErrSeq 3 1 ++ exchange 3)) (fun w =>
    decide (w.coil 1 = true) && decide (w.coil 2 = false) && decide (w.m.timer = 0) && decide (w.m.repeatCnt = 0) &&
    decide (w.m.msgBuf = none) && decide (w.m.st = .idle)) = true := by decide +kernel
-- 939
example : holds (test mem01 (readCoils 1 2 4 ++ sendSeq ++ crcErrSeq 4 1 ++ sendSeq ++ respSeq 4 ++
      [.respIs [0x04, 0x81, 0x02, 0xD1, 0x90]] ++ t15Seq ++ t35Seq)) (fun w =>
    decide (w.events = [.coilExc (ExcReport.mk 4 1 2 1 2)])) = true := by decide +kernel
-- 1003, 1051, 1066
example : holds (test mem01 (readCoils 1 2 3 ++ crcErrSeq 3 3 ++ exchange 3)) (fun w =>
    decide (w.coil 1 = true) && decide (w.coil 2 = false) && decide (w.m.timer = 0) && decide (w.m.repeatCnt = 0)) = true := by
  decide +kernel
-- 1021
example : holds (test mem01 (readCoils 1 2 3 ++ sendSeq ++ crcErrSeq 3 3 ++ sendSeq ++ respSeq 3 ++
      [.respIs [0x03, 0x81, 0x02, 0x60, 0x51]] ++ t15Seq ++ t35Seq)) (fun w =>
    decide (w.events = [.coilExc (ExcReport.mk 3 1 2 1 2)])) = true := by decide +kernel
-- 1082, 1101, 1117, 1132: more CRC errors than retries
example : holds (test mem01 (readCoils 1 2 3 ++ crcErrSeq 3 4)) (fun w =>
    decide (w.events = [.commErr (ErrReport.mk 3 1 0 0 .crc)]) && decide (w.m.msgBuf = none) && decide (w.m.st = .idle) &&
    decide (w.m.repeatCnt = 0)) = true := by decide +kernel

-- 1215: frame and CRC errors in turn; the last one is reported
example : holds (test mem01 (readCoils 1 2 6 ++ frameErrSeq 6 1 ++ crcErrSeq 6 1 ++ frameErrSeq 6 1 ++ crcErrSeq 6 1)) (fun w =>
    decide (w.events = [.commErr (ErrReport.mk 6 1 0 0 .crc)])) = true := by decide +kernel

/-- Memory of the two queue tests. -/
def memQ : AppMem := setRegs (setBools fullMem 1 [true, false, false, true, false, true]) 20
  [0x5A5A, 0xFA5F, 0, 0x1111, 0xFFFF, 0xABCD]

-- 1250: five requests in the queue, the last one is processed correctly
example : holds (test memQ (readCoils 1 2 3 ++ readCoils 2 2 3 ++ readCoils 3 2 3 ++ readCoils 4 2 3 ++
      [.op (.request (.readHoldingReg 20 6 3))] ++ exchange 3 ++ exchange 3 ++ exchange 3 ++ exchange 3 ++ exchange 3)) (fun w =>
    decide ((List.range 6).map (fun i => w.hreg (BitVec.ofNat 16 (20 + i))) = [0x5A5A, 0xFA5F, 0, 0x1111, 0xFFFF, 0xABCD])) = true := by
  decide +kernel

-- 1295: queue filled, drained, and used again
example : holds (test memQ (readCoils 1 2 3 ++ readCoils 2 2 3 ++ readCoils 3 2 3 ++ readCoils 4 2 3 ++ readCoils 5 2 3 ++
      exchange 3 ++ exchange 3 ++ exchange 3 ++ exchange 3 ++ exchange 3)) (fun w =>
    decide ((List.range 6).map (fun i => w.coil (BitVec.ofNat 16 (1 + i))) = [true, false, false, true, false, true]) &&
    decide (w.m.txQ.items = 0) && decide (w.m.txQ.head = 0) && decide (w.m.txQ.tail = 0)) = true := by decide +kernel
example : holds (test memQ (readCoils 1 2 3 ++ readCoils 2 2 3 ++ readCoils 3 2 3 ++ readCoils 4 2 3 ++ readCoils 5 2 3 ++
      exchange 3 ++ exchange 3 ++ exchange 3 ++ exchange 3 ++ exchange 3 ++ [.op (.request (.readHoldingReg 20 6 3))])) (fun w =>
    decide (w.m.txQ.items = 1) && decide (w.m.txQ.head = 1) && decide (w.m.txQ.tail = 0)) = true := by decide +kernel
example : holds (test memQ (readCoils 1 2 3 ++ readCoils 2 2 3 ++ readCoils 3 2 3 ++ readCoils 4 2 3 ++ readCoils 5 2 3 ++
      exchange 3 ++ exchange 3 ++ exchange 3 ++ exchange 3 ++ exchange 3 ++ [.op (.request (.readHoldingReg 20 6 3))] ++ exchange 3)) (fun w =>
    decide ((List.range 6).map (fun i => w.hreg (BitVec.ofNat 16 (20 + i))) = [0x5A5A, 0xFA5F, 0, 0x1111, 0xFFFF, 0xABCD])) = true := by
  decide +kernel

end Modbus.Conformance
