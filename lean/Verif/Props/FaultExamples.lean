import Verif.Props.MasterExamples
import Verif.Props.Completion

/-! Concrete executions of the master, at its interface, for the properties which the code violates (C31, C37, C43, C45, C46, C50), each next to an
execution in which the same property's positive theorem applies. They are executions of the model, not proofs of the properties: they show that the
hypotheses of the universal theorems are met. -/

namespace Modbus

open Spec

/-- The undefined behaviour a run ends in. -/
def mubOf (r : C (Master × MTrace)) : Option UB :=
  match r with
  | .ok _ => none
  | .error e => some e

/-- C43 (1): 127 coils are read, the slave answers with a (CRC-correct) register response: read outside the buffer. With 126 coils: delivered. -/
example : mubOf (masterRun smallCfg Master.powerOn ([.init .rtu, .request (.readCoils 0 127 9)] ++ answerOps (rtuFrame 9 [3, 2, 0x12, 0x34]))) =
    some .oobRead := by decide +kernel

example : mubOf (masterRun smallCfg Master.powerOn ([.init .rtu, .request (.readCoils 0 126 9)] ++ answerOps (rtuFrame 9 [3, 2, 0x12, 0x34]))) =
    none := by decide +kernel

/-- C43 (2): the write of a coil is confirmed as a write of a register by the response to a read. -/
example : moutsOf (masterRun smallCfg Master.powerOn ([.init .rtu, .request (.writeSingleCoil 5 9 true)] ++ answerOps (rtuFrame 9 [3, 2, 0x12, 0x34]))) =
    some [.send (reqFrame (.writeSingleCoil 5 9 true)), .event (.hregWrite 9 5 0xFF00)] := by decide +kernel

/-- C43 (3): the read of a register is delivered as a coil. -/
example : moutsOf (masterRun smallCfg Master.powerOn ([.init .rtu, .request (.readHoldingReg 5 1 9)] ++ answerOps (rtuFrame 9 [1, 1, 1]))) =
    some [.send (reqFrame (.readHoldingReg 5 1 9)), .event (.coilRead 9 5 true)] := by decide +kernel

/-- C45: the 3.5-char event before the poll, and a good response is never delivered: fifty polls and ticks later nothing has been put out. With the
poll in between it is delivered. -/
example : moutsOf (masterRun smallCfg Master.powerOn ([.init .rtu, .request (.readHoldingReg 5 1 9), .poll, .txDone, .poll] ++
      (rtuFrame 9 [3, 2, 0x12, 0x34]).map .rxByte ++ [.t15, .t35] ++ (List.replicate 50 [MOp.poll, .tick]).flatten)) =
    some [.send (reqFrame (.readHoldingReg 5 1 9))] := by decide +kernel

example : moutsOf (masterRun smallCfg Master.powerOn ([.init .rtu, .request (.readHoldingReg 5 1 9), .poll, .txDone, .poll] ++
      (rtuFrame 9 [3, 2, 0x12, 0x34]).map .rxByte ++ [.t15, .poll, .t35] ++ (List.replicate 50 [MOp.poll, .tick]).flatten)) =
    some [.send (reqFrame (.readHoldingReg 5 1 9)), .event (.hregRead 9 5 0x1234)] := by decide +kernel

/-- C46: two responses with a wrong CRC end the first transaction with an error report; then the good response to the second request makes the master
transmit that request again instead of delivering it. After a timeout the good response is delivered at once. -/
example : moutsOf (masterRun smallCfg Master.powerOn ([.init .rtu, .request (.readHoldingReg 5 1 9)] ++ answerOps [9, 3, 2, 0, 0, 0, 0] ++
      answerOps [9, 3, 2, 0, 0, 0, 0] ++ [.request (.readHoldingReg 6 1 9)] ++ answerOps (rtuFrame 9 [3, 2, 0x12, 0x34]) ++ [.poll])) =
    some [.send (reqFrame (.readHoldingReg 5 1 9)), .send (reqFrame (.readHoldingReg 5 1 9)),
      .event (.commErr { slave := 9, fc := 3, adr := 0, qty := 0, err := .crc }),
      .send (reqFrame (.readHoldingReg 6 1 9)), .send (reqFrame (.readHoldingReg 6 1 9))] := by decide +kernel

/-- C37: `T = 3`; the timeout comes with a poll after exactly two ticks, and never if the third tick comes first. -/
example : (moutsOf (masterRun smallCfg Master.powerOn ([.init .rtu, .request (.readHoldingReg 5 1 9), .poll, .txDone, .poll, .tick, .tick, .poll]))).map List.length =
    some 2 := by decide +kernel

example : (moutsOf (masterRun smallCfg Master.powerOn ([.init .rtu, .request (.readHoldingReg 5 1 9), .poll, .txDone, .poll, .tick, .tick, .tick] ++
      (List.replicate 50 [MOp.poll, .tick]).flatten))).map List.length = some 1 := by decide +kernel

/-- C50: the completion between `send` and the assignment of the flag; afterwards fifty polls and ticks bring nothing. -/
example : (match masterRun smallCfg Master.powerOn [.init .rtu, .request (.readHoldingReg 5 1 9)] with
    | .ok (s, _) => match runProg (masterInt smallCfg) (masterPollP smallCfg) (masterTxWindow s) s with
      | .ok (s1, o) => (o, moutsOf (masterRun smallCfg s1 (List.replicate 50 [MOp.poll, .tick]).flatten))
      | .error _ => ([], none)
    | .error _ => ([], none)) = ([.send (reqFrame (.readHoldingReg 5 1 9))], some []) := by decide +kernel

end Modbus
