import Verif.Spec.Master

/-! Specification of a whole transaction: what the application of the master must be told, given the request it made and the
data of the addressed slave's application. No frames, buffers or state machines. -/

namespace Modbus.Spec

open Modbus

/-- What a request call asks of the slave. -/
def asRequest : MReq → Request
  | .readCoils a q _ => .readBits .coils a.toNat q.toNat
  | .readDiscreteInputs a q _ => .readBits .dins a.toNat q.toNat
  | .readInputReg a q _ => .readRegs .inregs a.toNat q.toNat
  | .readHoldingReg a q _ => .readRegs .hregs a.toNat q.toNat
  | .writeSingleCoil a _ v => .writeCoil a.toNat (if v then 0xFF00 else 0x0000)
  | .writeSingleReg a _ v => .writeReg a.toNat v.toNat
  | .writeMultipleReg a q _ d => .writeRegs a.toNat q.toNat (2 * q.toNat) (fun i => (d.getD []).getD i 0)
  | .writeMultipleCoils a q _ d => .writeCoils a.toNat q.toNat ((q.toNat + 7) / 8) (fun i => (d.getD []).getD i false)

/-- The callbacks the master's application must get for request `r` if the slave's tables and variables are `m`: the exception
the protocol prescribes, or the slave application's values in order, or the confirmation of a write. -/
def outcome (l : Limits) (m : AppMem) (r : MReq) : List MEvent :=
  match exceptionFor l m (asRequest r) with
  | some code => exceptionEvent r (reqSlave r) (reqFc r) code
  | none =>
    match r with
    | .readCoils a q s => (List.range q.toNat).map fun i => .coilRead s (a + BitVec.ofNat 16 i) (bitAt m.coils m.bools (a.toNat + i))
    | .readDiscreteInputs a q s => (List.range q.toNat).map fun i => .disinRead s (a + BitVec.ofNat 16 i) (bitAt m.dins m.bools (a.toNat + i))
    | .readInputReg a q s => (List.range q.toNat).map fun i => .inregRead s (a + BitVec.ofNat 16 i) (regAt m.inregs m.regs (a.toNat + i))
    | .readHoldingReg a q s => (List.range q.toNat).map fun i => .hregRead s (a + BitVec.ofNat 16 i) (regAt m.hregs m.regs (a.toNat + i))
    | .writeSingleCoil a s _ => [.coilWrite s a 1]
    | .writeSingleReg a s _ => [.hregWrite s a 1]
    | .writeMultipleReg a q s _ => [.hregWrite s a q]
    | .writeMultipleCoils a q s _ => [.coilWrite s a q]

end Modbus.Spec
