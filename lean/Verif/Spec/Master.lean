import Verif.Spec.Crc
import Verif.Spec.Protocol
import Verif.Model.Master

/-! Specification of the master's side. `MReq`, `MOp`, `MOut`, `MEvent` and the report structures are the vocabulary of the
library's interface (request calls, operations, outputs, callbacks); nothing else of the model is used. -/

namespace Modbus.Spec

open Modbus

/-- The slave a request is addressed to. -/
def reqSlave : MReq → U8
  | .readCoils _ _ s => s
  | .readDiscreteInputs _ _ s => s
  | .readInputReg _ _ s => s
  | .readHoldingReg _ _ s => s
  | .writeSingleCoil _ s _ => s
  | .writeSingleReg _ s _ => s
  | .writeMultipleReg _ _ s _ => s
  | .writeMultipleCoils _ _ s _ => s

/-- The function code of a request. -/
def reqFc : MReq → U8
  | .readCoils .. => 1
  | .readDiscreteInputs .. => 2
  | .readHoldingReg .. => 3
  | .readInputReg .. => 4
  | .writeSingleCoil .. => 5
  | .writeSingleReg .. => 6
  | .writeMultipleCoils .. => 15
  | .writeMultipleReg .. => 16

/-- The (first) data address of a request. -/
def reqAdr : MReq → U16
  | .readCoils a _ _ => a
  | .readDiscreteInputs a _ _ => a
  | .readInputReg a _ _ => a
  | .readHoldingReg a _ _ => a
  | .writeSingleCoil a _ _ => a
  | .writeSingleReg a _ _ => a
  | .writeMultipleReg a _ _ _ => a
  | .writeMultipleCoils a _ _ _ => a

/-- The 16 bit field after the address: the quantity, or the value of a single write. -/
def reqField : MReq → U16
  | .readCoils _ q _ => q
  | .readDiscreteInputs _ q _ => q
  | .readInputReg _ q _ => q
  | .readHoldingReg _ q _ => q
  | .writeSingleCoil _ _ v => if v then 0xFF00 else 0x0000
  | .writeSingleReg _ _ v => v
  | .writeMultipleReg _ q _ _ => q
  | .writeMultipleCoils _ q _ _ => q

/-- Byte count and payload of a multiple write; empty for the other requests. -/
def reqPayload : MReq → List U8
  | .writeMultipleReg _ q _ d =>
    BitVec.ofNat 8 (2 * q.toNat) :: ((d.getD []).take q.toNat).flatMap (fun v => beBytes v.toNat)
  | .writeMultipleCoils _ q _ d =>
    BitVec.ofNat 8 ((q.toNat + 7) / 8) :: packBits ((d.getD []).take q.toNat)
  | _ => []

/-- The PDU of a request. -/
def reqPdu (r : MReq) : List U8 :=
  reqFc r :: (beBytes (reqAdr r).toNat ++ beBytes (reqField r).toNat ++ reqPayload r)

/-- The frame of a request. -/
def reqFrame (r : MReq) : List U8 := rtuFrame (reqSlave r) (reqPdu r)

/-- The quantity of a request is allowed by the protocol. -/
def QtyOk : MReq → Prop
  | .readCoils _ q _ => 1 ≤ q.toNat ∧ q.toNat ≤ 2000
  | .readDiscreteInputs _ q _ => 1 ≤ q.toNat ∧ q.toNat ≤ 2000
  | .readInputReg _ q _ => 1 ≤ q.toNat ∧ q.toNat ≤ 125
  | .readHoldingReg _ q _ => 1 ≤ q.toNat ∧ q.toNat ≤ 125
  | .writeSingleCoil _ _ _ => True
  | .writeSingleReg _ _ _ => True
  | .writeMultipleReg _ q _ _ => 1 ≤ q.toNat ∧ q.toNat ≤ 123
  | .writeMultipleCoils _ q _ _ => 1 ≤ q.toNat ∧ q.toNat ≤ 1968

instance (r : MReq) : Decidable (QtyOk r) := by
  cases r <;> simp only [QtyOk] <;> infer_instance

/-- The caller keeps the contract of the multiple writes: the array has at least the announced number of elements. -/
def DataOk : MReq → Prop
  | .writeMultipleReg _ q _ d => ∃ l, d = some l ∧ q.toNat ≤ l.length
  | .writeMultipleCoils _ q _ d => ∃ l, d = some l ∧ q.toNat ≤ l.length
  | _ => True

/-- The requests of a trace that were accepted, in order. -/
def accepted (tr : MTrace) : List MReq :=
  tr.filterMap fun x =>
    match x with
    | (.request r, [.ret .sendToQueue]) => some r
    | _ => none

/-- The frames handed to the driver, in order. -/
def sends (tr : MTrace) : List (List U8) :=
  (tr.flatMap Prod.snd).filterMap fun o =>
    match o with
    | .send b => some b
    | _ => none

/-- The application callbacks made, in order. -/
def events (tr : MTrace) : List MEvent :=
  (tr.flatMap Prod.snd).filterMap fun o =>
    match o with
    | .event e => some e
    | _ => none

/-- A transmission or a callback, as opposed to the return value of a request call. -/
def isOut : MOut → Bool
  | .ret _ => false
  | _ => true

/-- What goes out of the master towards the line and the application: transmissions and callbacks (not return values). -/
def outs (tr : MTrace) : List MOut := (tr.flatMap Prod.snd).filter isOut

/-- How many request calls of a trace were refused for their quantity. -/
def refused (tr : MTrace) : Nat :=
  tr.countP fun x =>
    match x with
    | (.request _, [.ret .pduError]) => true
    | _ => false

/-- An error report (as opposed to data, a confirmation or an exception delivered from a response). -/
def isErrorReport : MEvent → Bool
  | .timeoutErr _ => true
  | .commErr _ => true
  | _ => false

/-- A communication error report. -/
def isCommReport : MEvent → Bool
  | .commErr _ => true
  | _ => false

/-- A finished transaction: the request, the number of times its frame was transmitted, the callbacks at its end. -/
structure Tx where
  req : MReq
  count : Nat
  evs : List MEvent

/-- What a transaction puts out: the frame `count` times, then the callbacks. -/
def Tx.outs (t : Tx) : List MOut := List.replicate t.count (.send (reqFrame t.req)) ++ t.evs.map .event

/-- A transaction is transmitted at least once and at most `1 + R` times; it ends either with callbacks none of which is an
error report, or with exactly one error report; a communication error is reported only after exactly `1 + R` transmissions. -/
def Tx.Ok (R : Nat) (t : Tx) : Prop :=
  1 ≤ t.count ∧ t.count ≤ 1 + R ∧
    ((∀ e ∈ t.evs, isErrorReport e = false) ∨
     (∃ e, t.evs = [e] ∧ isErrorReport e = true ∧ (isCommReport e = true → t.count = 1 + R)))

/-- The unfinished transaction, if any: the request and the number of transmissions so far. -/
def curOuts : Option (MReq × Nat) → List MOut
  | none => []
  | some (r, c) => List.replicate c (.send (reqFrame r))

/-- A trace of a master with at most `R` repetitions, read as a sequence of transactions: `done` finished ones, possibly a
current one, and accepted requests still waiting in `queued`. -/
structure Transactions (R : Nat) (tr : MTrace) (done : List Tx) (cur : Option (MReq × Nat)) (queued : List MReq) : Prop where
  /-- accepted requests are served strictly in order -/
  order : accepted tr = done.map Tx.req ++ (cur.map Prod.fst).toList ++ queued
  /-- everything put out is put out by these transactions, one after the other -/
  output : outs tr = done.flatMap Tx.outs ++ curOuts cur
  done_ok : ∀ t ∈ done, t.Ok R
  cur_ok : ∀ r c, cur = some (r, c) → 1 ≤ c ∧ c ≤ 1 + R
  /-- what is in flight or queued has an allowed quantity -/
  valid : ∀ r ∈ accepted tr, QtyOk r

/-- Number of timer ticks in a list of operations. -/
def tickCount (ops : List MOp) : Nat := ops.countP (fun o => decide (o = .tick))

/-- The bytes received in a trace. -/
def rxBytes (tr : MTrace) : List U8 :=
  tr.filterMap fun x =>
    match x.1 with
    | .rxByte b => some b
    | _ => none

/-- Operation `op` occurs in the trace. -/
def Happened (op : MOp) (tr : MTrace) : Prop := op ∈ tr.map Prod.fst

/-- Number of timer ticks in a trace. -/
def ticks (tr : MTrace) : Nat := tickCount (tr.map Prod.fst)

/-- The callbacks a read response to request `r` must cause: one per requested item, in order, with the responding slave,
address `start + i` (16 bit) and the `i`-th value. `bit i` and `reg i` are the values encoded in the response. -/
def deliveries (slave : U8) (bit : Nat → Bool) (reg : Nat → U16) : MReq → List MEvent
  | .readCoils a q _ => (List.range q.toNat).map fun i => .coilRead slave (a + BitVec.ofNat 16 i) (bit i)
  | .readDiscreteInputs a q _ => (List.range q.toNat).map fun i => .disinRead slave (a + BitVec.ofNat 16 i) (bit i)
  | .readInputReg a q _ => (List.range q.toNat).map fun i => .inregRead slave (a + BitVec.ofNat 16 i) (reg i)
  | .readHoldingReg a q _ => (List.range q.toNat).map fun i => .hregRead slave (a + BitVec.ofNat 16 i) (reg i)
  | .writeSingleCoil a _ _ => [.coilWrite slave a 1]
  | .writeSingleReg a _ _ => [.hregWrite slave a 1]
  | .writeMultipleReg a q _ _ => [.hregWrite slave a q]
  | .writeMultipleCoils a q _ _ => [.coilWrite slave a q]

/-- The callback an exception response with function code `fc` (bit 7 removed) and exception code `code` must cause. -/
def exceptionEvent (r : MReq) (slave fc code : U8) : List MEvent :=
  let rep : ExcReport := { slave := slave, fc := fc, code := code, adr := reqAdr r, qty := reqField r }
  match fc.toNat with
  | 1 | 5 | 15 => [.coilExc rep]
  | 2 => [.disinExc rep]
  | 3 | 6 | 16 => [.hregExc rep]
  | 4 => [.inregExc rep]
  | _ => []

/-- Bit `i` of the payload of a read response frame (slave, function code, byte count, then the bits, least significant
first). -/
def frameBit (f : List U8) (i : Nat) : Bool := (f.getD (3 + i / 8) 0).getLsbD (i % 8)

/-- Register `i` of the payload of a read response frame (big-endian). -/
def frameReg (f : List U8) (i : Nat) : U16 :=
  BitVec.ofNat 16 (256 * (f.getD (3 + 2 * i) 0).toNat + (f.getD (3 + 2 * i + 1) 0).toNat)

/-- The length a response frame to `r` must have: slave, function code, exception code, CRC; or slave, function code, byte
count, payload, CRC; or, for a write, slave, function code, two 16 bit fields, CRC. -/
def respLenFor (r : MReq) (fc : U8) : Nat :=
  if 128 ≤ fc.toNat then 5
  else match r with
    | .readCoils _ q _ => 3 + (q.toNat + 7) / 8 + 2
    | .readDiscreteInputs _ q _ => 3 + (q.toNat + 7) / 8 + 2
    | .readInputReg _ q _ => 3 + 2 * q.toNat + 2
    | .readHoldingReg _ q _ => 3 + 2 * q.toNat + 2
    | _ => 8

/-- The callbacks that a response frame `f` to request `r` must cause. -/
def responseEvents (r : MReq) (f : List U8) : List MEvent :=
  let slave := f.getD 0 0
  let fc := f.getD 1 0
  if 128 ≤ fc.toNat then exceptionEvent r slave (fc - 128) (f.getD 2 0)
  else deliveries slave (frameBit f) (frameReg f) r

/-- A complete, well-formed response to `r`: CRC-correct, from the requested slave, an exception or the requested function
code, and at least as long as it has to be. -/
structure GoodResponse (r : MReq) (f : List U8) : Prop where
  crc : CrcCorrect f
  slave : f.getD 0 0 = reqSlave r
  fc : 128 ≤ (f.getD 1 0).toNat ∨ f.getD 1 0 = reqFc r
  len : respLenFor r (f.getD 1 0) ≤ f.length
  len_le : f.length ≤ 255

end Modbus.Spec
