/-! Specification of CRC-16/MODBUS, bit by bit, independent of any table:
reflected polynomial 0xA001, initial value 0xFFFF, no final xor. -/

namespace Modbus.Spec

/-- One step of the shift register: shift right, subtract the polynomial if a one fell out. -/
def shift1 (r : BitVec 16) : BitVec 16 :=
  if r.getLsbD 0 then (r >>> 1) ^^^ 0xA001#16 else r >>> 1

/-- Feed one data bit (the least significant bit of a byte is fed first). -/
def feedBit (r : BitVec 16) (bit : Bool) : BitVec 16 :=
  shift1 (r ^^^ (if bit then 1#16 else 0#16))

/-- The bits of a byte in transmission order (least significant first). -/
def bitsOf (b : BitVec 8) : List Bool :=
  [b.getLsbD 0, b.getLsbD 1, b.getLsbD 2, b.getLsbD 3,
   b.getLsbD 4, b.getLsbD 5, b.getLsbD 6, b.getLsbD 7]

/-- The bits of a byte string in transmission order. -/
def bitsOfList (bs : List (BitVec 8)) : List Bool := bs.flatMap bitsOf

/-- Run the shift register over a bit string. -/
def feed (r : BitVec 16) (bits : List Bool) : BitVec 16 := bits.foldl feedBit r

/-- CRC-16/MODBUS of a byte string. -/
def crc16 (bs : List (BitVec 8)) : BitVec 16 := feed 0xFFFF#16 (bitsOfList bs)

/-- A byte string is CRC-correct: it has at least two bytes and the last two are the CRC
(low byte first) of all the bytes before them. -/
def CrcCorrect (frame : List (BitVec 8)) : Prop :=
  ∃ body, frame = body ++ [(crc16 body).setWidth 8, (crc16 body >>> 8).setWidth 8]

/-- An RTU frame: slave ID, PDU, CRC (low byte first). -/
def rtuFrame (id : BitVec 8) (pdu : List (BitVec 8)) : List (BitVec 8) :=
  id :: pdu ++ [(crc16 (id :: pdu)).setWidth 8, (crc16 (id :: pdu) >>> 8).setWidth 8]

/-- The error pattern between two frames: one Boolean per bit position, in transmission order,
`true` where the frames differ. -/
def errBits (f g : List (BitVec 8)) : List Bool := List.zipWith xor (bitsOfList f) (bitsOfList g)

end Modbus.Spec
