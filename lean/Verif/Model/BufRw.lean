import Verif.Model.Basic

/-! Model of `src/common/buf_rw.c`. -/

namespace Modbus

/-- The big-endian combination of two bytes, `src/common/buf_rw.c:43`: `(hi << 8) | lo`. -/
def u16of (hi lo : U8) : U16 := (hi.setWidth 16 <<< 8) ||| lo.setWidth 16

/-- High byte, `src/common/buf_rw.c:28`: `(uint8_t)(data >> 8)`. -/
def hiByte (d : U16) : U8 := (d >>> 8).setWidth 8

/-- Low byte, `src/common/buf_rw.c:29`: `(uint8_t)(data & 0xFF)`. -/
def loByte (d : U16) : U8 := (d &&& 0xFF).setWidth 8

/-- `write_u16_to_buf(&buf[i], data)`, `src/common/buf_rw.c:26-30`. -/
def writeU16 (b : Buf) (i : Nat) (d : U16) : C Buf := do
  let b ← wr b i (hiByte d)
  wr b (i + 1) (loByte d)

/-- `read_u16_from_buf(&buf[i])`, `src/common/buf_rw.c:41-44`. -/
def readU16 (b : Buf) (i : Nat) : C U16 := do
  let hi ← rd b i
  let lo ← rd b (i + 1)
  return u16of hi lo

end Modbus
