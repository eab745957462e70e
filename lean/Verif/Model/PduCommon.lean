import Verif.Model.BufRw

/-! Model of `src/common/modbus_PDU_common.c`. -/

namespace Modbus

/-- `get_coil_din_byte_count`, `src/common/modbus_PDU_common.c:25-35`; the result is a `uint8_t`,
so the quotient is truncated modulo 256 before the possible increment. -/
def coilDinByteCount (qty : U16) : U8 :=
  let bc : U8 := BitVec.ofNat 8 (qty.toNat / 8)
  if qty.toNat % 8 ≠ 0 then bc + 1 else bc

/-- The clearing loop, `src/common/modbus_PDU_common.c:48-51`. -/
def clearLoop (b : Buf) (base : Nat) : (n i : Nat) → C Buf
  | 0, _ => .ok b
  | n + 1, i => do
    let b ← wr b (base + i) 0
    clearLoop b base n (i + 1)

/-- `clear_coil_din_status_byte(&buf[base], qty)`, `src/common/modbus_PDU_common.c:46-52`. The loop
counter is a `uint8_t` while `qty` is a `uint16_t`: for `qty ≥ 256` the loop never ends. -/
def clearStatusBytes (b : Buf) (base : Nat) (qty : Nat) : C Buf :=
  if 256 ≤ qty then .error .diverge else clearLoop b base qty 0

end Modbus
