import Verif.Model.Crc

/-! Model of `src/common/modbus_RTU.c`. -/

namespace Modbus

/-- `modbus_RTU_send`, `src/common/modbus_RTU.c:41-61`. `buf = none` is the NULL pointer; the results
are the returned status, the buffer and the length. `*msg_len + 1` is computed in `int`;
the stored new length is truncated to `uint8_t`. -/
def rtuSend (buf : Option Buf) (len : U8) (id : U8) : C (Ret × Option Buf × U8) :=
  match buf with
  | none => .ok (RET_ERROR, none, len)
  | some b =>
    if len.toNat ≤ pduMaxLen then do
      let b ← wr b idxSlaveAdr id
      let crc ← calculateCRC b len.toNat
      let b ← wr b len.toNat ((crc &&& 0x00FF).setWidth 8)
      let b ← wr b (len.toNat + 1) ((crc >>> 8).setWidth 8)
      return (RET_OK, some b, len + 2)
    else .ok (RET_ERROR, some b, len)

/-- `modbus_RTU_recv`, `src/common/modbus_RTU.c:78-90` (no NULL check in the code: NULL is UB). -/
def rtuRecv (buf : Option Buf) (len : U8) (id : U8) : C Ret :=
  match buf with
  | none => .error .nullDeref
  | some b => do
    let x ← rd b idxSlaveAdr
    if id ≠ x then return RET_ERROR_SLAVE_ID
    else
      let crc ← calculateCRC b len.toNat
      if crc ≠ 0 then return RET_ERROR_CRC else return RET_OK

end Modbus
