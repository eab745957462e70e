import Verif.Proofs.Crc

/-! Helper lemmas about buffers and RTU framing. -/

namespace Modbus

open Spec

@[simp] theorem Buf.set_same (b : Buf) (i : Nat) (v : U8) : b.set i v i = v := by simp [Buf.set]

theorem Buf.set_ne (b : Buf) {i j : Nat} (v : U8) (h : j ≠ i) : b.set i v j = b j := by
  simp [Buf.set, h]

theorem Buf.set_apply (b : Buf) (i j : Nat) (v : U8) : b.set i v j = if j = i then v else b j := rfl

@[simp] theorem Buf.bytes_length (b : Buf) (p n : Nat) : (b.bytes p n).length = n := by simp [Buf.bytes]

@[simp] theorem Buf.bytes_getElem (b : Buf) (p n i : Nat) (h : i < (b.bytes p n).length) :
    (b.bytes p n)[i] = b (p + i) := by simp [Buf.bytes]

theorem Buf.bytes_congr {b b' : Buf} {p n : Nat} (h : ∀ i, i < n → b (p + i) = b' (p + i)) :
    b.bytes p n = b'.bytes p n := by
  apply List.ext_getElem
  · simp
  · intro i h1 _
    simp at h1
    simp [h i h1]

theorem Buf.bytes_add (b : Buf) (p m n : Nat) : b.bytes p (m + n) = b.bytes p m ++ b.bytes (p + m) n := by
  apply List.ext_getElem
  · simp
  · intro i h1 h2
    simp at h1
    rw [List.getElem_append]
    split
    · simp
    · rename_i h3
      simp at h3
      simp
      congr 1; omega

theorem rd_ok (b : Buf) {i : Nat} (h : i < 256) : rd b i = .ok (b i) := by simp [rd, h]

theorem wr_ok (b : Buf) {i : Nat} (v : U8) (h : i < 256) : wr b i v = .ok (b.set i v) := by simp [wr, h]

theorem lo_mask (c : U16) : ((c &&& 0x00FF).setWidth 8 : U8) = c.setWidth 8 := by
  ext i hi
  have h : ∀ i, i < 8 → (255#8).getLsbD i = true := by decide
  simp [h i hi, ← BitVec.getLsbD_eq_getElem]

/-- The buffer after successful framing. -/
def framed (b : Buf) (n : Nat) (id : U8) : Buf :=
  let b0 := b.set 0 id
  let c := crc16 (b0.bytes 0 n)
  (b0.set n (c.setWidth 8)).set (n + 1) ((c >>> 8).setWidth 8)

theorem rtuSend_ok (b : Buf) (len id : U8) (h : len.toNat ≤ 253) :
    rtuSend (some b) len id = .ok (RET_OK, some (framed b len.toNat id), len + 2) := by
  simp only [rtuSend, pduMaxLen, h, if_true, bind, Except.bind]
  rw [wr_ok _ _ (by decide)]
  simp only
  rw [calculateCRC_eq _ _ (by omega)]
  simp only
  rw [wr_ok _ _ (by omega)]
  simp only
  rw [wr_ok _ _ (by omega), lo_mask]
  rfl

theorem rtuSend_tooLong (b : Buf) (len id : U8) (h : 253 < len.toNat) :
    rtuSend (some b) len id = .ok (RET_ERROR, some b, len) := by
  simp only [rtuSend, pduMaxLen]
  rw [if_neg (by omega)]

theorem rtuRecv_eq (b : Buf) (len id : U8) :
    rtuRecv (some b) len id = .ok (
      if id ≠ b 0 then RET_ERROR_SLAVE_ID
      else if crc16 (b.bytes 0 len.toNat) ≠ 0 then RET_ERROR_CRC else RET_OK) := by
  simp only [rtuRecv, rd_ok b (show 0 < 256 by decide), bind, Except.bind,
    calculateCRC_eq b len.toNat (by omega)]
  split
  · rfl
  · split <;> rfl

theorem framed_frame (b : Buf) (n : Nat) (id : U8) :
    (framed b n id).bytes 0 (n + 2) =
      (b.set 0 id).bytes 0 n ++
        [(crc16 ((b.set 0 id).bytes 0 n)).setWidth 8, (crc16 ((b.set 0 id).bytes 0 n) >>> 8).setWidth 8] := by
  rw [Buf.bytes_add]
  congr 1
  · apply Buf.bytes_congr
    intro i hi
    simp only [framed, Nat.zero_add]
    rw [Buf.set_ne _ _ (by omega), Buf.set_ne _ _ (by omega)]
  · simp only [Buf.bytes, framed, List.range_succ, List.range_zero, List.nil_append,
      List.map_cons, List.map_nil, List.singleton_append, List.cons.injEq, and_true, Nat.zero_add, Nat.add_zero]
    constructor
    · rw [Buf.set_ne _ _ (by omega), Buf.set_same]
    · rw [Buf.set_same]

end Modbus
