import Verif.Proofs.Rtu

/-! C01–C07: checksum and RTU framing. -/

namespace Modbus

open Spec

/-- C01. For every buffer and every length the buffer can hold, the table driven routine terminates
without leaving the buffer and returns the bit-by-bit CRC-16/MODBUS of those bytes. -/
theorem C01_crc_correct (b : Buf) (n : Nat) (h : n ≤ 256) :
    calculateCRC b n = .ok (crc16 (b.bytes 0 n)) := calculateCRC_eq b n h

/-- C01 for byte strings of any length (no buffer bound). -/
theorem C01_crc_correct_list (bs : List U8) : crcList bs = crc16 bs := crcList_eq bs

/-- C01, the length hypothesis is needed: beyond the buffer the routine reads out of bounds. -/
theorem C01_crc_beyond_buffer (b : Buf) (n : Nat) (h : 256 < n) :
    calculateCRC b n = .error .oobRead := by
  have key : ∀ m pos r, pos + m > 256 → pos ≤ 256 → crcLoop b m pos r = .error .oobRead := by
    intro m
    induction m with
    | zero => intro pos r h1 h2; omega
    | succ m ih =>
      intro pos r h1 h2
      rw [crcLoop]
      by_cases hp : pos < 256
      · simp only [rd, hp, if_true, bind, Except.bind]
        exact ih _ _ (by omega) (by omega)
      · simp only [rd, hp, if_false, bind, Except.bind]
  exact key _ _ _ (by omega) (by omega)

/-- Test of the specification itself: the standard check value of CRC-16/MODBUS for "123456789". -/
example : crc16 [0x31, 0x32, 0x33, 0x34, 0x35, 0x36, 0x37, 0x38, 0x39] = 0x4B37 := by decide +kernel

/-- C02. Framing any message of 1..253 bytes succeeds; the frame is the slave ID, the message bytes
1..len-1 unchanged, and two CRC bytes; nothing beyond them changes; and reception accepts it. -/
theorem C02_framed_accepted (b : Buf) (len id : U8) (h1 : 1 ≤ len.toNat) (h2 : len.toNat ≤ 253) :
    ∃ b' : Buf, rtuSend (some b) len id = .ok (RET_OK, some b', len + 2) ∧
      (len + 2).toNat = len.toNat + 2 ∧
      b' 0 = id ∧
      (∀ i, 1 ≤ i → i < len.toNat → b' i = b i) ∧
      (∀ i, len.toNat + 2 ≤ i → b' i = b i) ∧
      CrcCorrect (b'.bytes 0 (len.toNat + 2)) ∧
      rtuRecv (some b') (len + 2) id = .ok RET_OK := by
  have hl : (len + 2).toNat = len.toNat + 2 := by
    rw [BitVec.toNat_add]; simp; omega
  have hc : CrcCorrect ((framed b len.toNat id).bytes 0 (len.toNat + 2)) :=
    ⟨_, framed_frame b len.toNat id⟩
  have h0 : framed b len.toNat id 0 = id := by
    simp only [framed]
    rw [Buf.set_ne _ _ (by omega), Buf.set_ne _ _ (by omega), Buf.set_same]
  refine ⟨_, rtuSend_ok b len id h2, hl, h0, ?_, ?_, hc, ?_⟩
  · intro i hi1 hi2
    simp only [framed]
    rw [Buf.set_ne _ _ (by omega), Buf.set_ne _ _ (by omega), Buf.set_ne _ _ (by omega)]
  · intro i hi
    simp only [framed]
    rw [Buf.set_ne _ _ (by omega), Buf.set_ne _ _ (by omega), Buf.set_ne _ _ (by omega)]
  · rw [rtuRecv_eq, hl, (crc16_eq_zero_iff _).mpr hc, h0]; simp

/-- Non-vacuity of C02: a 6 byte message. -/
example : 1 ≤ (6 : U8).toNat ∧ (6 : U8).toNat ≤ 253 := by decide

/-- C03. Reception, for every buffer content, length and expected ID: accepted exactly when the first byte is
the ID and the received bytes are CRC-correct; a wrong first byte gives the ID error whatever the CRC;
otherwise the CRC error. -/
theorem C03_recv_exact (b : Buf) (len id : U8) :
    (rtuRecv (some b) len id = .ok RET_OK ↔ b 0 = id ∧ CrcCorrect (b.bytes 0 len.toNat)) ∧
    (rtuRecv (some b) len id = .ok RET_ERROR_SLAVE_ID ↔ b 0 ≠ id) ∧
    (rtuRecv (some b) len id = .ok RET_ERROR_CRC ↔ b 0 = id ∧ ¬ CrcCorrect (b.bytes 0 len.toNat)) := by
  rw [rtuRecv_eq, ← crc16_eq_zero_iff]
  by_cases h0 : b 0 = id
  · by_cases hc : crc16 (b.bytes 0 len.toNat) = 0
    · simp [h0, hc, RET_OK, RET_ERROR_CRC, RET_ERROR_SLAVE_ID]
    · have hc' : ¬ crc16 (b.bytes 0 len.toNat) = 0#16 := hc
      simp [h0, hc', RET_OK, RET_ERROR_CRC, RET_ERROR_SLAVE_ID]
  · have : id ≠ b 0 := fun h => h0 h.symm
    simp [h0, this]

/-- C03, corollary: frames shorter than two bytes are never accepted. -/
theorem C03_short_never_accepted (b : Buf) (len id : U8) (h : len.toNat < 2) :
    rtuRecv (some b) len id ≠ .ok RET_OK := by
  intro hr
  obtain ⟨_, body, hb⟩ := (C03_recv_exact b len id).1.mp hr
  have := congrArg List.length hb
  simp at this
  omega

/-- C04. An odd number of flipped bits is always detected (frames of any length). -/
theorem C04_odd_errors_detected (f g : List U8) (hlen : f.length = g.length) (hf : CrcCorrect f)
    (hodd : (errBits f g).count true % 2 = 1) : ¬ CrcCorrect g := by
  intro hg
  rw [← crc16_eq_zero_iff] at hf hg
  rw [feed_err f g hlen hf] at hg
  have := congrArg parity hg
  rw [parity_feed, hodd] at this
  simp [parity, parityN] at this

/-- C05. Two flipped bits are always detected in frames of at most 256 bytes. -/
theorem C05_two_errors_detected (f g : List U8) (hlen : f.length = g.length) (hf : CrcCorrect f)
    (h256 : f.length ≤ 256) (htwo : (errBits f g).count true = 2) : ¬ CrcCorrect g := by
  intro hg
  rw [← crc16_eq_zero_iff] at hf hg
  rw [feed_err f g hlen hf] at hg
  obtain ⟨i, d, j, he⟩ := exists_two_of_count _ htwo
  have hl := congrArg List.length he
  simp [errBits, bitsOfList_length] at hl
  rw [he] at hg
  exact feed_two_flips i d j (by omega) hg

/-- C06. Any non-empty set of errors confined to a window of 16 consecutive bits is detected. -/
theorem C06_burst_detected (f g : List U8) (hlen : f.length = g.length) (hf : CrcCorrect f)
    (hne : f ≠ g) (p : Nat) (hburst : ∀ k, (errBits f g).getD k false = true → p ≤ k ∧ k < p + 16) :
    ¬ CrcCorrect g := by
  intro hg
  rw [← crc16_eq_zero_iff] at hf hg
  rw [feed_err f g hlen hf] at hg
  have hmem : true ∈ errBits f g := by
    clear hburst hf hg
    induction f generalizing g with
    | nil => cases g with
      | nil => simp at hne
      | cons => simp at hlen
    | cons a f ih => cases g with
      | nil => simp at hlen
      | cons b g =>
        have hsplit : errBits (a :: f) (b :: g) = List.zipWith xor (bitsOf a) (bitsOf b) ++ errBits f g := by
          simp only [errBits, bitsOfList, List.flatMap_cons]
          rw [List.zipWith_append (by simp [bitsOf_length])]
        rw [hsplit, List.mem_append]
        by_cases hab : a = b
        · right
          exact ih g (by simpa using hlen) (by rintro rfl; exact hne (by rw [hab]))
        · left
          by_cases hall : true ∈ List.zipWith xor (bitsOf a) (bitsOf b)
          · exact hall
          · exfalso
            apply hab
            simp only [bitsOf, List.zipWith_cons_cons, List.zipWith_nil_left, List.mem_cons, not_or] at hall
            ext i hi
            rw [← BitVec.getLsbD_eq_getElem, ← BitVec.getLsbD_eq_getElem]
            have : i = 0 ∨ i = 1 ∨ i = 2 ∨ i = 3 ∨ i = 4 ∨ i = 5 ∨ i = 6 ∨ i = 7 := by omega
            obtain ⟨h0, h1, h2, h3, h4, h5, h6, h7, _⟩ := hall
            rcases this with rfl | rfl | rfl | rfl | rfl | rfl | rfl | rfl <;>
              (cases ha : a.getLsbD _ <;> cases hb : b.getLsbD _ <;> simp_all)
  obtain ⟨i, j, w, he, hw, hw'⟩ := burst_split _ p hburst hmem
  rw [he] at hg
  exact feed_burst i j w hw hw' hg

/-- C04–C06 at the API: a receiver presented with such an altered frame never accepts it. -/
theorem C04_C06_not_accepted (b : Buf) (len id : U8) (f : List U8) (hf : CrcCorrect f)
    (hlen : f.length = len.toNat)
    (herr : (errBits f (b.bytes 0 len.toNat)).count true % 2 = 1 ∨
      (errBits f (b.bytes 0 len.toNat)).count true = 2 ∨
      (f ≠ b.bytes 0 len.toNat ∧
        ∃ p, ∀ k, (errBits f (b.bytes 0 len.toNat)).getD k false = true → p ≤ k ∧ k < p + 16)) :
    rtuRecv (some b) len id ≠ .ok RET_OK := by
  intro hr
  obtain ⟨_, hg⟩ := (C03_recv_exact b len id).1.mp hr
  have hlen' : f.length = (b.bytes 0 len.toNat).length := by simp [hlen]
  rcases herr with h | h | ⟨h, p, hp⟩
  · exact C04_odd_errors_detected f _ hlen' hf h hg
  · exact C05_two_errors_detected f _ hlen' hf (by omega) h hg
  · exact C06_burst_detected f _ hlen' hf h p hp hg

/-- A concrete valid frame used to show that the hypotheses of C04–C06 are satisfiable:
`01 03 00 00 00 01` with CRC `84 0A`. -/
theorem sampleFrame_correct : CrcCorrect [0x01, 0x03, 0x00, 0x00, 0x00, 0x01, 0x84, 0x0A] :=
  (crc16_eq_zero_iff _).mp (by decide +kernel)

/-- Non-vacuity of C04, C05 and C06: one, two and a 16 bit burst of errors. -/
example :
    (errBits [0x01, 0x03, 0x00, 0x00, 0x00, 0x01, 0x84, 0x0A] [0x01, 0x13, 0x00, 0x00, 0x00, 0x01, 0x84, 0x0A]).count true % 2 = 1 ∧
    (errBits [0x01, 0x03, 0x00, 0x00, 0x00, 0x01, 0x84, 0x0A] [0x01, 0x13, 0x00, 0x00, 0x20, 0x01, 0x84, 0x0A]).count true = 2 ∧
    (∀ k, (errBits [0x01, 0x03, 0x00, 0x00, 0x00, 0x01, 0x84, 0x0A] [0x01, 0x04, 0x5F, 0x00, 0x00, 0x01, 0x84, 0x0A]).getD k false = true → 8 ≤ k ∧ k < 8 + 16) := by
  refine ⟨by decide, by decide, ?_⟩
  intro k hk
  have hk' : k < 64 := by
    rw [List.getD_eq_getElem?_getD] at hk
    by_cases h : k < 64
    · exact h
    · rw [List.getElem?_eq_none (by simp [errBits, bitsOfList_length]; omega)] at hk
      simp at hk
  revert hk
  revert hk'
  revert k
  decide +kernel

/-- C07. Framing: NULL or more than 253 bytes is refused with nothing changed; otherwise it succeeds without
leaving the 256 byte buffer and the new length is at most 255. In particular framing never is UB. -/
theorem C07_send_guard (len id : U8) :
    rtuSend none len id = .ok (RET_ERROR, none, len) ∧
    (∀ b : Buf, 253 < len.toNat → rtuSend (some b) len id = .ok (RET_ERROR, some b, len)) ∧
    (∀ b : Buf, len.toNat ≤ 253 → ∃ b' : Buf,
      rtuSend (some b) len id = .ok (RET_OK, some b', len + 2) ∧
      (len + 2).toNat = len.toNat + 2 ∧ (len + 2).toNat ≤ 255 ∧ ∀ i, 256 ≤ i → b' i = b i) := by
  refine ⟨rfl, fun b h => rtuSend_tooLong b len id h, fun b h => ?_⟩
  have hl : (len + 2).toNat = len.toNat + 2 := by
    rw [BitVec.toNat_add]; simp; omega
  refine ⟨_, rtuSend_ok b len id h, hl, by omega, ?_⟩
  intro i hi
  simp only [framed]
  rw [Buf.set_ne _ _ (by omega), Buf.set_ne _ _ (by omega), Buf.set_ne _ _ (by omega)]

/-- Non-vacuity of both branches of C07. -/
example : 253 < (254 : U8).toNat ∧ (253 : U8).toNat ≤ 253 := by decide

/-- Reception of a NULL buffer has no guard in the code: it is undefined behaviour. -/
theorem C07_recv_null (len id : U8) : rtuRecv none len id = .error .nullDeref := rfl

end Modbus
