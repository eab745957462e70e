import Verif.Model.Driver

/-! C53: the line timing programmed by the example drivers. A character has 11 bits; the serial line specification asks for a silence of
at least 3.5 characters between frames and of less than 1.5 characters inside a frame; above 19200 baud fixed 1750 µs and 750 µs. -/

namespace Modbus

theorem bv_le_nat (a b : BitVec 32) : a ≤ b ↔ a.toNat ≤ b.toNat := BitVec.le_def

theorem rtor_low {baud : BitVec 32} (h : baud.toNat ≤ 19200) : rtorValue baud = 17 := by
  have : baud ≤ 19200 := by rw [bv_le_nat]; exact h
  simp only [rtorValue, this, if_true]

/-- The 1.5 character timeout above 19200 baud, without machine arithmetic: nothing overflows, the cap is never reached. -/
theorem rtor_high {baud : BitVec 32} (h : 19200 < baud.toNat) : (rtorValue baud).toNat = baud.toNat / 9600 * 83 / 10 := by
  have h0 : ¬ baud ≤ 19200 := by rw [bv_le_nat]; exact Nat.not_le.mpr h
  have hb : baud.toNat < 4294967296 := baud.isLt
  have e1 : (baud / 9600).toNat = baud.toNat / 9600 := by simp [BitVec.toNat_udiv]
  have e2 : (baud / 9600 * 83).toNat = baud.toNat / 9600 * 83 := by
    rw [BitVec.toNat_mul, e1]
    show baud.toNat / 9600 * 83 % 4294967296 = _
    omega
  have e3 : (baud / 9600 * 83 / 10).toNat = baud.toNat / 9600 * 83 / 10 := by
    rw [BitVec.toNat_udiv, e2]; rfl
  have h1 : ¬ (baud / 9600 * 83 / 10 > 0xFFFFFF) := by
    show ¬ (0xFFFFFF#32 < baud / 9600 * 83 / 10)
    rw [BitVec.lt_def, e3]
    show ¬ (16777215 < _)
    omega
  simp only [rtorValue, h0, if_false, h1, e3]

theorem arr_low {baud : BitVec 32} (h1 : 2400 ≤ baud.toNat) (h2 : baud.toNat ≤ 19200) :
    ∃ a, arrValue baud = .ok a ∧ a.toNat = 16042 / (baud.toNat / 2400) := by
  have h0 : baud ≤ 19200 := by rw [bv_le_nat]; exact h2
  have e1 : (baud / 2400).toNat = baud.toNat / 2400 := by simp [BitVec.toNat_udiv]
  have hq : baud / 2400 ≠ 0 := by
    intro h
    have := congrArg BitVec.toNat h
    rw [e1] at this
    change _ = 0 at this
    omega
  refine ⟨16042 / (baud / 2400), ?_, ?_⟩
  · simp only [arrValue, h0, if_true, hq, if_false]
  · rw [BitVec.toNat_udiv, e1]; rfl

theorem arr_high {baud : BitVec 32} (h : 19200 < baud.toNat) : arrValue baud = .ok 1750 := by
  have h0 : ¬ baud ≤ 19200 := by rw [bv_le_nat]; exact Nat.not_le.mpr h
  simp only [arrValue, h0, if_false]

/-- **C53**, division by zero: initialising with a baud rate below 2400 is undefined behaviour, and with no other rate. -/
theorem C53_div_by_zero (baud : BitVec 32) : arrValue baud = .error .divZero ↔ baud.toNat < 2400 := by
  constructor
  · intro h
    refine Nat.lt_of_not_le fun h1 => ?_
    rcases Nat.lt_or_ge 19200 baud.toNat with h2 | h2
    · rw [arr_high h2] at h; cases h
    · obtain ⟨a, ha, -⟩ := arr_low h1 h2
      rw [ha] at h; cases h
  · intro h
    have h0 : baud ≤ 19200 := by rw [bv_le_nat]; show baud.toNat ≤ 19200; omega
    have hq : baud / 2400 = 0 := by
      apply BitVec.eq_of_toNat_eq
      rw [BitVec.toNat_udiv]
      show baud.toNat / 2400 = 0
      omega
    simp only [arrValue, h0, if_true, hq]

/-- **C53**, 3.5 characters. For every rate from 2400 to 19200 baud the timer, which runs for `ARR + 1` microseconds, measures at least 3.5
characters of 11 bits (38.5 bit times; `(ARR + 1) · baud ≥ 38.5 · 10⁶`) and less than twice that; for rates that are a multiple of
2400 it is long by less than two microseconds. -/
theorem C53_t35_low (baud : BitVec 32) (h1 : 2400 ≤ baud.toNat) (h2 : baud.toNat ≤ 19200) :
    ∃ arr, arrValue baud = .ok arr ∧ 38500000 ≤ (arr.toNat + 1) * baud.toNat ∧ arr.toNat * baud.toNat < 2 * 38500000 + 2 * 19200 ∧
      (baud.toNat % 2400 = 0 → (arr.toNat + 1 - 2) * baud.toNat < 38500000) ∧ arr.toNat < 65536 := by
  obtain ⟨a, ha, hv⟩ := arr_low h1 h2
  refine ⟨a, ha, ?_⟩
  rw [hv]
  have hq : baud.toNat / 2400 = 1 ∨ baud.toNat / 2400 = 2 ∨ baud.toNat / 2400 = 3 ∨ baud.toNat / 2400 = 4 ∨ baud.toNat / 2400 = 5 ∨
      baud.toNat / 2400 = 6 ∨ baud.toNat / 2400 = 7 ∨ baud.toNat / 2400 = 8 := by omega
  rcases hq with h | h | h | h | h | h | h | h <;> rw [h] <;> simp only [Nat.reduceDiv, Nat.reduceAdd, Nat.reduceSub] <;>
    refine ⟨?_, ?_, ?_, ?_⟩ <;> omega

/-- **C53**, 3.5 characters above 19200 baud: 1750 µs. -/
theorem C53_t35_high (baud : BitVec 32) (h : 19200 < baud.toNat) : arrValue baud = .ok 1750 := arr_high h

/-- **C53**, 1.5 characters up to 19200 baud: 17 bit times, the least whole number of bit times that is at least 1.5 characters of 11 bits. -/
theorem C53_t15_low (baud : BitVec 32) (h : baud.toNat ≤ 19200) :
    rtorValue baud = 17 ∧ 2 * (17 - 1) < 3 * 11 ∧ 3 * 11 ≤ 2 * 17 := ⟨rtor_low h, by decide, by decide⟩

/-- **C53**, 1.5 characters above 19200 baud: for the rates that are a multiple of 9600 (all usual ones) the timeout is between 750 µs and
865 µs. -/
theorem C53_t15_high (baud : BitVec 32) (h : 19200 < baud.toNat) (h9 : baud.toNat % 9600 = 0) :
    750 * baud.toNat ≤ (rtorValue baud).toNat * 1000000 ∧ (rtorValue baud).toNat * 1000000 ≤ 865 * baud.toNat := by
  rw [rtor_high h]
  omega

/-- The restriction to multiples of 9600 is needed: at 28799 baud the 1.5 character timeout is below 556 µs instead of 750 µs. -/
theorem C53_t15_nonstandard_short : (rtorValue 28799).toNat * 1000000 < 556 * 28799 := by decide

/-- What holds for every rate above 19200 baud: at least 555 µs, at most 865 µs. -/
theorem C53_t15_any (baud : BitVec 32) (h : 19200 < baud.toNat) :
    555 * baud.toNat ≤ (rtorValue baud).toNat * 1000000 ∧ (rtorValue baud).toNat * 1000000 ≤ 865 * baud.toNat := by
  rw [rtor_high h]
  rcases Nat.lt_or_ge (baud.toNat / 9600) 3 with h3 | h3
  · have h2 : baud.toNat / 9600 = 2 := by omega
    rw [h2]
    omega
  · omega

/-- **C53**, order. For every rate from 2400 baud the 1.5 character timeout expires before the 3.5 character timer, both started by the
same byte: `RTOR / baud < (ARR + 1) / 10⁶`. The library relies on it (the frame is checked at the first and answered at the second). -/
theorem C53_t15_before_t35 (baud : BitVec 32) (h1 : 2400 ≤ baud.toNat) :
    ∃ arr, arrValue baud = .ok arr ∧ (rtorValue baud).toNat * 1000000 < (arr.toNat + 1) * baud.toNat := by
  rcases Nat.lt_or_ge 19200 baud.toNat with h | h
  · refine ⟨1750, arr_high h, ?_⟩
    have := (C53_t15_any baud h).2
    show _ < 1751 * baud.toNat
    omega
  · obtain ⟨a, ha, h3, -⟩ := C53_t35_low baud h1 h
    refine ⟨a, ha, ?_⟩
    rw [rtor_low h]
    show 17 * 1000000 < _
    omega

/-- Concrete rates: the hypotheses of the theorems above are met by 9600, 19200, 38400 and 115200 baud. -/
example : (rtorValue 115200).toNat = 99 ∧ (rtorValue 38400).toNat = 33 ∧ (rtorValue 9600).toNat = 17 ∧ (115200 : BitVec 32).toNat % 9600 = 0 := by
  decide
example : ∃ a, arrValue 9600 = .ok a ∧ a.toNat = 4010 := ⟨4010, rfl, rfl⟩
example : ∃ a, arrValue 19200 = .ok a ∧ a.toNat = 2005 := ⟨2005, rfl, rfl⟩

end Modbus
