import Verif.Model.DriverInit
import Verif.Spec.Uart
import Verif.Props.DriverTiming
import Verif.Proofs.Basic

/-! C67: what the initialisation of the example drivers configures. -/

namespace Modbus

open Spec

/-- What the caller asks for. -/
def Parity.line : Parity → LineParity
  | .none => .none
  | .odd => .odd
  | .even => .even

/-- The or of the timeouts of all initialisations. -/
def rtorOr (l : List (BitVec 32 × Parity)) : BitVec 32 := l.foldl (fun a x => a ||| rtorValue x.1) 0

/-- What the registers mean after a history `l` of initialisations with the last one for `baud` and `p`. -/
structure Configured (l : List (BitVec 32 × Parity)) (baud : BitVec 32) (p : Parity) (r : HwRegs) : Prop where
  on : uartOn r.cr1
  timeout : timeoutOn r.cr1 r.cr2
  format : uartFormat r.cr1 r.cr2 =
    { dataBits := 8, parity := p.line, stopHalves := if ∃ x ∈ l, x.2 = .none then 4 else 2 }
  brr : bitClocks r.brr = 64000000 / baud.toNat
  rto : r.rtor = rtorOr l
  timer : r.timCr1.getLsbD 3 = true ∧ r.timCr1.getLsbD 2 = true ∧ r.timDier.getLsbD 0 = true ∧ r.timPsc.toNat = 63 ∧ arrValue baud = .ok r.timArr
  modes : pinMode r.moder 1 = 2 ∧ pinMode r.moder 2 = 2 ∧ pinMode r.moder 3 = 2
  functions : pinFunction r.afrl 1 = 1 ∧ pinFunction r.afrl 2 = 1

/-- The bits of the registers which the initialisations leave alone or only ever set. -/
structure Cfg0 (l : List (BitVec 32 × Parity)) (r : HwRegs) : Prop where
  m1 : r.cr1.getLsbD 28 = false
  over8 : r.cr1.getLsbD 15 = false
  stop0 : r.cr2.getLsbD 12 = false
  stop1 : (r.cr2.getLsbD 13 = true ↔ ∃ x ∈ l, x.2 = .none)
  rto : r.rtor = rtorOr l

theorem Cfg0.reset : Cfg0 [] HwRegs.reset := ⟨by decide, by decide, by decide, by simp [HwRegs.reset], rfl⟩

theorem arr_defined {baud : BitVec 32} (hb : 2400 ≤ baud.toNat) : ∃ a, arrValue baud = .ok a := by
  rcases Nat.lt_or_ge 19200 baud.toNat with h | h
  · exact ⟨_, arr_high h⟩
  · obtain ⟨a, ha, -⟩ := arr_low hb h
    exact ⟨a, ha⟩

theorem driverInit_spec {l : List (BitVec 32 × Parity)} {r : HwRegs} (h : Cfg0 l r) {baud : BitVec 32} (hb : 2400 ≤ baud.toNat) (p : Parity) :
    ∃ r', driverInit r baud p = .ok r' ∧ Cfg0 (l ++ [(baud, p)]) r' ∧ Configured (l ++ [(baud, p)]) baud p r' := by
  obtain ⟨a, ha⟩ := arr_defined hb
  have h0 : baud ≠ 0 := by rintro rfl; exact absurd hb (by decide)
  obtain ⟨g1, g2, g3, g4, g5⟩ := h
  have hbrr : (64000000 / baud).toNat = 64000000 / baud.toNat := by rw [BitVec.toNat_udiv]; rfl
  have hle : 64000000 / baud.toNat ≤ 64000000 / 2400 := Nat.div_le_div_left hb (by decide)
  have hex : (∃ x ∈ l ++ [(baud, p)], x.2 = .none) ↔ (∃ x ∈ l, x.2 = .none) ∨ p = .none := by
    simp [List.mem_append, or_and_right, exists_or]
  have hrto : rtorOr (l ++ [(baud, p)]) = rtorOr l ||| rtorValue baud := by simp [rtorOr]
  have hs : (parityCr2 r.cr2 p ||| 0x800000).getLsbD 13 = true ↔ ∃ x ∈ l ++ [(baud, p)], x.2 = .none := by
    rw [hex, ← g4]; cases p <;> simp [parityCr2]
  have hs0 : (parityCr2 r.cr2 p ||| 0x800000).getLsbD 12 = false := by
    simp at g3; cases p <;> simp [parityCr2, g3]
  refine ⟨_, by simp only [driverInit, usartConfig, if_neg h0, ok_bind, timerInit, ha]; rfl, ⟨?_, ?_, ?_, ?_, ?_⟩, ⟨?_, ?_, ?_, ?_, ?_, ?_, ?_, ?_⟩⟩
  · simp at g1; cases p <;> simp [gpioInit, parityCr1, g1]
  · simp at g2; cases p <;> simp [gpioInit, parityCr1, g2]
  · exact hs0
  · exact hs
  · simp [gpioInit, hrto, g5]
  · simp at g2; refine ⟨?_, ?_, ?_, ?_⟩ <;> cases p <;> simp [gpioInit, parityCr1, g2]
  · refine ⟨?_, ?_⟩ <;> cases p <;> simp [gpioInit, parityCr1, parityCr2]
  · have e1 : uartParity (parityCr1 (r.cr1 ||| (0x4 ||| 0x8 ||| 0x4000000)) p ||| (0x1000000 ||| 0x80000) ||| 0x1) = p.line := by
      cases p <;> simp [uartParity, parityCr1, Parity.line]
    have e2 : wordLength (parityCr1 (r.cr1 ||| (0x4 ||| 0x8 ||| 0x4000000)) p ||| (0x1000000 ||| 0x80000) ||| 0x1) = if p = .none then 8 else 9 := by
      simp at g1; cases p <;> simp [wordLength, parityCr1, g1]
    have e3 : uartStop (parityCr2 r.cr2 p ||| 0x800000) = if ∃ x ∈ l ++ [(baud, p)], x.2 = .none then 4 else 2 := by
      simp only [uartStop, hs0]
      by_cases hx : ∃ x ∈ l ++ [(baud, p)], x.2 = .none
      · rw [if_pos hx, hs.2 hx]
      · rw [if_neg hx]
        have : (parityCr2 r.cr2 p ||| 0x800000).getLsbD 13 = false := by
          cases hh : (parityCr2 r.cr2 p ||| 0x800000).getLsbD 13
          · rfl
          · exact absurd (hs.1 hh) hx
        rw [this]
    show uartFormat (parityCr1 (r.cr1 ||| (0x4 ||| 0x8 ||| 0x4000000)) p ||| (0x1000000 ||| 0x80000) ||| 0x1) (parityCr2 r.cr2 p ||| 0x800000) = _
    simp only [uartFormat, e1, e2, e3]
    cases p <;> rfl
  · show (64000000 / baud).toNat % 65536 = _
    rw [hbrr]; omega
  · simp [gpioInit, hrto, g5]
  · refine ⟨?_, ?_, ?_, ?_, ?_⟩
    · simp [gpioInit]
    · simp [gpioInit]
    · simp
    · show (64000000 / 1000000 - 1 : BitVec 32).toNat = 63
      decide
    · exact ha
  · refine ⟨?_, ?_, ?_⟩ <;> simp [gpioInit, pinMode, bitField]
  · refine ⟨?_, ?_⟩ <;> simp [gpioInit, pinFunction, bitField]

/-- Any history of initialisations. -/
theorem driverInits_spec {l l0 : List (BitVec 32 × Parity)} {r : HwRegs} (h : Cfg0 l0 r) (hb : ∀ x ∈ l, 2400 ≤ x.1.toNat) {baud : BitVec 32}
    (hb2 : 2400 ≤ baud.toNat) (p : Parity) :
    ∃ r', driverInits r (l ++ [(baud, p)]) = .ok r' ∧ Configured (l0 ++ l ++ [(baud, p)]) baud p r' := by
  induction l generalizing l0 r with
  | nil =>
    obtain ⟨r', e, -, c⟩ := driverInit_spec h hb2 p
    exact ⟨r', by simp only [List.nil_append, driverInits, e, ok_bind], by simpa using c⟩
  | cons x l ih =>
    obtain ⟨b1, p1⟩ := x
    obtain ⟨r1, e, c0, -⟩ := driverInit_spec h (hb (b1, p1) (by simp)) p1
    obtain ⟨r', e2, c⟩ := ih c0 (fun y hy => hb y (by simp [hy]))
    exact ⟨r', by simp only [List.cons_append, driverInits, e, ok_bind, e2], by simpa using c⟩

/-- The rate generated, `64 MHz / BRR`, against the rate asked for: never slower, and faster by at most `1 / (BRR)` of it. -/
theorem rate_accuracy {baud : Nat} (h1 : 0 < baud) (h2 : baud ≤ 64000000) :
    baud * (64000000 / baud) ≤ 64000000 ∧ 64000000 < baud * (64000000 / baud) + baud ∧ 0 < 64000000 / baud :=
  ⟨Nat.mul_div_le _ _, by have := Nat.lt_mul_div_succ 64000000 h1; rwa [Nat.mul_add, Nat.mul_one] at this, Nat.div_pos h2 h1⟩

/-- **C67**, first initialisation. For every rate from 2400 baud to the clock rate and every parity: the UART and both directions are on, characters
have 8 data bits, the parity asked for and together 11 bits; the rate is the requested one up to the resolution of the divider (`bitClocks` is the
quotient rounded down, so below 128000 baud the error is less than 0.2 %); receiver timeout and timer have the values of C53; the pins are
connected. -/
theorem C67_first_init {baud : BitVec 32} (h1 : 2400 ≤ baud.toNat) (h2 : baud.toNat ≤ 64000000) (p : Parity) :
    ∃ r, driverInit HwRegs.reset baud p = .ok r ∧ uartOn r.cr1 ∧ timeoutOn r.cr1 r.cr2 ∧
      uartFormat r.cr1 r.cr2 = { dataBits := 8, parity := p.line, stopHalves := if p = .none then 4 else 2 } ∧
      (uartFormat r.cr1 r.cr2).halfBits = 2 * 11 ∧
      (bitClocks r.brr * baud.toNat ≤ 64000000 ∧ 64000000 < (bitClocks r.brr + 1) * baud.toNat) ∧
      (baud.toNat ≤ 127000 → 64000000 * 1000 ≤ bitClocks r.brr * baud.toNat * 1002) ∧
      timeoutBits r.rtor = (rtorValue baud).toNat ∧
      (∃ a, arrValue baud = .ok a ∧ timerClocks r.timPsc r.timArr = 64 * (a.toNat + 1)) ∧
      (∀ pin, 1 ≤ pin → pin ≤ 3 → pinMode r.moder pin = 2 ∧ pinFunction r.afrl pin = 1) := by
  obtain ⟨r, e, c0, c⟩ := driverInit_spec Cfg0.reset h1 p
  have hex : (∃ x ∈ [] ++ [(baud, p)], x.2 = Parity.none) ↔ p = .none := by simp
  have hf : uartFormat r.cr1 r.cr2 = { dataBits := 8, parity := p.line, stopHalves := if p = .none then 4 else 2 } := by
    rw [c.format]; simp only [hex]
  have hr : r.rtor = rtorValue baud := by rw [c.rto]; simp [rtorOr]
  have hr2 : (rtorValue baud).toNat < 16777216 := by
    rcases Nat.lt_or_ge 19200 baud.toNat with h | h
    · rw [rtor_high h]; omega
    · rw [rtor_low h]; decide
  obtain ⟨t1, t2, t3, t4, t5⟩ := c.timer
  have ht : r.timArr.toNat < 65536 := by
    rcases Nat.lt_or_ge 19200 baud.toNat with h | h
    · rw [arr_high h] at t5
      rw [← Except.ok.inj t5]; decide
    · obtain ⟨a, ha, hv⟩ := arr_low h1 h
      rw [ha] at t5
      rw [← Except.ok.inj t5, hv]
      exact Nat.lt_of_le_of_lt (Nat.div_le_self _ _) (by decide)
  obtain ⟨q1, q2, q3⟩ := rate_accuracy (baud := baud.toNat) (by omega) h2
  refine ⟨r, e, c.on, c.timeout, hf, ?_, ⟨?_, ?_⟩, ?_, ?_, ⟨_, t5, ?_⟩, ?_⟩
  · rw [hf]; cases p <;> rfl
  · rw [c.brr, Nat.mul_comm]; exact q1
  · rw [c.brr, Nat.add_mul, Nat.one_mul, Nat.mul_comm]; exact q2
  · intro h
    rw [c.brr, Nat.mul_comm (64000000 / _)]
    omega
  · rw [hr]; exact Nat.mod_eq_of_lt hr2
  · show (r.timPsc.toNat % 65536 + 1) * (r.timArr.toNat % 65536 + 1) = _
    rw [t4, Nat.mod_eq_of_lt ht]
  · have e3 : pinFunction r.afrl 3 = 1 := by
      have h0 : baud ≠ 0 := by rintro rfl; exact absurd h1 (by decide)
      simp only [driverInit, usartConfig, if_neg h0, ok_bind, timerInit, t5] at e
      have e := congrArg HwRegs.afrl (Except.ok.inj e)
      rw [← e]
      show pinFunction (gpioInit HwRegs.reset).afrl 3 = 1
      decide
    intro pin g1 g2
    have : pin = 1 ∨ pin = 2 ∨ pin = 3 := by omega
    rcases this with rfl | rfl | rfl
    · exact ⟨c.modes.1, c.functions.1⟩
    · exact ⟨c.modes.2.1, c.functions.2⟩
    · exact ⟨c.modes.2.2, e3⟩

/-- **C67**, first initialisation, the rest of the configuration: the clocks are on; the driver-enable pin is high while the UART transmits, from half a
bit before the first start bit until half a bit after the last stop bit; overruns raise no error; the receiver timeout is the only UART interrupt
that is enabled yet; the timer runs once per start; the pins that do not belong to the UART are as before. -/
theorem C67_first_init_peripherals {baud : BitVec 32} (h1 : 2400 ≤ baud.toNat) (p : Parity) :
    ∃ r, driverInit HwRegs.reset baud p = .ok r ∧ clocksOn r.iopenr r.apbenr1 ∧ driverEnable r.cr3 ∧ enableLead r.cr1 = 8 ∧ enableTail r.cr1 = 8 ∧
      overrunOff r.cr3 ∧ interruptsOn r.cr1 = [26] ∧ onePulse r.timCr1 r.timDier ∧
      (∀ pin, pin < 16 → ¬ (1 ≤ pin ∧ pin ≤ 3) → pinMode r.moder pin = pinMode HwRegs.reset.moder pin) ∧
      ∀ pin, pin < 8 → ¬ (1 ≤ pin ∧ pin ≤ 3) → pinFunction r.afrl pin = pinFunction HwRegs.reset.afrl pin := by
  obtain ⟨a, ha⟩ := arr_defined h1
  have h0 : baud ≠ 0 := by rintro rfl; exact absurd h1 (by decide)
  refine ⟨_, by simp only [driverInit, usartConfig, if_neg h0, ok_bind, timerInit, ha]; rfl, ?_⟩
  dsimp only
  cases p <;> refine ⟨⟨by decide, by decide, by decide⟩, ⟨by decide, by decide⟩, by decide, by decide, by show _ = _; decide, by decide,
    ⟨by decide, by decide, by decide⟩, by show ∀ pin, pin < 16 → _; decide, by show ∀ pin, pin < 8 → _; decide⟩

/-- **C67**, exactly what holds for any history of initialisations (rates from 2400 baud): data bits, parity, rate and 3.5 character timer are those
of the last call; there are two stop bits as soon as one of the calls was without parity; the 1.5 character timeout is the bitwise or of the
values of all calls. -/
theorem C67_history_partial {l : List (BitVec 32 × Parity)} (hb : ∀ x ∈ l, 2400 ≤ x.1.toNat) {baud : BitVec 32} (hb2 : 2400 ≤ baud.toNat) (p : Parity) :
    ∃ r, driverInits HwRegs.reset (l ++ [(baud, p)]) = .ok r ∧ uartOn r.cr1 ∧ timeoutOn r.cr1 r.cr2 ∧
      uartFormat r.cr1 r.cr2 = { dataBits := 8, parity := p.line, stopHalves := if p = .none ∨ ∃ x ∈ l, x.2 = .none then 4 else 2 } ∧
      bitClocks r.brr = 64000000 / baud.toNat ∧ arrValue baud = .ok r.timArr ∧
      r.rtor = l.foldr (fun x a => rtorValue x.1 ||| a) (rtorValue baud) := by
  obtain ⟨r, e, c⟩ := driverInits_spec Cfg0.reset hb hb2 p
  refine ⟨r, e, c.on, c.timeout, ?_, c.brr, c.timer.2.2.2.2, ?_⟩
  · rw [c.format]
    have : (∃ x ∈ [] ++ l ++ [(baud, p)], x.2 = Parity.none) ↔ p = .none ∨ ∃ x ∈ l, x.2 = .none := by
      simp [List.mem_append, or_and_right, exists_or, or_comm]
    simp only [this]
  · rw [c.rto]
    have key : ∀ (a : BitVec 32), List.foldl (fun a (x : BitVec 32 × Parity) => a ||| rtorValue x.1) a (l ++ [(baud, p)]) =
        a ||| l.foldr (fun x a => rtorValue x.1 ||| a) (rtorValue baud) := by
      clear e c hb
      induction l with
      | nil => intro a; rfl
      | cons x l ih =>
        intro a
        rw [List.cons_append, List.foldl_cons, ih, List.foldr_cons, BitVec.or_assoc]
    show rtorOr _ = _
    rw [rtorOr, List.nil_append, key]
    simp

/-- **C67** is FALSE for a second initialisation with other parameters. First 38400 baud without parity, then 9600 baud with odd parity: the 1.5
character timeout is 49 bits (4.5 characters, longer than the 3.5 character silence) instead of 17, and the characters have 12 bits
instead of 11. -/
theorem C67_reinit_violated :
    ∃ r r1, driverInits HwRegs.reset [(38400, .none), (9600, .odd)] = .ok r ∧ driverInit HwRegs.reset 9600 .odd = .ok r1 ∧
      timeoutBits r1.rtor = 17 ∧ timeoutBits r.rtor = 49 ∧
      (uartFormat r1.cr1 r1.cr2).halfBits = 2 * 11 ∧ (uartFormat r.cr1 r.cr2).halfBits = 2 * 12 ∧ 2 * 49 > 7 * 11 := by
  refine ⟨_, _, rfl, rfl, ?_, ?_, ?_, ?_, ?_⟩ <;> decide

/-- Initialising again with the same parameters, any number of times, configures the same line. -/
theorem C67_same_parameters {baud : BitVec 32} (hb : 2400 ≤ baud.toNat) (p : Parity) (n : Nat) :
    ∃ r r1, driverInits HwRegs.reset (List.replicate n (baud, p) ++ [(baud, p)]) = .ok r ∧ driverInit HwRegs.reset baud p = .ok r1 ∧
      uartFormat r.cr1 r.cr2 = uartFormat r1.cr1 r1.cr2 ∧ bitClocks r.brr = bitClocks r1.brr ∧ r.rtor = r1.rtor ∧ r.timArr = r1.timArr := by
  obtain ⟨r, e, -, -, f, b, a, t⟩ := C67_history_partial (l := List.replicate n (baud, p)) (fun x hx => by rw [List.eq_of_mem_replicate hx]; exact hb) hb p
  obtain ⟨r1, e1, -, -, f1, b1, a1, t1⟩ := C67_history_partial (l := []) (fun x hx => nomatch hx) hb p
  rw [List.nil_append] at e1
  refine ⟨r, r1, e, ?_, ?_, by rw [b, b1], ?_, ?_⟩
  · simp only [driverInits] at e1
    cases hd : driverInit HwRegs.reset baud p with
    | error u => rw [hd] at e1; cases e1
    | ok r2 => rw [hd] at e1; exact e1
  · rw [f, f1]
    have : (p = .none ∨ ∃ x ∈ List.replicate n (baud, p), x.2 = .none) ↔ (p = .none ∨ ∃ x ∈ ([] : List (BitVec 32 × Parity)), x.2 = .none) := by
      simp only [List.mem_replicate, List.not_mem_nil, false_and, exists_false, or_false]
      constructor
      · rintro (h | ⟨x, ⟨-, rfl⟩, h⟩) <;> exact h
      · exact .inl
    simp only [this]
  · rw [t, t1, List.foldr_nil]
    clear e e1 f b a t
    induction n with
    | zero => rfl
    | succ n ih => rw [List.replicate_succ, List.foldr_cons, ih, BitVec.or_self]
  · rw [a] at a1; exact Except.ok.inj a1

end Modbus
