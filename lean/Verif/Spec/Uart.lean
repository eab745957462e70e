/-! How the UART of the STM32G0 interprets its configuration registers, after the reference manual (RM0454, section USART): the meaning of
the bits, independent of the program that writes them. -/

namespace Modbus.Spec

/-- Parity of the characters on the line. -/
inductive LineParity where
  | none
  | odd
  | even
  deriving DecidableEq, Repr

/-- Format of a character on the line. Stop bits in halves, because the hardware also offers 0.5 and 1.5. -/
structure LineFormat where
  dataBits : Nat
  parity : LineParity
  stopHalves : Nat
  deriving DecidableEq, Repr

/-- Length of a character on the line in half bits: start bit, data, parity, stop. -/
def LineFormat.halfBits (f : LineFormat) : Nat :=
  2 * (1 + f.dataBits + if f.parity = .none then 0 else 1) + f.stopHalves

/-- M1 (bit 28), M0 (bit 12) of CR1: the word length, parity bit included. -/
def wordLength (cr1 : BitVec 32) : Nat :=
  match cr1.getLsbD 28, cr1.getLsbD 12 with
  | false, false => 8
  | false, true => 9
  | true, false => 7
  | true, true => 0

/-- PCE (bit 10): parity enabled; PS (bit 9): odd. -/
def uartParity (cr1 : BitVec 32) : LineParity :=
  match cr1.getLsbD 10, cr1.getLsbD 9 with
  | false, _ => .none
  | true, true => .odd
  | true, false => .even

/-- STOP (bits 13:12 of CR2). -/
def uartStop (cr2 : BitVec 32) : Nat :=
  match cr2.getLsbD 13, cr2.getLsbD 12 with
  | false, false => 2
  | false, true => 1
  | true, false => 4
  | true, true => 3

/-- The format of the characters sent and expected. -/
def uartFormat (cr1 cr2 : BitVec 32) : LineFormat :=
  { dataBits := wordLength cr1 - (if uartParity cr1 = .none then 0 else 1), parity := uartParity cr1, stopHalves := uartStop cr2 }

/-- UE (bit 0), RE (bit 2), TE (bit 3): the UART, its receiver and its transmitter are on; OVER8 (bit 15) is off: the bit time is `BRR` clock
periods. -/
def uartOn (cr1 : BitVec 32) : Prop :=
  cr1.getLsbD 0 = true ∧ cr1.getLsbD 2 = true ∧ cr1.getLsbD 3 = true ∧ cr1.getLsbD 15 = false

/-- RTOIE (bit 26 of CR1), RTOEN (bit 23 of CR2): the receiver timeout is on and interrupts. -/
def timeoutOn (cr1 cr2 : BitVec 32) : Prop := cr1.getLsbD 26 = true ∧ cr2.getLsbD 23 = true

/-- BRR (bits 15:0): clock periods per bit. -/
def bitClocks (brr : BitVec 32) : Nat := brr.toNat % 65536

/-- RTO (bits 23:0 of RTOR): length of the receiver timeout in bits. -/
def timeoutBits (rtor : BitVec 32) : Nat := rtor.toNat % 16777216

/-- The one-pulse timer: `ARR + 1` periods of `PSC + 1` clocks, both registers 16 bit; CR1: OPM (bit 3), URS (bit 2); DIER: UIE (bit 0). -/
def timerClocks (psc arr : BitVec 32) : Nat := (psc.toNat % 65536 + 1) * (arr.toNat % 65536 + 1)

/-- OPM, URS, UIE of the timer: it stops after one period, and only the end of a period interrupts. -/
def onePulse (cr1 dier : BitVec 32) : Prop := cr1.getLsbD 3 = true ∧ cr1.getLsbD 2 = true ∧ dier.getLsbD 0 = true

/-- The number in the `n` bits from bit `k`. -/
def bitField (v : BitVec 32) (k : Nat) : Nat → Nat
  | 0 => 0
  | n + 1 => bitField v k n + if v.getLsbD (k + n) then 2 ^ n else 0

/-- Mode field of a pin in MODER; 2 = alternate function. -/
def pinMode (moder : BitVec 32) (pin : Nat) : Nat := bitField moder (2 * pin) 2

/-- Alternate function of a pin (0 to 7) in AFRL. -/
def pinFunction (afrl : BitVec 32) (pin : Nat) : Nat := bitField afrl (4 * pin) 4

/-- The clocks: port A (bit 0 of IOPENR), USART2 (bit 17 of APBENR1), TIM7 (bit 5 of APBENR1). -/
def clocksOn (iopenr apbenr1 : BitVec 32) : Prop := iopenr.getLsbD 0 = true ∧ apbenr1.getLsbD 17 = true ∧ apbenr1.getLsbD 5 = true

/-- DEM (bit 14 of CR3) and DEP (bit 15): the driver-enable pin is high while the UART transmits. -/
def driverEnable (cr3 : BitVec 32) : Prop := cr3.getLsbD 14 = true ∧ cr3.getLsbD 15 = false

/-- DEAT (bits 25:21 of CR1): how long before the first start bit the pin goes high, in sixteenths of a bit. -/
def enableLead (cr1 : BitVec 32) : Nat := bitField cr1 21 5

/-- DEDT (bits 20:16 of CR1): how long after the last stop bit it stays high. -/
def enableTail (cr1 : BitVec 32) : Nat := bitField cr1 16 5

/-- OVRDIS (bit 12 of CR3): a byte that comes in while the previous one has not been read replaces it, without an overrun error. -/
def overrunOff (cr3 : BitVec 32) : Prop := cr3.getLsbD 12 = true

/-- The interrupt enables of CR1: IDLE (4), RXNE (5), TC (6), TXE (7), PE (8), CM (14), RTO (26), EOB (27). -/
def interruptsOn (cr1 : BitVec 32) : List Nat := [4, 5, 6, 7, 8, 14, 26, 27].filter fun k => cr1.getLsbD k

end Modbus.Spec
