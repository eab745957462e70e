import Verif.Spec.Wire
import Verif.Spec.Master

/-! Timed executions of a master device (library with the example driver) that never end, in terms of bytes, receiver timeouts and timer events.
Times are natural numbers in any unit. -/

namespace Modbus.Spec

open Modbus

/-- An execution that never ends: event `n` happens at time `time n`, in state `st n`, and puts out `out n`. -/
structure MDeviceTimed where
  op : Nat → HMOp
  time : Nat → Nat
  st : Nat → MasterSys
  out : Nat → List HMOut

namespace MDeviceTimed

/-- What an observer has seen before event `n`. -/
def trace (x : MDeviceTimed) (n : Nat) : HMTrace := (.main (.init .rtu), []) :: (List.range n).map fun k => (x.op k, x.out k)

/-- The events from number `a` up to, not including, number `b`. -/
def seg (x : MDeviceTimed) (a b : Nat) : List HMOp := (List.range' a (b - a)).map x.op

/-- A byte comes in. -/
def Byte (x : MDeviceTimed) (n : Nat) : Prop := ∃ b t, x.op n = .usart (some b) t

/-- Event `n` hands a frame to the driver. -/
def Sends (x : MDeviceTimed) (n : Nat) : Prop := ∃ f, .lib (.send f) ∈ x.out n

/-- Event `n` is the transmit interrupt that finds nothing left to send: the end of the transmission. -/
def Completes (x : MDeviceTimed) (n : Nat) : Prop := (∃ r, x.op n = .usart r true) ∧ x.out n = []

/-- Event `n` neither starts a transmission nor calls the application. -/
def Silent (x : MDeviceTimed) (n : Nat) : Prop := ∀ o, .lib o ∈ x.out n → isOut o = false

/-- It is an execution of a master device from power-on: an initialisation first, then every event does what the code does, without undefined
behaviour. The main program makes requests (with arrays as large as announced), polls and ticks; there is no second initialisation. -/
structure Exec (cfg : Config) (x : MDeviceTimed) : Prop where
  init : masterSysStep cfg MasterSys.powerOn (.main (.init .rtu)) = .ok (x.st 0, [])
  step : ∀ n, masterSysStep cfg (x.st n) (x.op n) = .ok (x.st (n + 1), x.out n)
  main : ∀ n op, x.op n = .main op → match op with
    | .poll | .tick => True
    | .request r => QtyOk r → DataOk r
    | _ => False
  mono : ∀ n, x.time n ≤ x.time (n + 1)

/-- The hardware: after the last byte the receiver timeout (RTOF) comes after `t15`, the timer after `t35`, both at most `lat` late, each once; the
interrupt for RTOF is taken within `lat`. While RTOF is set, its interrupt is pending and main program and tick stand still. -/
structure Hardware (t15 t35 lat : Nat) (x : MDeviceTimed) : Prop where
  rtoMust : ∀ k, x.Byte k → ∃ n, k < n ∧ (x.Byte n ∨ x.op n = .rto) ∧ x.time n ≤ x.time k + t15 + lat
  rtoOnly : ∀ n, x.op n = .rto → ∃ k, k < n ∧ x.Byte k ∧ x.time k + t15 ≤ x.time n ∧ ∀ j, k < j → j < n → ¬ x.Byte j ∧ x.op j ≠ .rto
  timerMust : ∀ k, x.Byte k → ∃ n, k < n ∧ (x.Byte n ∨ x.op n = .timer) ∧ x.time n ≤ x.time k + t35 + lat
  timerOnly : ∀ n, x.op n = .timer → ∃ k, k < n ∧ x.Byte k ∧ x.time k + t35 ≤ x.time n ∧ ∀ j, k < j → j < n → ¬ x.Byte j ∧ x.op j ≠ .timer
  irq : ∀ n, x.op n = .rto → ∃ m rx txe, n < m ∧ x.op m = .usart rx txe ∧ x.time m ≤ x.time n + lat
  stalled : ∀ n op, (x.st n).rtof = true → x.op n ≠ .main op

/-- The line: what comes in, if anything, answers a transmission. A frame ends (1.5 characters of silence) only after the completion of a
transmission (more than `P` after it), before the master has put out anything else, and at most one per transmission; its bytes come without a gap
(after 1.5 characters of silence comes no byte before 3.5 characters have passed). Nothing is said about the contents of the frame, nor about
whether there is one. -/
structure OneAnswer (P : Nat) (x : MDeviceTimed) : Prop where
  answer : ∀ n, x.op n = .rto → ∃ a b, a < b ∧ b < n ∧ x.Sends a ∧ x.Completes b ∧ x.time b + P < x.time n ∧
    ∀ k, a < k → k < n → x.Silent k ∧ x.op k ≠ .rto
  noGap : ∀ n k, n < k → x.op n = .rto → x.Byte k → ∃ m, n < m ∧ m < k ∧ x.op m = .timer

/-- Main program, tick and transmitter:
* the main loop polls at least every `P`;
* the system tick comes at least every `D`, and two ticks are more than `2 P` apart;
* the transmit interrupts for a frame of `len` bytes come within `X` (`len` of them). -/
structure Punctual (P D X : Nat) (x : MDeviceTimed) : Prop where
  poll : ∀ n, ∃ m, n < m ∧ x.op m = .main .poll ∧ x.time m ≤ x.time n + P
  tick : ∀ n, ∃ m, n < m ∧ x.op m = .main .tick ∧ x.time m ≤ x.time n + D
  apart : ∀ m n, m < n → x.op m = .main .tick → x.op n = .main .tick → x.time m + 2 * P < x.time n
  tx : ∀ n f, .lib (.send f) ∈ x.out n → ∃ w, n < w ∧ x.time w ≤ x.time n + X ∧ f.length ≤ (x.seg (n + 1) (w + 1)).count (.usart none true)

end MDeviceTimed

end Modbus.Spec
