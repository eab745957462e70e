import Verif.Model.MasterPc
import Verif.Spec.TimedMasterDevice

/-! Timed executions of a master device whose interrupt handlers and system tick may run between any two statements of a poll, and what it means that
such an execution is like one with uninterrupted polls (`Spec/TimedMasterDevice.lean`). -/

namespace Modbus.Spec

open Modbus

/-- An execution that never ends: event `n` happens at time `time n`, in state `st n`, and puts out `out n`. -/
structure MStmtTimed where
  ev : Nat → MSEv
  time : Nat → Nat
  st : Nat → MasterPcDev
  out : Nat → List HMOut

namespace MStmtTimed

/-- A byte comes in. -/
def Byte (x : MStmtTimed) (n : Nat) : Prop := ∃ b t, x.ev n = .irq (.usart (some b) t)

/-- Event `n` hands a frame to the driver (which at the same time writes its first byte to the line). -/
def Sends (x : MStmtTimed) (n : Nat) : Prop := ∃ f, .lib (.send f) ∈ x.out n

/-- Event `n` is the transmit interrupt that finds nothing left to send: the end of the transmission. -/
def Completes (x : MStmtTimed) (n : Nat) : Prop := (∃ r, x.ev n = .irq (.usart r true)) ∧ x.out n = []

/-- Event `n` neither starts a transmission nor calls the application. -/
def Silent (x : MStmtTimed) (n : Nat) : Prop := ∀ o, .lib o ∈ x.out n → isOut o = false

/-- Transmit interrupts from event `a` up to, not including, event `b`. -/
def txCount (x : MStmtTimed) (a b : Nat) : Nat := ((List.range' a (b - a)).map x.ev).count (.irq (.usart none true))

/-- System ticks from event `a` up to, not including, event `b`. -/
def ticks (x : MStmtTimed) (a b : Nat) : Nat := ((List.range' a (b - a)).map x.ev).count (.irq (.main .tick))

/-- When event `n` happens, the main program is inside a poll. -/
def InPoll (x : MStmtTimed) (n : Nat) : Prop := (x.st n).pc ≠ .out

/-- A poll is called by event `k` and its last statement is event `m`. -/
structure Poll (x : MStmtTimed) (k m : Nat) : Prop where
  call : x.ev k = .call
  lt : k < m
  inside : ∀ j, k < j → j ≤ m → x.InPoll j
  over : ¬ x.InPoll (m + 1)

/-- It is an execution of a master device from power-on: an initialisation first, then every event does what the code does. The main program polls, and
between polls makes requests (with arrays as large as announced); there is no second initialisation. -/
structure Exec (cfg : Config) (x : MStmtTimed) : Prop where
  init : ∃ s, masterSysStep cfg MasterSys.powerOn (.main (.init .rtu)) = .ok (s, []) ∧ x.st 0 = ⟨⟨s, 0⟩, .out, false⟩
  step : ∀ n, masterPcStep cfg (x.st n) (x.ev n) = .ok (x.st (n + 1), x.out n)
  app : ∀ n op, x.ev n = .app op → ∃ r, op = .request r ∧ (QtyOk r → DataOk r)
  inside : ∀ n, x.ev n = .stmt → x.InPoll n
  outside : ∀ n, x.ev n = .call ∨ (∃ op, x.ev n = .app op) → ¬ x.InPoll n
  irq : ∀ n op, x.ev n = .irq (.main op) → op = .tick
  mono : ∀ n, x.time n ≤ x.time (n + 1)

/-- The hardware, as in `MDeviceTimed.Hardware`. The UART's interrupt handler runs for a received byte, for RTOF, or for an empty transmit register
while the transmit interrupt is enabled. -/
structure Hardware (t15 t35 lat : Nat) (x : MStmtTimed) : Prop where
  rtoMust : ∀ k, x.Byte k → ∃ n, k < n ∧ (x.Byte n ∨ x.ev n = .irq .rto) ∧ x.time n ≤ x.time k + t15 + lat
  rtoOnly : ∀ n, x.ev n = .irq .rto → ∃ k, k < n ∧ x.Byte k ∧ x.time k + t15 ≤ x.time n ∧ ∀ j, k < j → j < n → ¬ x.Byte j ∧ x.ev j ≠ .irq .rto
  timerMust : ∀ k, x.Byte k → ∃ n, k < n ∧ (x.Byte n ∨ x.ev n = .irq .timer) ∧ x.time n ≤ x.time k + t35 + lat
  timerOnly : ∀ n, x.ev n = .irq .timer →
    ∃ k, k < n ∧ x.Byte k ∧ x.time k + t35 ≤ x.time n ∧ ∀ j, k < j → j < n → ¬ x.Byte j ∧ x.ev j ≠ .irq .timer
  irq : ∀ n, x.ev n = .irq .rto → ∃ m rx txe, n < m ∧ x.ev m = .irq (.usart rx txe) ∧ x.time m ≤ x.time n + lat
  stalled : ∀ n, (x.st n).dev.sys.rtof = true → ∃ h, x.ev n = .irq h ∧ h ≠ .main .tick
  txeOnly : ∀ n t, x.ev n = .irq (.usart none t) → (x.st n).dev.sys.rtof = true ∨ (x.st n).txeie = true

/-- The line: what comes in, if anything, answers a transmission, in time. A byte comes in, or a frame ends (1.5 characters of silence), only after the end
of a transmission (more than `P` after it), before the master has put out anything else and before it has got near its timeout of `T` ticks; at most one
frame comes per transmission, and its bytes come without a gap. Nothing is said about the contents of the frame, nor about whether there is one. -/
structure OneAnswer (P T : Nat) (x : MStmtTimed) : Prop where
  answer : ∀ n, x.Byte n ∨ x.ev n = .irq .rto → ∃ a b, a < b ∧ b < n ∧ x.Sends a ∧ x.Completes b ∧ (∀ k, a < k → k < b → ¬ x.Completes k) ∧
    x.time b + P < x.time n ∧ x.ticks b n + 3 ≤ T ∧ ∀ k, a < k → k < n → x.Silent k ∧ x.ev k ≠ .irq .rto
  noGap : ∀ n k, n < k → x.ev n = .irq .rto → x.Byte k → ∃ m, n < m ∧ m < k ∧ x.ev m = .irq .timer

/-- Main program, tick and transmitter:
* within `P` the main program calls a poll and the poll returns;
* the system tick comes at least every `D`, and two ticks are more than `2 P` apart;
* the transmit interrupts for a frame of `len` bytes come within `X` (`len` of them, the last one reports the end), and not all of them before the
  poll that has started the transmission returns. -/
structure Punctual (P D X : Nat) (x : MStmtTimed) : Prop where
  poll : ∀ n, ∃ k m, n < k ∧ x.Poll k m ∧ x.time m ≤ x.time n + P
  tick : ∀ n, ∃ m, n < m ∧ x.ev m = .irq (.main .tick) ∧ x.time m ≤ x.time n + D
  apart : ∀ m n, m < n → x.ev m = .irq (.main .tick) → x.ev n = .irq (.main .tick) → x.time m + 2 * P < x.time n
  tx : ∀ n f, .lib (.send f) ∈ x.out n → ∃ w, n < w ∧ x.time w ≤ x.time n + X ∧ f.length ≤ x.txCount (n + 1) (w + 1)
  slow : ∀ n f m, .lib (.send f) ∈ x.out n → n < m → (∀ j, n < j → j ≤ m → x.InPoll j) → x.txCount (n + 1) (m + 1) < f.length

/-- Execution `x`, statement by statement, is like `y`, in which polls are not interrupted: the same interrupts, ticks, requests and outputs at the same
times; every poll of `x` is one poll of `y`, at one of its statements; at the other statements nothing happens in `y`; and whenever `x` is not inside a
poll the two are in the same state. -/
structure Like (x : MStmtTimed) (y : MDeviceTimed) : Prop where
  time : ∀ n, y.time n = x.time n
  out : ∀ n, y.out n = x.out n
  irq : ∀ n h, x.ev n = .irq h → y.op n = h
  app : ∀ n op, x.ev n = .app op → y.op n = .main op
  idle : ∀ n, x.ev n = .call ∨ x.ev n = .stmt → y.op n ≠ .main .poll → y.st (n + 1) = y.st n ∧ y.op n = .usart none false
  poll : ∀ k m, x.Poll k m → ∃ n, k < n ∧ n ≤ m ∧ x.ev n = .stmt ∧ y.op n = .main .poll ∧ ∀ n', k < n' → n' ≤ m → y.op n' = .main .poll → n' = n
  only : ∀ n, y.op n = .main .poll → x.ev n = .stmt
  st : ∀ n, ¬ x.InPoll n → y.st n = (x.st n).dev.sys

/-- What the main program and the tick have done before event `n`, with the library's outputs: requests, ticks, and the statements of the polls. -/
def mainTrace (x : MStmtTimed) (n : Nat) : MTrace :=
  (.init .rtu, []) :: (List.range n).filterMap fun k => match x.ev k with
    | .app op => some (op, libOuts (x.out k))
    | .stmt => some (.poll, libOuts (x.out k))
    | .irq (.main op) => some (op, libOuts (x.out k))
    | _ => none

/-- The bytes written to the line before event `n`. -/
def wire (x : MStmtTimed) (n : Nat) : List U8 :=
  (List.range n).flatMap fun k => (x.out k).filterMap fun o => match o with
    | .tdr b => some b
    | _ => none

end MStmtTimed

end Modbus.Spec
