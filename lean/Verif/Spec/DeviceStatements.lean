import Verif.Model.DeviceStatements
import Verif.Spec.TimedDevice

/-! Timed executions of a slave device whose interrupt handlers may run between any two statements of a poll, and what it means that such an execution
is like one with uninterrupted polls (`Spec/TimedDevice.lean`). -/

namespace Modbus.Spec

open Modbus

/-- An execution that never ends: event `n` happens at time `time n`, in state `st n`, and puts out `out n`. -/
structure StmtTimed where
  ev : Nat → SDEv
  time : Nat → Nat
  st : Nat → SlaveDev
  out : Nat → List HOut

namespace StmtTimed

/-- What is put out from event `a` up to, not including, event `b`. -/
def outs (x : StmtTimed) (a b : Nat) : List HOut := (List.range' a (b - a)).flatMap x.out

/-- Transmit interrupts from event `a` up to, not including, event `b`. -/
def txCount (x : StmtTimed) (a b : Nat) : Nat := ((List.range' a (b - a)).map x.ev).count (.irq (.usart none true))

/-- A byte comes in. -/
def Byte (x : StmtTimed) (n : Nat) : Prop := ∃ b t, x.ev n = .irq (.usart (some b) t)

/-- The bytes that come in from event `a` up to, not including, event `b`. -/
def bytesIn (x : StmtTimed) (a b : Nat) : List U8 :=
  (List.range' a (b - a)).filterMap fun n => match x.ev n with
    | .irq (.usart rx _) => rx
    | _ => none

/-- Consecutive bytes between events `c` and `m`: the second comes `d` after the first. -/
def Gap (x : StmtTimed) (c m d : Nat) : Prop :=
  ∃ i k, c ≤ i ∧ i < k ∧ k < m ∧ x.Byte i ∧ x.Byte k ∧ (∀ j, i < j → j < k → ¬ x.Byte j) ∧ x.time k = x.time i + d

/-- When event `n` happens, the main program is inside a poll. -/
def InPoll (x : StmtTimed) (n : Nat) : Prop := (x.st n).pc ≠ .out

/-- A poll is called by event `k` and its last statement is event `m`. -/
structure Poll (x : StmtTimed) (k m : Nat) : Prop where
  call : x.ev k = .call
  lt : k < m
  inside : ∀ j, k < j → j ≤ m → x.InPoll j
  over : ¬ x.InPoll (m + 1)

/-- It is an execution of a slave with address `id` from power-on: an initialisation first, then every event does what the code does. The main program
polls, and between polls changes the application's variables and registers them inside the tables; there is no second initialisation. -/
structure Exec (cfg : Config) (id : U8) (x : StmtTimed) : Prop where
  init : ∃ m s, slaveSysStep cfg (SlaveSys.powerOn m) (.main (.init .rtu id)) = .ok (s, []) ∧ x.st 0 = ⟨s, .out, false⟩
  step : ∀ n, slaveDevStep cfg (x.st n) (x.ev n) = .ok (x.st (n + 1), x.out n)
  app : ∀ n op, x.ev n = .app op → match op with
    | .appBool _ _ | .appReg _ _ => True
    | .register t a _ => a.toNat < (match t with
      | .coils => cfg.coilsQty | .dins => cfg.dinQty | .inregs => cfg.inregQty | .hregs => cfg.hregQty)
    | _ => False
  inside : ∀ n, x.ev n = .stmt → x.InPoll n
  outside : ∀ n, x.ev n = .call ∨ (∃ op, x.ev n = .app op) → ¬ x.InPoll n
  irq : ∀ n op, x.ev n ≠ .irq (.main op)
  mono : ∀ n, x.time n ≤ x.time (n + 1)

/-- The hardware, as in `DeviceTimed.Hardware`. The UART's interrupt handler runs for a received byte, for RTOF, or for an empty transmit register
while the transmit interrupt is enabled. -/
structure Hardware (t15 t35 lat : Nat) (x : StmtTimed) : Prop where
  rtoMust : ∀ k, x.Byte k → ∃ n, k < n ∧ (x.Byte n ∨ x.ev n = .irq .rto) ∧ x.time n ≤ x.time k + t15 + lat
  rtoOnly : ∀ n, x.ev n = .irq .rto → ∃ k, k < n ∧ x.Byte k ∧ x.time k + t15 ≤ x.time n ∧ ∀ j, k < j → j < n → ¬ x.Byte j ∧ x.ev j ≠ .irq .rto
  timerMust : ∀ k, x.Byte k → ∃ n, k < n ∧ (x.Byte n ∨ x.ev n = .irq .timer) ∧ x.time n ≤ x.time k + t35 + lat
  timerOnly : ∀ n, x.ev n = .irq .timer →
    ∃ k, k < n ∧ x.Byte k ∧ x.time k + t35 ≤ x.time n ∧ ∀ j, k < j → j < n → ¬ x.Byte j ∧ x.ev j ≠ .irq .timer
  irq : ∀ n, x.ev n = .irq .rto → ∃ m rx txe, n < m ∧ x.ev m = .irq (.usart rx txe) ∧ x.time m ≤ x.time n + lat
  stalled : ∀ n, (x.st n).sys.rtof = true → ∃ h, x.ev n = .irq h
  txeOnly : ∀ n t, x.ev n = .irq (.usart none t) → (x.st n).sys.rtof = true ∨ (x.st n).txeie = true
  order : t15 + 2 * lat < t35

/-- Main program, transmitter and master:
* unless RTOF is or gets set, within `P` the main program calls a poll and the poll returns;
* the transmit interrupts for a frame of `len` bytes come within `X` (`len` of them, the last one reports the end), and not all of them before the
  poll that has started the transmission returns;
* after 3.5 characters of silence the master sends nothing for more than `2 P`; and nothing while the slave transmits and for more than `P`
  afterwards. -/
structure Punctual (P X : Nat) (x : StmtTimed) : Prop where
  poll : ∀ n, (x.st (n + 1)).sys.rtof = false →
    ∃ m, n < m ∧ x.time m ≤ x.time n + P ∧ (x.ev m = .irq .rto ∨ ∃ k, n < k ∧ x.Poll k m)
  quiet : ∀ m k, m < k → x.ev m = .irq .timer → x.Byte k → x.time m + 2 * P < x.time k
  tx : ∀ n f, .send f ∈ x.out n → ∃ w, n < w ∧ x.time w ≤ x.time n + X ∧ f.length ≤ x.txCount (n + 1) (w + 1) ∧
    ∀ k, n < k → x.Byte k → x.time w + P < x.time k
  slow : ∀ n f m, .send f ∈ x.out n → n < m → (∀ j, n < j → j ≤ m → x.InPoll j) → x.txCount (n + 1) (m + 1) < f.length

/-- Execution `x`, statement by statement, is like `y`, in which polls are not interrupted: the same interrupts, application calls and outputs at the
same times; every poll of `x` is one poll of `y`, at one of its statements; at the other statements nothing happens in `y`; and whenever `x` is not
inside a poll the two are in the same state. -/
structure Like (x : StmtTimed) (y : DeviceTimed) : Prop where
  time : ∀ n, y.time n = x.time n
  out : ∀ n, y.out n = x.out n
  irq : ∀ n h, x.ev n = .irq h → y.op n = h
  app : ∀ n op, x.ev n = .app op → y.op n = .main op
  idle : ∀ n, x.ev n = .call ∨ x.ev n = .stmt → y.op n ≠ .main .poll → y.st (n + 1) = y.st n ∧ ∃ op, y.op n = .main op
  poll : ∀ k m, x.Poll k m → ∃ n, k < n ∧ n ≤ m ∧ x.ev n = .stmt ∧ y.op n = .main .poll ∧ ∀ n', k < n' → n' ≤ m → y.op n' = .main .poll → n' = n
  only : ∀ n, y.op n = .main .poll → x.ev n = .stmt
  st : ∀ n, ¬ x.InPoll n → y.st n = (x.st n).sys

end StmtTimed

end Modbus.Spec
