import Verif.Spec.Master

/-! Timed executions of a master that never end, and what it means that main loop, system tick, driver and slaves are punctual.
Times are natural numbers in any unit. -/

namespace Modbus.Spec

open Modbus

/-- An execution that never ends: operation `n` happens at time `time n`, in state `st n`, and puts out `out n`. -/
structure TimedRun where
  op : Nat → MOp
  time : Nat → Nat
  st : Nat → Master
  out : Nat → List MOut

namespace TimedRun

/-- The first `n` operations after the initialisation. -/
def ops (x : TimedRun) (n : Nat) : List MOp := (List.range n).map x.op

/-- What an observer has seen before operation `n`. -/
def trace (x : TimedRun) (n : Nat) : MTrace := (.init .rtu, []) :: (List.range n).map fun k => (x.op k, x.out k)

/-- It is an execution of the master: it begins with an initialisation, every operation does what the code does, without undefined
behaviour; the application keeps the contract (no second initialisation, arrays as large as announced). -/
structure Exec (cfg : Config) (x : TimedRun) : Prop where
  init : ∃ s0, masterStep cfg s0 (.init .rtu) = .ok (x.st 0, [])
  step : ∀ n, masterStep cfg (x.st n) (x.op n) = .ok (x.st (n + 1), x.out n)
  contract : ∀ n, (∀ m, x.op n ≠ .init m) ∧ ∀ r, x.op n = .request r → QtyOk r → DataOk r
  mono : ∀ n, x.time n ≤ x.time (n + 1)

/-- Operation `n` hands a frame to the driver. -/
def Sends (x : TimedRun) (n : Nat) : Prop := ∃ b, .send b ∈ x.out n

/-- Operation `n` neither transmits nor calls the application. -/
def Silent (x : TimedRun) (n : Nat) : Prop := ∀ o ∈ x.out n, isOut o = false

/-- * the main loop polls at least every `P`;
* the system tick comes at least every `D`, and two ticks are more than `2 P` apart;
* the driver reports the completion of a transmission within `X`;
* the bus is half duplex and only one frame answers a transmission: the 1.5-char event comes only after the completion of a transmission
  (more than `P` after it), before the master has put out anything else, and once;
* the 3.5-char event follows the 1.5-char event by more than `P` and at most `G`.
Nothing is said about the bytes received, about frame errors, or about whether a slave answers at all. -/
structure Punctual (P D X G : Nat) (x : TimedRun) : Prop where
  poll : ∀ n, ∃ m, n < m ∧ x.op m = .poll ∧ x.time m ≤ x.time n + P
  tick : ∀ n, ∃ m, n < m ∧ x.op m = .tick ∧ x.time m ≤ x.time n + D
  apart : ∀ m n, m < n → x.op m = .tick → x.op n = .tick → x.time m + 2 * P < x.time n
  txDone : ∀ n, x.Sends n → ∃ m, n < m ∧ x.op m = .txDone ∧ x.time m ≤ x.time n + X
  t15 : ∀ n, x.op n = .t15 → ∃ a b, a < b ∧ b < n ∧ x.Sends a ∧ x.op b = .txDone ∧ x.time b + P < x.time n ∧
    ∀ k, a < k → k < n → x.Silent k ∧ x.op k ≠ .t15
  t35 : ∀ n, x.op n = .t15 → ∃ m, n < m ∧ x.op m = .t35 ∧ x.time n + P < x.time m ∧ x.time m ≤ x.time n + G

end TimedRun

end Modbus.Spec
