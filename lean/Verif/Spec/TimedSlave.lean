import Verif.Model.Slave

/-! Timed executions of a slave that never end, and what it means that main loop, driver and line are punctual.
Times are natural numbers in any unit. -/

namespace Modbus.Spec

open Modbus

/-- An execution that never ends: operation `n` happens at time `time n`, in state `st n`, and puts out `out n`. -/
structure SlaveTimed where
  op : Nat → SOp
  time : Nat → Nat
  st : Nat → Slave
  out : Nat → List SOut

namespace SlaveTimed

/-- The operations from number `a` up to, not including, number `b`. -/
def seg (x : SlaveTimed) (a b : Nat) : List SOp := (List.range' a (b - a)).map x.op

/-- It is an execution of a slave with address `id` from power-on: an initialisation first, then every operation does what the code does.
Tables are registered inside their bounds; there is no second initialisation. -/
structure Exec (cfg : Config) (id : U8) (x : SlaveTimed) : Prop where
  init : ∃ m, x.st 0 = slaveInit (Slave.powerOn m) .rtu id
  step : ∀ n, slaveStep cfg (x.st n) (x.op n) = .ok (x.st (n + 1), x.out n)
  once : ∀ n m i, x.op n ≠ .init m i
  tables : ∀ n t a p, x.op n = .register t a p → a.toNat < (match t with
    | .coils => cfg.coilsQty | .dins => cfg.dinQty | .inregs => cfg.inregQty | .hregs => cfg.hregQty)
  mono : ∀ n, x.time n ≤ x.time (n + 1)

/-- Something arrives from the line: a byte, a frame error or a silence. -/
def Line : SOp → Prop
  | .rxByte _ | .frameErr | .t15 | .t35 => True
  | _ => False

/-- Operation `n` hands a response to the driver. -/
def Sends (x : SlaveTimed) (n : Nat) : Prop := x.out n ≠ []

/-- * the main loop polls at least every `P`;
* silences come in pairs: after the 1.5-char event the 3.5-char event, and in between neither bytes nor further silences (frame errors may be reported);
* after a 3.5-char event the line is quiet for more than `2 P`;
* the driver reports the completion of a response within `X`, and the line stays quiet until then and for more than `P` afterwards;
* completions are reported only for responses, once. -/
structure Punctual (P X : Nat) (x : SlaveTimed) : Prop where
  poll : ∀ n, ∃ m, n < m ∧ x.op m = .poll ∧ x.time m ≤ x.time n + P
  pair : ∀ n, x.op n = .t15 → ∃ m, n < m ∧ x.op m = .t35 ∧ ∀ k, n < k → k < m → Line (x.op k) → x.op k = .frameErr
  pair' : ∀ m, x.op m = .t35 → ∃ n, n < m ∧ x.op n = .t15 ∧ ∀ k, n < k → k < m → Line (x.op k) → x.op k = .frameErr
  quiet : ∀ m k, m < k → x.op m = .t35 → Line (x.op k) → x.time m + 2 * P < x.time k
  txDone : ∀ n, x.Sends n → ∃ m, n < m ∧ x.op m = .txDone ∧ x.time m ≤ x.time n + X ∧ ∀ k, n < k → Line (x.op k) → x.time m + P < x.time k
  done : ∀ m, x.op m = .txDone → ∃ n, n < m ∧ x.Sends n ∧ ∀ k, n < k → k < m → x.op k ≠ .txDone

end SlaveTimed

end Modbus.Spec
