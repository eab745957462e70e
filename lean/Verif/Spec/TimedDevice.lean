import Verif.Spec.Wire

/-! Timed executions of a slave device (library with the example driver) that never end, in terms of the moments at which bytes come in. Times
are natural numbers in any unit. -/

namespace Modbus.Spec

open Modbus

/-- An execution that never ends: event `n` happens at time `time n`, in state `st n`, and puts out `out n`. -/
structure DeviceTimed where
  op : Nat → HOp
  time : Nat → Nat
  st : Nat → SlaveSys
  out : Nat → List HOut

namespace DeviceTimed

/-- The events from number `a` up to, not including, number `b`. -/
def seg (x : DeviceTimed) (a b : Nat) : List HOp := (List.range' a (b - a)).map x.op

/-- What they put out. -/
def outs (x : DeviceTimed) (a b : Nat) : List HOut := (List.range' a (b - a)).flatMap x.out

/-- A byte comes in. -/
def Byte (x : DeviceTimed) (n : Nat) : Prop := ∃ b t, x.op n = .usart (some b) t

/-- The bytes that come in among some events. -/
def bytesIn : List HOp → List U8
  | [] => []
  | .usart (some b) _ :: ops => b :: bytesIn ops
  | _ :: ops => bytesIn ops

/-- It is an execution of a slave with address `id` from power-on: an initialisation first, then every event does what the code does. Afterwards the main
program polls, changes the application's variables, and registers them inside the tables; there is no second initialisation. -/
structure Exec (cfg : Config) (id : U8) (x : DeviceTimed) : Prop where
  init : ∃ m, slaveSysStep cfg (SlaveSys.powerOn m) (.main (.init .rtu id)) = .ok (x.st 0, [])
  step : ∀ n, slaveSysStep cfg (x.st n) (x.op n) = .ok (x.st (n + 1), x.out n)
  main : ∀ n op, x.op n = .main op → match op with
    | .poll | .appBool _ _ | .appReg _ _ => True
    | .register t a _ => a.toNat < (match t with
      | .coils => cfg.coilsQty | .dins => cfg.dinQty | .inregs => cfg.inregQty | .hregs => cfg.hregQty)
    | _ => False
  mono : ∀ n, x.time n ≤ x.time (n + 1)

/-- The hardware: after the last byte the receiver timeout (RTOF) comes after `t15`, the timer after `t35`, both at most `lat` late, each once; the
interrupt for RTOF is taken within `lat`. While RTOF is set, its interrupt is pending and the main program stands still. -/
structure Hardware (t15 t35 lat : Nat) (x : DeviceTimed) : Prop where
  rtoMust : ∀ k, x.Byte k → ∃ n, k < n ∧ (x.Byte n ∨ x.op n = .rto) ∧ x.time n ≤ x.time k + t15 + lat
  rtoOnly : ∀ n, x.op n = .rto → ∃ k, k < n ∧ x.Byte k ∧ x.time k + t15 ≤ x.time n ∧ ∀ j, k < j → j < n → ¬ x.Byte j ∧ x.op j ≠ .rto
  timerMust : ∀ k, x.Byte k → ∃ n, k < n ∧ (x.Byte n ∨ x.op n = .timer) ∧ x.time n ≤ x.time k + t35 + lat
  timerOnly : ∀ n, x.op n = .timer → ∃ k, k < n ∧ x.Byte k ∧ x.time k + t35 ≤ x.time n ∧ ∀ j, k < j → j < n → ¬ x.Byte j ∧ x.op j ≠ .timer
  irq : ∀ n, x.op n = .rto → ∃ m rx txe, n < m ∧ x.op m = .usart rx txe ∧ x.time m ≤ x.time n + lat
  stalled : ∀ n op, (x.st n).rtof = true → x.op n ≠ .main op
  order : t15 + 2 * lat < t35

/-- Main program, transmitter and master:
* unless RTOF is or gets set, the main program polls within `P`;
* the transmit interrupts for a frame of `len` bytes come within `X` (`len` of them, the last one reports the end);
* after 3.5 characters of silence the master sends nothing for more than `2 P`; and nothing while the slave transmits and for more than `P`
  afterwards. -/
structure Punctual (P X : Nat) (x : DeviceTimed) : Prop where
  poll : ∀ n, (x.st (n + 1)).rtof = false → ∃ m, n < m ∧ x.time m ≤ x.time n + P ∧ (x.op m = .main .poll ∨ x.op m = .rto)
  quiet : ∀ m k, m < k → x.op m = .timer → x.Byte k → x.time m + 2 * P < x.time k
  tx : ∀ n f, .send f ∈ x.out n → ∃ w, n < w ∧ x.time w ≤ x.time n + X ∧ f.length ≤ (x.seg (n + 1) (w + 1)).count (.usart none true) ∧
    ∀ k, n < k → x.Byte k → x.time w + P < x.time k

/-- Consecutive bytes between events `c` and `m`: the second comes `d` after the first. -/
def Gap (x : DeviceTimed) (c m d : Nat) : Prop :=
  ∃ i k, c ≤ i ∧ i < k ∧ k < m ∧ x.Byte i ∧ x.Byte k ∧ (∀ j, i < j → j < k → ¬ x.Byte j) ∧ x.time k = x.time i + d

end DeviceTimed

end Modbus.Spec
