import Verif.Spec.TimedDevice
import Verif.Spec.TimedMasterDevice
import Verif.Spec.EndToEnd

/-! A master device and a slave device (library, driver, interrupts each), joined by a line, in real time. Both executions are timed by the same
clock. -/

namespace Modbus.Spec

open Modbus

/-- One direction of the line. `W n b`: the sender writes byte `b` to the line at its event `n`; `R k b`: the receiver gets byte `b` at its event `k`;
`tw`, `tr`: when these events happen; `via n` is the event at which what was written at event `n` comes in; `first n`: a frame begins with event `n`.
Every byte arrives unaltered, at most `c` after it was written, in order, and nothing else arrives; bytes of one frame arrive less than `t15` apart. -/
structure Line (c t15 : Nat) (W : Nat → U8 → Prop) (first : Nat → Prop) (tw : Nat → Nat) (R : Nat → U8 → Prop) (tr : Nat → Nat)
    (via : Nat → Nat) : Prop where
  arrives : ∀ n b, W n b → R (via n) b ∧ tw n ≤ tr (via n) ∧ tr (via n) ≤ tw n + c
  order : ∀ n n' b b', n < n' → W n b → W n' b' → via n < via n'
  only : ∀ k b, R k b → ∃ n, W n b ∧ via n = k
  together : ∀ n n' b b', n < n' → W n b → W n' b' → (∀ i b', n < i → i < n' → ¬ W i b') → ¬ first n' → tr (via n') < tr (via n) + t15

/-- The master writes a byte. -/
def MDeviceTimed.Writes (x : MDeviceTimed) (n : Nat) (b : U8) : Prop := .tdr b ∈ x.out n

/-- The master gets a byte. -/
def MDeviceTimed.Gets (x : MDeviceTimed) (n : Nat) (b : U8) : Prop := ∃ t, x.op n = .usart (some b) t

/-- The slave writes a byte. -/
def DeviceTimed.Writes (y : DeviceTimed) (n : Nat) (b : U8) : Prop := .tdr b ∈ y.out n

/-- The slave gets a byte. -/
def DeviceTimed.Gets (y : DeviceTimed) (n : Nat) (b : U8) : Prop := ∃ t, y.op n = .usart (some b) t

/-- Event `n` hands a frame to the slave's driver. -/
def DeviceTimed.Sends (y : DeviceTimed) (n : Nat) : Prop := ∃ f, .send f ∈ y.out n

/-- The times: 1.5 and 3.5 characters, interrupt latency, main loop of the master and of the slave, longest and shortest distance of two ticks, time
from a byte written to the next transmit interrupt, time of a byte on the line. -/
structure BusTimes where
  t15 : Nat
  t35 : Nat
  lat : Nat
  Pm : Nat
  Ps : Nat
  D : Nat
  d : Nat
  e : Nat
  c : Nat

/-- The time within which a request is executed and answered (frames have at most 256 bytes): twice a whole frame with the silence after it, and what the
main loops take. -/
def BusTimes.round (τ : BusTimes) : Nat := 2 * (256 * τ.e + τ.c + τ.t35 + τ.lat + τ.Ps) + τ.Pm

/-- The longest time from a transmission to the report of its outcome, with a response timeout of `T` ticks: a round, or the timeout. -/
def BusTimes.most (τ : BusTimes) (T : Nat) : Nat := max τ.round (256 * τ.e + 2 * τ.Pm + (T - 1) * τ.D)

/-- The times fit together with a response timeout of `T` ticks. -/
structure BusTimes.Fit (τ : BusTimes) (T : Nat) : Prop where
  silence : τ.t15 + 2 * τ.lat + τ.Pm < τ.t35
  slave : 2 * τ.Ps < τ.t35
  txSlave : τ.e + τ.Ps < τ.t35
  txMaster : τ.e + τ.Pm < τ.t35
  tick : 2 * τ.Pm < τ.d
  timeout : τ.round < (T - 2) * τ.d

/-- The two devices and the line. The master's application makes requests (with arrays as large as announced) whenever it likes; the slave's
application changes its variables and registers further ones whenever it likes. -/
structure TimedBus (cfgM cfgS : Config) (id : U8) (τ : BusTimes) (x : MDeviceTimed) (y : DeviceTimed) : Prop where
  master : x.Exec cfgM
  slave : y.Exec cfgS id
  mhw : x.Hardware τ.t15 τ.t35 τ.lat
  shw : y.Hardware τ.t15 τ.t35 τ.lat
  mpoll : ∀ n, ∃ m, n < m ∧ x.op m = .main .poll ∧ x.time m ≤ x.time n + τ.Pm
  spoll : ∀ n, (y.st (n + 1)).rtof = false → ∃ m, n < m ∧ y.time m ≤ y.time n + τ.Ps ∧ (y.op m = .main .poll ∨ y.op m = .rto)
  tick : ∀ n, ∃ m, n < m ∧ x.op m = .main .tick ∧ x.time m ≤ x.time n + τ.D
  apart : ∀ m n, m < n → x.op m = .main .tick → x.op n = .main .tick → x.time m + τ.d ≤ x.time n
  mtx : ∀ n b, x.Writes n b → ∃ m rx, n < m ∧ x.op m = .usart rx true ∧ x.time m ≤ x.time n + τ.e
  stx : ∀ n b, y.Writes n b → ∃ m rx, n < m ∧ y.op m = .usart rx true ∧ y.time m ≤ y.time n + τ.e
  down : ∃ via, Line τ.c τ.t15 x.Writes x.Sends x.time y.Gets y.time via
  up : ∃ via, Line τ.c τ.t15 y.Writes y.Sends y.time x.Gets x.time via

/-- The request `r` transmitted at the master's event `a` is executed at the slave's event `p`, a poll: after its transmission has begun, with the
effect on the slave application's variables that the protocol prescribes, and answered at that very event with one frame: the prescribed response. -/
structure ExecutedAt (lim : Limits) (id : U8) (x : MDeviceTimed) (y : DeviceTimed) (a p : Nat) (r : MReq) : Prop where
  poll : y.op p = .main .poll
  later : x.time a ≤ y.time p
  effect : (y.st (p + 1)).lib.mem = effect lim (y.st p).lib.mem (asRequest r)
  response : ∃ b, y.out p = [.send (rtuFrame id (encodeResponse (respond lim (y.st p).lib.mem (asRequest r)))), .tdr b]

/-- At event `v`, a poll, the master's application gets the callbacks `evs`; from event `a` on until then it gets none and nothing is transmitted. -/
structure ReportedAt (x : MDeviceTimed) (a v : Nat) (evs : List MEvent) : Prop where
  after : a < v
  poll : x.op v = .main .poll
  callbacks : x.out v = evs.map fun ev => .lib (.event ev)
  between : ∀ k, a < k → k < v → x.Silent k

/-- Operations of the slave's application on its variables and registrations. -/
def isAppOp : SOp → Bool
  | .register .. | .appBool .. | .appReg .. => true
  | _ => false

/-- A finished request: the master's events at which it was transmitted and reported, and the transaction. -/
structure BusTx where
  start : Nat
  stop : Nat
  tx : Tx

/-- It was transmitted with event `start`, executed with event `P start` of the slave if addressed to it, and its outcome reported with event `stop`;
a request to somebody else was reported as timed out. -/
structure BusTx.Ok (lim : Limits) (id : U8) (x : MDeviceTimed) (y : DeviceTimed) (P : Nat → Nat) (d : BusTx) : Prop where
  sent : ∃ b, x.out d.start = [.lib (.send (reqFrame d.tx.req)), .tdr b]
  once : d.tx.count = 1
  reported : ReportedAt x d.start d.stop d.tx.evs
  mine : reqSlave d.tx.req = id → ExecutedAt lim id x y d.start (P d.start) d.tx.req ∧ y.time (P d.start) ≤ x.time d.stop ∧
    d.tx.evs = outcome lim (y.st (P d.start)).lib.mem d.tx.req
  other : reqSlave d.tx.req ≠ id → ∃ fc, d.tx.evs = [.timeoutErr ⟨reqSlave d.tx.req, fc, reqAdr d.tx.req, reqField d.tx.req, .timeout⟩]

end Modbus.Spec
