import Verif.Spec.TimedBus

/-! A master device and any number of slave devices (library, driver, interrupts each) on one two-wire line, in real time: everybody hears everybody else.
All executions are timed by the same clock. -/

namespace Modbus.Spec

open Modbus

/-- What of a device matters on the line: when event `n` happens, which byte it writes, which byte comes in with it, whether a frame begins with it,
whether it is the timer event of 3.5 characters of silence. -/
structure Station where
  time : Nat → Nat
  writes : Nat → U8 → Prop
  gets : Nat → U8 → Prop
  sends : Nat → Prop
  timer : Nat → Prop

def MDeviceTimed.station (x : MDeviceTimed) : Station := ⟨x.time, x.Writes, x.Gets, x.Sends, fun n => x.op n = .timer⟩

def DeviceTimed.station (y : DeviceTimed) : Station := ⟨y.time, y.Writes, y.Gets, y.Sends, fun n => y.op n = .timer⟩

/-- The stations on the line: `none` is the master, `some i` the slave `i`. -/
def stations {ι : Type} (x : MDeviceTimed) (y : ι → DeviceTimed) : Option ι → Station
  | none => x.station
  | some i => (y i).station

/-- What station `d` writes at event `n` meets what another station writes: less than `c` apart. -/
def Clash {δ : Type} (c : Nat) (N : δ → Station) (d : δ) (n : Nat) : Prop :=
  ∃ d' n' b', d' ≠ d ∧ (N d').writes n' b' ∧ (N d').time n' < (N d).time n + c ∧ (N d).time n < (N d').time n' + c

/-- The line. `via d l n` is the event at which station `l` hears what station `d` writes at its event `n`. Nobody hears anything that nobody else
writes, and it takes at least `c0` and at most `c`. If nobody else writes at the same time, then a byte comes in unaltered at all other stations, less
than `s` apart, in order, and bytes of one frame less than `t15` apart. Nothing is assumed about bytes written at the same time: they may come in altered, or
not at all. -/
structure Medium {δ : Type} (c0 c s t15 : Nat) (N : δ → Station) (via : δ → δ → Nat → Nat) : Prop where
  only : ∀ l k b, (N l).gets k b → ∃ d n b', d ≠ l ∧ (N d).writes n b' ∧ via d l n = k ∧ (N d).time n + c0 ≤ (N l).time k ∧
    (N l).time k ≤ (N d).time n + c
  arrives : ∀ d l n b, d ≠ l → (N d).writes n b → ¬ Clash c N d n → (N l).gets (via d l n) b ∧ (N d).time n + c0 ≤ (N l).time (via d l n) ∧
    (N l).time (via d l n) ≤ (N d).time n + c
  skew : ∀ d l l' n b, d ≠ l → d ≠ l' → (N d).writes n b → ¬ Clash c N d n → (N l').time (via d l' n) ≤ (N l).time (via d l n) + s
  order : ∀ d l n n' b b', d ≠ l → n < n' → (N d).writes n b → (N d).writes n' b' → ¬ Clash c N d n → ¬ Clash c N d n' → via d l n < via d l n'
  together : ∀ d l n n' b b', d ≠ l → n < n' → (N d).writes n b → (N d).writes n' b' → (∀ i b', n < i → i < n' → ¬ (N d).writes i b') →
    ¬ (N d).sends n' → ¬ Clash c N d n → ¬ Clash c N d n' → (N l).time (via d l n') < (N l).time (via d l n) + t15

/-- The devices and the line. The master's application makes requests (with arrays as large as announced) whenever it likes; the slaves' applications
change their variables and register further ones whenever they like. No two slaves have the same address. -/
structure TimedLine {ι : Type} (cfgM : Config) (cfgS : ι → Config) (id : ι → U8) (τ : BusTimes) (c0 s : Nat) (x : MDeviceTimed) (y : ι → DeviceTimed) :
    Prop where
  master : x.Exec cfgM
  slave : ∀ i, (y i).Exec (cfgS i) (id i)
  distinct : ∀ i j, id i = id j → i = j
  mhw : x.Hardware τ.t15 τ.t35 τ.lat
  shw : ∀ i, (y i).Hardware τ.t15 τ.t35 τ.lat
  mpoll : ∀ n, ∃ m, n < m ∧ x.op m = .main .poll ∧ x.time m ≤ x.time n + τ.Pm
  spoll : ∀ i n, ((y i).st (n + 1)).rtof = false → ∃ m, n < m ∧ (y i).time m ≤ (y i).time n + τ.Ps ∧ ((y i).op m = .main .poll ∨ (y i).op m = .rto)
  tick : ∀ n, ∃ m, n < m ∧ x.op m = .main .tick ∧ x.time m ≤ x.time n + τ.D
  apart : ∀ m n, m < n → x.op m = .main .tick → x.op n = .main .tick → x.time m + τ.d ≤ x.time n
  mtx : ∀ n b, x.Writes n b → ∃ m rx, n < m ∧ x.op m = .usart rx true ∧ x.time m ≤ x.time n + τ.e
  stx : ∀ i n b, (y i).Writes n b → ∃ m rx, n < m ∧ (y i).op m = .usart rx true ∧ (y i).time m ≤ (y i).time n + τ.e
  line : ∃ via, Medium c0 τ.c s τ.t15 (stations x y) via

/-- The times fit: as for a single slave, and
* `turn`: two polls of a slave and an interrupt latency fit into the time `c0` of a byte on the line (less the difference `s` between stations): a slave
  must have discarded the request to another slave before it hears the first byte of that slave's response;
* `meet`: two bytes follow each other (at most `e`), and come in (`c`), faster than 3.5 characters. -/
structure BusTimes.FitLine (τ : BusTimes) (c0 s T : Nat) : Prop where
  one : τ.Fit T
  turn : s + τ.lat + 2 * τ.Ps < c0
  meet : τ.e + τ.c ≤ c0 + τ.t35

/-- It was transmitted with event `start`, executed with event `P start` of the slave it is addressed to, and its outcome reported with event `stop`;
a request to nobody was reported as timed out. -/
structure BusTx.OnLine {ι : Type} (lim : ι → Limits) (id : ι → U8) (x : MDeviceTimed) (y : ι → DeviceTimed) (P : Nat → Nat) (d : BusTx) : Prop where
  sent : ∃ b, x.out d.start = [.lib (.send (reqFrame d.tx.req)), .tdr b]
  once : d.tx.count = 1
  reported : ReportedAt x d.start d.stop d.tx.evs
  mine : ∀ i, id i = reqSlave d.tx.req → ExecutedAt (lim i) (id i) x (y i) d.start (P d.start) d.tx.req ∧
    (y i).time (P d.start) ≤ x.time d.stop ∧ d.tx.evs = outcome (lim i) ((y i).st (P d.start)).lib.mem d.tx.req
  nobody : (∀ i, id i ≠ reqSlave d.tx.req) → ∃ fc, d.tx.evs = [.timeoutErr ⟨reqSlave d.tx.req, fc, reqAdr d.tx.req, reqField d.tx.req, .timeout⟩]

end Modbus.Spec
