import Verif.Spec.MultiBus

/-! Specification of a line with a master and slaves seen as a memory: requests act as if each was carried out at one moment, one after the other. -/

namespace Modbus.Spec

open Modbus

/-- What happens to a slave's data: its own application changes a variable or registers one, or a request is carried out. -/
inductive Act where
  | app (op : SOp)
  | req (r : MReq)

/-- The operation of the slave's application, if it is one. -/
def Act.app? : Act → Option SOp
  | .app op => some op
  | .req _ => none

/-- The request, if it is one. -/
def Act.req? : Act → Option MReq
  | .app _ => none
  | .req r => some r

/-- What an operation of the slave's application does to its data. -/
def appAct (m : AppMem) : SOp → AppMem
  | .appBool p v => { m with bools := fun q => if q = p then v else m.bools q }
  | .appReg p v => { m with regs := fun q => if q = p then v else m.regs q }
  | .register .coils a p => { m with coils := fun i => if i = a.toNat then p else m.coils i }
  | .register .dins a p => { m with dins := fun i => if i = a.toNat then p else m.dins i }
  | .register .hregs a p => { m with hregs := fun i => if i = a.toNat then p else m.hregs i }
  | .register .inregs a p => { m with inregs := fun i => if i = a.toNat then p else m.inregs i }
  | _ => m

/-- One thing after the other, from data `m`: the data afterwards, and all that the requests report to whoever made them. -/
def runActs (l : Limits) : AppMem → List Act → AppMem × List MEvent
  | m, [] => (m, [])
  | m, .app op :: as => runActs l (appAct m op) as
  | m, .req r :: as => ((runActs l (effect l m (asRequest r)) as).1, outcome l m r ++ (runActs l (effect l m (asRequest r)) as).2)

/-- The operations of the application of slave `y` on its data before event `k`. -/
def DeviceTimed.appOps (y : DeviceTimed) (k : Nat) : List SOp := ((List.range k).map y.op).filterMap fun
  | .main op => if isAppOp op then some op else none
  | _ => none

/-- Requests for slave `id`. -/
def forSlave (id : U8) (rs : List MReq) : List MReq := rs.filter fun r => reqSlave r = id

/-- What the finished transactions with slave `id` reported. -/
def reportsOf (id : U8) (txs : List Tx) : List MEvent := (txs.filter fun t => reqSlave t.req = id).flatMap Tx.evs

/-- The transactions of master `x` and slave `y` (address `id`) are serial: `D n` is the list of the finished transactions at the master's event `n`, `H k` a history
of the slave's data at its event `k`.
* `step`: at an event the slave's application does something to the data, or a request is carried out (at a poll), or nothing happens to it;
* `data`: the slave's data is what this history makes of it, and its application's part in it is what the application does, in this order;
* `finished`: requests finished at some moment of the master are in the history at that moment, in the order they were accepted, and what was reported is what
  carrying out the history reports;
* `made`: requests in the history at some moment of the slave have been accepted by then. -/
structure SerialSlave (l : Limits) (id : U8) (x : MDeviceTimed) (y : DeviceTimed) (D : Nat → List Tx) (H : Nat → List Act) : Prop where
  start : H 0 = []
  step : ∀ k, (∃ op, y.op k = .main op ∧ isAppOp op = true ∧ H (k + 1) = H k ++ [.app op]) ∨ (∃ r, y.op k = .main .poll ∧ H (k + 1) = H k ++ [.req r]) ∨
    H (k + 1) = H k
  apps : ∀ k, (H k).filterMap Act.app? = y.appOps k
  data : ∀ k, (y.st k).lib.mem = (runActs l (y.st 0).lib.mem (H k)).1
  finished : ∀ q, ∃ k, (∀ j, j < k → y.time j ≤ x.time q) ∧ forSlave id ((D q).map Tx.req) <+: (H k).filterMap Act.req? ∧
    reportsOf id (D q) <+: (runActs l (y.st 0).lib.mem (H k)).2
  made : ∀ k q, y.time k < x.time q → (H k).filterMap Act.req? <+: forSlave id (accepted (mainTrace (x.trace q)))

/-- The transactions of the master with all slaves. Requests to nobody are reported as timed out; all requests accepted by some moment are finished at most `B` later. -/
structure SerialLine {ι : Type} (B : Nat) (lim : ι → Limits) (id : ι → U8) (x : MDeviceTimed) (y : ι → DeviceTimed) (D : Nat → List Tx) (H : ι → Nat → List Act) :
    Prop where
  grows : ∀ n, D n <+: D (n + 1)
  transactions : ∀ n, ∃ cur queued, Transactions 0 (mainTrace (x.trace n)) (D n) cur queued
  served : ∀ n, ∃ m, n ≤ m ∧ x.time m ≤ x.time n + B ∧ ∀ q, m < q → accepted (mainTrace (x.trace n)) <+: (D q).map Tx.req
  nobody : ∀ n, ∀ t ∈ D n, (∀ i, id i ≠ reqSlave t.req) → ∃ fc, t.evs = [.timeoutErr ⟨reqSlave t.req, fc, reqAdr t.req, reqField t.req, .timeout⟩]
  slave : ∀ i, SerialSlave (lim i) (id i) x (y i) D (H i)

end Modbus.Spec
