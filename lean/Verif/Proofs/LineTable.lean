import Verif.Props.MultiBus
import Verif.Props.BusShippedDemo

/-! Executions given by tables: a finite beginning, then polls (and ticks) for ever. What has to be checked about the tables is decidable; it then follows
that the executions are a `TimedLine`. -/

namespace Modbus

open Spec

/-! ### Slaves -/

/-- A slave: address, the application's memory at power-on, the beginning (time, event, output), and the distance of the polls afterwards. -/
structure STab where
  id : U8
  mem : AppMem
  head : List (Nat × HOp × List HOut)
  gap : Nat

namespace STab

def len (t : STab) : Nat := t.head.length
def op (t : STab) (n : Nat) : HOp := if n < t.len then (t.head.getD n (0, .timer, [])).2.1 else .main .poll
def out (t : STab) (n : Nat) : List HOut := if n < t.len then (t.head.getD n (0, .timer, [])).2.2 else []
def time (t : STab) (n : Nat) : Nat :=
  if n < t.len then (t.head.getD n (0, .timer, [])).1 else (t.head.getD (t.len - 1) (0, .timer, [])).1 + t.gap * (n + 1 - t.len)

def st (t : STab) : Nat → SlaveSys
  | 0 => ⟨slaveInit (Slave.powerOn t.mem) .rtu t.id, 0, 0, false, false⟩
  | n + 1 => match slaveSysStep Config.default (t.st n) (t.op n) with
    | .ok r => r.1
    | .error _ => t.st n

def ok (t : STab) (n : Nat) : Bool := match slaveSysStep Config.default (t.st n) (t.op n) with
  | .ok r => decide (r.2 = t.out n)
  | .error _ => false

def dev (t : STab) : DeviceTimed := { op := t.op, time := t.time, st := t.st, out := t.out }

end STab

def isUsartS : HOp → Bool
  | .usart _ _ => true
  | _ => false

/-- What has to be checked. -/
structure STab.Good (t : STab) (t15 t35 lat Ps e : Nat) : Prop where
  pos : 0 < t.len
  run : ∀ n, n < t.len → t.ok n = true
  rest : (t.st t.len).lib.st = .idle ∧ (t.st t.len).lib.t15 = .cleared ∧ (t.st t.len).rtof = false
  main : ∀ n, n < t.len → t.op n = .main .poll ∨ isMainOp (t.op n) = false
  mono : ∀ n, n < t.len → t.time n ≤ t.time (n + 1)
  rtoMust : ∀ k, k < t.len → srxOf (t.op k) ≠ none → ∃ n, n < t.len ∧ k < n ∧ (srxOf (t.op n) ≠ none ∨ t.op n = .rto) ∧ t.time n ≤ t.time k + t15 + lat
  rtoOnly : ∀ n, n < t.len → t.op n = .rto → ∃ k, k < n ∧ srxOf (t.op k) ≠ none ∧ t.time k + t15 ≤ t.time n ∧
    ∀ j, j < n → k < j → srxOf (t.op j) = none ∧ t.op j ≠ .rto
  timerMust : ∀ k, k < t.len → srxOf (t.op k) ≠ none → ∃ n, n < t.len ∧ k < n ∧ (srxOf (t.op n) ≠ none ∨ t.op n = .timer) ∧ t.time n ≤ t.time k + t35 + lat
  timerOnly : ∀ n, n < t.len → t.op n = .timer → ∃ k, k < n ∧ srxOf (t.op k) ≠ none ∧ t.time k + t35 ≤ t.time n ∧
    ∀ j, j < n → k < j → srxOf (t.op j) = none ∧ t.op j ≠ .timer
  irq : ∀ n, n < t.len → t.op n = .rto → ∃ m, m < t.len ∧ n < m ∧ isUsartS (t.op m) = true ∧ t.time m ≤ t.time n + lat
  stalled : ∀ n, n < t.len → (t.st n).rtof = true → isMainOp (t.op n) = false
  order : t15 + 2 * lat < t35
  poll : ∀ n, n < t.len → (t.st (n + 1)).rtof = false → ∃ m, m < t.len + 1 ∧ n < m ∧ t.time m ≤ t.time n + Ps ∧ (t.op m = .main .poll ∨ t.op m = .rto)
  pace : t.gap ≤ Ps
  tx : ∀ n, n < t.len → stdr (t.out n) ≠ [] → ∃ m, m < t.len ∧ n < m ∧ t.op m = .usart none true ∧ t.time m ≤ t.time n + e

section
variable {t : STab} {t15 t35 lat Ps e : Nat}

theorem STab.tail {n : Nat} (h : t.len ≤ n) : t.op n = .main .poll ∧ t.out n = [] ∧
    t.time n = (t.head.getD (t.len - 1) (0, .timer, [])).1 + t.gap * (n + 1 - t.len) := by
  unfold STab.op STab.out STab.time
  rw [if_neg (by omega), if_neg (by omega), if_neg (by omega)]
  exact ⟨rfl, rfl, rfl⟩

theorem STab.Good.still (g : t.Good t15 t35 lat Ps e) (k : Nat) : t.st (t.len + k) = t.st t.len := by
  obtain ⟨h1, h2, h3⟩ := g.rest
  have poll := rest_poll h1 h2 h3
  induction k with
  | zero => rfl
  | succ k ih =>
    show t.st ((t.len + k) + 1) = _
    rw [STab.st, ih, (STab.tail (show t.len ≤ t.len + k by omega)).1, poll]

theorem STab.Good.step (g : t.Good t15 t35 lat Ps e) (n : Nat) : slaveSysStep Config.default (t.st n) (t.op n) = .ok (t.st (n + 1), t.out n) := by
  by_cases h : n < t.len
  · have := g.run n h
    unfold STab.ok at this
    rw [STab.st]
    split at this
    · rename_i r hr
      rw [hr]
      simp only [decide_eq_true_eq] at this
      rw [← this]
    · cases this
  · obtain ⟨h1, h2, h3⟩ := g.rest
    have e1 := g.still (n - t.len)
    have e2 := g.still (n - t.len + 1)
    rw [show t.len + (n - t.len) = n by omega] at e1
    rw [show t.len + (n - t.len + 1) = n + 1 by omega] at e2
    have := STab.tail (t := t) (show t.len ≤ n by omega)
    rw [e1, e2, this.1, this.2.1, rest_poll h1 h2 h3]

theorem STab.gets {n : Nat} {b : U8} : t.dev.Gets n b ↔ srxOf (t.op n) = some b := by
  show (∃ u, t.op n = .usart (some b) u) ↔ _
  cases t.op n <;> simp [srxOf]

theorem STab.byte {n : Nat} : t.dev.Byte n ↔ srxOf (t.op n) ≠ none := by
  constructor
  · rintro ⟨b, u, h⟩
    rw [STab.gets.1 ⟨u, h⟩]; simp
  · intro h
    cases hb : srxOf (t.op n) with
    | none => exact absurd hb h
    | some b => obtain ⟨u, h⟩ := STab.gets.2 hb; exact ⟨b, u, h⟩

theorem STab.writes {n : Nat} {b : U8} : t.dev.Writes n b ↔ b ∈ stdr (t.out n) := by
  show .tdr b ∈ t.out n ↔ _
  unfold stdr
  rw [List.mem_filterMap]
  constructor
  · exact fun h => ⟨_, h, rfl⟩
  · rintro ⟨o, ho, he⟩
    cases o with
    | tdr c => cases he; exact ho
    | _ => cases he

theorem STab.rx_lt {n : Nat} (h : srxOf (t.op n) ≠ none) : n < t.len := Classical.byContradiction fun hn => by
  rw [(STab.tail (show t.len ≤ n by omega)).1] at h; exact h rfl

theorem STab.op_lt {n : Nat} (h : t.op n = .rto ∨ t.op n = .timer) : n < t.len := Classical.byContradiction fun hn => by
  rw [(STab.tail (show t.len ≤ n by omega)).1] at h; rcases h with h | h <;> cases h

theorem STab.tdr_lt {n : Nat} (h : stdr (t.out n) ≠ []) : n < t.len := Classical.byContradiction fun hn => by
  rw [(STab.tail (show t.len ≤ n by omega)).2.1] at h; exact h rfl

theorem STab.Good.exec (g : t.Good t15 t35 lat Ps e) : t.dev.Exec Config.default t.id := by
  refine ⟨⟨t.mem, rfl⟩, g.step, fun n op h => ?_, fun n => ?_⟩
  · have h : t.op n = .main op := h
    by_cases hn : n < t.len
    · rcases g.main n hn with e | e
      · rw [h] at e; cases e; trivial
      · rw [h] at e; cases e
    · rw [(STab.tail (show t.len ≤ n by omega)).1] at h; cases h; trivial
  · show t.time n ≤ t.time (n + 1)
    by_cases hn : n < t.len
    · exact g.mono n hn
    · rw [(STab.tail (t := t) (show t.len ≤ n by omega)).2.2, (STab.tail (t := t) (show t.len ≤ n + 1 by omega)).2.2]
      exact Nat.add_le_add_left (Nat.mul_le_mul_left _ (by omega)) _

theorem STab.Good.hardware (g : t.Good t15 t35 lat Ps e) : t.dev.Hardware t15 t35 lat := by
  refine ⟨fun k hk => ?_, fun n hn => ?_, fun k hk => ?_, fun n hn => ?_, fun n hn => ?_, fun n op h ho => ?_, g.order⟩
  · have hk := STab.byte.1 hk
    obtain ⟨n, -, n1, n2, n3⟩ := g.rtoMust k (STab.rx_lt hk) hk
    exact ⟨n, n1, n2.imp STab.byte.2 (fun h => h), n3⟩
  · obtain ⟨k, k1, k2, k3, k4⟩ := g.rtoOnly n (STab.op_lt (.inl hn)) hn
    exact ⟨k, k1, STab.byte.2 k2, k3, fun j j1 j2 => ⟨fun h => STab.byte.1 h (k4 j j2 j1).1, (k4 j j2 j1).2⟩⟩
  · have hk := STab.byte.1 hk
    obtain ⟨n, -, n1, n2, n3⟩ := g.timerMust k (STab.rx_lt hk) hk
    exact ⟨n, n1, n2.imp STab.byte.2 (fun h => h), n3⟩
  · obtain ⟨k, k1, k2, k3, k4⟩ := g.timerOnly n (STab.op_lt (.inr hn)) hn
    exact ⟨k, k1, STab.byte.2 k2, k3, fun j j1 j2 => ⟨fun h => STab.byte.1 h (k4 j j2 j1).1, (k4 j j2 j1).2⟩⟩
  · obtain ⟨m, -, m1, m2, m3⟩ := g.irq n (STab.op_lt (.inl hn)) hn
    cases hop : t.op m with
    | usart rx u => exact ⟨m, rx, u, m1, hop, m3⟩
    | _ => rw [hop] at m2; cases m2
  · have h : (t.st n).rtof = true := h
    have ho : t.op n = .main op := ho
    by_cases hn : n < t.len
    · have := g.stalled n hn h
      rw [ho] at this; cases this
    · have := g.still (n - t.len)
      rw [show t.len + (n - t.len) = n by omega] at this
      rw [this, g.rest.2.2] at h
      cases h

theorem STab.Good.polled (g : t.Good t15 t35 lat Ps e) (n : Nat) (hr : (t.dev.st (n + 1)).rtof = false) :
    ∃ m, n < m ∧ t.dev.time m ≤ t.dev.time n + Ps ∧ (t.dev.op m = .main .poll ∨ t.dev.op m = .rto) := by
  by_cases hn : n < t.len
  · obtain ⟨m, -, m1, m2, m3⟩ := g.poll n hn hr
    exact ⟨m, m1, m2, m3⟩
  · refine ⟨n + 1, by omega, ?_, .inl (STab.tail (show t.len ≤ n + 1 by omega)).1⟩
    show t.time (n + 1) ≤ t.time n + Ps
    rw [(STab.tail (t := t) (show t.len ≤ n by omega)).2.2, (STab.tail (t := t) (show t.len ≤ n + 1 by omega)).2.2,
      show n + 1 + 1 - t.len = (n + 1 - t.len) + 1 by omega, Nat.mul_add]
    have := g.pace
    omega

theorem STab.Good.txs (g : t.Good t15 t35 lat Ps e) (n : Nat) (b : U8) (h : t.dev.Writes n b) :
    ∃ m rx, n < m ∧ t.dev.op m = .usart rx true ∧ t.dev.time m ≤ t.dev.time n + e := by
  have h := STab.writes.1 h
  have hne : stdr (t.out n) ≠ [] := fun e => by rw [e] at h; cases h
  obtain ⟨m, -, m1, m2, m3⟩ := g.tx n (STab.tdr_lt hne) hne
  exact ⟨m, none, m1, m2, m3⟩

end

/-! ### The master -/

/-- A master: its request, the beginning, and what comes afterwards: in every period `T` polls at `o1`, `o2`, `o3` and a tick at the end. -/
structure MTab where
  req : MReq
  head : List (Nat × HMOp × List HMOut)
  T : Nat
  o1 : Nat
  o2 : Nat
  o3 : Nat

namespace MTab

def len (t : MTab) : Nat := t.head.length
def op (t : MTab) (n : Nat) : HMOp :=
  if n < t.len then (t.head.getD n (0, .timer, [])).2.1 else if (n - t.len) % 4 = 3 then .main .tick else .main .poll
def out (t : MTab) (n : Nat) : List HMOut := if n < t.len then (t.head.getD n (0, .timer, [])).2.2 else []
def base (t : MTab) : Nat := (t.head.getD (t.len - 1) (0, .timer, [])).1
def off (t : MTab) (r : Nat) : Nat := if r = 0 then t.o1 else if r = 1 then t.o2 else if r = 2 then t.o3 else t.T
def time (t : MTab) (n : Nat) : Nat :=
  if n < t.len then (t.head.getD n (0, .timer, [])).1 else t.base + t.T * ((n - t.len) / 4) + t.off ((n - t.len) % 4)

end MTab

def isUsartM : HMOp → Bool
  | .usart _ _ => true
  | _ => false

/-- What has to be checked. -/
structure MTab.Good (t : MTab) (t15 t35 lat Pm D d e : Nat) : Prop where
  pos : 0 < t.len
  run : (match masterSysRun Config.default MasterSys.powerOn (.main (.init .rtu) :: (List.range t.len).map t.op) with
    | .ok x => decide (x.1.lib.st = .idle) && !x.1.lib.txQ.available && !x.1.rtof &&
        decide (x.2 = (.main (.init .rtu), []) :: (List.range t.len).map fun n => (t.op n, t.out n))
    | .error _ => false) = true
  data : DataOk t.req
  main : ∀ n, n < t.len → t.op n = .main .poll ∨ t.op n = .main .tick ∨ t.op n = .main (.request t.req) ∨ mainOp? (t.op n) = none
  mono : ∀ n, n < t.len → t.time n ≤ t.time (n + 1)
  rtoMust : ∀ k, k < t.len → mrxOf (t.op k) ≠ none → ∃ n, n < t.len ∧ k < n ∧ (mrxOf (t.op n) ≠ none ∨ t.op n = .rto) ∧ t.time n ≤ t.time k + t15 + lat
  rtoOnly : ∀ n, n < t.len → t.op n = .rto → ∃ k, k < n ∧ mrxOf (t.op k) ≠ none ∧ t.time k + t15 ≤ t.time n ∧
    ∀ j, j < n → k < j → mrxOf (t.op j) = none ∧ t.op j ≠ .rto
  timerMust : ∀ k, k < t.len → mrxOf (t.op k) ≠ none → ∃ n, n < t.len ∧ k < n ∧ (mrxOf (t.op n) ≠ none ∨ t.op n = .timer) ∧ t.time n ≤ t.time k + t35 + lat
  timerOnly : ∀ n, n < t.len → t.op n = .timer → ∃ k, k < n ∧ mrxOf (t.op k) ≠ none ∧ t.time k + t35 ≤ t.time n ∧
    ∀ j, j < n → k < j → mrxOf (t.op j) = none ∧ t.op j ≠ .timer
  irq : ∀ n, n < t.len → t.op n = .rto → ∃ m, m < t.len ∧ n < m ∧ isUsartM (t.op m) = true ∧ t.time m ≤ t.time n + lat
  stalled : ∀ n, n < t.len → mainOp? (t.op n) = none ∨ ∀ r, r < n → t.op r = .rto → ∃ j, j < n ∧ r < j ∧ isUsartM (t.op j) = true
  poll : ∀ n, n < t.len → ∃ m, m < t.len + 1 ∧ n < m ∧ t.op m = .main .poll ∧ t.time m ≤ t.time n + Pm
  tick : ∀ n, n < t.len → ∃ m, m < t.len + 4 ∧ n < m ∧ t.op m = .main .tick ∧ t.time m ≤ t.time n + D
  apart : ∀ m, m < t.len → t.op m = .main .tick → (∀ n, n < t.len → m < n → t.op n = .main .tick → t.time m + d ≤ t.time n) ∧
    t.time m + d ≤ t.base + t.T
  offs : t.o1 ≤ t.o2 ∧ t.o2 ≤ t.o3 ∧ t.o3 ≤ t.T
  gaps : t.o2 - t.o1 ≤ Pm ∧ t.o3 - t.o2 ≤ Pm ∧ t.T + t.o1 - t.o3 ≤ Pm
  ticks : t.T ≤ D ∧ d ≤ t.T
  tx : ∀ n, n < t.len → mtdr (t.out n) ≠ [] → ∃ m, m < t.len ∧ n < m ∧ t.op m = .usart none true ∧ t.time m ≤ t.time n + e

section
variable {t : MTab} {t15 t35 lat Pm D d e : Nat}

theorem MTab.tail {n : Nat} (h : t.len ≤ n) : t.op n = (if (n - t.len) % 4 = 3 then .main .tick else .main .poll) ∧ t.out n = [] ∧
    t.time n = (t.base + t.T * ((n - t.len) / 4) + t.off ((n - t.len) % 4)) := by
  have hn : ¬ n < t.len := by omega
  unfold MTab.op MTab.out MTab.time
  rw [if_neg hn, if_neg hn, if_neg hn]
  exact ⟨rfl, rfl, rfl⟩

theorem MTab.Good.runs (g : t.Good t15 t35 lat Pm D d e) (k : Nat) :
    ∃ s, masterSysRun Config.default MasterSys.powerOn (.main (.init .rtu) :: (List.range (t.len + k)).map t.op) =
      .ok (s, (.main (.init .rtu), []) :: (List.range (t.len + k)).map fun n => (t.op n, t.out n)) ∧ s.lib.st = .idle ∧ s.lib.txQ.available = false ∧
        s.rtof = false := by
  induction k with
  | zero =>
    have h := g.run
    split at h
    · rename_i x hx
      simp only [Bool.and_eq_true, decide_eq_true_eq, Bool.not_eq_true'] at h
      exact ⟨x.1, by rw [Nat.add_zero, hx, ← h.2], h.1.1.1, h.1.1.2, h.1.2⟩
    · cases h
  | succ k ih =>
    obtain ⟨s, h1, h2, h3, h4⟩ := ih
    have hop : t.op (t.len + k) = .main .poll ∨ t.op (t.len + k) = .main .tick ∨ t.op (t.len + k) = .usart none false := by
      rw [(MTab.tail (show t.len ≤ t.len + k by omega)).1]
      split
      · exact .inr (.inl rfl)
      · exact .inl rfl
    obtain ⟨s', k1, k2, k3, k4⟩ := md_idle (cfg := Config.default) h2 h3 h4 hop
    refine ⟨s', ?_, k2, k3, k4⟩
    have e := (MTab.tail (t := t) (show t.len ≤ t.len + k by omega)).2.1
    have := msysRun_snoc h1 k1
    rw [← Nat.add_assoc, List.range_succ, List.map_append, List.map_append]
    simp only [List.map_cons, List.map_nil, e]
    exact this

theorem MTab.Good.pref (g : t.Good t15 t35 lat Pm D d e) (n : Nat) :
    ∃ s, masterSysRun Config.default MasterSys.powerOn (.main (.init .rtu) :: (List.range n).map t.op) =
      .ok (s, (.main (.init .rtu), []) :: (List.range n).map fun k => (t.op k, t.out k)) := by
  have key : ∀ d n, (∃ s, masterSysRun Config.default MasterSys.powerOn (.main (.init .rtu) :: (List.range (n + d)).map t.op) =
      .ok (s, (.main (.init .rtu), []) :: (List.range (n + d)).map fun k => (t.op k, t.out k))) →
      ∃ s, masterSysRun Config.default MasterSys.powerOn (.main (.init .rtu) :: (List.range n).map t.op) =
        .ok (s, (.main (.init .rtu), []) :: (List.range n).map fun k => (t.op k, t.out k)) := by
    intro d
    induction d with
    | zero => intro n h; exact h
    | succ d ih =>
      rintro n ⟨s, h⟩
      refine ih n ?_
      rw [← Nat.add_assoc, List.range_succ, List.map_append, List.map_append, ← List.cons_append, ← List.cons_append] at h
      obtain ⟨s1, t1, o, e1, e2, e3⟩ := msysRun_snoc_inv h
      obtain ⟨e4, -⟩ := List.append_inj' e3 rfl
      exact ⟨s1, by rw [e4]; exact e1⟩
  obtain ⟨s, h, -⟩ := g.runs n
  rw [Nat.add_comm] at h
  exact key t.len n ⟨s, h⟩

/-- The state before event `n` (some state if the table is not an execution). -/
noncomputable def MTab.st (t : MTab) (n : Nat) : MasterSys := by
  classical
  exact if h : ∃ s, masterSysRun Config.default MasterSys.powerOn (.main (.init .rtu) :: (List.range n).map t.op) =
      .ok (s, (.main (.init .rtu), []) :: (List.range n).map fun k => (t.op k, t.out k)) then Classical.choose h else MasterSys.powerOn

theorem MTab.Good.st_run (g : t.Good t15 t35 lat Pm D d e) (n : Nat) : masterSysRun Config.default MasterSys.powerOn (.main (.init .rtu) :: (List.range n).map t.op) =
    .ok (t.st n, (.main (.init .rtu), []) :: (List.range n).map fun k => (t.op k, t.out k)) := by
  have h := g.pref n
  unfold MTab.st
  rw [dif_pos h]
  exact Classical.choose_spec h

noncomputable def MTab.dev (t : MTab) : MDeviceTimed := { op := t.op, time := t.time, st := t.st, out := t.out }

theorem MTab.gets {n : Nat} {b : U8} : t.dev.Gets n b ↔ mrxOf (t.op n) = some b := by
  show (∃ u, t.op n = .usart (some b) u) ↔ _
  cases t.op n <;> simp [mrxOf]

theorem MTab.byte {n : Nat} : t.dev.Byte n ↔ mrxOf (t.op n) ≠ none := by
  constructor
  · rintro ⟨b, u, h⟩
    rw [MTab.gets.1 ⟨u, h⟩]; simp
  · intro h
    cases hb : mrxOf (t.op n) with
    | none => exact absurd hb h
    | some b => obtain ⟨u, h⟩ := MTab.gets.2 hb; exact ⟨b, u, h⟩

theorem MTab.writes {n : Nat} {b : U8} : t.dev.Writes n b ↔ b ∈ mtdr (t.out n) := by
  show .tdr b ∈ t.out n ↔ _
  unfold mtdr
  rw [List.mem_filterMap]
  constructor
  · exact fun h => ⟨_, h, rfl⟩
  · rintro ⟨o, ho, he⟩
    cases o with
    | tdr c => cases he; exact ho
    | _ => cases he

theorem MTab.rx_lt {n : Nat} (h : mrxOf (t.op n) ≠ none) : n < t.len := Classical.byContradiction fun hn => by
  rw [(MTab.tail (show t.len ≤ n by omega)).1] at h
  split at h <;> exact h rfl

theorem MTab.op_lt {n : Nat} (h : t.op n = .rto ∨ t.op n = .timer) : n < t.len := Classical.byContradiction fun hn => by
  rw [(MTab.tail (show t.len ≤ n by omega)).1] at h
  split at h <;> rcases h with h | h <;> cases h

theorem MTab.tdr_lt {n : Nat} (h : mtdr (t.out n) ≠ []) : n < t.len := Classical.byContradiction fun hn => by
  rw [(MTab.tail (show t.len ≤ n by omega)).2.1] at h; exact h rfl

/-- The time of the events that follow. -/
theorem MTab.time_tail (q r : Nat) (hr : r < 4) : t.time (t.len + (4 * q + r)) = t.base + t.T * q + t.off r := by
  rw [(MTab.tail (show t.len ≤ t.len + (4 * q + r) by omega)).2.2, show (t.len + (4 * q + r) - t.len) / 4 = q by omega,
    show (t.len + (4 * q + r) - t.len) % 4 = r by omega]

theorem MTab.op_tail (q r : Nat) (hr : r < 4) : t.op (t.len + (4 * q + r)) = if r = 3 then .main .tick else .main .poll := by
  rw [(MTab.tail (show t.len ≤ t.len + (4 * q + r) by omega)).1, show (t.len + (4 * q + r) - t.len) % 4 = r by omega]

theorem MTab.split {n : Nat} (h : t.len ≤ n) : ∃ q r, r < 4 ∧ n = t.len + (4 * q + r) := by
  refine ⟨(n - t.len) / 4, (n - t.len) % 4, Nat.mod_lt _ (by omega), ?_⟩
  have := Nat.div_add_mod (n - t.len) 4
  omega

theorem MTab.Good.exec (g : t.Good t15 t35 lat Pm D d e) : t.dev.Exec Config.default := by
  have hst := g.st_run
  refine ⟨?_, fun n => ?_, fun n op h => ?_, fun n => ?_⟩
  · have h := hst 0
    obtain ⟨s1, t1, o, e1, e2, e3⟩ := msysRun_snoc_inv (ops := []) (op := .main (.init .rtu)) h
    cases e1
    have e4 : o = [] := by
      have := congrArg (fun l => l.map Prod.snd) e3
      simp at this
      exact this
    rw [e4] at e2; exact e2
  · have h := hst (n + 1)
    rw [List.range_succ, List.map_append, List.map_append, ← List.cons_append, ← List.cons_append] at h
    obtain ⟨s1, t1, o, e1, e2, e3⟩ := msysRun_snoc_inv h
    obtain ⟨-, e4⟩ := List.append_inj' e3 rfl
    simp only [List.map_cons, List.map_nil, List.cons.injEq, Prod.mk.injEq, and_true, true_and] at e4
    rw [hst n] at e1
    simp only [Except.ok.injEq, Prod.mk.injEq] at e1
    show masterSysStep Config.default (t.st n) (t.op n) = .ok (t.st (n + 1), t.out n)
    rw [e1.1, e4]; exact e2
  · have h : t.op n = .main op := h
    by_cases hn : n < t.len
    · rcases g.main n hn with e | e | e | e
      · rw [h] at e; cases e; trivial
      · rw [h] at e; cases e; trivial
      · rw [h] at e; cases e; exact fun _ => g.data
      · rw [h] at e; cases e
    · rw [(MTab.tail (show t.len ≤ n by omega)).1] at h
      split at h <;> (cases h; trivial)
  · show t.time n ≤ t.time (n + 1)
    by_cases hn : n < t.len
    · exact g.mono n hn
    · obtain ⟨q, r, hr, rfl⟩ := MTab.split (show t.len ≤ n by omega)
      obtain ⟨o1, o2, o3⟩ := g.offs
      rw [MTab.time_tail q r hr]
      by_cases h3 : r = 3
      · subst h3
        rw [show t.len + (4 * q + 3) + 1 = t.len + (4 * (q + 1) + 0) by omega, MTab.time_tail (q + 1) 0 (by omega), Nat.mul_add]
        show t.base + t.T * q + t.T ≤ t.base + (t.T * q + t.T * 1) + t.o1
        omega
      · rw [show t.len + (4 * q + r) + 1 = t.len + (4 * q + (r + 1)) by omega, MTab.time_tail q (r + 1) (by omega)]
        refine Nat.add_le_add_left ?_ _
        match r, hr with
        | 0, _ => exact o1
        | 1, _ => exact o2
        | 2, _ => exact o3
        | 3, _ => exact absurd rfl h3

theorem MTab.Good.hardware (g : t.Good t15 t35 lat Pm D d e) : t.dev.Hardware t15 t35 lat := by
  refine ⟨fun k hk => ?_, fun n hn => ?_, fun k hk => ?_, fun n hn => ?_, fun n hn => ?_, fun n op h ho => ?_⟩
  · have hk := MTab.byte.1 hk
    obtain ⟨n, -, n1, n2, n3⟩ := g.rtoMust k (MTab.rx_lt hk) hk
    exact ⟨n, n1, n2.imp MTab.byte.2 (fun h => h), n3⟩
  · obtain ⟨k, k1, k2, k3, k4⟩ := g.rtoOnly n (MTab.op_lt (.inl hn)) hn
    exact ⟨k, k1, MTab.byte.2 k2, k3, fun j j1 j2 => ⟨fun h => MTab.byte.1 h (k4 j j2 j1).1, (k4 j j2 j1).2⟩⟩
  · have hk := MTab.byte.1 hk
    obtain ⟨n, -, n1, n2, n3⟩ := g.timerMust k (MTab.rx_lt hk) hk
    exact ⟨n, n1, n2.imp MTab.byte.2 (fun h => h), n3⟩
  · obtain ⟨k, k1, k2, k3, k4⟩ := g.timerOnly n (MTab.op_lt (.inr hn)) hn
    exact ⟨k, k1, MTab.byte.2 k2, k3, fun j j1 j2 => ⟨fun h => MTab.byte.1 h (k4 j j2 j1).1, (k4 j j2 j1).2⟩⟩
  · obtain ⟨m, -, m1, m2, m3⟩ := g.irq n (MTab.op_lt (.inl hn)) hn
    cases hop : t.op m with
    | usart rx u => exact ⟨m, rx, u, m1, hop, m3⟩
    | _ => rw [hop] at m2; cases m2
  · obtain ⟨r, r1, r2, r3⟩ := rtof_back g.exec n h
    have r2 : t.op r = .rto := r2
    have ho : t.op n = .main op := ho
    have : ∃ j, j < n ∧ r < j ∧ isUsartM (t.op j) = true := by
      by_cases hn : n < t.len
      · exact (g.stalled n hn).resolve_left (by rw [ho]; simp [mainOp?]) r r1 r2
      · obtain ⟨m, m1, m2, m3, -⟩ := g.irq r (MTab.op_lt (.inl r2)) r2
        exact ⟨m, by omega, m2, m3⟩
    obtain ⟨j, j1, j2, j3⟩ := this
    cases hop : t.op j with
    | usart rx u => exact r3 j j2 j1 rx u hop
    | _ => rw [hop] at j3; cases j3

theorem MTab.Good.polled (g : t.Good t15 t35 lat Pm D d e) (n : Nat) :
    ∃ m, n < m ∧ t.dev.op m = .main .poll ∧ t.dev.time m ≤ t.dev.time n + Pm := by
  by_cases hn : n < t.len
  · obtain ⟨m, -, m1, m2, m3⟩ := g.poll n hn
    exact ⟨m, m1, m2, m3⟩
  · obtain ⟨q, r, hr, rfl⟩ := MTab.split (show t.len ≤ n by omega)
    obtain ⟨o1, o2, o3⟩ := g.offs
    obtain ⟨g1, g2, g3⟩ := g.gaps
    match r, hr with
    | 0, _ =>
      refine ⟨t.len + (4 * q + 1), by omega, MTab.op_tail q 1 (by omega), ?_⟩
      show t.time _ ≤ t.time _ + Pm
      rw [MTab.time_tail q 1 (by omega), MTab.time_tail q 0 (by omega)]
      show t.base + t.T * q + t.o2 ≤ t.base + t.T * q + t.o1 + Pm
      omega
    | 1, _ =>
      refine ⟨t.len + (4 * q + 2), by omega, MTab.op_tail q 2 (by omega), ?_⟩
      show t.time _ ≤ t.time _ + Pm
      rw [MTab.time_tail q 2 (by omega), MTab.time_tail q 1 (by omega)]
      show t.base + t.T * q + t.o3 ≤ t.base + t.T * q + t.o2 + Pm
      omega
    | 2, _ =>
      refine ⟨t.len + (4 * (q + 1) + 0), by omega, MTab.op_tail (q + 1) 0 (by omega), ?_⟩
      show t.time _ ≤ t.time _ + Pm
      rw [MTab.time_tail (q + 1) 0 (by omega), MTab.time_tail q 2 (by omega), Nat.mul_add]
      show t.base + (t.T * q + t.T * 1) + t.o1 ≤ t.base + t.T * q + t.o3 + Pm
      omega
    | 3, _ =>
      refine ⟨t.len + (4 * (q + 1) + 0), by omega, MTab.op_tail (q + 1) 0 (by omega), ?_⟩
      show t.time _ ≤ t.time _ + Pm
      rw [MTab.time_tail (q + 1) 0 (by omega), MTab.time_tail q 3 (by omega), Nat.mul_add]
      show t.base + (t.T * q + t.T * 1) + t.o1 ≤ t.base + t.T * q + t.T + Pm
      omega

theorem MTab.Good.ticked (g : t.Good t15 t35 lat Pm D d e) (n : Nat) :
    ∃ m, n < m ∧ t.dev.op m = .main .tick ∧ t.dev.time m ≤ t.dev.time n + D := by
  by_cases hn : n < t.len
  · obtain ⟨m, -, m1, m2, m3⟩ := g.tick n hn
    exact ⟨m, m1, m2, m3⟩
  · obtain ⟨q, r, hr, rfl⟩ := MTab.split (show t.len ≤ n by omega)
    obtain ⟨g1, -⟩ := g.ticks
    by_cases h3 : r = 3
    · subst h3
      refine ⟨t.len + (4 * (q + 1) + 3), by omega, MTab.op_tail (q + 1) 3 (by omega), ?_⟩
      show t.time _ ≤ t.time _ + D
      rw [MTab.time_tail (q + 1) 3 (by omega), MTab.time_tail q 3 (by omega), Nat.mul_add]
      omega
    · refine ⟨t.len + (4 * q + 3), by omega, MTab.op_tail q 3 (by omega), ?_⟩
      show t.time _ ≤ t.time _ + D
      rw [MTab.time_tail q 3 (by omega), MTab.time_tail q r hr]
      show t.base + t.T * q + t.T ≤ _
      omega

theorem MTab.Good.ticksApart (g : t.Good t15 t35 lat Pm D d e) (m n : Nat) (hmn : m < n) (h1 : t.dev.op m = .main .tick) (h2 : t.dev.op n = .main .tick) :
    t.dev.time m + d ≤ t.dev.time n := by
  have h1 : t.op m = .main .tick := h1
  have h2 : t.op n = .main .tick := h2
  show t.time m + d ≤ t.time n
  obtain ⟨-, g2⟩ := g.ticks
  have tl : ∀ {n}, t.len ≤ n → t.op n = .main .tick → ∃ q, n = t.len + (4 * q + 3) := by
    intro n hn h
    obtain ⟨q, r, hr, rfl⟩ := MTab.split hn
    rw [MTab.op_tail q r hr] at h
    by_cases h3 : r = 3
    · exact ⟨q, by rw [h3]⟩
    · rw [if_neg h3] at h; cases h
  by_cases hn : n < t.len
  · exact (g.apart m (by omega) h1).1 n hn hmn h2
  · obtain ⟨q, rfl⟩ := tl (by omega) h2
    rw [MTab.time_tail q 3 (by omega)]
    show _ ≤ t.base + t.T * q + t.T
    by_cases hm : m < t.len
    · have := (g.apart m hm h1).2
      omega
    · obtain ⟨p, rfl⟩ := tl (by omega) h1
      rw [MTab.time_tail p 3 (by omega)]
      show t.base + t.T * p + t.T + d ≤ _
      have : t.T * (p + 1) ≤ t.T * q := Nat.mul_le_mul_left _ (by omega)
      rw [Nat.mul_add] at this
      omega

theorem MTab.Good.txs (g : t.Good t15 t35 lat Pm D d e) (n : Nat) (b : U8) (h : t.dev.Writes n b) :
    ∃ m rx, n < m ∧ t.dev.op m = .usart rx true ∧ t.dev.time m ≤ t.dev.time n + e := by
  have h := MTab.writes.1 h
  have hne : mtdr (t.out n) ≠ [] := fun e => by rw [e] at h; cases h
  obtain ⟨m, -, m1, m2, m3⟩ := g.tx n (MTab.tdr_lt hne) hne
  exact ⟨m, none, m1, m2, m3⟩

end

/-! ### The line -/

/-- A master, two slaves, and where what is written is heard. -/
structure LTab where
  m : MTab
  s : Bool → STab
  via : Option Bool → Option Bool → List Nat
  w : Option Bool → List Nat

namespace LTab

def len (L : LTab) : Option Bool → Nat
  | none => L.m.len
  | some i => (L.s i).len
def time (L : LTab) : Option Bool → Nat → Nat
  | none => L.m.time
  | some i => (L.s i).time
def wr (L : LTab) : Option Bool → Nat → List U8
  | none, n => mtdr (L.m.out n)
  | some i, n => stdr ((L.s i).out n)
def rx (L : LTab) : Option Bool → Nat → Option U8
  | none, n => mrxOf (L.m.op n)
  | some i, n => srxOf ((L.s i).op n)
/-- The events at which a station writes. -/
def ws (L : LTab) (d : Option Bool) : List Nat := (List.range (L.len d)).filter fun n => !(L.wr d n).isEmpty
def at' (L : LTab) (d l : Option Bool) (n : Nat) : Nat := (L.via d l).getD n 0
def devs (L : LTab) : Bool → DeviceTimed := fun i => (L.s i).dev

end LTab

/-- The stations. -/
def three : List (Option Bool) := [none, some false, some true]

theorem mem_three (d : Option Bool) : d ∈ three := by
  cases d with
  | none => decide
  | some b => cases b <;> decide

/-- What has to be checked. -/
structure LTab.Good (L : LTab) (c0 c sk t15 : Nat) : Prop where
  written : ∀ d ∈ three, L.w d = L.ws d
  only : ∀ l ∈ three, ∀ k, k < L.len l → L.rx l k ≠ none → ∃ d ∈ three, d ≠ l ∧ ∃ n ∈ L.w d, L.at' d l n = k ∧ L.time d n + c0 ≤ L.time l k ∧ L.time l k ≤ L.time d n + c
  arrives : ∀ d ∈ three, ∀ l ∈ three, d ≠ l → ∀ n ∈ L.w d, (∀ b ∈ L.wr d n, L.rx l (L.at' d l n) = some b) ∧ L.time d n + c0 ≤ L.time l (L.at' d l n) ∧
    L.time l (L.at' d l n) ≤ L.time d n + c
  skew : ∀ d ∈ three, ∀ l ∈ three, ∀ l' ∈ three, d ≠ l → d ≠ l' → ∀ n ∈ L.w d, L.time l' (L.at' d l' n) ≤ L.time l (L.at' d l n) + sk
  order : ∀ d ∈ three, ∀ l ∈ three, d ≠ l → ∀ n ∈ L.w d, ∀ n' ∈ L.w d, n < n' → L.at' d l n < L.at' d l n'
  together : ∀ d ∈ three, ∀ l ∈ three, d ≠ l → ∀ n ∈ L.w d, ∀ n' ∈ L.w d, n < n' → (∀ i ∈ L.w d, ¬ (n < i ∧ i < n')) →
    L.time l (L.at' d l n') < L.time l (L.at' d l n) + t15

section
variable {L : LTab} {c0 c sk t15 : Nat}

theorem LTab.st_time (d : Option Bool) (n : Nat) : (stations L.m.dev L.devs d).time n = L.time d n := by
  cases d <;> rfl

theorem LTab.st_writes {d : Option Bool} {n : Nat} {b : U8} : (stations L.m.dev L.devs d).writes n b ↔ b ∈ L.wr d n := by
  cases d
  · exact MTab.writes
  · exact STab.writes

theorem LTab.st_gets {d : Option Bool} {n : Nat} {b : U8} : (stations L.m.dev L.devs d).gets n b ↔ L.rx d n = some b := by
  cases d
  · exact MTab.gets
  · exact STab.gets

theorem LTab.mem_ws {d : Option Bool} {n : Nat} : n ∈ L.ws d ↔ L.wr d n ≠ [] := by
  unfold LTab.ws
  rw [List.mem_filter, List.mem_range]
  constructor
  · rintro ⟨-, h⟩ e; rw [e] at h; cases h
  · intro h
    refine ⟨?_, by cases hw : L.wr d n with
      | nil => exact absurd hw h
      | cons => rfl⟩
    cases d
    · exact MTab.tdr_lt h
    · exact STab.tdr_lt h

theorem LTab.writes_ws {d : Option Bool} {n : Nat} {b : U8} (h : (stations L.m.dev L.devs d).writes n b) : n ∈ L.ws d :=
  LTab.mem_ws.2 fun e => by have := LTab.st_writes.1 h; rw [e] at this; cases this

theorem LTab.Good.mem_w (g : L.Good c0 c sk t15) {d : Option Bool} {n : Nat} : n ∈ L.w d ↔ n ∈ L.ws d := by
  rw [g.written d (mem_three d)]

theorem LTab.Good.medium (g : L.Good c0 c sk t15) : Medium c0 c sk t15 (stations L.m.dev L.devs) L.at' := by
  refine ⟨fun l k b h => ?_, fun d l n b hd h _ => ?_, fun d l l' n b hl hl' h _ => ?_, fun d l n n' b b' hd hn h h' _ _ => ?_,
    fun d l n n' b b' hd hn h h' hb _ _ _ => ?_⟩
  · have h := LTab.st_gets.1 h
    have hne : L.rx l k ≠ none := by rw [h]; simp
    have hk : k < L.len l := by
      match l, hne with
      | none, hne => exact MTab.rx_lt hne
      | some i, hne => exact STab.rx_lt hne
    obtain ⟨d, -, h1, n, h2, h3, h4, h5⟩ := g.only l (mem_three l) k hk (by rw [h]; simp)
    obtain ⟨b', hb'⟩ := List.exists_mem_of_ne_nil _ (LTab.mem_ws.1 (g.mem_w.1 h2))
    exact ⟨d, n, b', h1, LTab.st_writes.2 hb', h3, by rw [LTab.st_time, LTab.st_time]; exact h4, by rw [LTab.st_time, LTab.st_time]; exact h5⟩
  · obtain ⟨h1, h2, h3⟩ := g.arrives d (mem_three d) l (mem_three l) hd n (g.mem_w.2 (LTab.writes_ws h))
    rw [LTab.st_time, LTab.st_time]
    exact ⟨LTab.st_gets.2 (h1 b (LTab.st_writes.1 h)), h2, h3⟩
  · rw [LTab.st_time, LTab.st_time]
    exact g.skew d (mem_three d) l (mem_three l) l' (mem_three l') hl hl' n (g.mem_w.2 (LTab.writes_ws h))
  · exact g.order d (mem_three d) l (mem_three l) hd n (g.mem_w.2 (LTab.writes_ws h)) n' (g.mem_w.2 (LTab.writes_ws h')) hn
  · rw [LTab.st_time, LTab.st_time]
    refine g.together d (mem_three d) l (mem_three l) hd n (g.mem_w.2 (LTab.writes_ws h)) n' (g.mem_w.2 (LTab.writes_ws h')) hn fun i hi hin => ?_
    obtain ⟨b', hb'⟩ := List.exists_mem_of_ne_nil _ (LTab.mem_ws.1 (g.mem_w.1 hi))
    exact hb i b' hin.1 hin.2 (LTab.st_writes.2 hb')

theorem LTab.line {τ : BusTimes} (gm : L.m.Good τ.t15 τ.t35 τ.lat τ.Pm τ.D τ.d τ.e) (gs : ∀ i, (L.s i).Good τ.t15 τ.t35 τ.lat τ.Ps τ.e)
    (g : L.Good c0 τ.c sk τ.t15) (hid : (L.s false).id ≠ (L.s true).id) :
    TimedLine Config.default (fun _ => Config.default) (fun i => (L.s i).id) τ c0 sk L.m.dev L.devs := by
  refine ⟨gm.exec, fun i => (gs i).exec, ?_, gm.hardware, fun i => (gs i).hardware, gm.polled, fun i => (gs i).polled, gm.ticked, gm.ticksApart,
    gm.txs, fun i => (gs i).txs, L.at', g.medium⟩
  intro i j h
  cases i <;> cases j
  · rfl
  · exact absurd h hid
  · exact absurd h.symm hid
  · rfl

end

end Modbus
