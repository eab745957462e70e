import Verif.Props.BusShipped
import Verif.Props.BusDemo

/-! **C76**: an execution of two boards at 115200 baud with the shipped configuration and the driver's timer settings, in which the master's application
writes a register of slave 9. -/

namespace Modbus

open Spec

/-- The master: when (in bit times), what happens, what is put out. -/
def cmList : List (Nat × HMOp × List HMOut) := [
  (0, .main (.request bdReq), [.lib (.ret .sendToQueue)]), (10, .main .poll, [.lib (.send bdFrame), .tdr 9]), (21, .usart none true, [.tdr 6]),
  (32, .usart none true, [.tdr 0]), (43, .usart none true, [.tdr 7]), (50, .main .poll, []),
  (54, .usart none true, [.tdr 170]), (65, .usart none true, [.tdr 187]), (76, .usart none true, [.tdr 7]),
  (87, .usart none true, [.tdr 144]), (90, .main .poll, []), (98, .usart none true, []),
  (115, .main .tick, []), (130, .main .poll, []), (170, .main .poll, []),
  (210, .main .poll, []), (230, .main .tick, []), (250, .main .poll, []),
  (290, .main .poll, []), (330, .main .poll, []), (345, .main .tick, []),
  (351, .usart (some 9) false, []), (362, .usart (some 6) false, []), (370, .main .poll, []),
  (373, .usart (some 0) false, []), (384, .usart (some 7) false, []), (395, .usart (some 170) false, []),
  (406, .usart (some 187) false, []), (410, .main .poll, []), (417, .usart (some 7) false, []),
  (428, .usart (some 144) false, []), (450, .main .poll, []), (460, .main .tick, []),
  (490, .main .poll, []), (527, .rto, []), (528, .usart none false, []),
  (530, .main .poll, []), (570, .main .poll, []), (575, .main .tick, []),
  (610, .main .poll, []), (630, .timer, []), (650, .main .poll, [.lib (.event (.hregWrite 9 7 1))]),
  (690, .main .poll, []), (690, .main .tick, [])]

/-- The slave. -/
def csList : List (Nat × HOp × List HOut) := [
  (5, .main .poll, []), (21, .usart (some 9) false, []), (32, .usart (some 6) false, []),
  (43, .usart (some 0) false, []), (45, .main .poll, []), (54, .usart (some 7) false, []),
  (65, .usart (some 170) false, []), (76, .usart (some 187) false, []), (85, .main .poll, []),
  (87, .usart (some 7) false, []), (98, .usart (some 144) false, []), (125, .main .poll, []),
  (165, .main .poll, []), (197, .rto, []), (198, .usart none false, []),
  (250, .usart none false, []), (300, .timer, []), (310, .main .poll, []),
  (340, .main .poll, [.send bdFrame, .tdr 9]), (351, .usart none true, [.tdr 6]), (362, .usart none true, [.tdr 0]),
  (373, .usart none true, [.tdr 7]), (380, .main .poll, []), (384, .usart none true, [.tdr 170]),
  (395, .usart none true, [.tdr 187]), (406, .usart none true, [.tdr 7]), (417, .usart none true, [.tdr 144]),
  (420, .main .poll, []), (428, .usart none true, []), (460, .main .poll, [])]

/-- Where the master's bytes arrive. -/
def cmVia : List Nat := [
  0, 1, 2, 3, 5, 0, 6, 7, 9, 10, 0, 0, 0, 0, 0, 0, 0, 0, 0, 0, 0, 0, 0, 0, 0, 0, 0, 0, 0, 0,
  0, 0, 0, 0, 0, 0, 0, 0, 0, 0, 0, 0, 0, 0]

/-- Where the slave's bytes arrive. -/
def csVia : List Nat := [
  0, 0, 0, 0, 0, 0, 0, 0, 0, 0, 0, 0, 0, 0, 0, 0, 0, 0, 21, 22, 24, 25, 0, 26, 27, 29, 30, 0, 0, 0]


def cmOp (n : Nat) : HMOp := if n < 44 then (cmList.getD n (0, .timer, [])).2.1 else if (n - 44) % 4 = 3 then .main .tick else .main .poll

def cmOut (n : Nat) : List HMOut := if n < 44 then (cmList.getD n (0, .timer, [])).2.2 else []

def cmTime (n : Nat) : Nat :=
  (if n < 44 then (cmList.getD n (0, .timer, [])).1
   else 690 + 115 * ((n - 44) / 4) + (if (n - 44) % 4 = 3 then 115 else 20 + 40 * ((n - 44) % 4))) * 1000000

def csOp (n : Nat) : HOp := if n < 30 then (csList.getD n (0, .timer, [])).2.1 else .main .poll

def csOut (n : Nat) : List HOut := if n < 30 then (csList.getD n (0, .timer, [])).2.2 else []

def csTime (n : Nat) : Nat := (if n < 30 then (csList.getD n (0, .timer, [])).1 else 460 + 40 * (n - 29)) * 1000000

theorem cmTime_tail {n : Nat} (h : 44 ≤ n) :
    cmTime n = (690 + 115 * ((n - 44) / 4) + (if (n - 44) % 4 = 3 then 115 else 20 + 40 * ((n - 44) % 4))) * 1000000 := by
  unfold cmTime
  rw [if_neg (by omega)]

theorem csTime_tail {n : Nat} (h : 30 ≤ n) : csTime n = (460 + 40 * (n - 29)) * 1000000 := by
  unfold csTime
  rw [if_neg (by omega)]

theorem cm_head : (match masterSysRun Config.default MasterSys.powerOn (.main (.init .rtu) :: (List.range 44).map cmOp) with
    | .ok x => decide (x.1.lib.st = .idle) && !x.1.lib.txQ.available && !x.1.rtof &&
        decide (x.2 = (.main (.init .rtu), []) :: (List.range 44).map fun n => (cmOp n, cmOut n))
    | .error _ => false) = true := by decide +kernel

def csSt : Nat → SlaveSys
  | 0 => ⟨slaveInit (Slave.powerOn sampleMem) .rtu 9, 0, 0, false, false⟩
  | n + 1 => match slaveSysStep Config.default (csSt n) (csOp n) with
    | .ok r => r.1
    | .error _ => csSt n

def csOk (n : Nat) : Bool := match slaveSysStep Config.default (csSt n) (csOp n) with
  | .ok r => decide (r.2 = csOut n)
  | .error _ => false

theorem cs_head : ∀ n, n < 30 → csOk n = true := by decide +kernel

theorem cs_at : (csSt 30).lib.st = .idle ∧ (csSt 30).lib.t15 = .cleared ∧ (csSt 30).rtof = false := by decide +kernel

theorem cs_rest (k : Nat) : csSt (30 + k) = csSt 30 := by
  obtain ⟨h1, h2, h3⟩ := cs_at
  have poll := rest_poll h1 h2 h3
  induction k with
  | zero => rfl
  | succ k ih =>
    show csSt ((30 + k) + 1) = _
    rw [csSt, ih, show csOp (30 + k) = .main .poll by unfold csOp; rw [if_neg (by omega)], poll]

theorem cs_step (n : Nat) : slaveSysStep Config.default (csSt n) (csOp n) = .ok (csSt (n + 1), csOut n) := by
  by_cases h : n < 30
  · have := cs_head n h
    unfold csOk at this
    rw [csSt]
    split at this
    · rename_i r hr
      rw [hr]
      simp only [decide_eq_true_eq] at this
      rw [← this]
    · cases this
  · obtain ⟨h1, h2, h3⟩ := cs_at
    have e1 := cs_rest (n - 30)
    have e2 := cs_rest (n - 30 + 1)
    rw [show 30 + (n - 30) = n by omega] at e1
    rw [show 30 + (n - 30 + 1) = n + 1 by omega] at e2
    rw [e1, e2, show csOp n = .main .poll by unfold csOp; rw [if_neg h], rest_poll h1 h2 h3]
    unfold csOut
    rw [if_neg h]

theorem cm_run (k : Nat) : ∃ s, masterSysRun Config.default MasterSys.powerOn (.main (.init .rtu) :: (List.range (44 + k)).map cmOp) =
    .ok (s, (.main (.init .rtu), []) :: (List.range (44 + k)).map fun n => (cmOp n, cmOut n)) ∧ s.lib.st = .idle ∧ s.lib.txQ.available = false ∧
      s.rtof = false := by
  induction k with
  | zero =>
    have h := cm_head
    split at h
    · rename_i x hx
      simp only [Bool.and_eq_true, decide_eq_true_eq, Bool.not_eq_true'] at h
      exact ⟨x.1, by rw [hx, ← h.2], h.1.1.1, h.1.1.2, h.1.2⟩
    · cases h
  | succ k ih =>
    obtain ⟨s, h1, h2, h3, h4⟩ := ih
    have hop : cmOp (44 + k) = .main .poll ∨ cmOp (44 + k) = .main .tick ∨ cmOp (44 + k) = .usart none false := by
      unfold cmOp
      rw [if_neg (by omega)]
      split
      · exact .inr (.inl rfl)
      · exact .inl rfl
    obtain ⟨s', k1, k2, k3, k4⟩ := md_idle (cfg := Config.default) h2 h3 h4 hop
    refine ⟨s', ?_, k2, k3, k4⟩
    have e : cmOut (44 + k) = [] := by unfold cmOut; rw [if_neg (by omega)]
    have := msysRun_snoc h1 k1
    rw [← Nat.add_assoc, List.range_succ, List.map_append, List.map_append]
    simp only [List.map_cons, List.map_nil, e]
    exact this

theorem cm_prefix (n : Nat) : ∃ s, masterSysRun Config.default MasterSys.powerOn (.main (.init .rtu) :: (List.range n).map cmOp) =
    .ok (s, (.main (.init .rtu), []) :: (List.range n).map fun k => (cmOp k, cmOut k)) := by
  have key : ∀ d n, (∃ s, masterSysRun Config.default MasterSys.powerOn (.main (.init .rtu) :: (List.range (n + d)).map cmOp) =
      .ok (s, (.main (.init .rtu), []) :: (List.range (n + d)).map fun k => (cmOp k, cmOut k))) →
      ∃ s, masterSysRun Config.default MasterSys.powerOn (.main (.init .rtu) :: (List.range n).map cmOp) =
        .ok (s, (.main (.init .rtu), []) :: (List.range n).map fun k => (cmOp k, cmOut k)) := by
    intro d
    induction d with
    | zero => intro n h; exact h
    | succ d ih =>
      rintro n ⟨s, h⟩
      refine ih n ?_
      rw [← Nat.add_assoc, List.range_succ, List.map_append, List.map_append, ← List.cons_append, ← List.cons_append] at h
      obtain ⟨s1, t1, o, e1, e2, e3⟩ := msysRun_snoc_inv h
      obtain ⟨e4, -⟩ := List.append_inj' e3 rfl
      exact ⟨s1, by rw [e4]; exact e1⟩
  obtain ⟨s, h, -⟩ := cm_run n
  rw [Nat.add_comm] at h
  exact key 44 n ⟨s, h⟩

noncomputable def cmSt (n : Nat) : MasterSys := Classical.choose (cm_prefix n)

/-- The executions. -/
noncomputable def cm : MDeviceTimed := { op := cmOp, time := cmTime, st := cmSt, out := cmOut }
def cs : DeviceTimed := { op := csOp, time := csTime, st := csSt, out := csOut }

/-- The byte coming in with an event. -/
def mrxOf : HMOp → Option U8
  | .usart rx _ => rx
  | _ => none

def srxOf : HOp → Option U8
  | .usart rx _ => rx
  | _ => none

/-- The bytes written. -/
def mtdr (l : List HMOut) : List U8 := l.filterMap fun o => match o with
  | .tdr b => some b
  | _ => none

def stdr (l : List HOut) : List U8 := l.filterMap fun o => match o with
  | .tdr b => some b
  | _ => none

theorem cm_gets {n : Nat} {b : U8} : cm.Gets n b ↔ mrxOf (cmOp n) = some b := by
  show (∃ t, cmOp n = .usart (some b) t) ↔ _
  cases cmOp n <;> simp [mrxOf]

theorem cs_gets {n : Nat} {b : U8} : cs.Gets n b ↔ srxOf (csOp n) = some b := by
  show (∃ t, csOp n = .usart (some b) t) ↔ _
  cases csOp n <;> simp [srxOf]

theorem cm_writes {n : Nat} {b : U8} : cm.Writes n b ↔ b ∈ mtdr (cmOut n) := by
  show .tdr b ∈ cmOut n ↔ _
  unfold mtdr
  rw [List.mem_filterMap]
  constructor
  · exact fun h => ⟨_, h, rfl⟩
  · rintro ⟨o, ho, he⟩
    cases o with
    | tdr c => cases he; exact ho
    | _ => cases he

theorem cs_writes {n : Nat} {b : U8} : cs.Writes n b ↔ b ∈ stdr (csOut n) := by
  show .tdr b ∈ csOut n ↔ _
  unfold stdr
  rw [List.mem_filterMap]
  constructor
  · exact fun h => ⟨_, h, rfl⟩
  · rintro ⟨o, ho, he⟩
    cases o with
    | tdr c => cases he; exact ho
    | _ => cases he

theorem cm_byte {n : Nat} : cm.Byte n ↔ mrxOf (cmOp n) ≠ none := by
  constructor
  · rintro ⟨b, t, h⟩
    rw [cm_gets.1 ⟨t, h⟩]; simp
  · intro h
    cases hb : mrxOf (cmOp n) with
    | none => exact absurd hb h
    | some b => obtain ⟨t, h⟩ := cm_gets.2 hb; exact ⟨b, t, h⟩

theorem cs_byte {n : Nat} : cs.Byte n ↔ srxOf (csOp n) ≠ none := by
  constructor
  · rintro ⟨b, t, h⟩
    rw [cs_gets.1 ⟨t, h⟩]; simp
  · intro h
    cases hb : srxOf (csOp n) with
    | none => exact absurd hb h
    | some b => obtain ⟨t, h⟩ := cs_gets.2 hb; exact ⟨b, t, h⟩

theorem cm_tail {n : Nat} (h : 44 ≤ n) : cmOut n = [] ∧ mrxOf (cmOp n) = none ∧ cmOp n ≠ .rto ∧ cmOp n ≠ .timer := by
  unfold cmOut cmOp
  rw [if_neg (by omega), if_neg (by omega)]
  split <;> exact ⟨rfl, rfl, (fun h => nomatch h), (fun h => nomatch h)⟩

theorem cs_tail {n : Nat} (h : 30 ≤ n) : csOut n = [] ∧ srxOf (csOp n) = none ∧ csOp n ≠ .rto ∧ csOp n ≠ .timer := by
  unfold csOut csOp
  rw [if_neg (by omega), if_neg (by omega)]
  exact ⟨rfl, rfl, (fun h => nomatch h), (fun h => nomatch h)⟩

/-- The operation of the main program, if it is one. -/
def mainOp? : HMOp → Option MOp
  | .main op => some op
  | _ => none

theorem cm_exec : cm.Exec Config.default := by
  have hst : ∀ n, masterSysRun Config.default MasterSys.powerOn (.main (.init .rtu) :: (List.range n).map cmOp) =
    .ok (cmSt n, (.main (.init .rtu), []) :: (List.range n).map fun k => (cmOp k, cmOut k)) := fun n => Classical.choose_spec (cm_prefix n)
  refine ⟨?_, fun n => ?_, fun n op h => ?_, fun n => ?_⟩
  · have h := hst 0
    obtain ⟨s1, t1, o, e1, e2, e3⟩ := msysRun_snoc_inv (ops := []) (op := .main (.init .rtu)) h
    cases e1
    have e4 : o = [] := by
      have := congrArg (fun l => l.map Prod.snd) e3
      simp at this
      exact this
    rw [e4] at e2; exact e2
  · have h := hst (n + 1)
    rw [List.range_succ, List.map_append, List.map_append, ← List.cons_append, ← List.cons_append] at h
    obtain ⟨s1, t1, o, e1, e2, e3⟩ := msysRun_snoc_inv h
    obtain ⟨-, e4⟩ := List.append_inj' e3 rfl
    simp only [List.map_cons, List.map_nil, List.cons.injEq, Prod.mk.injEq, and_true, true_and] at e4
    rw [hst n] at e1
    simp only [Except.ok.injEq, Prod.mk.injEq] at e1
    show masterSysStep Config.default (cmSt n) (cmOp n) = .ok (cmSt (n + 1), cmOut n)
    rw [e1.1, e4]; exact e2
  · have h : cmOp n = .main op := h
    by_cases hn : n < 44
    · have key : ∀ n, n < 44 → cmOp n = .main .poll ∨ cmOp n = .main .tick ∨ cmOp n = .main (.request bdReq) ∨ (mainOp? (cmOp n)) = none := by
        decide +kernel
      rcases key n hn with e | e | e | e
      · rw [h] at e; cases e; trivial
      · rw [h] at e; cases e; trivial
      · rw [h] at e; cases e; intro _; trivial
      · rw [h] at e; cases e
    · unfold cmOp at h
      rw [if_neg hn] at h
      split at h <;> (cases h; trivial)
  · show cmTime n ≤ cmTime (n + 1)
    by_cases hn : n < 44
    · have key : ∀ n, n < 44 → cmTime n ≤ cmTime (n + 1) := by decide +kernel
      exact key n hn
    · rw [cmTime_tail (by omega), cmTime_tail (by omega)]
      apply Nat.mul_le_mul_right
      split <;> split <;> omega

theorem cm_rto : ∀ n, cmOp n = .rto → n = 34 := by
  intro n h
  by_cases hn : n < 44
  · have key : ∀ n, n < 44 → cmOp n = .rto → n = 34 := by decide +kernel
    exact key n hn h
  · exact absurd h (cm_tail (by omega)).2.2.1

theorem cm_timer : ∀ n, cmOp n = .timer → n = 40 := by
  intro n h
  by_cases hn : n < 44
  · have key : ∀ n, n < 44 → cmOp n = .timer → n = 40 := by decide +kernel
    exact key n hn h
  · exact absurd h (cm_tail (by omega)).2.2.2

theorem cs_rto : ∀ n, csOp n = .rto → n = 13 := by
  intro n h
  by_cases hn : n < 30
  · have key : ∀ n, n < 30 → csOp n = .rto → n = 13 := by decide +kernel
    exact key n hn h
  · exact absurd h (cs_tail (by omega)).2.2.1

theorem cs_timer : ∀ n, csOp n = .timer → n = 16 := by
  intro n h
  by_cases hn : n < 30
  · have key : ∀ n, n < 30 → csOp n = .timer → n = 16 := by decide +kernel
    exact key n hn h
  · exact absurd h (cs_tail (by omega)).2.2.2

theorem cm_byte_lt {n : Nat} (h : cm.Byte n) : n < 31 := by
  have h := cm_byte.1 h
  by_cases hn : n < 44
  · have key : ∀ n, n < 44 → mrxOf (cmOp n) ≠ none → n < 31 := by decide +kernel
    exact key n hn h
  · exact absurd (cm_tail (by omega)).2.1 h

theorem cs_byte_lt {n : Nat} (h : cs.Byte n) : n < 11 := by
  have h := cs_byte.1 h
  by_cases hn : n < 30
  · have key : ∀ n, n < 30 → srxOf (csOp n) ≠ none → n < 11 := by decide +kernel
    exact key n hn h
  · exact absurd (cs_tail (by omega)).2.1 h

theorem cm_hardware : cm.Hardware 99000000 201715200 5760000 := by
  refine ⟨?_, ?_, ?_, ?_, ?_, ?_⟩
  · intro k hk
    have key : ∀ k, k < 31 → mrxOf (cmOp k) ≠ none → ∃ n, n < 44 ∧ k < n ∧ (mrxOf (cmOp n) ≠ none ∨ cmOp n = .rto) ∧
      cmTime n ≤ cmTime k + 99000000 + 5760000 := by decide +kernel
    obtain ⟨n, -, n1, n2, n3⟩ := key k (cm_byte_lt hk) (cm_byte.1 hk)
    exact ⟨n, n1, n2.imp cm_byte.2 (fun h => h), n3⟩
  · intro n hn
    obtain rfl := cm_rto n hn
    refine ⟨30, by omega, cm_byte.2 (by decide +kernel), by show cmTime 30 + 99000000 ≤ cmTime 34; decide +kernel, fun j j1 j2 => ⟨fun h => ?_, fun h => ?_⟩⟩
    · have := cm_byte_lt h; omega
    · have := cm_rto j h; omega
  · intro k hk
    have key : ∀ k, k < 31 → mrxOf (cmOp k) ≠ none → ∃ n, n < 44 ∧ k < n ∧ (mrxOf (cmOp n) ≠ none ∨ cmOp n = .timer) ∧
      cmTime n ≤ cmTime k + 201715200 + 5760000 := by decide +kernel
    obtain ⟨n, -, n1, n2, n3⟩ := key k (cm_byte_lt hk) (cm_byte.1 hk)
    exact ⟨n, n1, n2.imp cm_byte.2 (fun h => h), n3⟩
  · intro n hn
    obtain rfl := cm_timer n hn
    refine ⟨30, by omega, cm_byte.2 (by decide +kernel), by show cmTime 30 + 201715200 ≤ cmTime 40; decide +kernel, fun j j1 j2 => ⟨fun h => ?_, fun h => ?_⟩⟩
    · have := cm_byte_lt h; omega
    · have := cm_timer j h; omega
  · intro n hn
    obtain rfl := cm_rto n hn
    exact ⟨35, none, false, by omega, rfl, by show cmTime 35 ≤ cmTime 34 + 5760000; decide +kernel⟩
  · intro n op h hm
    obtain ⟨r, r1, r2, r3⟩ := rtof_back cm_exec n h
    obtain rfl := cm_rto r r2
    by_cases h35 : n = 35
    · subst h35
      have hm : cmOp 35 = .main op := hm
      cases hm
    · exact r3 35 (by omega) (by omega) none false rfl

theorem cs_exec : cs.Exec Config.default 9 := by
  refine ⟨⟨sampleMem, rfl⟩, cs_step, fun n op h => ?_, fun n => ?_⟩
  · have h : csOp n = .main op := h
    by_cases hn : n < 30
    · have key : ∀ n, n < 30 → csOp n = .main .poll ∨ isMainOp (csOp n) = false := by decide +kernel
      rcases key n hn with e | e
      · rw [h] at e; cases e; trivial
      · rw [h] at e; cases e
    · unfold csOp at h
      rw [if_neg hn] at h
      cases h; trivial
  · show csTime n ≤ csTime (n + 1)
    by_cases hn : n < 30
    · have key : ∀ n, n < 30 → csTime n ≤ csTime (n + 1) := by decide +kernel
      exact key n hn
    · rw [csTime_tail (by omega), csTime_tail (by omega)]
      omega

theorem cs_hardware : cs.Hardware 99000000 201715200 5760000 := by
  refine ⟨?_, ?_, ?_, ?_, ?_, ?_, by omega⟩
  · intro k hk
    have key : ∀ k, k < 11 → srxOf (csOp k) ≠ none → ∃ n, n < 30 ∧ k < n ∧ (srxOf (csOp n) ≠ none ∨ csOp n = .rto) ∧
      csTime n ≤ csTime k + 99000000 + 5760000 := by decide +kernel
    obtain ⟨n, -, n1, n2, n3⟩ := key k (cs_byte_lt hk) (cs_byte.1 hk)
    exact ⟨n, n1, n2.imp cs_byte.2 (fun h => h), n3⟩
  · intro n hn
    obtain rfl := cs_rto n hn
    refine ⟨10, by omega, cs_byte.2 (by decide +kernel), by show csTime 10 + 99000000 ≤ csTime 13; decide +kernel, fun j j1 j2 => ⟨fun h => ?_, fun h => ?_⟩⟩
    · have := cs_byte_lt h; omega
    · have := cs_rto j h; omega
  · intro k hk
    have key : ∀ k, k < 11 → srxOf (csOp k) ≠ none → ∃ n, n < 30 ∧ k < n ∧ (srxOf (csOp n) ≠ none ∨ csOp n = .timer) ∧
      csTime n ≤ csTime k + 201715200 + 5760000 := by decide +kernel
    obtain ⟨n, -, n1, n2, n3⟩ := key k (cs_byte_lt hk) (cs_byte.1 hk)
    exact ⟨n, n1, n2.imp cs_byte.2 (fun h => h), n3⟩
  · intro n hn
    obtain rfl := cs_timer n hn
    refine ⟨10, by omega, cs_byte.2 (by decide +kernel), by show csTime 10 + 201715200 ≤ csTime 16; decide +kernel, fun j j1 j2 => ⟨fun h => ?_, fun h => ?_⟩⟩
    · have := cs_byte_lt h; omega
    · have := cs_timer j h; omega
  · intro n hn
    obtain rfl := cs_rto n hn
    exact ⟨14, none, false, by omega, rfl, by show csTime 14 ≤ csTime 13 + 5760000; decide +kernel⟩
  · intro n op h ho
    have h : (csSt n).rtof = true := h
    have ho : csOp n = .main op := ho
    by_cases hn : n < 30
    · have key : ∀ n, n < 30 → (csSt n).rtof = true → isMainOp (csOp n) = false := by decide +kernel
      have := key n hn h
      rw [ho] at this; cases this
    · have := cs_rest (n - 30)
      rw [show 30 + (n - 30) = n by omega] at this
      rw [this, cs_at.2.2] at h
      cases h

theorem cm_tick {n : Nat} : cmOp n = .main .tick ↔ n ∈ [12, 16, 20, 32, 38, 43] ∨ (44 ≤ n ∧ (n - 44) % 4 = 3) := by
  by_cases hn : n < 44
  · have key : ∀ n, n < 44 → (cmOp n = .main .tick ↔ n ∈ [12, 16, 20, 32, 38, 43]) := by decide +kernel
    rw [key n hn]
    constructor
    · exact .inl
    · rintro (h | h)
      · exact h
      · omega
  · have e : cmOp n = if (n - 44) % 4 = 3 then .main .tick else .main .poll := by unfold cmOp; rw [if_neg hn]
    rw [e]
    constructor
    · intro h
      split at h
      · rename_i h'; exact .inr ⟨by omega, h'⟩
      · cases h
    · rintro (h | h)
      · simp only [List.mem_cons, List.not_mem_nil, or_false] at h; omega
      · rw [if_pos h.2]

/-- **C76**: the hypotheses are met at 115200 baud, with the shipped configuration, by an execution in which a register is written over the line. -/
theorem boards_demo : arrValue 115200 = .ok 1750 ∧ (rtorValue 115200).toNat = 99 ∧
    TimedBus Config.default Config.default 9 (boardTimes (115200 : BitVec 32).toNat (rtorValue 115200).toNat (1750 : BitVec 32).toNat) cm cs ∧
    cm.op 0 = .main (.request bdReq) ∧ cm.out 1 = [.lib (.send (reqFrame bdReq)), .tdr 9] ∧ cm.out 41 = [.lib (.event (.hregWrite 9 7 1))] ∧
    cs.out 18 = [.send (reqFrame bdReq), .tdr 9] ∧ (cs.st 18).lib.mem.regs 7 = 1007 ∧ (cs.st 19).lib.mem.regs 7 = 0xAABB := by
  have hr : (rtorValue 115200).toNat = 99 := by decide +kernel
  have hT : boardTimes (115200 : BitVec 32).toNat (rtorValue 115200).toNat (1750 : BitVec 32).toNat =
      ⟨99000000, 201715200, 5760000, 51840000, 51840000, 120960000, 109440000, 16760000, 27760000⟩ := by rw [hr]; rfl
  rw [hT]
  refine ⟨rfl, hr, ⟨cm_exec, cs_exec, cm_hardware, cs_hardware, ?_, ?_, ?_, ?_, ?_, ?_, ?_, ?_⟩, rfl, ?_, rfl, ?_,
    by decide +kernel, by decide +kernel⟩
  · intro n
    by_cases hn : n < 44
    · have key : ∀ n, n < 44 → ∃ m, m < 46 ∧ n < m ∧ cmOp m = .main .poll ∧ cmTime m ≤ cmTime n + 51840000 := by decide +kernel
      obtain ⟨m, -, m1, m2, m3⟩ := key n hn
      exact ⟨m, m1, m2, m3⟩
    · have op : ∀ m, 44 ≤ m → (m - 44) % 4 ≠ 3 → cmOp m = .main .poll := by
        intro m h1 h2
        unfold cmOp
        rw [if_neg (by omega), if_neg h2]
      by_cases h3 : (n + 1 - 44) % 4 = 3
      · refine ⟨n + 2, by omega, op _ (by omega) (by omega), ?_⟩
        show cmTime (n + 2) ≤ cmTime n + 51840000
        rw [cmTime_tail (by omega), cmTime_tail (by omega), if_neg (by omega), if_neg (by omega)]
        omega
      · refine ⟨n + 1, by omega, op _ (by omega) h3, ?_⟩
        show cmTime (n + 1) ≤ cmTime n + 51840000
        rw [cmTime_tail (by omega), cmTime_tail (by omega), if_neg h3]
        split <;> omega
  · intro n hr
    have hr : (csSt (n + 1)).rtof = false := hr
    by_cases hn : n < 30
    · have key : ∀ n, n < 30 → (csSt (n + 1)).rtof = false → ∃ m, m < 32 ∧ n < m ∧ csTime m ≤ csTime n + 51840000 ∧
        (csOp m = .main .poll ∨ csOp m = .rto) := by decide +kernel
      obtain ⟨m, -, m1, m2, m3⟩ := key n hn hr
      exact ⟨m, m1, m2, m3⟩
    · refine ⟨n + 1, by omega, ?_, .inl ?_⟩
      · show csTime (n + 1) ≤ csTime n + 51840000
        rw [csTime_tail (by omega), csTime_tail (by omega)]
        omega
      · show csOp (n + 1) = .main .poll
        unfold csOp
        rw [if_neg (by omega)]
  · intro n
    by_cases hn : n < 44
    · have key : ∀ n, n < 44 → ∃ m, m < 48 ∧ n < m ∧ cmOp m = .main .tick ∧ cmTime m ≤ cmTime n + 120960000 := by decide +kernel
      obtain ⟨m, -, m1, m2, m3⟩ := key n hn
      exact ⟨m, m1, m2, m3⟩
    · refine ⟨44 + 4 * ((n - 44 + 1) / 4) + 3, by omega, cm_tick.2 (.inr ⟨by omega, by omega⟩), ?_⟩
      show cmTime _ ≤ cmTime n + 120960000
      rw [cmTime_tail (by omega), cmTime_tail (by omega), if_pos (by omega)]
      split <;> omega
  · intro m n hmn h1 h2
    have h1 := cm_tick.1 h1
    have h2 := cm_tick.1 h2
    show cmTime m + 109440000 ≤ cmTime n
    by_cases hn : n < 44
    · have key : ∀ m ∈ [12, 16, 20, 32, 38, 43], ∀ n ∈ [12, 16, 20, 32, 38, 43], m < n → cmTime m + 109440000 ≤ cmTime n := by decide +kernel
      exact key m (h1.resolve_right (by omega)) n (h2.resolve_right (by omega)) hmn
    · have hn2 : 44 ≤ n ∧ (n - 44) % 4 = 3 := h2.resolve_left (by
        intro h; simp only [List.mem_cons, List.not_mem_nil, or_false] at h; omega)
      rw [cmTime_tail (n := n) (by omega), if_pos hn2.2]
      rcases h1 with h1 | h1
      · have key : ∀ m ∈ [12, 16, 20, 32, 38, 43], cmTime m ≤ 690000000 := by decide +kernel
        have := key m h1
        omega
      · rw [cmTime_tail (n := m) (by omega), if_pos h1.2]
        omega
  · intro n b h
    have hn : n < 44 := Classical.byContradiction fun hn => by
      have := cm_writes.1 h; rw [(cm_tail (by omega)).1] at this; cases this
    have key : ∀ n, n < 44 → mtdr (cmOut n) ≠ [] → ∃ m, m < 44 ∧ n < m ∧ cmOp m = .usart none true ∧ cmTime m ≤ cmTime n + 16760000 := by decide +kernel
    obtain ⟨m, -, m1, m2, m3⟩ := key n hn (fun e => by have := cm_writes.1 h; rw [e] at this; cases this)
    exact ⟨m, none, m1, m2, m3⟩
  · intro n b h
    have hn : n < 30 := Classical.byContradiction fun hn => by
      have := cs_writes.1 h; rw [(cs_tail (by omega)).1] at this; cases this
    have key : ∀ n, n < 30 → stdr (csOut n) ≠ [] → ∃ m, m < 30 ∧ n < m ∧ csOp m = .usart none true ∧ csTime m ≤ csTime n + 16760000 := by decide +kernel
    obtain ⟨m, -, m1, m2, m3⟩ := key n hn (fun e => by have := cs_writes.1 h; rw [e] at this; cases this)
    exact ⟨m, none, m1, m2, m3⟩
  · have lt : ∀ {n b}, cm.Writes n b → n < 44 ∧ mtdr (cmOut n) ≠ [] := by
      intro n b h
      refine ⟨Classical.byContradiction fun hn => ?_, fun e => ?_⟩
      · have := cm_writes.1 h; rw [(cm_tail (by omega)).1] at this; cases this
      · have := cm_writes.1 h; rw [e] at this; cases this
    refine ⟨fun n => cmVia.getD n 0, ?_, ?_, ?_, ?_⟩
    · intro n b h
      have key : ∀ n, n < 44 → ∀ b ∈ mtdr (cmOut n), srxOf (csOp (cmVia.getD n 0)) = some b ∧ cmTime n ≤ csTime (cmVia.getD n 0) ∧
        csTime (cmVia.getD n 0) ≤ cmTime n + 27760000 := by decide +kernel
      obtain ⟨k1, k2, k3⟩ := key n (lt h).1 b (cm_writes.1 h)
      exact ⟨cs_gets.2 k1, k2, k3⟩
    · intro n n' b b' hn h h'
      have key : ∀ n, n < 44 → ∀ n', n' < 44 → (n < n' ∧ mtdr (cmOut n) ≠ [] ∧ mtdr (cmOut n') ≠ []) → cmVia.getD n 0 < cmVia.getD n' 0 := by decide +kernel
      exact key n (lt h).1 n' (lt h').1 ⟨hn, (lt h).2, (lt h').2⟩
    · intro k b h
      have hk : k < 30 := by have := cs_byte_lt ⟨b, h⟩; omega
      have key : ∀ k, k < 30 → ∀ b ∈ (srxOf (csOp k)).toList, ∃ n, n < 44 ∧ b ∈ mtdr (cmOut n) ∧ cmVia.getD n 0 = k := by decide +kernel
      obtain ⟨n, -, n1, n2⟩ := key k hk b (by rw [cs_gets.1 h]; exact List.mem_singleton.2 rfl)
      exact ⟨n, cm_writes.2 n1, n2⟩
    · intro n n' b b' hn h h' _ _
      have key : ∀ n, n < 44 → ∀ n', n' < 44 → (mtdr (cmOut n) ≠ [] ∧ mtdr (cmOut n') ≠ []) →
        csTime (cmVia.getD n' 0) < csTime (cmVia.getD n 0) + 99000000 := by decide +kernel
      exact key n (lt h).1 n' (lt h').1 ⟨(lt h).2, (lt h').2⟩
  · have lt : ∀ {n b}, cs.Writes n b → n < 30 ∧ stdr (csOut n) ≠ [] := by
      intro n b h
      refine ⟨Classical.byContradiction fun hn => ?_, fun e => ?_⟩
      · have := cs_writes.1 h; rw [(cs_tail (by omega)).1] at this; cases this
      · have := cs_writes.1 h; rw [e] at this; cases this
    refine ⟨fun n => csVia.getD n 0, ?_, ?_, ?_, ?_⟩
    · intro n b h
      have key : ∀ n, n < 30 → ∀ b ∈ stdr (csOut n), mrxOf (cmOp (csVia.getD n 0)) = some b ∧ csTime n ≤ cmTime (csVia.getD n 0) ∧
        cmTime (csVia.getD n 0) ≤ csTime n + 27760000 := by decide +kernel
      obtain ⟨k1, k2, k3⟩ := key n (lt h).1 b (cs_writes.1 h)
      exact ⟨cm_gets.2 k1, k2, k3⟩
    · intro n n' b b' hn h h'
      have key : ∀ n, n < 30 → ∀ n', n' < 30 → (n < n' ∧ stdr (csOut n) ≠ [] ∧ stdr (csOut n') ≠ []) → csVia.getD n 0 < csVia.getD n' 0 := by decide +kernel
      exact key n (lt h).1 n' (lt h').1 ⟨hn, (lt h).2, (lt h').2⟩
    · intro k b h
      have hk : k < 44 := by have := cm_byte_lt ⟨b, h⟩; omega
      have key : ∀ k, k < 44 → ∀ b ∈ (mrxOf (cmOp k)).toList, ∃ n, n < 30 ∧ b ∈ stdr (csOut n) ∧ csVia.getD n 0 = k := by decide +kernel
      obtain ⟨n, -, n1, n2⟩ := key k hk b (by rw [cm_gets.1 h]; exact List.mem_singleton.2 rfl)
      exact ⟨n, cs_writes.2 n1, n2⟩
    · intro n n' b b' hn h h' _ _
      have key : ∀ n, n < 30 → ∀ n', n' < 30 → (stdr (csOut n) ≠ [] ∧ stdr (csOut n') ≠ []) →
        cmTime (csVia.getD n' 0) < cmTime (csVia.getD n 0) + 99000000 := by decide +kernel
      exact key n (lt h).1 n' (lt h').1 ⟨(lt h).2, (lt h').2⟩
  · rw [← bd_frame]; rfl
  · rw [← bd_frame]; rfl

end Modbus
