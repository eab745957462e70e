import Verif.Props.MultiBus
import Verif.Props.BusDemo

/-! **C85**: an execution of a master device and two slave devices on one line as the theorem requires it. The master's application writes 43707 into
register 7 of slave 9; slave 10 hears the request and the response and discards both. -/

namespace Modbus

open Spec

/-- The master's events. -/
def lmOp (n : Nat) : HMOp :=
  if n = 1 then .main (.request bdReq)
  else if n % 2 = 1 ∧ 3 ≤ n ∧ n ≤ 17 then .usart none true
  else if n % 2 = 1 ∧ 47 ≤ n ∧ n ≤ 61 then .usart (some (bdFrame.getD ((n - 47) / 2) 0)) false
  else if n = 65 then .rto
  else if n = 66 then .usart none false
  else if n = 74 then .timer
  else if n % 40 = 23 then .main .tick
  else if n % 2 = 1 then .usart none false
  else .main .poll

/-- What they put out. -/
def lmOut (n : Nat) : List HMOut :=
  if n = 1 then [.lib (.ret .sendToQueue)]
  else if n = 2 then [.lib (.send bdFrame), .tdr 9]
  else if n % 2 = 1 ∧ 3 ≤ n ∧ n ≤ 15 then [.tdr (bdFrame.getD ((n - 1) / 2) 0)]
  else if n = 76 then [.lib (.event (.hregWrite 9 7 1))]
  else []

/-- The slave's events. -/
def lsOp (n : Nat) : HOp :=
  if n % 2 = 0 ∧ 10 ≤ n ∧ n ≤ 24 then .usart (some (bdFrame.getD ((n - 10) / 2) 0)) false
  else if n = 28 then .rto
  else if 29 ≤ n ∧ n ≤ 35 then .usart none false
  else if n = 36 then .timer
  else if n % 2 = 0 ∧ 40 ≤ n ∧ n ≤ 54 then .usart none true
  else .main .poll

/-- What they put out. -/
def lsOut (n : Nat) : List HOut :=
  if n = 38 then [.send bdFrame, .tdr 9]
  else if n % 2 = 0 ∧ 40 ≤ n ∧ n ≤ 52 then [.tdr (bdFrame.getD ((n - 38) / 2) 0)]
  else []

theorem lm_head : (match masterSysRun bdCfg MasterSys.powerOn (.main (.init .rtu) :: (List.range 78).map lmOp) with
    | .ok x => decide (x.1.lib.st = .idle) && !x.1.lib.txQ.available && !x.1.rtof &&
        decide (x.2 = (.main (.init .rtu), []) :: (List.range 78).map fun n => (lmOp n, lmOut n))
    | .error _ => false) = true := by decide +kernel

def lsSt : Nat → SlaveSys
  | 0 => ⟨slaveInit (Slave.powerOn sampleMem) .rtu 9, 0, 0, false, false⟩
  | n + 1 => match slaveSysStep Config.default (lsSt n) (lsOp n) with
    | .ok r => r.1
    | .error _ => lsSt n

def lsOk (n : Nat) : Bool := match slaveSysStep Config.default (lsSt n) (lsOp n) with
  | .ok r => decide (r.2 = lsOut n)
  | .error _ => false

theorem ls_head : ∀ n, n < 56 → lsOk n = true := by decide +kernel

theorem ls_at : (lsSt 56).lib.st = .idle ∧ (lsSt 56).lib.t15 = .cleared ∧ (lsSt 56).rtof = false := by decide +kernel

theorem lsOp_tail {n : Nat} (h : 56 ≤ n) : lsOp n = .main .poll := by
  unfold lsOp
  iterate 5 rw [if_neg (by omega)]

theorem ls_step (n : Nat) : slaveSysStep Config.default (lsSt n) (lsOp n) = .ok (lsSt (n + 1), lsOut n) := by
  by_cases h : n < 56
  · have := ls_head n h
    unfold lsOk at this
    rw [lsSt]
    split at this
    · rename_i r hr
      rw [hr]
      simp only [decide_eq_true_eq] at this
      rw [← this]
    · cases this
  · obtain ⟨h1, h2, h3⟩ := ls_at
    have poll := rest_poll h1 h2 h3
    have st : ∀ k, lsSt (56 + k) = lsSt 56 := by
      intro k
      induction k with
      | zero => rfl
      | succ k ih =>
        show lsSt ((56 + k) + 1) = _
        rw [lsSt, ih, lsOp_tail (by omega), poll]
    have e1 := st (n - 56)
    have e2 := st (n - 56 + 1)
    rw [show 56 + (n - 56) = n by omega] at e1
    rw [show 56 + (n - 56 + 1) = n + 1 by omega] at e2
    rw [e1, e2, lsOp_tail (by omega), poll]
    unfold lsOut
    iterate 2 rw [if_neg (by omega)]

/-- The slave's execution. -/
def ls : DeviceTimed := { op := lsOp, time := fun n => n, st := lsSt, out := lsOut }

theorem ls_rto {n : Nat} (h : lsOp n = .rto) : n = 28 := by
  unfold lsOp at h
  repeat' split at h
  all_goals first | (cases h; done) | omega

theorem ls_timer {n : Nat} (h : lsOp n = .timer) : n = 36 := by
  unfold lsOp at h
  repeat' split at h
  all_goals first | (cases h; done) | omega

theorem ls_gets (n : Nat) (b : U8) : ls.Gets n b ↔ n % 2 = 0 ∧ 10 ≤ n ∧ n ≤ 24 ∧ b = bdFrame.getD ((n - 10) / 2) 0 := by
  constructor
  · rintro ⟨t, h⟩
    have h : lsOp n = _ := h
    unfold lsOp at h
    repeat' split at h
    all_goals first | (cases h; done) | skip
    rename_i h'
    injection h with h1 h2
    injection h1 with h1
    exact ⟨h'.1, h'.2.1, h'.2.2, h1.symm⟩
  · rintro ⟨h1, h2, h3, rfl⟩
    refine ⟨false, ?_⟩
    show lsOp n = _
    unfold lsOp
    rw [if_pos ⟨h1, h2, h3⟩]

theorem ls_byte (n : Nat) : ls.Byte n ↔ n % 2 = 0 ∧ 10 ≤ n ∧ n ≤ 24 := by
  constructor
  · rintro ⟨b, t, h⟩
    have := (ls_gets n b).1 ⟨t, h⟩
    exact ⟨this.1, this.2.1, this.2.2.1⟩
  · rintro ⟨h1, h2, h3⟩
    obtain ⟨t, h⟩ := (ls_gets n _).2 ⟨h1, h2, h3, rfl⟩
    exact ⟨_, t, h⟩

theorem ls_writes (n : Nat) (b : U8) : ls.Writes n b ↔ n % 2 = 0 ∧ 38 ≤ n ∧ n ≤ 52 ∧ b = bdFrame.getD ((n - 38) / 2) 0 := by
  show .tdr b ∈ lsOut n ↔ _
  unfold lsOut
  constructor
  · intro h
    repeat' split at h
    · rename_i e; subst e
      simp only [List.mem_cons, reduceCtorEq, HOut.tdr.injEq, List.not_mem_nil, or_false, false_or] at h
      subst h
      exact ⟨rfl, by omega, by omega, rfl⟩
    · rename_i e
      simp only [List.mem_cons, HOut.tdr.injEq, List.not_mem_nil, or_false] at h
      exact ⟨e.1, by omega, e.2.2, h⟩
    · cases h
  · rintro ⟨h1, h2, h3, rfl⟩
    by_cases e : n = 38
    · subst e; simp [bdFrame]
    · rw [if_neg e, if_pos ⟨h1, by omega, h3⟩]; exact List.mem_singleton.2 rfl

theorem ls_sends {n : Nat} (h : n ≠ 38) : ¬ ls.Sends n := by
  rintro ⟨f, hf⟩
  have hf : HOut.send f ∈ lsOut n := hf
  unfold lsOut at hf
  rw [if_neg h] at hf
  split at hf <;> simp at hf

theorem ls_exec : ls.Exec Config.default 9 := by
  refine ⟨⟨sampleMem, rfl⟩, ls_step, fun n op h => ?_, fun n => Nat.le_succ n⟩
  have h : lsOp n = .main op := h
  unfold lsOp at h
  repeat' split at h
  all_goals first | (cases h; done) | (cases h; trivial)

theorem ls_hardware : ls.Hardware 4 12 1 := by
  refine ⟨?_, ?_, ?_, ?_, ?_, ?_, by omega⟩
  · intro k hk
    have hk := (ls_byte k).1 hk
    by_cases h : k = 24
    · subst h; exact ⟨28, by omega, .inr rfl, by show 28 ≤ 24 + 4 + 1; omega⟩
    · exact ⟨k + 2, by omega, .inl ((ls_byte _).2 (by omega)), by show k + 2 ≤ k + 4 + 1; omega⟩
  · intro n hn
    obtain rfl := ls_rto hn
    refine ⟨24, by omega, (ls_byte _).2 (by omega), by show 24 + 4 ≤ 28; omega, fun j j1 j2 => ⟨fun h => ?_, fun h => ?_⟩⟩
    · have := (ls_byte _).1 h; omega
    · have := ls_rto h; omega
  · intro k hk
    have hk := (ls_byte k).1 hk
    by_cases h : k = 24
    · subst h; exact ⟨36, by omega, .inr rfl, by show 36 ≤ 24 + 12 + 1; omega⟩
    · exact ⟨k + 2, by omega, .inl ((ls_byte _).2 (by omega)), by show k + 2 ≤ k + 12 + 1; omega⟩
  · intro n hn
    obtain rfl := ls_timer hn
    refine ⟨24, by omega, (ls_byte _).2 (by omega), by show 24 + 12 ≤ 36; omega, fun j j1 j2 => ⟨fun h => ?_, fun h => ?_⟩⟩
    · have := (ls_byte _).1 h; omega
    · have := ls_timer h; omega
  · intro n hn
    obtain rfl := ls_rto hn
    exact ⟨29, none, false, by omega, rfl, by show 29 ≤ 28 + 1; omega⟩
  · intro n op h ho
    have h : (lsSt n).rtof = true := h
    have ho : lsOp n = .main op := ho
    by_cases hn : n < 56
    · have key : ∀ n, n < 56 → (lsSt n).rtof = true → isMainOp (lsOp n) = false := by decide +kernel
      have := key n hn h
      rw [ho] at this; cases this
    · have key : ∀ k, (lsSt (56 + k)).rtof = false := by
        obtain ⟨h1, h2, h3⟩ := ls_at
        have poll := rest_poll h1 h2 h3
        intro k
        have : lsSt (56 + k) = lsSt 56 := by
          induction k with
          | zero => rfl
          | succ k ih =>
            show lsSt ((56 + k) + 1) = _
            rw [lsSt, ih, lsOp_tail (by omega), poll]
        rw [this]; exact h3
      have := key (n - 56)
      rw [show 56 + (n - 56) = n by omega, h] at this
      cases this

theorem lmOp_tail {n : Nat} (h : 78 ≤ n) : lmOp n = .main .poll ∨ lmOp n = .main .tick ∨ lmOp n = .usart none false := by
  unfold lmOp
  iterate 6 rw [if_neg (by omega)]
  split
  · exact .inr (.inl rfl)
  · split
    · exact .inr (.inr rfl)
    · exact .inl rfl

theorem lm_run (k : Nat) : ∃ s, masterSysRun bdCfg MasterSys.powerOn (.main (.init .rtu) :: (List.range (78 + k)).map lmOp) =
    .ok (s, (.main (.init .rtu), []) :: (List.range (78 + k)).map fun n => (lmOp n, lmOut n)) ∧ s.lib.st = .idle ∧ s.lib.txQ.available = false ∧
      s.rtof = false := by
  induction k with
  | zero =>
    have h := lm_head
    split at h
    · rename_i x hx
      simp only [Bool.and_eq_true, decide_eq_true_eq, Bool.not_eq_true'] at h
      exact ⟨x.1, by rw [hx, ← h.2], h.1.1.1, h.1.1.2, h.1.2⟩
    · cases h
  | succ k ih =>
    obtain ⟨s, h1, h2, h3, h4⟩ := ih
    obtain ⟨s', k1, k2, k3, k4⟩ := md_idle (cfg := bdCfg) h2 h3 h4 (lmOp_tail (n := 78 + k) (by omega))
    refine ⟨s', ?_, k2, k3, k4⟩
    have e : lmOut (78 + k) = [] := by unfold lmOut; iterate 4 rw [if_neg (by omega)]
    have := msysRun_snoc h1 k1
    rw [← Nat.add_assoc, List.range_succ, List.map_append, List.map_append]
    simp only [List.map_cons, List.map_nil, e]
    exact this

theorem lm_prefix (n : Nat) : ∃ s, masterSysRun bdCfg MasterSys.powerOn (.main (.init .rtu) :: (List.range n).map lmOp) =
    .ok (s, (.main (.init .rtu), []) :: (List.range n).map fun k => (lmOp k, lmOut k)) := by
  have key : ∀ d n, (∃ s, masterSysRun bdCfg MasterSys.powerOn (.main (.init .rtu) :: (List.range (n + d)).map lmOp) =
      .ok (s, (.main (.init .rtu), []) :: (List.range (n + d)).map fun k => (lmOp k, lmOut k))) →
      ∃ s, masterSysRun bdCfg MasterSys.powerOn (.main (.init .rtu) :: (List.range n).map lmOp) =
        .ok (s, (.main (.init .rtu), []) :: (List.range n).map fun k => (lmOp k, lmOut k)) := by
    intro d
    induction d with
    | zero => intro n h; exact h
    | succ d ih =>
      rintro n ⟨s, h⟩
      refine ih n ?_
      rw [← Nat.add_assoc, List.range_succ, List.map_append, List.map_append, ← List.cons_append, ← List.cons_append] at h
      obtain ⟨s1, t1, o, e1, e2, e3⟩ := msysRun_snoc_inv h
      obtain ⟨e4, -⟩ := List.append_inj' e3 rfl
      exact ⟨s1, by rw [e4]; exact e1⟩
  obtain ⟨s, h, -⟩ := lm_run n
  rw [Nat.add_comm] at h
  exact key 78 n ⟨s, h⟩

noncomputable def lmSt (n : Nat) : MasterSys := Classical.choose (lm_prefix n)

/-- The master's execution. -/
noncomputable def lm : MDeviceTimed := { op := lmOp, time := fun n => n, st := lmSt, out := lmOut }

theorem lm_op : lm.op = lmOp := rfl

theorem lm_exec : lm.Exec bdCfg := by
  have hst : ∀ n, masterSysRun bdCfg MasterSys.powerOn (.main (.init .rtu) :: (List.range n).map lmOp) =
    .ok (lmSt n, (.main (.init .rtu), []) :: (List.range n).map fun k => (lmOp k, lmOut k)) := fun n => Classical.choose_spec (lm_prefix n)
  refine ⟨?_, fun n => ?_, fun n op h => ?_, fun n => Nat.le_succ n⟩
  · have h := hst 0
    obtain ⟨s1, t1, o, e1, e2, e3⟩ := msysRun_snoc_inv (ops := []) (op := .main (.init .rtu)) h
    cases e1
    have e4 : o = [] := by
      have := congrArg (fun l => l.map Prod.snd) e3
      simp at this
      exact this
    rw [e4] at e2; exact e2
  · have h := hst (n + 1)
    rw [List.range_succ, List.map_append, List.map_append, ← List.cons_append, ← List.cons_append] at h
    obtain ⟨s1, t1, o, e1, e2, e3⟩ := msysRun_snoc_inv h
    obtain ⟨-, e4⟩ := List.append_inj' e3 rfl
    simp only [List.map_cons, List.map_nil, List.cons.injEq, Prod.mk.injEq, and_true, true_and] at e4
    rw [hst n] at e1
    simp only [Except.ok.injEq, Prod.mk.injEq] at e1
    show masterSysStep bdCfg (lmSt n) (lmOp n) = .ok (lmSt (n + 1), lmOut n)
    rw [e1.1, e4]; exact e2
  · have h : lmOp n = .main op := h
    unfold lmOp at h
    repeat' split at h
    all_goals first | (cases h; done) | (cases h; intro _; trivial) | (cases h; trivial)

theorem lm_rto {n : Nat} (h : lmOp n = .rto) : n = 65 := by
  unfold lmOp at h
  repeat' split at h
  all_goals first | (cases h; done) | omega

theorem lm_timer {n : Nat} (h : lmOp n = .timer) : n = 74 := by
  unfold lmOp at h
  repeat' split at h
  all_goals first | (cases h; done) | omega

theorem lm_tick {n : Nat} (h : lmOp n = .main .tick) : n % 40 = 23 := by
  unfold lmOp at h
  repeat' split at h
  all_goals first | (cases h; done) | omega

theorem lm_gets (n : Nat) (b : U8) : lm.Gets n b ↔ n % 2 = 1 ∧ 47 ≤ n ∧ n ≤ 61 ∧ b = bdFrame.getD ((n - 47) / 2) 0 := by
  constructor
  · rintro ⟨t, h⟩
    have h : lmOp n = _ := h
    unfold lmOp at h
    repeat' split at h
    all_goals first | (cases h; done) | skip
    rename_i h'
    injection h with h1 h2
    injection h1 with h1
    exact ⟨h'.1, h'.2.1, h'.2.2, h1.symm⟩
  · rintro ⟨h1, h2, h3, rfl⟩
    refine ⟨false, ?_⟩
    show lmOp n = _
    unfold lmOp
    rw [if_neg (by omega), if_neg (by omega), if_pos ⟨h1, h2, h3⟩]

theorem lm_byte (n : Nat) : lm.Byte n ↔ n % 2 = 1 ∧ 47 ≤ n ∧ n ≤ 61 := by
  constructor
  · rintro ⟨b, t, h⟩
    have := (lm_gets n b).1 ⟨t, h⟩
    exact ⟨this.1, this.2.1, this.2.2.1⟩
  · rintro ⟨h1, h2, h3⟩
    obtain ⟨t, h⟩ := (lm_gets n _).2 ⟨h1, h2, h3, rfl⟩
    exact ⟨_, t, h⟩

theorem lm_writes (n : Nat) (b : U8) : lm.Writes n b ↔ (n = 2 ∨ n % 2 = 1) ∧ 2 ≤ n ∧ n ≤ 15 ∧ b = bdFrame.getD ((n - 1) / 2) 0 := by
  show .tdr b ∈ lmOut n ↔ _
  unfold lmOut
  constructor
  · intro h
    repeat' split at h
    · simp at h
    · rename_i e; subst e
      simp only [List.mem_cons, reduceCtorEq, HMOut.tdr.injEq, List.not_mem_nil, or_false, false_or] at h
      subst h
      exact ⟨.inl rfl, by omega, by omega, rfl⟩
    · rename_i e
      simp only [List.mem_cons, HMOut.tdr.injEq, List.not_mem_nil, or_false] at h
      exact ⟨.inr e.1, by omega, e.2.2, h⟩
    · simp at h
    · cases h
  · rintro ⟨h1, h2, h3, rfl⟩
    by_cases e : n = 2
    · subst e; simp [bdFrame]
    · rw [if_neg (by omega), if_neg e, if_pos ⟨by omega, by omega, h3⟩]; exact List.mem_singleton.2 rfl

theorem lm_sends {n : Nat} (h : n ≠ 2) : ¬ lm.Sends n := by
  rintro ⟨f, hf⟩
  have hf : HMOut.lib (.send f) ∈ lmOut n := hf
  unfold lmOut at hf
  repeat' split at hf
  all_goals first | (simp at hf; done) | omega

theorem lm_hardware : lm.Hardware 4 12 1 := by
  refine ⟨?_, ?_, ?_, ?_, ?_, ?_⟩
  · intro k hk
    have hk := (lm_byte k).1 hk
    by_cases h : k = 61
    · subst h; exact ⟨65, by omega, .inr rfl, by show 65 ≤ 61 + 4 + 1; omega⟩
    · exact ⟨k + 2, by omega, .inl ((lm_byte _).2 (by omega)), by show k + 2 ≤ k + 4 + 1; omega⟩
  · intro n hn
    obtain rfl := lm_rto hn
    refine ⟨61, by omega, (lm_byte _).2 (by omega), by show 61 + 4 ≤ 65; omega, fun j j1 j2 => ⟨fun h => ?_, fun h => ?_⟩⟩
    · have := (lm_byte _).1 h; omega
    · have := lm_rto h; omega
  · intro k hk
    have hk := (lm_byte k).1 hk
    by_cases h : k = 61
    · subst h; exact ⟨74, by omega, .inr rfl, by show 74 ≤ 61 + 12 + 1; omega⟩
    · exact ⟨k + 2, by omega, .inl ((lm_byte _).2 (by omega)), by show k + 2 ≤ k + 12 + 1; omega⟩
  · intro n hn
    obtain rfl := lm_timer hn
    refine ⟨61, by omega, (lm_byte _).2 (by omega), by show 61 + 12 ≤ 74; omega, fun j j1 j2 => ⟨fun h => ?_, fun h => ?_⟩⟩
    · have := (lm_byte _).1 h; omega
    · have := lm_timer h; omega
  · intro n hn
    obtain rfl := lm_rto hn
    exact ⟨66, none, false, by omega, rfl, by show 66 ≤ 65 + 1; omega⟩
  · intro n op h hm
    obtain ⟨r, r1, r2, r3⟩ := rtof_back lm_exec n h
    obtain rfl := lm_rto r2
    by_cases h54 : n = 66
    · subst h54
      have hm : lmOp 66 = .main op := hm
      cases hm
    · exact r3 66 (by omega) (by omega) none false rfl

/-- The events of the other slave: it hears the request and the response. -/
def lqOp (n : Nat) : HOp :=
  if n % 2 = 0 ∧ 10 ≤ n ∧ n ≤ 24 then .usart (some (bdFrame.getD ((n - 10) / 2) 0)) false
  else if n % 2 = 0 ∧ 46 ≤ n ∧ n ≤ 60 then .usart (some (bdFrame.getD ((n - 46) / 2) 0)) false
  else if n = 28 ∨ n = 64 then .rto
  else if 29 ≤ n ∧ n ≤ 35 ∨ 65 ≤ n ∧ n ≤ 71 then .usart none false
  else if n = 36 ∨ n = 72 then .timer
  else .main .poll

def lqSt : Nat → SlaveSys
  | 0 => ⟨slaveInit (Slave.powerOn sampleMem) .rtu 10, 0, 0, false, false⟩
  | n + 1 => match slaveSysStep Config.default (lqSt n) (lqOp n) with
    | .ok r => r.1
    | .error _ => lqSt n

def lqOk (n : Nat) : Bool := match slaveSysStep Config.default (lqSt n) (lqOp n) with
  | .ok r => decide (r.2 = [])
  | .error _ => false

theorem lq_head : ∀ n, n < 80 → lqOk n = true := by decide +kernel

theorem lq_at : (lqSt 80).lib.st = .idle ∧ (lqSt 80).lib.t15 = .cleared ∧ (lqSt 80).rtof = false := by decide +kernel

theorem lqOp_tail {n : Nat} (h : 80 ≤ n) : lqOp n = .main .poll := by
  unfold lqOp
  iterate 5 rw [if_neg (by omega)]

theorem lq_still (k : Nat) : lqSt (80 + k) = lqSt 80 := by
  obtain ⟨h1, h2, h3⟩ := lq_at
  have poll := rest_poll h1 h2 h3
  induction k with
  | zero => rfl
  | succ k ih =>
    show lqSt ((80 + k) + 1) = _
    rw [lqSt, ih, lqOp_tail (by omega), poll]

theorem lq_step (n : Nat) : slaveSysStep Config.default (lqSt n) (lqOp n) = .ok (lqSt (n + 1), []) := by
  by_cases h : n < 80
  · have := lq_head n h
    unfold lqOk at this
    rw [lqSt]
    split at this
    · rename_i r hr
      rw [hr]
      simp only [decide_eq_true_eq] at this
      rw [← this]
    · cases this
  · obtain ⟨h1, h2, h3⟩ := lq_at
    have poll := rest_poll h1 h2 h3
    have e1 := lq_still (n - 80)
    have e2 := lq_still (n - 80 + 1)
    rw [show 80 + (n - 80) = n by omega] at e1
    rw [show 80 + (n - 80 + 1) = n + 1 by omega] at e2
    rw [e1, e2, lqOp_tail (by omega), poll]

/-- The other slave's execution. -/
def lq : DeviceTimed := { op := lqOp, time := fun n => n, st := lqSt, out := fun _ => [] }

theorem lq_rto {n : Nat} (h : lqOp n = .rto) : n = 28 ∨ n = 64 := by
  unfold lqOp at h
  repeat' split at h
  all_goals first | (cases h; done) | omega

theorem lq_timer {n : Nat} (h : lqOp n = .timer) : n = 36 ∨ n = 72 := by
  unfold lqOp at h
  repeat' split at h
  all_goals first | (cases h; done) | omega

theorem lq_gets (n : Nat) (b : U8) : lq.Gets n b ↔ (n % 2 = 0 ∧ 10 ≤ n ∧ n ≤ 24 ∧ b = bdFrame.getD ((n - 10) / 2) 0) ∨
    (n % 2 = 0 ∧ 46 ≤ n ∧ n ≤ 60 ∧ b = bdFrame.getD ((n - 46) / 2) 0) := by
  constructor
  · rintro ⟨t, h⟩
    have h : lqOp n = _ := h
    unfold lqOp at h
    repeat' split at h
    all_goals first | (cases h; done) | skip
    · rename_i h'
      injection h with h1 h2
      injection h1 with h1
      exact .inl ⟨h'.1, h'.2.1, h'.2.2, h1.symm⟩
    · rename_i h'
      injection h with h1 h2
      injection h1 with h1
      exact .inr ⟨h'.1, h'.2.1, h'.2.2, h1.symm⟩
  · rintro (⟨h1, h2, h3, rfl⟩ | ⟨h1, h2, h3, rfl⟩)
    · refine ⟨false, ?_⟩
      show lqOp n = _
      unfold lqOp
      rw [if_pos ⟨h1, h2, h3⟩]
    · refine ⟨false, ?_⟩
      show lqOp n = _
      unfold lqOp
      rw [if_neg (by omega), if_pos ⟨h1, h2, h3⟩]

theorem lq_byte (n : Nat) : lq.Byte n ↔ n % 2 = 0 ∧ (10 ≤ n ∧ n ≤ 24 ∨ 46 ≤ n ∧ n ≤ 60) := by
  constructor
  · rintro ⟨b, t, h⟩
    rcases (lq_gets n b).1 ⟨t, h⟩ with h | h
    · exact ⟨h.1, .inl ⟨h.2.1, h.2.2.1⟩⟩
    · exact ⟨h.1, .inr ⟨h.2.1, h.2.2.1⟩⟩
  · rintro ⟨h1, h2 | h2⟩
    · obtain ⟨t, h⟩ := (lq_gets n _).2 (.inl ⟨h1, h2.1, h2.2, rfl⟩)
      exact ⟨_, t, h⟩
    · obtain ⟨t, h⟩ := (lq_gets n _).2 (.inr ⟨h1, h2.1, h2.2, rfl⟩)
      exact ⟨_, t, h⟩

theorem lq_writes (n : Nat) (b : U8) : ¬ lq.Writes n b := List.not_mem_nil

theorem lq_exec : lq.Exec Config.default 10 := by
  refine ⟨⟨sampleMem, rfl⟩, lq_step, fun n op h => ?_, fun n => Nat.le_succ n⟩
  have h : lqOp n = .main op := h
  unfold lqOp at h
  repeat' split at h
  all_goals first | (cases h; done) | (cases h; trivial)

theorem lq_hardware : lq.Hardware 4 12 1 := by
  refine ⟨?_, ?_, ?_, ?_, ?_, ?_, by omega⟩
  · intro k hk
    have hk := (lq_byte k).1 hk
    by_cases h : k = 24 ∨ k = 60
    · refine ⟨k + 4, by omega, .inr ?_, by show k + 4 ≤ k + 4 + 1; omega⟩
      rcases h with rfl | rfl <;> rfl
    · exact ⟨k + 2, by omega, .inl ((lq_byte _).2 (by omega)), by show k + 2 ≤ k + 4 + 1; omega⟩
  · intro n hn
    have hr := lq_rto hn
    refine ⟨n - 4, by omega, (lq_byte _).2 (by omega), by show n - 4 + 4 ≤ n; omega, fun j j1 j2 => ⟨fun h => ?_, fun h => ?_⟩⟩
    · have := (lq_byte _).1 h; omega
    · have := lq_rto h; omega
  · intro k hk
    have hk := (lq_byte k).1 hk
    by_cases h : k = 24 ∨ k = 60
    · refine ⟨k + 12, by omega, .inr ?_, by show k + 12 ≤ k + 12 + 1; omega⟩
      rcases h with rfl | rfl <;> rfl
    · exact ⟨k + 2, by omega, .inl ((lq_byte _).2 (by omega)), by show k + 2 ≤ k + 12 + 1; omega⟩
  · intro n hn
    have hr := lq_timer hn
    refine ⟨n - 12, by omega, (lq_byte _).2 (by omega), by show n - 12 + 12 ≤ n; omega, fun j j1 j2 => ⟨fun h => ?_, fun h => ?_⟩⟩
    · have := (lq_byte _).1 h; omega
    · have := lq_timer h; omega
  · intro n hn
    have hr := lq_rto hn
    refine ⟨n + 1, none, false, by omega, ?_, by show n + 1 ≤ n + 1; omega⟩
    rcases hr with rfl | rfl <;> rfl
  · intro n op h ho
    have h : (lqSt n).rtof = true := h
    have ho : lqOp n = .main op := ho
    by_cases hn : n < 80
    · have key : ∀ n, n < 80 → (lqSt n).rtof = true → isMainOp (lqOp n) = false := by decide +kernel
      have := key n hn h
      rw [ho] at this; cases this
    · have := lq_still (n - 80)
      rw [show 80 + (n - 80) = n by omega] at this
      rw [this, lq_at.2.2] at h
      cases h

/-- Both slaves. -/
def ly : Bool → DeviceTimed
  | false => ls
  | true => lq

def lyId : Bool → U8
  | false => 9
  | true => 10

/-- When a byte is heard. -/
def lyVia : Option Bool → Option Bool → Nat → Nat
  | none, _, n => 2 * ((n - 1) / 2) + 10
  | _, none, n => n + 9
  | _, _, n => n + 8

/-- The times: a byte takes 8 or 9, the difference between two stations is at most 1, a slave polls at every second instant. -/
def lyTimes : BusTimes := ⟨4, 12, 1, 4, 2, 40, 40, 2, 9⟩

theorem ly_writes {d : Option Bool} {n : Nat} {b : U8} (h : (stations lm ly d).writes n b) : (d = none ∧ lm.Writes n b) ∨
    (d = some false ∧ ls.Writes n b) := by
  match d with
  | none => exact .inl ⟨rfl, h⟩
  | some false => exact .inr ⟨rfl, h⟩
  | some true => exact absurd h (lq_writes n b)

/-- Who writes what. -/
theorem ly_who {d : Option Bool} {n : Nat} {b : U8} (h : (stations lm ly d).writes n b) :
    (d = none ∧ (n = 2 ∨ n % 2 = 1) ∧ 2 ≤ n ∧ n ≤ 15 ∧ b = bdFrame.getD ((n - 1) / 2) 0) ∨
    (d = some false ∧ n % 2 = 0 ∧ 38 ≤ n ∧ n ≤ 52 ∧ b = bdFrame.getD ((n - 38) / 2) 0) := by
  rcases ly_writes h with ⟨h1, h2⟩ | ⟨h1, h2⟩
  · exact .inl ⟨h1, (lm_writes n b).1 h2⟩
  · exact .inr ⟨h1, (ls_writes n b).1 h2⟩

theorem ly_time (d : Option Bool) (n : Nat) : (stations lm ly d).time n = n := by
  match d with
  | none => rfl
  | some false => rfl
  | some true => rfl

theorem ly_only (l : Option Bool) (k : Nat) (b : U8) (h : (stations lm ly l).gets k b) : ∃ d n b', d ≠ l ∧ (stations lm ly d).writes n b' ∧
    lyVia d l n = k ∧ n + 8 ≤ k ∧ k ≤ n + 9 := by
  have ask : ∀ l : Bool, k % 2 = 0 → 10 ≤ k → k ≤ 24 → ∃ d n b', d ≠ some l ∧ (stations lm ly d).writes n b' ∧ lyVia d (some l) n = k ∧ n + 8 ≤ k ∧ k ≤ n + 9 := by
    intro l h1 h2 h3
    by_cases e : k = 10
    · subst e
      exact ⟨none, 2, _, nofun, (lm_writes 2 _).2 ⟨.inl rfl, by omega, by omega, rfl⟩, rfl, by omega, by omega⟩
    · exact ⟨none, k - 9, _, nofun, (lm_writes (k - 9) _).2 ⟨by omega, by omega, by omega, rfl⟩, by show 2 * ((k - 9 - 1) / 2) + 10 = k; omega, by omega, by omega⟩
  match l with
  | none =>
    have h := (lm_gets k b).1 h
    exact ⟨some false, k - 9, _, nofun, (ls_writes (k - 9) _).2 ⟨by omega, by omega, by omega, rfl⟩, by show k - 9 + 9 = k; omega, by omega, by omega⟩
  | some false =>
    have h := (ls_gets k b).1 h
    exact ask false h.1 h.2.1 h.2.2.1
  | some true =>
    rcases (lq_gets k b).1 h with h | h
    · exact ask true h.1 h.2.1 h.2.2.1
    · exact ⟨some false, k - 8, _, nofun, (ls_writes (k - 8) _).2 ⟨by omega, by omega, by omega, rfl⟩, by show k - 8 + 8 = k; omega, by omega, by omega⟩

theorem ly_arrives (d l : Option Bool) (n : Nat) (b : U8) (hd : d ≠ l) (h : (stations lm ly d).writes n b) :
    (stations lm ly l).gets (lyVia d l n) b ∧ n + 8 ≤ lyVia d l n ∧ lyVia d l n ≤ n + 9 := by
  rcases ly_who h with ⟨rfl, h1, h2, h3, rfl⟩ | ⟨rfl, h1, h2, h3, rfl⟩
  · refine ⟨?_, by show n + 8 ≤ 2 * ((n - 1) / 2) + 10; omega, by show 2 * ((n - 1) / 2) + 10 ≤ n + 9; omega⟩
    have e : (2 * ((n - 1) / 2) + 10 - 10) / 2 = (n - 1) / 2 := by omega
    match l with
    | none => exact absurd rfl hd
    | some false => exact (ls_gets (2 * ((n - 1) / 2) + 10) _).2 ⟨by omega, by omega, by omega, by rw [e]⟩
    | some true => exact (lq_gets (2 * ((n - 1) / 2) + 10) _).2 (.inl ⟨by omega, by omega, by omega, by rw [e]⟩)
  · match l with
    | none =>
      have e : (n + 9 - 47) / 2 = (n - 38) / 2 := by omega
      exact ⟨(lm_gets (n + 9) _).2 ⟨by omega, by omega, by omega, by rw [e]⟩, by show n + 8 ≤ n + 9; omega, by show n + 9 ≤ n + 9; omega⟩
    | some false => exact absurd rfl hd
    | some true =>
      have e : (n + 8 - 46) / 2 = (n - 38) / 2 := by omega
      exact ⟨(lq_gets (n + 8) _).2 (.inr ⟨by omega, by omega, by omega, by rw [e]⟩), by show n + 8 ≤ n + 8; omega, by show n + 8 ≤ n + 9; omega⟩

theorem ly_via {d l : Option Bool} {n : Nat} {b : U8} (hd : d ≠ l) (h : (stations lm ly d).writes n b) :
    (d = none ∧ lyVia d l n = 2 * ((n - 1) / 2) + 10) ∨ (d = some false ∧ l = none ∧ lyVia d l n = n + 9) ∨ (d = some false ∧ l = some true ∧ lyVia d l n = n + 8) := by
  rcases ly_who h with ⟨rfl, -⟩ | ⟨rfl, -⟩
  · exact .inl ⟨rfl, rfl⟩
  · match l with
    | none => exact .inr (.inl ⟨rfl, rfl, rfl⟩)
    | some false => exact absurd rfl hd
    | some true => exact .inr (.inr ⟨rfl, rfl, rfl⟩)

theorem ly_medium : Medium 8 9 1 4 (stations lm ly) lyVia := by
  refine ⟨fun l k b h => ?_, fun d l n b hd h _ => ?_, fun d l l' n b hl hl' h _ => ?_, fun d l n n' b b' hd hn h h' _ _ => ?_,
    fun d l n n' b b' hd hn h h' hb _ _ _ => ?_⟩
  · obtain ⟨d, n, b', h1, h2, h3, h4, h5⟩ := ly_only l k b h
    exact ⟨d, n, b', h1, h2, h3, by rw [ly_time, ly_time]; exact h4, by rw [ly_time, ly_time]; exact h5⟩
  · rw [ly_time, ly_time]
    exact ly_arrives d l n b hd h
  · rw [ly_time, ly_time]
    have k1 := ly_arrives d l n b hl h
    have k2 := ly_arrives d l' n b hl' h
    omega
  · rcases ly_via hd h with ⟨rfl, e⟩ | ⟨rfl, rfl, e⟩ | ⟨rfl, rfl, e⟩
    · have k := (lm_writes n b).1 h
      have k' := (lm_writes n' b').1 h'
      show 2 * ((n - 1) / 2) + 10 < 2 * ((n' - 1) / 2) + 10
      omega
    · show n + 9 < n' + 9
      omega
    · show n + 8 < n' + 8
      omega
  · rw [ly_time, ly_time]
    rcases ly_who h with ⟨rfl, k1, k2, k3, -⟩ | ⟨rfl, k1, k2, k3, -⟩
    · have k' := (lm_writes n' b').1 h'
      show 2 * ((n' - 1) / 2) + 10 < 2 * ((n - 1) / 2) + 10 + 4
      apply Classical.byContradiction
      intro hlt
      by_cases e : n = 2
      · exact hb 3 _ (by omega) (by omega) ((lm_writes _ _).2 ⟨.inr rfl, by omega, by omega, rfl⟩)
      · exact hb (n + 2) _ (by omega) (by omega) ((lm_writes _ _).2 ⟨by omega, by omega, by omega, rfl⟩)
    · have k' := (ls_writes n' b').1 h'
      have : n' ≤ n + 2 := by
        apply Classical.byContradiction
        intro hlt
        exact hb (n + 2) _ (by omega) (by omega) ((ls_writes _ _).2 ⟨by omega, by omega, by omega, rfl⟩)
      match l with
      | none => show n' + 9 < n + 9 + 4; omega
      | some false => exact absurd rfl hd
      | some true => show n' + 8 < n + 8 + 4; omega

theorem ls_polled (n : Nat) (hr : (lsSt (n + 1)).rtof = false) : ∃ m, n < m ∧ m ≤ n + 2 ∧ (lsOp m = .main .poll ∨ lsOp m = .rto) := by
  by_cases h : n = 27
  · subst h; exact ⟨28, by omega, by omega, .inr rfl⟩
  by_cases h : 28 ≤ n ∧ n ≤ 35
  · exfalso
    have key : ∀ n, n < 36 → 28 ≤ n → (lsSt (n + 1)).rtof = true := by decide +kernel
    rw [key n (by omega) h.1] at hr; cases hr
  refine ⟨2 * ((n + 1) / 2) + 1, by omega, by omega, .inl ?_⟩
  unfold lsOp
  iterate 5 rw [if_neg (by omega)]

theorem lq_polled (n : Nat) (hr : (lqSt (n + 1)).rtof = false) : ∃ m, n < m ∧ m ≤ n + 2 ∧ (lqOp m = .main .poll ∨ lqOp m = .rto) := by
  by_cases h : n = 27
  · subst h; exact ⟨28, by omega, by omega, .inr rfl⟩
  by_cases h : n = 63
  · subst h; exact ⟨64, by omega, by omega, .inr rfl⟩
  by_cases h : 28 ≤ n ∧ n ≤ 35 ∨ 64 ≤ n ∧ n ≤ 71
  · exfalso
    have key : ∀ n, n < 72 → (28 ≤ n ∧ n ≤ 35 ∨ 64 ≤ n ∧ n ≤ 71) → (lqSt (n + 1)).rtof = true := by decide +kernel
    rw [key n (by omega) h] at hr; cases hr
  refine ⟨2 * ((n + 1) / 2) + 1, by omega, by omega, .inl ?_⟩
  unfold lqOp
  iterate 5 rw [if_neg (by omega)]

theorem ly_line : TimedLine bdCfg (fun _ => Config.default) lyId lyTimes 8 1 lm ly := by
  refine ⟨lm_exec, ?_, ?_, lm_hardware, ?_, ?_, ?_, ?_, ?_, ?_, ?_, lyVia, ly_medium⟩
  · intro i; cases i
    · exact ls_exec
    · exact lq_exec
  · decide
  · intro i; cases i
    · exact ls_hardware
    · exact lq_hardware
  · intro n
    by_cases h : n = 64 ∨ n = 65
    · exact ⟨68, by omega, rfl, by show 68 ≤ n + 4; omega⟩
    by_cases h : n = 72 ∨ n = 73
    · exact ⟨76, by omega, rfl, by show 76 ≤ n + 4; omega⟩
    refine ⟨2 * (n / 2) + 2, by omega, ?_, by show 2 * (n / 2) + 2 ≤ n + 4; omega⟩
    rw [lm_op]
    unfold lmOp
    iterate 8 rw [if_neg (by omega)]
  · intro i n hr; cases i
    · exact ls_polled n hr
    · exact lq_polled n hr
  · intro n
    refine ⟨40 * ((n + 17) / 40) + 23, by omega, ?_, by show 40 * ((n + 17) / 40) + 23 ≤ n + 40; omega⟩
    rw [lm_op]
    unfold lmOp
    iterate 6 rw [if_neg (by omega)]
    rw [if_pos (by omega)]
  · intro m n hmn h1 h2
    have := lm_tick h1
    have := lm_tick h2
    show m + 40 ≤ n
    omega
  · intro n b h
    have h := (lm_writes n b).1 h
    refine ⟨2 * ((n + 1) / 2) + 1, none, by omega, ?_, by show 2 * ((n + 1) / 2) + 1 ≤ n + 2; omega⟩
    show lmOp _ = _
    unfold lmOp
    rw [if_neg (by omega), if_pos (by omega)]
  · intro i n b h; cases i
    · have h := (ls_writes n b).1 h
      refine ⟨n + 2, none, by omega, ?_, by show n + 2 ≤ n + 2; omega⟩
      show lsOp _ = _
      unfold lsOp
      iterate 4 rw [if_neg (by omega)]
      rw [if_pos (by omega)]
    · exact absurd h (lq_writes n b)

/-- **C85**: the hypotheses are met by an execution with two slaves in which a request to one of them is transmitted, heard by both, executed by the one
it is meant for, answered, the answer heard by the master and by the other slave, and reported. -/
theorem line_demo : TimedLine bdCfg (fun _ => Config.default) lyId lyTimes 8 1 lm ly ∧ lyTimes.FitLine 8 1 bdCfg.respTimeout ∧ bdCfg.MWF ∧
    Config.default.WF ∧ lm.op 1 = .main (.request bdReq) ∧ lm.out 2 = [.lib (.send (reqFrame bdReq)), .tdr 9] ∧
    lm.out 76 = [.lib (.event (.hregWrite 9 7 1))] ∧ (ly false).out 38 = [.send (reqFrame bdReq), .tdr 9] ∧
    ((ly false).st 38).lib.mem.regs 7 = 1007 ∧ ((ly false).st 39).lib.mem.regs 7 = 0xAABB ∧
    (ly true).Gets 10 9 ∧ (ly true).Gets 46 9 ∧ ((ly true).st 80).lib.mem.regs 7 = 1007 := by
  refine ⟨ly_line, ⟨⟨by decide, by decide, by decide, by decide, by decide, by decide⟩, by decide, by decide⟩,
    ⟨by decide, by decide, by decide⟩, by decide, rfl, ?_, rfl, ?_, by decide +kernel, by decide +kernel, ⟨false, rfl⟩, ⟨false, rfl⟩, by decide +kernel⟩
  · rw [← bd_frame]; rfl
  · rw [← bd_frame]; rfl

end Modbus
