import Verif.Props.BusRequests
import Verif.Props.DeviceTimed
import Verif.Props.DeviceMasterTimed

/-! **C74**, **C75**: an execution of two devices and a line as the theorems require it. The master's application writes 43707 into register 7 of slave
9; the request goes over the line byte by byte, is executed and answered; the answer goes back byte by byte and the application gets its callback. -/

namespace Modbus

open Spec

/-- Configuration of the master. -/
def bdCfg : Config := { smallCfg with respTimeout := 40 }

/-- Request and answer: both the same eight bytes. -/
def bdFrame : List U8 := [9, 6, 0, 7, 0xAA, 0xBB, 0x07, 0x90]

def bdReq : MReq := .writeSingleReg 7 9 0xAABB

/-- The master's events. -/
def bmOp (n : Nat) : HMOp :=
  if n = 1 then .main (.request bdReq)
  else if n % 2 = 1 ∧ 3 ≤ n ∧ n ≤ 17 then .usart none true
  else if n % 2 = 1 ∧ 35 ≤ n ∧ n ≤ 49 then .usart (some (bdFrame.getD ((n - 35) / 2) 0)) false
  else if n = 53 then .rto
  else if n = 54 then .usart none false
  else if n = 62 then .timer
  else if n % 40 = 21 then .main .tick
  else if n % 2 = 1 then .usart none false
  else .main .poll

/-- What they put out. -/
def bmOut (n : Nat) : List HMOut :=
  if n = 1 then [.lib (.ret .sendToQueue)]
  else if n = 2 then [.lib (.send bdFrame), .tdr 9]
  else if n % 2 = 1 ∧ 3 ≤ n ∧ n ≤ 15 then [.tdr (bdFrame.getD ((n - 1) / 2) 0)]
  else if n = 64 then [.lib (.event (.hregWrite 9 7 1))]
  else []

/-- The slave's events. -/
def bsOp (n : Nat) : HOp :=
  if n % 2 = 0 ∧ 4 ≤ n ∧ n ≤ 18 then .usart (some (bdFrame.getD ((n - 4) / 2) 0)) false
  else if n = 22 then .rto
  else if 23 ≤ n ∧ n ≤ 29 then .usart none false
  else if n = 30 then .timer
  else if n % 2 = 0 ∧ 34 ≤ n ∧ n ≤ 48 then .usart none true
  else .main .poll

/-- What they put out. -/
def bsOut (n : Nat) : List HOut :=
  if n = 32 then [.send bdFrame, .tdr 9]
  else if n % 2 = 0 ∧ 34 ≤ n ∧ n ≤ 46 then [.tdr (bdFrame.getD ((n - 32) / 2) 0)]
  else []

theorem bd_frame : bdFrame = reqFrame bdReq := by decide +kernel

theorem bm_head : (match masterSysRun bdCfg MasterSys.powerOn (.main (.init .rtu) :: (List.range 66).map bmOp) with
    | .ok x => decide (x.1.lib.st = .idle) && !x.1.lib.txQ.available && !x.1.rtof &&
        decide (x.2 = (.main (.init .rtu), []) :: (List.range 66).map fun n => (bmOp n, bmOut n))
    | .error _ => false) = true := by decide +kernel

def bsSt : Nat → SlaveSys
  | 0 => ⟨slaveInit (Slave.powerOn sampleMem) .rtu 9, 0, 0, false, false⟩
  | n + 1 => match slaveSysStep Config.default (bsSt n) (bsOp n) with
    | .ok r => r.1
    | .error _ => bsSt n

def bsOk (n : Nat) : Bool := match slaveSysStep Config.default (bsSt n) (bsOp n) with
  | .ok r => decide (r.2 = bsOut n)
  | .error _ => false

theorem bs_head : ∀ n, n < 50 → bsOk n = true := by decide +kernel

theorem bs_at : (bsSt 50).lib.st = .idle ∧ (bsSt 50).lib.t15 = .cleared ∧ (bsSt 50).rtof = false := by decide +kernel

theorem bsOp_tail {n : Nat} (h : 50 ≤ n) : bsOp n = .main .poll := by
  unfold bsOp
  iterate 5 rw [if_neg (by omega)]

theorem bs_step (n : Nat) : slaveSysStep Config.default (bsSt n) (bsOp n) = .ok (bsSt (n + 1), bsOut n) := by
  by_cases h : n < 50
  · have := bs_head n h
    unfold bsOk at this
    rw [bsSt]
    split at this
    · rename_i r hr
      rw [hr]
      simp only [decide_eq_true_eq] at this
      rw [← this]
    · cases this
  · obtain ⟨h1, h2, h3⟩ := bs_at
    have poll := rest_poll h1 h2 h3
    have st : ∀ k, bsSt (50 + k) = bsSt 50 := by
      intro k
      induction k with
      | zero => rfl
      | succ k ih =>
        show bsSt ((50 + k) + 1) = _
        rw [bsSt, ih, bsOp_tail (by omega), poll]
    have e1 := st (n - 50)
    have e2 := st (n - 50 + 1)
    rw [show 50 + (n - 50) = n by omega] at e1
    rw [show 50 + (n - 50 + 1) = n + 1 by omega] at e2
    rw [e1, e2, bsOp_tail (by omega), poll]
    unfold bsOut
    iterate 2 rw [if_neg (by omega)]

/-- The slave's execution. -/
def bs : DeviceTimed := { op := bsOp, time := fun n => n, st := bsSt, out := bsOut }

theorem bs_rto {n : Nat} (h : bsOp n = .rto) : n = 22 := by
  unfold bsOp at h
  repeat' split at h
  all_goals first | (cases h; done) | omega

theorem bs_timer {n : Nat} (h : bsOp n = .timer) : n = 30 := by
  unfold bsOp at h
  repeat' split at h
  all_goals first | (cases h; done) | omega

theorem bs_gets (n : Nat) (b : U8) : bs.Gets n b ↔ n % 2 = 0 ∧ 4 ≤ n ∧ n ≤ 18 ∧ b = bdFrame.getD ((n - 4) / 2) 0 := by
  constructor
  · rintro ⟨t, h⟩
    have h : bsOp n = _ := h
    unfold bsOp at h
    repeat' split at h
    all_goals first | (cases h; done) | skip
    rename_i h'
    injection h with h1 h2
    injection h1 with h1
    exact ⟨h'.1, h'.2.1, h'.2.2, h1.symm⟩
  · rintro ⟨h1, h2, h3, rfl⟩
    refine ⟨false, ?_⟩
    show bsOp n = _
    unfold bsOp
    rw [if_pos ⟨h1, h2, h3⟩]

theorem bs_byte (n : Nat) : bs.Byte n ↔ n % 2 = 0 ∧ 4 ≤ n ∧ n ≤ 18 := by
  constructor
  · rintro ⟨b, t, h⟩
    have := (bs_gets n b).1 ⟨t, h⟩
    exact ⟨this.1, this.2.1, this.2.2.1⟩
  · rintro ⟨h1, h2, h3⟩
    obtain ⟨t, h⟩ := (bs_gets n _).2 ⟨h1, h2, h3, rfl⟩
    exact ⟨_, t, h⟩

theorem bs_writes (n : Nat) (b : U8) : bs.Writes n b ↔ n % 2 = 0 ∧ 32 ≤ n ∧ n ≤ 46 ∧ b = bdFrame.getD ((n - 32) / 2) 0 := by
  show .tdr b ∈ bsOut n ↔ _
  unfold bsOut
  constructor
  · intro h
    repeat' split at h
    · rename_i e; subst e
      simp only [List.mem_cons, reduceCtorEq, HOut.tdr.injEq, List.not_mem_nil, or_false, false_or] at h
      subst h
      exact ⟨rfl, by omega, by omega, rfl⟩
    · rename_i e
      simp only [List.mem_cons, HOut.tdr.injEq, List.not_mem_nil, or_false] at h
      exact ⟨e.1, by omega, e.2.2, h⟩
    · cases h
  · rintro ⟨h1, h2, h3, rfl⟩
    by_cases e : n = 32
    · subst e; simp [bdFrame]
    · rw [if_neg e, if_pos ⟨h1, by omega, h3⟩]; exact List.mem_singleton.2 rfl

theorem bs_sends {n : Nat} (h : n ≠ 32) : ¬ bs.Sends n := by
  rintro ⟨f, hf⟩
  have hf : HOut.send f ∈ bsOut n := hf
  unfold bsOut at hf
  rw [if_neg h] at hf
  split at hf <;> simp at hf

theorem bs_exec : bs.Exec Config.default 9 := by
  refine ⟨⟨sampleMem, rfl⟩, bs_step, fun n op h => ?_, fun n => Nat.le_succ n⟩
  have h : bsOp n = .main op := h
  unfold bsOp at h
  repeat' split at h
  all_goals first | (cases h; done) | (cases h; trivial)

theorem bs_hardware : bs.Hardware 4 12 1 := by
  refine ⟨?_, ?_, ?_, ?_, ?_, ?_, by omega⟩
  · intro k hk
    have hk := (bs_byte k).1 hk
    by_cases h : k = 18
    · subst h; exact ⟨22, by omega, .inr rfl, by show 22 ≤ 18 + 4 + 1; omega⟩
    · exact ⟨k + 2, by omega, .inl ((bs_byte _).2 (by omega)), by show k + 2 ≤ k + 4 + 1; omega⟩
  · intro n hn
    obtain rfl := bs_rto hn
    refine ⟨18, by omega, (bs_byte _).2 (by omega), by show 18 + 4 ≤ 22; omega, fun j j1 j2 => ⟨fun h => ?_, fun h => ?_⟩⟩
    · have := (bs_byte _).1 h; omega
    · have := bs_rto h; omega
  · intro k hk
    have hk := (bs_byte k).1 hk
    by_cases h : k = 18
    · subst h; exact ⟨30, by omega, .inr rfl, by show 30 ≤ 18 + 12 + 1; omega⟩
    · exact ⟨k + 2, by omega, .inl ((bs_byte _).2 (by omega)), by show k + 2 ≤ k + 12 + 1; omega⟩
  · intro n hn
    obtain rfl := bs_timer hn
    refine ⟨18, by omega, (bs_byte _).2 (by omega), by show 18 + 12 ≤ 30; omega, fun j j1 j2 => ⟨fun h => ?_, fun h => ?_⟩⟩
    · have := (bs_byte _).1 h; omega
    · have := bs_timer h; omega
  · intro n hn
    obtain rfl := bs_rto hn
    exact ⟨23, none, false, by omega, rfl, by show 23 ≤ 22 + 1; omega⟩
  · intro n op h ho
    have h : (bsSt n).rtof = true := h
    have ho : bsOp n = .main op := ho
    by_cases hn : n < 50
    · have key : ∀ n, n < 50 → (bsSt n).rtof = true → isMainOp (bsOp n) = false := by decide +kernel
      have := key n hn h
      rw [ho] at this; cases this
    · have key : ∀ k, (bsSt (50 + k)).rtof = false := by
        obtain ⟨h1, h2, h3⟩ := bs_at
        have poll := rest_poll h1 h2 h3
        intro k
        have : bsSt (50 + k) = bsSt 50 := by
          induction k with
          | zero => rfl
          | succ k ih =>
            show bsSt ((50 + k) + 1) = _
            rw [bsSt, ih, bsOp_tail (by omega), poll]
        rw [this]; exact h3
      have := key (n - 50)
      rw [show 50 + (n - 50) = n by omega, h] at this
      cases this

theorem bmOp_tail {n : Nat} (h : 66 ≤ n) : bmOp n = .main .poll ∨ bmOp n = .main .tick ∨ bmOp n = .usart none false := by
  unfold bmOp
  iterate 6 rw [if_neg (by omega)]
  split
  · exact .inr (.inl rfl)
  · split
    · exact .inr (.inr rfl)
    · exact .inl rfl

theorem bm_run (k : Nat) : ∃ s, masterSysRun bdCfg MasterSys.powerOn (.main (.init .rtu) :: (List.range (66 + k)).map bmOp) =
    .ok (s, (.main (.init .rtu), []) :: (List.range (66 + k)).map fun n => (bmOp n, bmOut n)) ∧ s.lib.st = .idle ∧ s.lib.txQ.available = false ∧
      s.rtof = false := by
  induction k with
  | zero =>
    have h := bm_head
    split at h
    · rename_i x hx
      simp only [Bool.and_eq_true, decide_eq_true_eq, Bool.not_eq_true'] at h
      exact ⟨x.1, by rw [hx, ← h.2], h.1.1.1, h.1.1.2, h.1.2⟩
    · cases h
  | succ k ih =>
    obtain ⟨s, h1, h2, h3, h4⟩ := ih
    obtain ⟨s', k1, k2, k3, k4⟩ := md_idle (cfg := bdCfg) h2 h3 h4 (bmOp_tail (n := 66 + k) (by omega))
    refine ⟨s', ?_, k2, k3, k4⟩
    have e : bmOut (66 + k) = [] := by unfold bmOut; iterate 4 rw [if_neg (by omega)]
    have := msysRun_snoc h1 k1
    rw [← Nat.add_assoc, List.range_succ, List.map_append, List.map_append]
    simp only [List.map_cons, List.map_nil, e]
    exact this

theorem bm_prefix (n : Nat) : ∃ s, masterSysRun bdCfg MasterSys.powerOn (.main (.init .rtu) :: (List.range n).map bmOp) =
    .ok (s, (.main (.init .rtu), []) :: (List.range n).map fun k => (bmOp k, bmOut k)) := by
  have key : ∀ d n, (∃ s, masterSysRun bdCfg MasterSys.powerOn (.main (.init .rtu) :: (List.range (n + d)).map bmOp) =
      .ok (s, (.main (.init .rtu), []) :: (List.range (n + d)).map fun k => (bmOp k, bmOut k))) →
      ∃ s, masterSysRun bdCfg MasterSys.powerOn (.main (.init .rtu) :: (List.range n).map bmOp) =
        .ok (s, (.main (.init .rtu), []) :: (List.range n).map fun k => (bmOp k, bmOut k)) := by
    intro d
    induction d with
    | zero => intro n h; exact h
    | succ d ih =>
      rintro n ⟨s, h⟩
      refine ih n ?_
      rw [← Nat.add_assoc, List.range_succ, List.map_append, List.map_append, ← List.cons_append, ← List.cons_append] at h
      obtain ⟨s1, t1, o, e1, e2, e3⟩ := msysRun_snoc_inv h
      obtain ⟨e4, -⟩ := List.append_inj' e3 rfl
      exact ⟨s1, by rw [e4]; exact e1⟩
  obtain ⟨s, h, -⟩ := bm_run n
  rw [Nat.add_comm] at h
  exact key 66 n ⟨s, h⟩

noncomputable def bmSt (n : Nat) : MasterSys := Classical.choose (bm_prefix n)

/-- The master's execution. -/
noncomputable def bm : MDeviceTimed := { op := bmOp, time := fun n => n, st := bmSt, out := bmOut }

theorem bm_op : bm.op = bmOp := rfl

theorem bm_exec : bm.Exec bdCfg := by
  have hst : ∀ n, masterSysRun bdCfg MasterSys.powerOn (.main (.init .rtu) :: (List.range n).map bmOp) =
    .ok (bmSt n, (.main (.init .rtu), []) :: (List.range n).map fun k => (bmOp k, bmOut k)) := fun n => Classical.choose_spec (bm_prefix n)
  refine ⟨?_, fun n => ?_, fun n op h => ?_, fun n => Nat.le_succ n⟩
  · have h := hst 0
    obtain ⟨s1, t1, o, e1, e2, e3⟩ := msysRun_snoc_inv (ops := []) (op := .main (.init .rtu)) h
    cases e1
    have e4 : o = [] := by
      have := congrArg (fun l => l.map Prod.snd) e3
      simp at this
      exact this
    rw [e4] at e2; exact e2
  · have h := hst (n + 1)
    rw [List.range_succ, List.map_append, List.map_append, ← List.cons_append, ← List.cons_append] at h
    obtain ⟨s1, t1, o, e1, e2, e3⟩ := msysRun_snoc_inv h
    obtain ⟨-, e4⟩ := List.append_inj' e3 rfl
    simp only [List.map_cons, List.map_nil, List.cons.injEq, Prod.mk.injEq, and_true, true_and] at e4
    rw [hst n] at e1
    simp only [Except.ok.injEq, Prod.mk.injEq] at e1
    show masterSysStep bdCfg (bmSt n) (bmOp n) = .ok (bmSt (n + 1), bmOut n)
    rw [e1.1, e4]; exact e2
  · have h : bmOp n = .main op := h
    unfold bmOp at h
    repeat' split at h
    all_goals first | (cases h; done) | (cases h; intro _; trivial) | (cases h; trivial)

theorem bm_rto {n : Nat} (h : bmOp n = .rto) : n = 53 := by
  unfold bmOp at h
  repeat' split at h
  all_goals first | (cases h; done) | omega

theorem bm_timer {n : Nat} (h : bmOp n = .timer) : n = 62 := by
  unfold bmOp at h
  repeat' split at h
  all_goals first | (cases h; done) | omega

theorem bm_tick {n : Nat} (h : bmOp n = .main .tick) : n % 40 = 21 := by
  unfold bmOp at h
  repeat' split at h
  all_goals first | (cases h; done) | omega

theorem bm_gets (n : Nat) (b : U8) : bm.Gets n b ↔ n % 2 = 1 ∧ 35 ≤ n ∧ n ≤ 49 ∧ b = bdFrame.getD ((n - 35) / 2) 0 := by
  constructor
  · rintro ⟨t, h⟩
    have h : bmOp n = _ := h
    unfold bmOp at h
    repeat' split at h
    all_goals first | (cases h; done) | skip
    rename_i h'
    injection h with h1 h2
    injection h1 with h1
    exact ⟨h'.1, h'.2.1, h'.2.2, h1.symm⟩
  · rintro ⟨h1, h2, h3, rfl⟩
    refine ⟨false, ?_⟩
    show bmOp n = _
    unfold bmOp
    rw [if_neg (by omega), if_neg (by omega), if_pos ⟨h1, h2, h3⟩]

theorem bm_byte (n : Nat) : bm.Byte n ↔ n % 2 = 1 ∧ 35 ≤ n ∧ n ≤ 49 := by
  constructor
  · rintro ⟨b, t, h⟩
    have := (bm_gets n b).1 ⟨t, h⟩
    exact ⟨this.1, this.2.1, this.2.2.1⟩
  · rintro ⟨h1, h2, h3⟩
    obtain ⟨t, h⟩ := (bm_gets n _).2 ⟨h1, h2, h3, rfl⟩
    exact ⟨_, t, h⟩

theorem bm_writes (n : Nat) (b : U8) : bm.Writes n b ↔ (n = 2 ∨ n % 2 = 1) ∧ 2 ≤ n ∧ n ≤ 15 ∧ b = bdFrame.getD ((n - 1) / 2) 0 := by
  show .tdr b ∈ bmOut n ↔ _
  unfold bmOut
  constructor
  · intro h
    repeat' split at h
    · simp at h
    · rename_i e; subst e
      simp only [List.mem_cons, reduceCtorEq, HMOut.tdr.injEq, List.not_mem_nil, or_false, false_or] at h
      subst h
      exact ⟨.inl rfl, by omega, by omega, rfl⟩
    · rename_i e
      simp only [List.mem_cons, HMOut.tdr.injEq, List.not_mem_nil, or_false] at h
      exact ⟨.inr e.1, by omega, e.2.2, h⟩
    · simp at h
    · cases h
  · rintro ⟨h1, h2, h3, rfl⟩
    by_cases e : n = 2
    · subst e; simp [bdFrame]
    · rw [if_neg (by omega), if_neg e, if_pos ⟨by omega, by omega, h3⟩]; exact List.mem_singleton.2 rfl

theorem bm_sends {n : Nat} (h : n ≠ 2) : ¬ bm.Sends n := by
  rintro ⟨f, hf⟩
  have hf : HMOut.lib (.send f) ∈ bmOut n := hf
  unfold bmOut at hf
  repeat' split at hf
  all_goals first | (simp at hf; done) | omega

theorem bm_hardware : bm.Hardware 4 12 1 := by
  refine ⟨?_, ?_, ?_, ?_, ?_, ?_⟩
  · intro k hk
    have hk := (bm_byte k).1 hk
    by_cases h : k = 49
    · subst h; exact ⟨53, by omega, .inr rfl, by show 53 ≤ 49 + 4 + 1; omega⟩
    · exact ⟨k + 2, by omega, .inl ((bm_byte _).2 (by omega)), by show k + 2 ≤ k + 4 + 1; omega⟩
  · intro n hn
    obtain rfl := bm_rto hn
    refine ⟨49, by omega, (bm_byte _).2 (by omega), by show 49 + 4 ≤ 53; omega, fun j j1 j2 => ⟨fun h => ?_, fun h => ?_⟩⟩
    · have := (bm_byte _).1 h; omega
    · have := bm_rto h; omega
  · intro k hk
    have hk := (bm_byte k).1 hk
    by_cases h : k = 49
    · subst h; exact ⟨62, by omega, .inr rfl, by show 62 ≤ 49 + 12 + 1; omega⟩
    · exact ⟨k + 2, by omega, .inl ((bm_byte _).2 (by omega)), by show k + 2 ≤ k + 12 + 1; omega⟩
  · intro n hn
    obtain rfl := bm_timer hn
    refine ⟨49, by omega, (bm_byte _).2 (by omega), by show 49 + 12 ≤ 62; omega, fun j j1 j2 => ⟨fun h => ?_, fun h => ?_⟩⟩
    · have := (bm_byte _).1 h; omega
    · have := bm_timer h; omega
  · intro n hn
    obtain rfl := bm_rto hn
    exact ⟨54, none, false, by omega, rfl, by show 54 ≤ 53 + 1; omega⟩
  · intro n op h hm
    obtain ⟨r, r1, r2, r3⟩ := rtof_back bm_exec n h
    obtain rfl := bm_rto r2
    by_cases h54 : n = 54
    · subst h54
      have hm : bmOp 54 = .main op := hm
      cases hm
    · exact r3 54 (by omega) (by omega) none false rfl

/-- The times of the demonstration. -/
def bdTimes : BusTimes := ⟨4, 12, 1, 4, 4, 40, 40, 2, 3⟩

/-- **C74**, **C75**: the hypotheses are met by an execution in which a request is accepted, transmitted, executed, answered and reported. -/
theorem bus_demo : TimedBus bdCfg Config.default 9 bdTimes bm bs ∧ bdTimes.Fit bdCfg.respTimeout ∧ bdCfg.MWF ∧ Config.default.WF ∧
    bm.op 1 = .main (.request bdReq) ∧ bm.out 2 = [.lib (.send (reqFrame bdReq)), .tdr 9] ∧
    bm.out 64 = [.lib (.event (.hregWrite 9 7 1))] ∧ bs.out 32 = [.send (reqFrame bdReq), .tdr 9] ∧
    (bs.st 32).lib.mem.regs 7 = 1007 ∧ (bs.st 33).lib.mem.regs 7 = 0xAABB := by
  refine ⟨⟨bm_exec, bs_exec, bm_hardware, bs_hardware, ?_, ?_, ?_, ?_, ?_, ?_, ?_, ?_⟩, ⟨by decide, by decide, by decide, by decide, by decide, by decide⟩,
    ⟨by decide, by decide, by decide⟩, by decide, rfl, ?_, rfl, ?_, by decide +kernel, by decide +kernel⟩
  · intro n
    by_cases h : n = 52 ∨ n = 53
    · exact ⟨56, by omega, rfl, by show 56 ≤ n + 4; omega⟩
    by_cases h : n = 60 ∨ n = 61
    · exact ⟨64, by omega, rfl, by show 64 ≤ n + 4; omega⟩
    refine ⟨2 * (n / 2) + 2, by omega, ?_, by show 2 * (n / 2) + 2 ≤ n + 4; omega⟩
    rw [bm_op]
    unfold bmOp
    iterate 8 rw [if_neg (by omega)]
  · intro n hr
    by_cases h : n = 21
    · subst h; exact ⟨22, by omega, by show 22 ≤ 21 + 4; omega, .inr rfl⟩
    by_cases h : 22 ≤ n ∧ n ≤ 29
    · exfalso
      have key : ∀ n, n < 30 → 22 ≤ n → (bsSt (n + 1)).rtof = true := by decide +kernel
      have hr : (bsSt (n + 1)).rtof = false := hr
      rw [key n (by omega) h.1] at hr; cases hr
    refine ⟨2 * ((n + 1) / 2) + 1, by omega, by show 2 * ((n + 1) / 2) + 1 ≤ n + 4; omega, .inl ?_⟩
    show bsOp _ = _
    unfold bsOp
    iterate 5 rw [if_neg (by omega)]
  · intro n
    refine ⟨40 * ((n + 19) / 40) + 21, by omega, ?_, by show 40 * ((n + 19) / 40) + 21 ≤ n + 40; omega⟩
    rw [bm_op]
    unfold bmOp
    iterate 6 rw [if_neg (by omega)]
    rw [if_pos (by omega)]
  · intro m n hmn h1 h2
    have := bm_tick h1
    have := bm_tick h2
    show m + 40 ≤ n
    omega
  · intro n b h
    have h := (bm_writes n b).1 h
    refine ⟨2 * ((n + 1) / 2) + 1, none, by omega, ?_, by show 2 * ((n + 1) / 2) + 1 ≤ n + 2; omega⟩
    show bmOp _ = _
    unfold bmOp
    rw [if_neg (by omega), if_pos (by omega)]
  · intro n b h
    have h := (bs_writes n b).1 h
    refine ⟨n + 2, none, by omega, ?_, by show n + 2 ≤ n + 2; omega⟩
    show bsOp _ = _
    unfold bsOp
    iterate 4 rw [if_neg (by omega)]
    rw [if_pos (by omega)]
  · refine ⟨fun n => 2 * ((n - 1) / 2) + 4, ?_, ?_, ?_, ?_⟩
    · intro n b h
      have h := (bm_writes n b).1 h
      refine ⟨(bs_gets _ _).2 ⟨by omega, by omega, by omega, ?_⟩, by show n ≤ 2 * ((n - 1) / 2) + 4; omega, by show 2 * ((n - 1) / 2) + 4 ≤ n + 3; omega⟩
      rw [h.2.2.2]; congr 1 <;> omega
    · intro n n' b b' hn h h'
      have h := (bm_writes n b).1 h
      have h' := (bm_writes n' b').1 h'
      show 2 * ((n - 1) / 2) + 4 < 2 * ((n' - 1) / 2) + 4
      omega
    · intro k b h
      have h := (bs_gets k b).1 h
      by_cases e : k = 4
      · subst e
        exact ⟨2, (bm_writes _ _).2 ⟨.inl rfl, by omega, by omega, h.2.2.2⟩, rfl⟩
      · refine ⟨k - 3, (bm_writes _ _).2 ⟨by omega, by omega, by omega, ?_⟩, by show 2 * ((k - 3 - 1) / 2) + 4 = k; omega⟩
        rw [h.2.2.2]; congr 1 <;> omega
    · intro n n' b b' hn h h' hb _
      have h := (bm_writes n b).1 h
      have h' := (bm_writes n' b').1 h'
      show 2 * ((n' - 1) / 2) + 4 < 2 * ((n - 1) / 2) + 4 + 4
      apply Classical.byContradiction
      intro hlt
      by_cases e : n = 2
      · exact hb 3 _ (by omega) (by omega) ((bm_writes _ _).2 ⟨.inr rfl, by omega, by omega, rfl⟩)
      · exact hb (n + 2) _ (by omega) (by omega) ((bm_writes _ _).2 ⟨by omega, by omega, by omega, rfl⟩)
  · refine ⟨fun n => n + 3, ?_, ?_, ?_, ?_⟩
    · intro n b h
      have h := (bs_writes n b).1 h
      refine ⟨(bm_gets _ _).2 ⟨by omega, by omega, by omega, ?_⟩, by show n ≤ n + 3; omega, Nat.le_refl _⟩
      rw [h.2.2.2]; congr 1 <;> omega
    · intro n n' b b' hn h h'
      show n + 3 < n' + 3
      omega
    · intro k b h
      have h := (bm_gets k b).1 h
      refine ⟨k - 3, (bs_writes _ _).2 ⟨by omega, by omega, by omega, ?_⟩, by show k - 3 + 3 = k; omega⟩
      rw [h.2.2.2]; congr 1 <;> omega
    · intro n n' b b' hn h h' hb _
      have h := (bs_writes n b).1 h
      have h' := (bs_writes n' b').1 h'
      show n' + 3 < n + 3 + 4
      apply Classical.byContradiction
      intro hlt
      exact hb (n + 2) _ (by omega) (by omega) ((bs_writes _ _).2 ⟨by omega, by omega, by omega, rfl⟩)
  · rw [← bd_frame]; rfl
  · rw [← bd_frame]; rfl

end Modbus
