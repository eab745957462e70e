import Verif.Props.MasterPc

/-! C83: such executions exist. -/

namespace Modbus

open Spec

/-- `k` statements. -/
def mpSt (k : Nat) : List MSEv := List.replicate k .stmt
/-- `k` transmit interrupts. -/
def mpTx (k : Nat) : List MSEv := List.replicate k (.irq (.usart none true))
def mpTick : List MSEv := [.irq (.main .tick)]
/-- Bytes come in. -/
def mpRx (l : List U8) : List MSEv := l.map fun b => .irq (.usart (some b) false)

/-- A request, sent by a poll that is interrupted by transmit interrupts and a tick, and answered: every byte comes in, and the silence begins, in the
middle of a poll, and so does the end of the frame. Then a second request, which is not answered and times out by a tick in the middle of a poll. -/
def mpList : List MSEv :=
  [.app (.request (.readHoldingReg 7 1 9)), .call] ++ mpSt 7 ++ mpTx 1 ++ mpSt 2 ++ mpTx 1 ++ mpSt 2 ++ mpTick ++ mpSt 2 ++
  [.call] ++ mpSt 1 ++ mpTx 1 ++ mpSt 1 ++ mpTx 4 ++ [.call] ++ mpSt 1 ++ mpTx 1 ++ mpSt 4 ++ [.call] ++ mpSt 3 ++
  [.call] ++ mpRx [9] ++ mpSt 1 ++ mpRx [3] ++ mpSt 1 ++ mpRx [2] ++ mpSt 1 ++ mpRx [0xAA] ++
  [.call] ++ mpSt 1 ++ mpRx [0xBB] ++ mpSt 1 ++ mpRx [0x67, 0x56] ++ mpSt 1 ++ [.call] ++ mpSt 3 ++
  [.call] ++ mpSt 1 ++ [.irq .rto, .irq (.usart none false)] ++ mpSt 3 ++ mpTick ++ mpSt 4 ++
  [.call] ++ mpSt 6 ++ [.call] ++ mpSt 6 ++ [.call] ++ mpSt 6 ++ [.call] ++ mpSt 3 ++ [.irq .timer] ++ mpSt 7 ++
  [.app (.request (.readHoldingReg 8 1 9)), .call] ++ mpSt 4 ++ mpTick ++ mpSt 5 ++ mpTx 3 ++ mpSt 4 ++ mpTx 4 ++ [.call] ++ mpSt 2 ++ mpTx 1 ++
  [.call] ++ mpSt 5 ++ [.call] ++ mpSt 3 ++ [.call] ++ mpSt 1 ++ mpTick ++ mpSt 2 ++ [.call] ++ mpSt 3 ++ [.call] ++ mpSt 3 ++
  [.call] ++ mpSt 2 ++ mpTick ++ mpSt 9

/-- Afterwards: three idle polls and a tick, for ever. -/
def mpEv (n : Nat) : MSEv :=
  mpList.getD n (if (n - 164) % 10 = 9 then .irq (.main .tick) else if (n - 164) % 10 % 3 = 0 then .call else .stmt)

/-- Time passes by one with each call of a poll. -/
def mpTime (n : Nat) : Nat :=
  if n < 164 then (mpList.take (n + 1)).count .call else 21 + 3 * ((n - 164) / 10) + min 2 ((n - 164) % 10 / 3)

def mpInit : MasterPcDev :=
  match masterSysStep smallCfg MasterSys.powerOn (.main (.init .rtu)) with
  | .ok r => ⟨⟨r.1, 0⟩, .out, false⟩
  | .error _ => ⟨⟨MasterSys.powerOn, 0⟩, .out, false⟩

def mpDev : Nat → MasterPcDev
  | 0 => mpInit
  | n + 1 => match masterPcStep smallCfg (mpDev n) (mpEv n) with
    | .ok r => r.1
    | .error _ => mpDev n

def mpOut (n : Nat) : List HMOut := match masterPcStep smallCfg (mpDev n) (mpEv n) with
  | .ok r => r.2
  | .error _ => []

/-- The step is defined at `n`. -/
def mpOk (n : Nat) : Bool := match masterPcStep smallCfg (mpDev n) (mpEv n) with
  | .ok _ => true
  | .error _ => false

theorem mp_head : ∀ n, n < 164 → mpOk n = true := by decide +kernel

theorem mp_of_ok {n : Nat} (h : mpOk n = true) : masterPcStep smallCfg (mpDev n) (mpEv n) = .ok (mpDev (n + 1), mpOut n) := by
  unfold mpOk at h
  rw [mpDev, mpOut]
  generalize masterPcStep smallCfg (mpDev n) (mpEv n) = r at *
  cases r with
  | ok r => rfl
  | error _ => cases h

theorem mp_getD {α : Type} {l : List α} {n : Nat} {d : α} (h : l.length ≤ n) : l.getD n d = d := by
  rw [List.getD_eq_getElem?_getD, List.getElem?_eq_none h]; rfl

theorem mpEv_tail {n : Nat} (h : 164 ≤ n) :
    mpEv n = if (n - 164) % 10 = 9 then .irq (.main .tick) else if (n - 164) % 10 % 3 = 0 then .call else .stmt := by
  exact mp_getD (show mpList.length ≤ n from Nat.le_trans (by decide +kernel) h)

/-- The device has nothing to do and its main program is at `pc`. -/
structure MpRest (d : MasterPcDev) (pc : MPc) : Prop where
  st : d.dev.sys.lib.st = .idle
  txq : d.dev.sys.lib.txQ.available = false
  rtof : d.dev.sys.rtof = false
  pc : d.pc = pc

theorem mp_rest : MpRest (mpDev 164) .out := by
  have h : (decide ((mpDev 164).dev.sys.lib.st = .idle) && !(mpDev 164).dev.sys.lib.txQ.available && !(mpDev 164).dev.sys.rtof &&
    decide ((mpDev 164).pc = .out)) = true := by decide +kernel
  simp only [Bool.and_eq_true, decide_eq_true_eq, Bool.not_eq_true'] at h
  exact ⟨h.1.1.1, h.1.1.2, h.1.2, h.2⟩

/-- The position of the main program at event `n` of the tail. -/
def mpTailPc (n : Nat) : MPc := if (n - 164) % 10 % 3 = 0 then .out else if (n - 164) % 10 % 3 = 1 then .enter else .idTest

theorem mp_call {d : MasterPcDev} (h : MpRest d .out) : ∃ d', masterPcStep smallCfg d .call = .ok (d', []) ∧ MpRest d' .enter := by
  obtain ⟨⟨s, g⟩, pc, e⟩ := d
  obtain ⟨h1, h2, h3, h4⟩ := h
  replace h4 : pc = .out := h4
  subst h4
  exact ⟨⟨⟨s, g⟩, .enter, e⟩, rfl, h1, h2, h3, rfl⟩

theorem mp_enter {d : MasterPcDev} (h : MpRest d .enter) : ∃ d', masterPcStep smallCfg d .stmt = .ok (d', []) ∧ MpRest d' .idTest := by
  obtain ⟨⟨s, g⟩, pc, e⟩ := d
  obtain ⟨h1, h2, h3, h4⟩ := h
  replace h4 : pc = .enter := h4
  subst h4
  replace h1 : s.lib.st = .idle := h1
  refine ⟨⟨⟨s, g⟩, .idTest, e⟩, ?_, h1, h2, h3, rfl⟩
  simp only [masterPcStep, masterStmt, h1]

theorem mp_idTest {d : MasterPcDev} (h : MpRest d .idTest) : ∃ d', masterPcStep smallCfg d .stmt = .ok (d', []) ∧ MpRest d' .out := by
  obtain ⟨⟨s, g⟩, pc, e⟩ := d
  obtain ⟨h1, h2, h3, h4⟩ := h
  replace h4 : pc = .idTest := h4
  subst h4
  replace h2 : s.lib.txQ.available = false := h2
  refine ⟨⟨⟨s, g⟩, .out, e⟩, ?_, h1, h2, h3, rfl⟩
  simp [masterPcStep, masterStmt, h2]

theorem mp_tick {d : MasterPcDev} (h : MpRest d .out) :
    ∃ d', masterPcStep smallCfg d (.irq (.main .tick)) = .ok (d', []) ∧ MpRest d' .out := by
  obtain ⟨⟨s, g⟩, pc, e⟩ := d
  obtain ⟨h1, h2, h3, h4⟩ := h
  obtain ⟨s', k1, k2, k3, k4⟩ := md_idle (cfg := smallCfg) h1 h2 h3 (op := .main .tick) (by simp)
  replace k1 : masterSysStep smallCfg s (.main .tick) = .ok (s', []) := k1
  refine ⟨⟨⟨s', g⟩, pc, mtxeAfter (.main .tick) e ⟨s, g⟩⟩, ?_, k2, k3, k4, h4⟩
  simp only [masterPcStep, masterDevInt, if_true, k1, ok_bind, pure_eq]

theorem mp_tail_step {n : Nat} (hn : 164 ≤ n) (h : MpRest (mpDev n) (mpTailPc n)) :
    ∃ d', masterPcStep smallCfg (mpDev n) (mpEv n) = .ok (d', []) ∧ MpRest d' (mpTailPc (n + 1)) := by
  rw [mpEv_tail hn]
  unfold mpTailPc at h ⊢
  have hmod : (n - 164) % 10 < 10 := by omega
  have hmod1 : (n + 1 - 164) % 10 = if (n - 164) % 10 = 9 then 0 else (n - 164) % 10 + 1 := by split <;> omega
  rw [hmod1]
  by_cases h9 : (n - 164) % 10 = 9
  · rw [if_pos (by omega)] at h
    rw [if_pos h9, if_pos h9, if_pos (by omega)]
    exact mp_tick h
  · rw [if_neg h9, if_neg h9]
    clear hmod1
    generalize (n - 164) % 10 = r at *
    by_cases h0 : r % 3 = 0
    · rw [if_pos h0] at h
      rw [if_pos h0, if_neg (by omega), if_pos (by omega)]
      exact mp_call h
    · rw [if_neg h0] at h
      rw [if_neg h0]
      by_cases h1 : r % 3 = 1
      · rw [if_pos h1] at h
        rw [if_neg (by omega), if_neg (by omega)]
        exact mp_enter h
      · rw [if_neg h1] at h
        rw [if_pos (by omega)]
        exact mp_idTest h

theorem mp_tail (k : Nat) : MpRest (mpDev (164 + k)) (mpTailPc (164 + k)) := by
  induction k with
  | zero => exact mp_rest
  | succ k ih =>
    obtain ⟨d', h1, h2⟩ := mp_tail_step (by omega) ih
    have : mpDev (164 + (k + 1)) = d' := by
      rw [show 164 + (k + 1) = (164 + k) + 1 by omega, mpDev, h1]
    rw [this]; exact h2

theorem mp_late {n : Nat} (h : 164 ≤ n) : MpRest (mpDev n) (mpTailPc n) ∧ mpOk n = true ∧ mpOut n = [] := by
  have h1 : MpRest (mpDev n) (mpTailPc n) := by
    have := mp_tail (n - 164)
    rwa [show 164 + (n - 164) = n by omega] at this
  obtain ⟨d', h2, -⟩ := mp_tail_step h h1
  refine ⟨h1, ?_, ?_⟩
  · unfold mpOk; rw [h2]
  · unfold mpOut; rw [h2]

theorem mp_step (n : Nat) : masterPcStep smallCfg (mpDev n) (mpEv n) = .ok (mpDev (n + 1), mpOut n) := by
  by_cases h : n < 164
  · exact mp_of_ok (mp_head n h)
  · exact mp_of_ok (mp_late (by omega)).2.1

/-- The demonstration execution. -/
def mpx : MStmtTimed := { ev := mpEv, time := mpTime, st := mpDev, out := mpOut }

def mpIsRx : MSEv → Bool
  | .irq (.usart (some _) _) => true
  | _ => false

def mpIsTx : MSEv → Bool
  | .irq (.usart _ true) => true
  | _ => false

theorem mpx_byte {n : Nat} : mpx.Byte n ↔ mpIsRx (mpEv n) = true := by
  constructor
  · rintro ⟨b, t, h⟩
    have h : mpEv n = _ := h
    rw [h]; rfl
  · intro h
    show ∃ b t, mpEv n = _
    revert h
    cases mpEv n with
    | irq h =>
      cases h with
      | usart r t => cases r with
        | none => exact (fun h => nomatch h)
        | some b => exact fun _ => ⟨b, t, rfl⟩
      | _ => exact (fun h => nomatch h)
    | _ => exact (fun h => nomatch h)

/-- What kind of event the tail has. -/
theorem mp_tail_cases {n : Nat} (h : 164 ≤ n) : (mpEv n = .call ∧ (mpDev n).pc = .out) ∨ (mpEv n = .stmt ∧ (mpDev n).pc ≠ .out) ∨
    (mpEv n = .irq (.main .tick) ∧ (n - 164) % 10 = 9) := by
  have h1 := (mp_late h).1.pc
  rw [mpEv_tail h, h1]
  unfold mpTailPc
  by_cases h9 : (n - 164) % 10 = 9
  · rw [if_pos h9]; exact .inr (.inr ⟨rfl, h9⟩)
  · rw [if_neg h9]
    by_cases h0 : (n - 164) % 10 % 3 = 0
    · rw [if_pos h0, if_pos h0]; exact .inl ⟨rfl, rfl⟩
    · rw [if_neg h0, if_neg h0]
      refine .inr (.inl ⟨rfl, ?_⟩)
      split <;> simp

/-- Driver interrupts happen in the first part only. -/
theorem mp_fin {n : Nat} {e : HMOp} (h : mpEv n = .irq e) (hne : e ≠ .main .tick) : n < 164 := by
  apply Classical.byContradiction
  intro h'
  rcases mp_tail_cases (show 164 ≤ n by omega) with ⟨k, -⟩ | ⟨k, -⟩ | ⟨k, -⟩ <;> rw [h] at k <;> cases k
  exact hne rfl

/-- A poll, as a decidable fact. -/
def mpPoll (k m : Nat) : Bool :=
  decide (mpEv k = .call) && decide (k < m) && (List.range (m + 1)).all (fun j => decide (k < j → (mpDev j).pc ≠ .out)) && decide ((mpDev (m + 1)).pc = .out)

theorem mpPoll_poll {k m : Nat} (h : mpPoll k m = true) : mpx.Poll k m := by
  simp only [mpPoll, Bool.and_eq_true, decide_eq_true_eq, List.all_eq_true, List.mem_range] at h
  exact ⟨h.1.1.1, h.1.1.2, fun j j1 j2 => h.1.2 j (by omega) j1, fun h' => h' h.2⟩

theorem mp_tail_poll {k : Nat} (hk : 164 ≤ k) (h9 : (k - 164) % 10 ≠ 9) (h0 : (k - 164) % 10 % 3 = 0) : mpx.Poll k (k + 2) := by
  refine ⟨?_, by omega, fun j j1 j2 => ?_, ?_⟩
  · show mpEv _ = _
    rw [mpEv_tail hk, if_neg h9, if_pos h0]
  · show (mpDev j).pc ≠ .out
    rw [(mp_late (show 164 ≤ j by omega)).1.pc]
    unfold mpTailPc
    rw [if_neg (by
      have : (j - 164) % 10 = (k - 164) % 10 + (j - k) := by omega
      omega)]
    split <;> simp
  · show ¬ (mpDev (k + 2 + 1)).pc ≠ .out
    rw [(mp_late (show 164 ≤ k + 2 + 1 by omega)).1.pc]
    unfold mpTailPc
    rw [if_pos (by
      have : (k + 2 + 1 - 164) % 10 = (k - 164) % 10 + 3 := by omega
      omega)]
    simp

theorem mpTime_tail {n : Nat} (h : 164 ≤ n) : mpTime n = 21 + 3 * ((n - 164) / 10) + min 2 ((n - 164) % 10 / 3) := by
  unfold mpTime; rw [if_neg (by omega)]

theorem mp_mono (n : Nat) : mpTime n ≤ mpTime (n + 1) := by
  by_cases h : n < 164
  · have key : ∀ n, n < 164 → mpTime n ≤ mpTime (n + 1) := by decide +kernel
    exact key n h
  · rw [mpTime_tail (by omega), mpTime_tail (by omega)]; omega

def mpSends (n : Nat) : Bool := (mpOut n).any fun o => match o with
  | .lib (.send _) => true
  | _ => false

theorem mp_send {n : Nat} {f : List U8} (h : .lib (.send f) ∈ mpOut n) : n = 7 ∨ n = 109 := by
  have h0 : mpSends n = true := List.any_eq_true.2 ⟨_, h, rfl⟩
  by_cases hn : n < 164
  · have key : ∀ n, n < 164 → mpSends n = true → n = 7 ∨ n = 109 := by decide +kernel
    exact key n hn h0
  · rw [(mp_late (by omega)).2.2] at h; cases h

theorem mpx_time (n : Nat) : mpx.time n = mpTime n := rfl

theorem mpt_50_58 : mpTime 50 + 2 ≤ mpTime 58 := by decide +kernel

theorem mpt_50_93 : mpTime 50 + 6 ≤ mpTime 93 := by decide +kernel

theorem mpt_59_58 : mpTime 59 ≤ mpTime 58 + 1 := by decide +kernel

theorem mpt_166_163 : mpTime 166 ≤ mpTime 163 + 1 := by decide +kernel

theorem mpt_28_7 : mpTime 28 ≤ mpTime 7 + 3 := by decide +kernel

theorem mpt_127_109 : mpTime 127 ≤ mpTime 109 + 3 := by decide +kernel

theorem mpx_bb (k : Nat) (hk : mpx.Byte k) : k < 164 := by
  obtain ⟨b, t, h⟩ := hk
  exact mp_fin h (fun h => nomatch h)

theorem mpx_bl (k : Nat) (hk : mpx.Byte k) : k ≤ 50 := by
  have key : ∀ k, k < 164 → mpIsRx (mpEv k) = true → k ≤ 50 := by decide +kernel
  exact key k (mpx_bb k hk) (mpx_byte.1 hk)

theorem mpx_rl (k : Nat) (hk : mpEv k = .irq .rto) : k = 58 := by
  have key : ∀ k, k < 164 → mpEv k = .irq .rto → k = 58 := by decide +kernel
  exact key k (mp_fin hk (fun h => nomatch h)) hk

theorem mpx_exec : mpx.Exec smallCfg := by
  refine ⟨⟨mpInit.dev.sys, rfl, rfl⟩, mp_step, ?_, ?_, ?_, ?_, mp_mono⟩
  · -- app
    intro n op h
    have h : mpEv n = .app op := h
    by_cases hn : n < 164
    · have key : ∀ n, n < 164 → (match mpEv n with
          | .app (.request (.readHoldingReg _ _ _)) => true
          | .app _ => false
          | _ => true) = true := by decide +kernel
      have := key n hn
      rw [h] at this
      cases op with
      | request r =>
        refine ⟨r, rfl, fun _ => ?_⟩
        cases r with
        | readHoldingReg a q s => trivial
        | _ => cases this
      | _ => cases this
    · rcases mp_tail_cases (show 164 ≤ n by omega) with ⟨h', -⟩ | ⟨h', -⟩ | ⟨h', -⟩ <;> rw [h] at h' <;> cases h'
  · -- inside
    intro n h
    have h : mpEv n = .stmt := h
    show (mpDev n).pc ≠ .out
    by_cases hn : n < 164
    · have key : ∀ n, n < 164 → mpEv n = .stmt → (mpDev n).pc ≠ .out := by decide +kernel
      exact key n hn h
    · rcases mp_tail_cases (show 164 ≤ n by omega) with ⟨h', -⟩ | ⟨-, h'⟩ | ⟨h', -⟩
      · rw [h] at h'; cases h'
      · exact h'
      · rw [h] at h'; cases h'
  · -- outside
    intro n h
    have h : mpEv n = .call ∨ ∃ op, mpEv n = .app op := h
    show ¬ (mpDev n).pc ≠ .out
    by_cases hn : n < 164
    · have key : ∀ n, n < 164 → (match mpEv n with
          | .app _ | .call => true
          | _ => false) = true → (mpDev n).pc = .out := by decide +kernel
      have := key n hn (by rcases h with h | ⟨op, h⟩ <;> rw [h])
      rw [this]; simp
    · rcases mp_tail_cases (show 164 ≤ n by omega) with ⟨-, h'⟩ | ⟨h', -⟩ | ⟨h', -⟩
      · rw [h']; simp
      · rcases h with h | ⟨op, h⟩ <;> rw [h] at h' <;> cases h'
      · rcases h with h | ⟨op, h⟩ <;> rw [h] at h' <;> cases h'
  · -- irq
    intro n op h
    have h : mpEv n = .irq (.main op) := h
    by_cases hn : n < 164
    · have key : ∀ n, n < 164 → (match mpEv n with
          | .irq (.main .tick) => true
          | .irq (.main _) => false
          | _ => true) = true := by decide +kernel
      have := key n hn
      rw [h] at this
      cases op with
      | tick => rfl
      | _ => cases this
    · rcases mp_tail_cases (show 164 ≤ n by omega) with ⟨h', -⟩ | ⟨h', -⟩ | ⟨h', -⟩ <;> rw [h] at h' <;> cases h'
      rfl

theorem mpx_hw : mpx.Hardware 2 6 1 := by
  refine ⟨?_, ?_, ?_, ?_, ?_, ?_, ?_⟩
  · -- rtoMust
    intro k hk
    have key : ∀ k, k < 164 → mpIsRx (mpEv k) = true → ∃ n, n < 164 ∧ k < n ∧ (mpIsRx (mpEv n) = true ∨ mpEv n = .irq .rto) ∧ mpTime n ≤ mpTime k + 2 + 1 := by
      decide +kernel
    obtain ⟨n, _, n1, n2, n3⟩ := key k (mpx_bb k hk) (mpx_byte.1 hk)
    exact ⟨n, n1, n2.imp mpx_byte.2 (fun h => h), n3⟩
  · -- rtoOnly
    intro n h
    obtain rfl := mpx_rl n h
    refine ⟨50, by omega, mpx_byte.2 (by decide +kernel), (by rw [mpx_time, mpx_time]; exact mpt_50_58), fun j j1 j2 => ⟨fun hb => ?_, fun h' => ?_⟩⟩
    · have := mpx_bl j hb; omega
    · have := mpx_rl j h'; omega
  · -- timerMust
    intro k hk
    have key : ∀ k, k < 164 → mpIsRx (mpEv k) = true → ∃ n, n < 164 ∧ k < n ∧ (mpIsRx (mpEv n) = true ∨ mpEv n = .irq .timer) ∧ mpTime n ≤ mpTime k + 6 + 1 := by
      decide +kernel
    obtain ⟨n, _, n1, n2, n3⟩ := key k (mpx_bb k hk) (mpx_byte.1 hk)
    exact ⟨n, n1, n2.imp mpx_byte.2 (fun h => h), n3⟩
  · -- timerOnly
    intro n h
    have key : ∀ n, n < 164 → mpEv n = .irq .timer → n = 93 := by decide +kernel
    have tl : ∀ n, mpEv n = .irq .timer → n = 93 := fun n h => key n (mp_fin h (fun h => nomatch h)) h
    obtain rfl := tl n h
    refine ⟨50, by omega, mpx_byte.2 (by decide +kernel), (by rw [mpx_time, mpx_time]; exact mpt_50_93), fun j j1 j2 => ⟨fun hb => ?_, fun h' => ?_⟩⟩
    · have := mpx_bl j hb; omega
    · have := tl j h'; omega
  · -- irq
    intro n h
    obtain rfl := mpx_rl n h
    exact ⟨59, none, false, by omega, by decide +kernel, (by rw [mpx_time, mpx_time]; exact mpt_59_58)⟩
  · -- stalled
    intro n h
    have h : (mpDev n).dev.sys.rtof = true := h
    by_cases hn : n < 164
    · have key : ∀ n, n < 164 → (mpDev n).dev.sys.rtof = true → n = 59 := by decide +kernel
      obtain rfl := key n hn h
      exact ⟨.usart none false, (by decide +kernel), (fun h => nomatch h)⟩
    · rw [(mp_late (by omega)).1.rtof] at h; cases h
  · -- txeOnly
    intro n t h
    have key : ∀ n, n < 164 → (match mpEv n with
        | .irq (.usart none _) => true
        | _ => false) = true → (mpDev n).dev.sys.rtof = true ∨ (mpDev n).txeie = true := by decide +kernel
    have h : mpEv n = _ := h
    exact key n (mp_fin h (fun h => nomatch h)) (by rw [h])

theorem mpx_answer : mpx.OneAnswer 1 smallCfg.respTimeout := by
  refine ⟨?_, ?_⟩
  · -- answer
    intro n h
    have hn : n < 164 := h.elim (mpx_bb n) (fun h => by have := mpx_rl n h; omega)
    have hn' : mpIsRx (mpEv n) = true ∨ mpEv n = .irq .rto := h.imp mpx_byte.1 (fun h => h)
    have key : ∀ n, n < 164 → mpIsRx (mpEv n) = true ∨ mpEv n = .irq .rto → 28 < n ∧ n ≤ 58 ∧ mpTime 28 + 1 < mpTime n ∧ mpx.ticks 28 n + 3 ≤ smallCfg.respTimeout := by
      decide +kernel
    obtain ⟨n1, n2, n3, n4⟩ := key n hn hn'
    refine ⟨7, 28, by omega, n1, ⟨[9, 3, 0, 7, 0, 1, 0x34, 0x83], by decide +kernel⟩, ⟨⟨none, by decide +kernel⟩, by decide +kernel⟩, ?_, n3, n4, ?_⟩
    · rintro k k1 k2 ⟨⟨r, h1⟩, h2⟩
      have h1 : mpEv k = _ := h1
      have h2 : mpOut k = [] := h2
      have key2 : ∀ k, k < 28 → 7 < k → mpIsTx (mpEv k) = true → (mpOut k).isEmpty = false := by decide +kernel
      have := key2 k k2 k1 (by rw [h1]; rfl)
      rw [h2] at this; cases this
    · intro k k1 k2
      refine ⟨?_, fun h' => by have := mpx_rl k h'; omega⟩
      have key3 : ∀ k, k < 58 → 7 < k → (mpOut k).all (fun o => match o with
          | .lib o => !isOut o
          | _ => true) = true := by decide +kernel
      intro o ho
      have := List.all_eq_true.1 (key3 k (by omega) k1) _ ho
      simpa using this
  · -- noGap
    intro n k hnk h hk
    have := mpx_rl n h
    have := mpx_bl k hk
    omega

theorem mpx_poll : ∀ n, ∃ k m, n < k ∧ mpx.Poll k m ∧ mpx.time m ≤ mpx.time n + 1 := by
  intro n
  by_cases hn : n < 163
  · have key : ∀ n, n < 163 → ∃ k, k < 170 ∧ n < k ∧ ∃ m, m < 170 ∧ k < m ∧ mpPoll k m = true ∧ mpTime m ≤ mpTime n + 1 := by decide +kernel
    obtain ⟨k, -, k1, m, -, k2, k3, k4⟩ := key n hn
    exact ⟨k, m, k1, mpPoll_poll k3, k4⟩
  · -- the next call
    by_cases h6 : 6 ≤ (n - 164) % 10 ∧ 164 ≤ n
    · refine ⟨164 + 10 * ((n - 164) / 10 + 1), _, by omega, mp_tail_poll (by omega) (by omega) (by omega), ?_⟩
      show mpTime _ ≤ mpTime n + 1
      rw [mpTime_tail (by omega), mpTime_tail (by omega)]; omega
    · by_cases h : n = 163
      · subst h
        exact ⟨164, 166, by omega, mp_tail_poll (by omega) (by omega) (by omega), (by rw [mpx_time, mpx_time]; exact mpt_166_163)⟩
      · have e : (164 + 10 * ((n - 164) / 10) + 3 * ((n - 164) % 10 / 3 + 1) - 164) % 10 = 3 * ((n - 164) % 10 / 3 + 1) := by omega
        refine ⟨164 + 10 * ((n - 164) / 10) + 3 * ((n - 164) % 10 / 3 + 1), _, by omega, mp_tail_poll (by omega) (by omega) (by omega), ?_⟩
        show mpTime _ ≤ mpTime n + 1
        rw [mpTime_tail (by omega), mpTime_tail (by omega)]; omega

theorem mpx_tick : ∀ n, ∃ m, n < m ∧ mpx.ev m = .irq (.main .tick) ∧ mpx.time m ≤ mpx.time n + 8 := by
  intro n
  by_cases hn : n < 154
  · have key : ∀ n, n < 154 → ∃ m, m < 155 ∧ n < m ∧ mpEv m = .irq (.main .tick) ∧ mpTime m ≤ mpTime n + 8 := by decide +kernel
    obtain ⟨m, -, m1, m2, m3⟩ := key n hn
    exact ⟨m, m1, m2, m3⟩
  · by_cases hn' : n < 164
    · have key : ∀ n, n < 164 → 154 ≤ n → mpTime 173 ≤ mpTime n + 8 := by decide +kernel
      exact ⟨173, by omega, by decide +kernel, key n hn' (by omega)⟩
    · refine ⟨164 + 10 * ((n - 164) / 10 + 1) + 9, by omega, ?_, ?_⟩
      · show mpEv _ = _
        rw [mpEv_tail (by omega), if_pos (by omega)]
      · show mpTime _ ≤ mpTime n + 8
        rw [mpTime_tail (by omega), mpTime_tail (by omega)]; omega

theorem mpx_apart : ∀ m n, m < n → mpx.ev m = .irq (.main .tick) → mpx.ev n = .irq (.main .tick) → mpx.time m + 2 * 1 < mpx.time n := by
  intro m n hmn hm hn
  have hm : mpEv m = _ := hm
  have hn : mpEv n = _ := hn
  show mpTime m + 2 * 1 < mpTime n
  have tl : ∀ k, 164 ≤ k → mpEv k = .irq (.main .tick) → (k - 164) % 10 = 9 := by
    intro k hk h
    rcases mp_tail_cases hk with ⟨h', -⟩ | ⟨h', -⟩ | ⟨-, h'⟩
    · rw [h] at h'; cases h'
    · rw [h] at h'; cases h'
    · exact h'
  by_cases h1 : n < 164
  · have key : ∀ n, n < 164 → mpEv n = .irq (.main .tick) → ∀ m, m < n → mpEv m = .irq (.main .tick) → mpTime m + 2 * 1 < mpTime n := by decide +kernel
    exact key n h1 hn m hmn hm
  · have n1 := tl n (by omega) hn
    rw [mpTime_tail (n := n) (by omega)]
    by_cases h2 : m < 164
    · have key : ∀ m, m < 164 → mpEv m = .irq (.main .tick) → mpTime m ≤ 20 := by decide +kernel
      have := key m h2 hm
      omega
    · have m1 := tl m (by omega) hm
      rw [mpTime_tail (by omega)]
      omega

theorem mpx_tx : ∀ n f, .lib (.send f) ∈ mpx.out n → ∃ w, n < w ∧ mpx.time w ≤ mpx.time n + 3 ∧ f.length ≤ mpx.txCount (n + 1) (w + 1) := by
  intro n f h
  have h0 : .lib (.send f) ∈ mpOut n := h
  rcases mp_send h0 with rfl | rfl
  · have key : (mpOut 7).all (fun o => match o with
        | .lib (.send f) => decide (f.length ≤ mpx.txCount 8 29)
        | _ => true) = true := by decide +kernel
    exact ⟨28, by omega, (by rw [mpx_time, mpx_time]; exact mpt_28_7), by simpa using List.all_eq_true.1 key _ h0⟩
  · have key : (mpOut 109).all (fun o => match o with
        | .lib (.send f) => decide (f.length ≤ mpx.txCount 110 128)
        | _ => true) = true := by decide +kernel
    exact ⟨127, by omega, (by rw [mpx_time, mpx_time]; exact mpt_127_109), by simpa using List.all_eq_true.1 key _ h0⟩

theorem mpx_slow : ∀ n f m, .lib (.send f) ∈ mpx.out n → n < m → (∀ j, n < j → j ≤ m → mpx.InPoll j) → mpx.txCount (n + 1) (m + 1) < f.length := by
  intro n f m h hnm hin
  have h0 : .lib (.send f) ∈ mpOut n := h
  rcases mp_send h0 with rfl | rfl
  · have hm : m < 18 := by
      apply Classical.byContradiction
      intro hm
      exact hin 18 (by omega) (by omega) (show (mpDev 18).pc = .out by decide +kernel)
    have key : ∀ m, m < 18 → 7 < m → (mpOut 7).all (fun o => match o with
        | .lib (.send f) => decide (mpx.txCount 8 (m + 1) < f.length)
        | _ => true) = true := by decide +kernel
    simpa using List.all_eq_true.1 (key m hm hnm) _ h0
  · have hm : m < 120 := by
      apply Classical.byContradiction
      intro hm
      exact hin 120 (by omega) (by omega) (show (mpDev 120).pc = .out by decide +kernel)
    have key : ∀ m, m < 120 → 109 < m → (mpOut 109).all (fun o => match o with
        | .lib (.send f) => decide (mpx.txCount 110 (m + 1) < f.length)
        | _ => true) = true := by decide +kernel
    simpa using List.all_eq_true.1 (key m hm hnm) _ h0

/-- **C83**: an execution as required exists; in it requests are accepted, frames are sent, answered and timed out, with transmit interrupts, received
bytes, the silence and ticks in the middle of polls. -/
theorem mstmt_timed_demo : mpx.Exec smallCfg ∧ mpx.Hardware 2 6 1 ∧ mpx.OneAnswer 1 smallCfg.respTimeout ∧ mpx.Punctual 1 8 3 ∧
    smallCfg.MWF ∧ 2 ≤ smallCfg.respTimeout ∧ 2 + 2 * 1 + 1 < 6 ∧
    (accepted (mpx.mainTrace 164)).length = 2 ∧
    mpx.InPoll 9 ∧ mpx.ev 9 = .irq (.usart none true) ∧ mpx.InPoll 15 ∧ mpx.ev 15 = .irq (.main .tick) ∧ mpx.InPoll 40 ∧ mpx.Byte 40 ∧
    mpx.InPoll 58 ∧ mpx.ev 58 = .irq .rto ∧ mpx.InPoll 93 ∧ mpx.ev 93 = .irq .timer := by
  refine ⟨mpx_exec, mpx_hw, mpx_answer, ⟨mpx_poll, mpx_tick, mpx_apart, mpx_tx, mpx_slow⟩,
    smallCfg_wf, by decide, by decide, by decide +kernel, ?_, by decide +kernel, ?_, by decide +kernel, ?_, mpx_byte.2 (by decide +kernel),
    ?_, by decide +kernel, ?_, by decide +kernel⟩
  · exact (show (mpDev 9).pc ≠ .out by decide +kernel)
  · exact (show (mpDev 15).pc ≠ .out by decide +kernel)
  · exact (show (mpDev 40).pc ≠ .out by decide +kernel)
  · exact (show (mpDev 58).pc ≠ .out by decide +kernel)
  · exact (show (mpDev 93).pc ≠ .out by decide +kernel)

end Modbus
