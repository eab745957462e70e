import Verif.Props.DeviceStatements

/-! C77: such executions exist. -/

namespace Modbus

open Spec

/-- A valid frame, every byte of which arrives in the middle of a poll; the silence, which begins in the middle of a poll; the poll that checks the
frame, the poll that answers it, interrupted by two transmit interrupts between its last statements, the rest of the response, the poll that notices
its end. Time passes by one with each event. -/
def stdList : List SDEv :=
  (sampleFrame.flatMap fun b => [.call, .stmt, .irq (.usart (some b) true), .stmt]) ++
  [.call, .stmt, .stmt, .call, .irq .rto, .irq (.usart none true), .irq (.usart none true), .irq (.usart none false), .irq .timer] ++
  List.replicate 5 .stmt ++ [.call] ++ List.replicate 10 .stmt ++
  [.irq (.usart none true), .stmt, .irq (.usart none true), .stmt, .stmt] ++
  List.replicate 5 (.irq (.usart none true)) ++ [.call] ++ List.replicate 5 .stmt

def stdEv (n : Nat) : SDEv := stdList.getD n (if (n - 73) % 3 = 0 then .call else .stmt)

def stdOut (n : Nat) : List HOut :=
  if n = 55 then [.send ddemoResp, .tdr 1] else if n = 57 then [.tdr 3] else if n = 59 then [.tdr 2]
  else if 61 < n ∧ n < 66 then [.tdr (ddemoResp.getD (n - 59) 0)] else []

def stdSt : Nat → SlaveDev
  | 0 => ⟨⟨slaveInit (Slave.powerOn sampleMem) .rtu 1, 0, 0, false, false⟩, .out, false⟩
  | n + 1 => match slaveDevStep Config.default (stdSt n) (stdEv n) with
    | .ok r => r.1
    | .error _ => stdSt n

/-- The step is defined at `n`, and puts out what it should. -/
def stdOk (n : Nat) : Bool := match slaveDevStep Config.default (stdSt n) (stdEv n) with
  | .ok r => decide (r.2 = stdOut n)
  | .error _ => false

theorem std_head : ∀ n, n < 73 → stdOk n = true := by decide +kernel

theorem stdEv_tail {n : Nat} (h : 73 ≤ n) : stdEv n = if (n - 73) % 3 = 0 then .call else .stmt := by
  unfold stdEv
  rw [List.getD_eq_getElem?_getD, List.getElem?_eq_none (by
    have : stdList.length = 73 := by decide
    omega)]; rfl

theorem std_of_ok {n : Nat} (h : stdOk n = true) : slaveDevStep Config.default (stdSt n) (stdEv n) = .ok (stdSt (n + 1), stdOut n) := by
  unfold stdOk at h
  rw [stdSt]
  split at h
  · rename_i r hr
    rw [hr]
    simp only [decide_eq_true_eq] at h
    rw [← h]
  · cases h

theorem std_at : (stdSt 73).sys.lib.st = .idle ∧ (stdSt 73).sys.lib.t15 = .cleared ∧ (stdSt 73).sys.rtof = false ∧ (stdSt 73).pc = .out := by
  decide +kernel

theorem stdOut_tail {n : Nat} (h : 73 ≤ n) : stdOut n = [] := by
  unfold stdOut
  rw [if_neg (by omega), if_neg (by omega), if_neg (by omega), if_neg (by omega)]

/-- One poll of the device at rest. -/
theorem std_round {d : SlaveDev} (h1 : d.sys.lib.st = .idle) (h2 : d.sys.lib.t15 = .cleared) (h3 : d.sys.rtof = false) (h4 : d.pc = .out) :
    slaveDevStep Config.default d .call = .ok ({ d with pc := .enter }, []) ∧
    slaveDevStep Config.default { d with pc := .enter } .stmt = .ok ({ d with pc := .idTest }, []) ∧
    slaveDevStep Config.default { d with pc := .idTest } .stmt = .ok (d, []) := by
  obtain ⟨s, pc, e⟩ := d
  replace h3 : s.rtof = false := h3
  replace h1 : s.lib.st = .idle := h1
  replace h2 : s.lib.t15 = .cleared := h2
  replace h4 : pc = .out := h4
  subst h4
  refine ⟨?_, ?_, ?_⟩
  · simp only [slaveDevStep]
    rw [if_neg (by rw [h3]; simp)]
  · show (if s.rtof = true then _ else slaveStmt _ _) = _
    rw [if_neg (by rw [h3]; simp)]
    simp only [slaveStmt, h1]
  · show (if s.rtof = true then _ else slaveStmt _ _) = _
    rw [if_neg (by rw [h3]; simp)]
    simp only [slaveStmt, h2, reduceCtorEq, if_false]

theorem std_tail (k : Nat) : stdSt (73 + 3 * k) = stdSt 73 ∧ stdSt (73 + 3 * k + 1) = { stdSt 73 with pc := .enter } ∧
    stdSt (73 + 3 * k + 2) = { stdSt 73 with pc := .idTest } ∧ stdSt (73 + 3 * k + 3) = stdSt 73 := by
  obtain ⟨h1, h2, h3, h4⟩ := std_at
  obtain ⟨r1, r2, r3⟩ := std_round h1 h2 h3 h4
  have key : ∀ k, stdSt (73 + 3 * k) = stdSt 73 → stdSt (73 + 3 * k + 1) = { stdSt 73 with pc := .enter } ∧
      stdSt (73 + 3 * k + 2) = { stdSt 73 with pc := .idTest } ∧ stdSt (73 + 3 * k + 3) = stdSt 73 := by
    intro k hk
    have e1 : stdSt (73 + 3 * k + 1) = { stdSt 73 with pc := .enter } := by
      rw [stdSt, hk, stdEv_tail (by omega), if_pos (by omega), r1]
    have e2 : stdSt (73 + 3 * k + 2) = { stdSt 73 with pc := .idTest } := by
      rw [show 73 + 3 * k + 2 = (73 + 3 * k + 1) + 1 by omega, stdSt, e1, stdEv_tail (by omega), if_neg (by omega), r2]
    have e3 : stdSt (73 + 3 * k + 3) = stdSt 73 := by
      rw [show 73 + 3 * k + 3 = (73 + 3 * k + 2) + 1 by omega, stdSt, e2, stdEv_tail (by omega), if_neg (by omega), r3]
    exact ⟨e1, e2, e3⟩
  have st : stdSt (73 + 3 * k) = stdSt 73 := by
    induction k with
    | zero => rfl
    | succ k ih => exact (key k ih).2.2
  exact ⟨st, key k st⟩

theorem std_step (n : Nat) : slaveDevStep Config.default (stdSt n) (stdEv n) = .ok (stdSt (n + 1), stdOut n) := by
  by_cases h : n < 73
  · exact std_of_ok (std_head n h)
  · obtain ⟨h1, h2, h3, h4⟩ := std_at
    obtain ⟨r1, r2, r3⟩ := std_round h1 h2 h3 h4
    obtain ⟨t1, t2, t3, t4⟩ := std_tail ((n - 73) / 3)
    rw [stdOut_tail (by omega), stdEv_tail (by omega)]
    have hmod : (n - 73) % 3 = 0 ∨ (n - 73) % 3 = 1 ∨ (n - 73) % 3 = 2 := by omega
    rcases hmod with hm | hm | hm
    · rw [show 73 + 3 * ((n - 73) / 3) = n by omega] at t1 t2
      rw [if_pos hm, t1, t2, r1]
    · rw [show 73 + 3 * ((n - 73) / 3) + 1 = n by omega] at t2
      rw [show 73 + 3 * ((n - 73) / 3) + 2 = n + 1 by omega] at t3
      rw [if_neg (by omega), t2, t3, r2]
    · rw [show 73 + 3 * ((n - 73) / 3) + 2 = n by omega] at t3
      rw [show 73 + 3 * ((n - 73) / 3) + 3 = n + 1 by omega] at t4
      rw [if_neg (by omega), t3, t4, r3]

/-- The demonstration execution. -/
def std : StmtTimed := { ev := stdEv, time := fun n => n, st := stdSt, out := stdOut }

def isRx : SDEv → Bool
  | .irq h => isByte h
  | _ => false

theorem std_byte {n : Nat} : std.Byte n ↔ isRx (stdEv n) = true := by
  constructor
  · rintro ⟨b, t, h⟩
    have h : stdEv n = _ := h
    rw [h]; rfl
  · intro h
    show ∃ b t, stdEv n = _
    revert h
    cases stdEv n with
    | irq h =>
      cases h with
      | usart r t => cases r with
        | none => exact (fun h => nomatch h)
        | some b => exact fun _ => ⟨b, t, rfl⟩
      | _ => exact (fun h => nomatch h)
    | _ => exact (fun h => nomatch h)

theorem std_tail_cases {n : Nat} (h : 73 ≤ n) : (stdSt n).sys.rtof = false ∧ (stdEv n = .call ∧ (stdSt n).pc = .out ∨ stdEv n = .stmt ∧ (stdSt n).pc ≠ .out) := by
  obtain ⟨h1, h2, h3, h4⟩ := std_at
  obtain ⟨t1, t2, t3, t4⟩ := std_tail ((n - 73) / 3)
  rw [stdEv_tail h]
  generalize stdSt 73 = d0 at *
  have hmod : (n - 73) % 3 = 0 ∨ (n - 73) % 3 = 1 ∨ (n - 73) % 3 = 2 := by omega
  rcases hmod with hm | hm | hm
  · rw [show 73 + 3 * ((n - 73) / 3) = n by omega] at t1
    rw [t1, if_pos hm]
    exact ⟨h3, .inl ⟨rfl, h4⟩⟩
  · rw [show 73 + 3 * ((n - 73) / 3) + 1 = n by omega] at t2
    rw [t2, if_neg (by omega)]
    exact ⟨h3, .inr ⟨rfl, fun h => SPc.noConfusion h⟩⟩
  · rw [show 73 + 3 * ((n - 73) / 3) + 2 = n by omega] at t3
    rw [t3, if_neg (by omega)]
    exact ⟨h3, .inr ⟨rfl, fun h => SPc.noConfusion h⟩⟩

theorem std_tail_ev {n : Nat} (h : 73 ≤ n) : ∀ e, stdEv n ≠ .irq e := by
  intro e he
  rcases (std_tail_cases h).2 with ⟨h', -⟩ | ⟨h', -⟩ <;> rw [he] at h' <;> cases h'

/-- A poll, as a decidable fact. -/
def stdPoll (k m : Nat) : Bool :=
  decide (stdEv k = .call) && decide (k < m) && (List.range (m + 1)).all (fun j => decide (k < j → (stdSt j).pc ≠ .out)) && decide ((stdSt (m + 1)).pc = .out)

theorem stdPoll_poll {k m : Nat} (h : stdPoll k m = true) : std.Poll k m := by
  simp only [stdPoll, Bool.and_eq_true, decide_eq_true_eq, List.all_eq_true, List.mem_range] at h
  exact ⟨h.1.1.1, h.1.1.2, fun j j1 j2 => h.1.2 j (by omega) j1, fun h' => h' h.2⟩

theorem std_tail_poll (k : Nat) : std.Poll (73 + 3 * k) (73 + 3 * k + 2) := by
  obtain ⟨h1, h2, h3, h4⟩ := std_at
  obtain ⟨t1, t2, t3, t4⟩ := std_tail k
  refine ⟨?_, by omega, fun j j1 j2 => ?_, ?_⟩
  · show stdEv _ = _
    rw [stdEv_tail (by omega), if_pos (by omega)]
  · show (stdSt j).pc ≠ .out
    have : j = 73 + 3 * k + 1 ∨ j = 73 + 3 * k + 2 := by omega
    rcases this with rfl | rfl
    · rw [t2]; simp
    · rw [t3]; simp
  · show ¬ (stdSt (73 + 3 * k + 2 + 1)).pc ≠ .out
    rw [show 73 + 3 * k + 2 + 1 = 73 + 3 * k + 3 by omega, t4, h4]
    simp

/-- **C77**: an execution as required exists; in it bytes come in and transmit interrupts happen in the middle of polls. -/
theorem stmt_timed_demo : std.Exec Config.default 1 ∧ std.Hardware 6 10 1 ∧ std.Punctual 26 11 ∧
    std.ev 40 = .irq .timer ∧ (∀ k, k < 40 → std.ev k ≠ .irq .timer) ∧ GoodFrame 1 (std.bytesIn 0 40) ∧ (∀ d, std.Gap 0 40 d → d < 6) ∧
    std.Poll 46 61 ∧ std.ev 57 = .irq (.usart none true) ∧ wire (std.outs 55 67) = ddemoResp := by
  have fin : ∀ {n : Nat} {e : HOp}, stdEv n = .irq e → n < 73 := by
    intro n e h
    apply Classical.byContradiction
    intro h'
    exact std_tail_ev (show 73 ≤ n by omega) e h
  have bb : ∀ k, std.Byte k → k < 73 := by
    rintro k ⟨b, t, h⟩; exact fin h
  have bl : ∀ k, std.Byte k → k ≤ 30 := by
    intro k hk
    have key : ∀ k, k < 73 → isRx (stdEv k) = true → k ≤ 30 := by decide +kernel
    exact key k (bb k hk) (std_byte.1 hk)
  have hsend : ∀ n f, .send f ∈ stdOut n → n = 55 ∧ f = ddemoResp := by
    intro n f h
    unfold stdOut at h
    split at h
    · exact ⟨by assumption, by simpa using h⟩
    · repeat' split at h
      all_goals simp at h
  have hf : std.bytesIn 0 40 = sampleFrame := by decide +kernel
  refine ⟨⟨⟨sampleMem, _, rfl, rfl⟩, std_step, ?_, ?_, ?_, ?_, fun n => Nat.le_succ n⟩, ⟨?_, ?_, ?_, ?_, ?_, ?_, ?_, by omega⟩, ⟨?_, ?_, ?_, ?_⟩,
    by decide +kernel, ?_, by rw [hf]; exact sampleExchange_good.frame, ?_, stdPoll_poll (by decide +kernel), by decide +kernel, by decide +kernel⟩
  · -- app
    intro n op h
    have h : stdEv n = .app op := h
    by_cases hn : n < 73
    · have key : ∀ n, n < 73 → (match stdEv n with
          | .app _ => false
          | _ => true) = true := by decide +kernel
      have := key n hn
      rw [h] at this; cases this
    · rcases (std_tail_cases (show 73 ≤ n by omega)).2 with ⟨h', -⟩ | ⟨h', -⟩ <;> rw [h] at h' <;> cases h'
  · -- inside
    intro n h
    have h : stdEv n = .stmt := h
    show (stdSt n).pc ≠ .out
    by_cases hn : n < 73
    · have key : ∀ n, n < 73 → stdEv n = .stmt → (stdSt n).pc ≠ .out := by decide +kernel
      exact key n hn h
    · rcases (std_tail_cases (show 73 ≤ n by omega)).2 with ⟨h', -⟩ | ⟨-, h'⟩
      · rw [h] at h'; cases h'
      · exact h'
  · -- outside
    intro n h
    have h : stdEv n = .call ∨ ∃ op, stdEv n = .app op := h
    show ¬ (stdSt n).pc ≠ .out
    by_cases hn : n < 73
    · have key : ∀ n, n < 73 → (match stdEv n with
          | .app _ | .call => true
          | _ => false) = true → (stdSt n).pc = .out := by decide +kernel
      have := key n hn (by rcases h with h | ⟨op, h⟩ <;> rw [h])
      rw [this]; simp
    · rcases (std_tail_cases (show 73 ≤ n by omega)).2 with ⟨-, h'⟩ | ⟨h', -⟩
      · rw [h']; simp
      · rcases h with h | ⟨op, h⟩ <;> rw [h] at h' <;> cases h'
  · -- irq
    intro n op h
    have key : ∀ n, n < 73 → (match stdEv n with
        | .irq (.main _) => false
        | _ => true) = true := by decide +kernel
    have := key n (fin h)
    rw [show stdEv n = _ from h] at this
    cases this
  · -- rtoMust
    intro k hk
    have key : ∀ k, k < 73 → isRx (stdEv k) = true → ∃ n, n < 73 ∧ k < n ∧ (isRx (stdEv n) = true ∨ stdEv n = .irq .rto) ∧ n ≤ k + 6 + 1 := by
      decide +kernel
    obtain ⟨n, _, n1, n2, n3⟩ := key k (bb k hk) (std_byte.1 hk)
    exact ⟨n, n1, n2.imp std_byte.2 (fun h => h), n3⟩
  · -- rtoOnly
    intro n h
    have key : ∀ n, n < 73 → stdEv n = .irq .rto → ∃ k, k < n ∧ isRx (stdEv k) = true ∧ k + 6 ≤ n ∧ ∀ j, j < n → k < j →
        isRx (stdEv j) = false ∧ stdEv j ≠ .irq .rto := by decide +kernel
    obtain ⟨k, k1, k2, k3, k4⟩ := key n (fin h) h
    refine ⟨k, k1, std_byte.2 k2, k3, fun j j1 j2 => ?_⟩
    obtain ⟨a, b⟩ := k4 j j2 j1
    exact ⟨fun hb => (by rw [std_byte.1 hb] at a; cases a), b⟩
  · -- timerMust
    intro k hk
    have key : ∀ k, k < 73 → isRx (stdEv k) = true → ∃ n, n < 73 ∧ k < n ∧ (isRx (stdEv n) = true ∨ stdEv n = .irq .timer) ∧ n ≤ k + 10 + 1 := by
      decide +kernel
    obtain ⟨n, _, n1, n2, n3⟩ := key k (bb k hk) (std_byte.1 hk)
    exact ⟨n, n1, n2.imp std_byte.2 (fun h => h), n3⟩
  · -- timerOnly
    intro n h
    have key : ∀ n, n < 73 → stdEv n = .irq .timer → ∃ k, k < n ∧ isRx (stdEv k) = true ∧ k + 10 ≤ n ∧ ∀ j, j < n → k < j →
        isRx (stdEv j) = false ∧ stdEv j ≠ .irq .timer := by decide +kernel
    obtain ⟨k, k1, k2, k3, k4⟩ := key n (fin h) h
    refine ⟨k, k1, std_byte.2 k2, k3, fun j j1 j2 => ?_⟩
    obtain ⟨a, b⟩ := k4 j j2 j1
    exact ⟨fun hb => (by rw [std_byte.1 hb] at a; cases a), b⟩
  · -- irq
    intro n h
    have key : ∀ n, n < 73 → stdEv n = .irq .rto → n = 36 := by decide +kernel
    have := key n (fin h) h
    subst this
    exact ⟨37, none, true, by omega, by decide +kernel, Nat.le_refl _⟩
  · -- stalled
    intro n h
    have h : (stdSt n).sys.rtof = true := h
    by_cases hn : n < 73
    · have key : ∀ n, n < 73 → (stdSt n).sys.rtof = true → (match stdEv n with
          | .irq _ => true
          | _ => false) = true := by decide +kernel
      have := key n hn h
      show ∃ e, stdEv n = _
      revert this
      cases stdEv n with
      | irq e => exact fun _ => ⟨e, rfl⟩
      | _ => exact (fun h => nomatch h)
    · rw [(std_tail_cases (show 73 ≤ n by omega)).1] at h; cases h
  · -- txeOnly
    intro n t h
    have key : ∀ n, n < 73 → (match stdEv n with
        | .irq (.usart none _) => true
        | _ => false) = true → (stdSt n).sys.rtof = true ∨ (stdSt n).txeie = true := by decide +kernel
    exact key n (fin h) (by rw [show stdEv n = _ from h])
  · -- poll
    intro n h
    have h : (stdSt (n + 1)).sys.rtof = false := h
    by_cases hn : n < 73
    · have key : ∀ n, n < 73 → (stdSt (n + 1)).sys.rtof = false → ∃ m, m < 80 ∧ n < m ∧ m ≤ n + 26 ∧
          (stdEv m = .irq .rto ∨ ∃ k, k < 80 ∧ n < k ∧ stdPoll k m = true) := by decide +kernel
      obtain ⟨m, _, m1, m2, m3⟩ := key n hn h
      refine ⟨m, m1, m2, m3.imp (fun h => h) ?_⟩
      rintro ⟨k, -, k1, k2⟩
      exact ⟨k, k1, stdPoll_poll k2⟩
    · refine ⟨73 + 3 * ((n - 73) / 3 + 1) + 2, by omega, by show 73 + 3 * ((n - 73) / 3 + 1) + 2 ≤ n + 26; omega, .inr ⟨73 + 3 * ((n - 73) / 3 + 1), by omega, std_tail_poll _⟩⟩
  · -- quiet
    intro m k hmk h hk
    have key : ∀ n, n < 73 → stdEv n = .irq .timer → n = 40 := by decide +kernel
    have := key m (fin h) h
    have := bl k hk
    omega
  · -- tx
    intro n f h
    obtain ⟨rfl, rfl⟩ := hsend n f h
    refine ⟨66, by omega, by show 66 ≤ 55 + 11; omega, by decide +kernel, fun k k1 hk => ?_⟩
    have := bl k hk
    omega
  · -- slow
    intro n f m h hnm hin
    obtain ⟨rfl, rfl⟩ := hsend n f h
    have hm : m < 62 := by
      apply Classical.byContradiction
      intro hm
      have := hin 62 (by omega) (by omega)
      exact this (show (stdSt 62).pc = .out by decide +kernel)
    have key : ∀ m, m < 62 → 55 < m → std.txCount 56 (m + 1) < ddemoResp.length := by decide +kernel
    exact key m hm hnm
  · -- one timer event
    have key : ∀ k, k < 40 → stdEv k ≠ .irq .timer := by decide +kernel
    exact key
  · -- gaps
    rintro d ⟨i, k, i1, i2, i3, i4, i5, i6, i7⟩
    have i7 : k = i + d := i7
    have key : ∀ i, i < 40 → ∀ k, k < 40 → i + 6 ≤ k → isRx (stdEv i) = true → isRx (stdEv k) = true → isRx (stdEv (i + 4)) = true := by
      decide +kernel
    apply Classical.byContradiction
    intro h
    exact i6 (i + 4) (by omega) (by omega) (std_byte.2 (key i (by omega) k i3 (by omega) (std_byte.1 i4) (std_byte.1 i5)))

end Modbus
