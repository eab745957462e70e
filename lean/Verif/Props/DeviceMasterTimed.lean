import Verif.Proofs.DeviceMasterPunctual

/-! **C73**: a master device (library with the example driver) in real time. -/

namespace Modbus

open Spec

section
variable {cfg : Config} {x : MDeviceTimed} {t15 t35 lat P D X : Nat}

theorem Spec.MDeviceTimed.trace_succ (x : MDeviceTimed) (n : Nat) : x.trace (n + 1) = x.trace n ++ [(x.op n, x.out n)] := by
  unfold MDeviceTimed.trace
  rw [List.range_succ, List.map_append]; rfl

/-- The main program's part of what the library experiences. -/
theorem lib_main (hx : x.Exec cfg) (n : Nat) : (x.lib n).filter (fun p => p.1.isMain) = mainTrace [(x.op n, x.out n)] := by
  cases hop : x.op n with
  | main op =>
    have := (hx.legal n).proper
    rw [hop] at this
    simp [MDeviceTimed.lib, evTrace, hop, evOps, show op.isMain = true from this, mainTrace]
  | rto => simp [MDeviceTimed.lib, evTrace, hop, evOps, mainTrace]
  | timer => simp [MDeviceTimed.lib, evTrace, hop, evOps, mainTrace, MOp.isMain]
  | usart rx t =>
    show _ = []
    rw [List.filter_eq_nil_iff]
    rintro ⟨p, o⟩ hp
    have := (lib_mem.1 hp).1
    rw [hop] at this
    rw [(evOps_usart this).1]; decide

theorem flat_main (hx : x.Exec cfg) (n : Nat) : ((.init .rtu, []) :: flat x.lib n).filter (fun p => p.1.isMain) = mainTrace (x.trace n) := by
  induction n with
  | zero => rfl
  | succ n ih =>
    rw [flat_succ, ← List.cons_append, List.filter_append, ih, lib_main hx, x.trace_succ, mainTrace_append]

theorem flat_irq (n : Nat) : ∀ p ∈ ((.init .rtu, []) :: flat x.lib n : MTrace), p.1.isMain = false → p.2 = [] := by
  rintro ⟨p, o⟩ hp hm
  rcases List.mem_cons.1 hp with hp | hp
  · cases hp; rfl
  · simp only [flat, List.mem_flatMap] at hp
    obtain ⟨k, -, hk⟩ := hp
    have := (lib_mem.1 hk).2
    rw [show p.isMain = false from hm] at this
    exact this

theorem refused_filter (tr : MTrace) : refused (tr.filter fun x => x.1.isMain) = refused tr := by
  induction tr with
  | nil => rfl
  | cons x tr ih =>
    obtain ⟨op, o⟩ := x
    unfold refused at ih ⊢
    cases hm : op.isMain with
    | true => rw [List.filter_cons_of_pos (by simpa using hm), List.countP_cons, List.countP_cons, ih]
    | false =>
      rw [List.filter_cons_of_neg (by simp [hm]), List.countP_cons, ih]
      cases op <;> first | (cases hm; done) | simp

/-- **C73**: see `properties.jsonl`. Every request accepted before event `n` is finished, by a confirmation, data, an exception or an error report, within
`N · ((R + 1) · (X + P + ((T - 1) D + 2 P) + (G + P) + P) + P)` (`N` the number of message buffers, `R` of repetitions, `T` the timeout in ticks, `G` the
latest time of the 3.5-char timer after the 1.5-char timeout), plus `P` for the poll that comes next; from then on it stays so; and whenever the device is
idle, the bytes on its line are exactly the frames handed over. -/
theorem C73_master_device_in_time (hw : cfg.MWF) (hT : 2 ≤ cfg.respTimeout) (hx : x.Exec cfg) (hh : x.Hardware t15 t35 lat) (ha : x.OneAnswer P)
    (hp : x.Punctual P D X) (hord : t15 + 2 * lat + P < t35) (n : Nat) :
    ∃ m, n ≤ m ∧
      x.time m ≤ x.time n + P +
        cfg.queueItems * ((cfg.repeatMax + 1) * (X + P + ((cfg.respTimeout - 1) * D + 2 * P) + ((t35 + lat - t15) + P) + P) + P) ∧
      ∀ q, m < q → ∃ done cur queued, Transactions cfg.repeatMax (mainTrace (x.trace q)) done cur queued ∧
        accepted (mainTrace (x.trace n)) <+: done.map Tx.req ∧
        ((x.st q).lib.st = .idle ↔ cur = none) ∧
        (x.st q).lib.freeQ.items.toNat + outstanding cur queued + refused (mainTrace (x.trace q)) = cfg.queueItems ∧
        (cur = none → mwire (x.trace q) = (sends (mainTrace (x.trace q))).flatten) := by
  obtain ⟨y, ev, y1, y2, y3, y4, y5⟩ := device_punctual hw hx hh ha hp hord
  have hpos : ∀ {i k}, k < ev i → pos x.lib (k + 1) ≤ i := by
    intro i k h
    exact Nat.le_trans (pos_mono x.lib h) (y4 i).1
  have hn : n ≤ ev (pos x.lib n) := by
    refine Classical.byContradiction fun hc => ?_
    have h1 := pos_mono x.lib (show ev (pos x.lib n) + 1 ≤ n by omega)
    have h2 := (y4 (pos x.lib n)).2
    rw [pos_succ] at h1
    omega
  obtain ⟨p, p1, p2, p3⟩ := hp.poll n
  have hnp : ev (pos x.lib n) ≤ p := by
    refine Classical.byContradiction fun hc => ?_
    have h1 := hpos (i := pos x.lib n) (k := p) (by omega)
    have h2 := pos_mono x.lib (Nat.le_of_lt p1)
    have h3 : (x.lib p).length = 1 := by simp [lib_length, p2, evOps]
    rw [pos_succ] at h1
    omega
  obtain ⟨m, m1, m2, m3⟩ := C70_every_request_in_time hw hT y1 y2 (pos x.lib n)
  have hev : ∀ {i j}, i ≤ j → ev i ≤ ev j := by
    intro i j h
    refine Classical.byContradiction fun hc => ?_
    have h1 := hpos (i := i) (k := ev j) (by omega)
    have h2 := (y4 j).2
    rw [pos_succ] at h1
    omega
  refine ⟨ev m, Nat.le_trans hn (hev m1), ?_, fun q hq => ?_⟩
  · rw [y3, y3] at m2
    have := hx.time_le hnp
    omega
  have hq' : m < pos x.lib q := by
    have h1 := pos_mono x.lib (show ev m + 1 ≤ q from hq)
    have h2 := (y4 m).2
    rw [pos_succ] at h1
    omega
  obtain ⟨done, cur, queued, t1, t2, t3, t4⟩ := m3 (pos x.lib q) hq'
  rw [(y5 q).2] at t1 t4
  rw [(y5 n).2, ← accepted_filter, flat_main hx] at t2
  rw [(y5 q).1] at t3 t4
  rw [← refused_filter, flat_main hx] at t4
  refine ⟨done, cur, queued, ⟨?_, ?_, t1.done_ok, t1.cur_ok, ?_⟩, t2, t3, t4, fun hc => ?_⟩
  · rw [← t1.order, ← flat_main hx, accepted_filter]
  · rw [← t1.output, ← flat_main hx]
    unfold outs
    rw [flat_filter (flat_irq q)]
  · rw [← flat_main hx, accepted_filter]; exact t1.valid
  · have hm := hx.mwinv hw q
    exact hm.complete (hm.idle (.inl (by rw [t3.2 hc]; decide)))

end

/-! ### The hypotheses can be met

A master with the configuration `smallCfg` (`T = 3`, `R = 1`, `N = 2`): one event per unit of time; main program at even times, interrupts and tick at odd times.
The first request is answered, the second one is not; then nothing happens any more, for ever. -/

/-- What happens at the odd times. -/
def mdSlot (s : Nat) : HMOp :=
  if s = 0 then .main (.request (.readHoldingReg 7 1 9))
  else if s ≤ 8 then .usart none true
  else if s ≤ 15 then .usart ((rtuFrame 9 [3, 2, 0xAA, 0xBB])[s - 9]?) false
  else if s = 17 then .rto
  else if s % 20 = 19 then .main .tick
  else if s = 21 then .timer
  else if s = 24 then .main (.request (.readHoldingReg 8 1 9))
  else if 25 ≤ s ∧ s ≤ 32 then .usart none true
  else .usart none false

def mdOp (n : Nat) : HMOp := if n % 2 = 1 then mdSlot (n / 2) else if n = 36 then .usart none false else .main .poll

/-- What the events put out. -/
def mdOut (n : Nat) : List HMOut :=
  if n = 1 ∨ n = 49 then [.lib (.ret .sendToQueue)]
  else if n = 2 then [.lib (.send (reqFrame (.readHoldingReg 7 1 9))), .tdr 9]
  else if n ≤ 15 ∧ n % 2 = 1 then [.tdr ((reqFrame (.readHoldingReg 7 1 9)).getD ((n - 1) / 2) 0)]
  else if n = 44 then [.lib (.event (.hregRead 9 7 0xAABB))]
  else if n = 50 then [.lib (.send (reqFrame (.readHoldingReg 8 1 9))), .tdr 9]
  else if 51 ≤ n ∧ n ≤ 63 ∧ n % 2 = 1 then [.tdr ((reqFrame (.readHoldingReg 8 1 9)).getD ((n - 49) / 2) 0)]
  else if n = 120 then [.lib (.event (.timeoutErr { slave := 9, fc := 0, adr := 8, qty := 1, err := .timeout }))]
  else []

theorem md_head : (match masterSysRun smallCfg MasterSys.powerOn (.main (.init .rtu) :: (List.range 122).map mdOp) with
    | .ok x => decide (x.1.lib.st = .idle) && !x.1.lib.txQ.available && !x.1.rtof &&
        decide (x.2 = (.main (.init .rtu), []) :: (List.range 122).map fun n => (mdOp n, mdOut n))
    | .error _ => false) = true := by decide +kernel

theorem mdOp_tail {n : Nat} (h : 122 ≤ n) : mdOp n = .main .poll ∨ mdOp n = .main .tick ∨ mdOp n = .usart none false := by
  unfold mdOp mdSlot
  split
  · rw [if_neg (by omega), if_neg (by omega), if_neg (by omega), if_neg (by omega)]
    split
    · exact .inr (.inl rfl)
    · rw [if_neg (by omega), if_neg (by omega), if_neg (by omega)]
      exact .inr (.inr rfl)
  · rw [if_neg (by omega)]; exact .inl rfl

theorem md_idle {cfg : Config} {s : MasterSys} (h1 : s.lib.st = .idle) (h2 : s.lib.txQ.available = false) (h3 : s.rtof = false) {op : HMOp}
    (ho : op = .main .poll ∨ op = .main .tick ∨ op = .usart none false) :
    ∃ s', masterSysStep cfg s op = .ok (s', []) ∧ s'.lib.st = .idle ∧ s'.lib.txQ.available = false ∧ s'.rtof = false := by
  rcases ho with rfl | rfl | rfl
  · obtain ⟨l, k1, k2, k3⟩ := demo_idle (cfg := cfg) h1 h2 (op := .poll) (.inl rfl)
    refine ⟨{ s with lib := l }, ?_, k2, k3, h3⟩
    simp only [masterSysStep, k1, ok_bind]; rfl
  · obtain ⟨l, k1, k2, k3⟩ := demo_idle (cfg := cfg) h1 h2 (op := .tick) (.inr (.inl rfl))
    refine ⟨{ s with lib := l }, ?_, k2, k3, h3⟩
    simp only [masterSysStep, k1, ok_bind]; rfl
  · refine ⟨s, ?_, h1, h2, h3⟩
    simp [masterSysStep, masterIrqRx, masterIrqTx, masterIrqRto, h3, ok_bind, pure_eq]

/-- A device's run, one event longer. -/
theorem msysRun_snoc {cfg : Config} {ops : List HMOp} {op : HMOp} : ∀ {s s1 s2 : MasterSys} {tr : HMTrace} {o : List HMOut},
    masterSysRun cfg s ops = .ok (s1, tr) → masterSysStep cfg s1 op = .ok (s2, o) → masterSysRun cfg s (ops ++ [op]) = .ok (s2, tr ++ [(op, o)]) := by
  induction ops with
  | nil => intro s s1 s2 tr o h1 h2; cases h1; simp only [List.nil_append, masterSysRun, h2, ok_bind, pure_eq]
  | cons p ops ih =>
    intro s s1 s2 tr o h1 h2
    simp only [masterSysRun] at h1
    obtain ⟨⟨s3, o3⟩, k1, h1⟩ := bind_ok h1
    obtain ⟨⟨s4, t4⟩, k2, h1⟩ := bind_ok h1
    cases h1
    simp only [List.cons_append, masterSysRun, k1, ok_bind, ih k2 h2, pure_eq]

theorem msysRun_snoc_inv {cfg : Config} {ops : List HMOp} {op : HMOp} : ∀ {s s2 : MasterSys} {tr : HMTrace},
    masterSysRun cfg s (ops ++ [op]) = .ok (s2, tr) → ∃ s1 t1 o, masterSysRun cfg s ops = .ok (s1, t1) ∧ masterSysStep cfg s1 op = .ok (s2, o) ∧
      tr = t1 ++ [(op, o)] := by
  induction ops with
  | nil =>
    intro s s2 tr h
    simp only [List.nil_append, masterSysRun] at h
    obtain ⟨⟨s3, o3⟩, k1, h⟩ := bind_ok h
    cases h
    exact ⟨s, [], o3, rfl, k1, rfl⟩
  | cons p ops ih =>
    intro s s2 tr h
    simp only [List.cons_append, masterSysRun] at h
    obtain ⟨⟨s3, o3⟩, k1, h⟩ := bind_ok h
    obtain ⟨⟨s4, t4⟩, k2, h⟩ := bind_ok h
    cases h
    obtain ⟨s1, t1, o, e1, e2, e3⟩ := ih k2
    refine ⟨s1, (p, o3) :: t1, o, by simp only [masterSysRun, k1, ok_bind, e1, pure_eq], e2, by simp [e3]⟩

/-- The execution never fails, and its outputs are `mdOut`. -/
theorem md_run (k : Nat) : ∃ s, masterSysRun smallCfg MasterSys.powerOn (.main (.init .rtu) :: (List.range (122 + k)).map mdOp) =
    .ok (s, (.main (.init .rtu), []) :: (List.range (122 + k)).map fun n => (mdOp n, mdOut n)) ∧ s.lib.st = .idle ∧ s.lib.txQ.available = false ∧
      s.rtof = false := by
  induction k with
  | zero =>
    have h := md_head
    split at h
    · rename_i x hx
      simp only [Bool.and_eq_true, decide_eq_true_eq, Bool.not_eq_true'] at h
      exact ⟨x.1, by rw [hx, ← h.2], h.1.1.1, h.1.1.2, h.1.2⟩
    · cases h
  | succ k ih =>
    obtain ⟨s, h1, h2, h3, h4⟩ := ih
    obtain ⟨s', k1, k2, k3, k4⟩ := md_idle (cfg := smallCfg) h2 h3 h4 (mdOp_tail (n := 122 + k) (by omega))
    refine ⟨s', ?_, k2, k3, k4⟩
    have e : mdOut (122 + k) = [] := by unfold mdOut; iterate 7 rw [if_neg (by omega)]
    have := msysRun_snoc h1 k1
    rw [← Nat.add_assoc, List.range_succ, List.map_append, List.map_append]
    simp only [List.map_cons, List.map_nil, e]
    exact this

theorem md_prefix (n : Nat) : ∃ s, masterSysRun smallCfg MasterSys.powerOn (.main (.init .rtu) :: (List.range n).map mdOp) =
    .ok (s, (.main (.init .rtu), []) :: (List.range n).map fun k => (mdOp k, mdOut k)) := by
  have key : ∀ d n, (∃ s, masterSysRun smallCfg MasterSys.powerOn (.main (.init .rtu) :: (List.range (n + d)).map mdOp) =
      .ok (s, (.main (.init .rtu), []) :: (List.range (n + d)).map fun k => (mdOp k, mdOut k))) →
      ∃ s, masterSysRun smallCfg MasterSys.powerOn (.main (.init .rtu) :: (List.range n).map mdOp) =
        .ok (s, (.main (.init .rtu), []) :: (List.range n).map fun k => (mdOp k, mdOut k)) := by
    intro d
    induction d with
    | zero => intro n h; exact h
    | succ d ih =>
      rintro n ⟨s, h⟩
      refine ih n ?_
      rw [← Nat.add_assoc, List.range_succ, List.map_append, List.map_append, ← List.cons_append, ← List.cons_append] at h
      obtain ⟨s1, t1, o, e1, e2, e3⟩ := msysRun_snoc_inv h
      obtain ⟨e4, -⟩ := List.append_inj' e3 rfl
      exact ⟨s1, by rw [e4]; exact e1⟩
  obtain ⟨s, h, -⟩ := md_run n
  rw [Nat.add_comm] at h
  exact key 122 n ⟨s, h⟩

/-- RTOF has been set by a receiver timeout; the UART handler has not run since. -/
theorem rtof_back {cfg : Config} {x : MDeviceTimed} (hx : x.Exec cfg) (m : Nat) : (x.st m).rtof = true →
    ∃ r, r < m ∧ x.op r = .rto ∧ ∀ k, r < k → k < m → ∀ rx t, x.op k ≠ .usart rx t := by
  induction m with
  | zero =>
    intro h
    exfalso
    have h0 := hx.init
    simp only [masterSysStep, show ¬ (MOp.isMain (.init .rtu) = false) by decide] at h0
    obtain ⟨⟨l, o1⟩, h1, h2⟩ := bind_ok h0
    have := masterSends_rtof _ h2 h
    cases this
  | succ m ih =>
    intro h
    have hs := hx.step m
    have back : (x.st m).rtof = true → (∀ rx t, x.op m ≠ .usart rx t) →
        ∃ r, r < m + 1 ∧ x.op r = .rto ∧ ∀ k, r < k → k < m + 1 → ∀ rx t, x.op k ≠ .usart rx t := by
      intro h1 h2
      obtain ⟨r, r1, r2, r3⟩ := ih h1
      refine ⟨r, by omega, r2, fun k k1 k2 => ?_⟩
      by_cases e : k = m
      · subst e; exact h2
      · exact r3 k k1 (by omega)
    cases ho : x.op m with
    | rto => exact ⟨m, by omega, ho, fun k k1 k2 => by omega⟩
    | timer =>
      rw [ho] at hs
      simp only [masterSysStep] at hs
      obtain ⟨⟨l, o1⟩, h1, hs⟩ := bind_ok hs
      simp only [pure_eq, Except.ok.injEq, Prod.mk.injEq] at hs
      rw [← hs.1] at h
      exact back h (by rw [ho]; nofun)
    | usart rx t =>
      rw [ho] at hs
      obtain ⟨-, -, -, -, -, -, -, -, k, -⟩ := usart_parts hs
      rw [k] at h; cases h
    | main op =>
      rw [ho] at hs
      simp only [masterSysStep] at hs
      split at hs
      · simp only [Except.ok.injEq, Prod.mk.injEq] at hs
        rw [← hs.1] at h
        exact back h (by rw [ho]; nofun)
      · obtain ⟨⟨l, o1⟩, h1, hs⟩ := bind_ok hs
        have := masterSends_rtof _ hs h
        exact back this (by rw [ho]; nofun)

theorem md_rto {n : Nat} (h : mdOp n = .rto) : n = 35 := by
  unfold mdOp mdSlot at h
  repeat' split at h
  all_goals first | (cases h; done) | omega

theorem md_timer {n : Nat} (h : mdOp n = .timer) : n = 43 := by
  unfold mdOp mdSlot at h
  repeat' split at h
  all_goals first | (cases h; done) | omega

theorem md_tick {n : Nat} (h : mdOp n = .main .tick) : n % 40 = 39 := by
  unfold mdOp mdSlot at h
  repeat' split at h
  all_goals first | (cases h; done) | omega

theorem md_byte {n : Nat} {b : U8} {t : Bool} (h : mdOp n = .usart (some b) t) : 19 ≤ n ∧ n ≤ 31 ∧ n % 2 = 1 := by
  unfold mdOp mdSlot at h
  repeat' split at h
  all_goals first | (cases h; done) | omega

theorem md_isByte {n : Nat} (h1 : 19 ≤ n) (h2 : n ≤ 31) (h3 : n % 2 = 1) : ∃ b t, mdOp n = .usart (some b) t := by
  have : n = 19 ∨ n = 21 ∨ n = 23 ∨ n = 25 ∨ n = 27 ∨ n = 29 ∨ n = 31 := by omega
  rcases this with rfl | rfl | rfl | rfl | rfl | rfl | rfl <;> exact ⟨_, _, rfl⟩

/-- **C73**: an execution as required exists; in it two requests are accepted and transmitted byte by byte; the first one is answered. -/
theorem master_device_timed_demo : ∃ x : MDeviceTimed, x.Exec smallCfg ∧ x.Hardware 4 12 1 ∧ x.OneAnswer 4 ∧ x.Punctual 4 40 15 ∧
    x.out = mdOut ∧ x.op = mdOp ∧ x.time = id := by
  let st : Nat → MasterSys := fun n => Classical.choose (md_prefix n)
  have hst : ∀ n, masterSysRun smallCfg MasterSys.powerOn (.main (.init .rtu) :: (List.range n).map mdOp) =
    .ok (st n, (.main (.init .rtu), []) :: (List.range n).map fun k => (mdOp k, mdOut k)) := fun n => Classical.choose_spec (md_prefix n)
  let x : MDeviceTimed := { op := mdOp, time := id, st := st, out := mdOut }
  have hx : x.Exec smallCfg := by
    refine ⟨?_, fun n => ?_, fun n op h => ?_, fun n => Nat.le_succ n⟩
    · have h := hst 0
      obtain ⟨s1, t1, o, e1, e2, e3⟩ := msysRun_snoc_inv (ops := []) (op := .main (.init .rtu)) h
      cases e1
      have e4 : o = [] := by
        have := congrArg (fun l => l.map Prod.snd) e3
        simp at this
        exact this
      rw [e4] at e2; exact e2
    · have h := hst (n + 1)
      rw [List.range_succ, List.map_append, List.map_append, ← List.cons_append, ← List.cons_append] at h
      obtain ⟨s1, t1, o, e1, e2, e3⟩ := msysRun_snoc_inv h
      obtain ⟨-, e4⟩ := List.append_inj' e3 rfl
      simp only [List.map_cons, List.map_nil, List.cons.injEq, Prod.mk.injEq, and_true, true_and] at e4
      rw [hst n] at e1
      simp only [Except.ok.injEq, Prod.mk.injEq] at e1
      show masterSysStep smallCfg (st n) (mdOp n) = .ok (st (n + 1), mdOut n)
      rw [e1.1, e4]; exact e2
    · have h : mdOp n = .main op := h
      unfold mdOp mdSlot at h
      repeat' split at h
      all_goals first | (cases h; done) | (cases h; intro _; trivial) | (cases h; trivial)
  have hB : ∀ n, x.Byte n ↔ 19 ≤ n ∧ n ≤ 31 ∧ n % 2 = 1 := fun n =>
    ⟨fun ⟨b, t, h⟩ => md_byte h, fun h => md_isByte h.1 h.2.1 h.2.2⟩
  have hsend : ∀ n f, .lib (.send f) ∈ mdOut n → (n = 2 ∨ n = 50) ∧ f.length = 8 := by
    intro n f h
    unfold mdOut at h
    repeat' split at h
    all_goals first | (simp at h; done) | skip
    all_goals
      simp only [List.mem_cons, HMOut.lib.injEq, MOut.send.injEq, List.not_mem_nil, or_false, reduceCtorEq] at h
      exact ⟨by omega, by rw [h]; rfl⟩
  refine ⟨x, hx, ⟨?_, ?_, ?_, ?_, ?_, ?_⟩, ⟨?_, ?_⟩, ⟨?_, ?_, ?_, ?_⟩, rfl, rfl, rfl⟩
  · intro k hk
    have hk := (hB k).1 hk
    by_cases h : k = 31
    · subst h; exact ⟨35, by omega, .inr rfl, by show 35 ≤ 31 + 4 + 1; omega⟩
    · exact ⟨k + 2, by omega, .inl ((hB _).2 (by omega)), by show k + 2 ≤ k + 4 + 1; omega⟩
  · intro n hn
    obtain rfl := md_rto hn
    refine ⟨31, by omega, (hB _).2 (by omega), by show 31 + 4 ≤ 35; omega, fun j j1 j2 => ⟨fun h => ?_, fun h => ?_⟩⟩
    · have := (hB _).1 h; omega
    · have := md_rto h; omega
  · intro k hk
    have hk := (hB k).1 hk
    by_cases h : k = 31
    · subst h; exact ⟨43, by omega, .inr rfl, by show 43 ≤ 31 + 12 + 1; omega⟩
    · exact ⟨k + 2, by omega, .inl ((hB _).2 (by omega)), by show k + 2 ≤ k + 12 + 1; omega⟩
  · intro n hn
    obtain rfl := md_timer hn
    refine ⟨31, by omega, (hB _).2 (by omega), by show 31 + 12 ≤ 43; omega, fun j j1 j2 => ⟨fun h => ?_, fun h => ?_⟩⟩
    · have := (hB _).1 h; omega
    · have := md_timer h; omega
  · intro n hn
    obtain rfl := md_rto hn
    exact ⟨36, none, false, by omega, rfl, by show 36 ≤ 35 + 1; omega⟩
  · intro n op h hm
    obtain ⟨r, r1, r2, r3⟩ := rtof_back hx n h
    obtain rfl := md_rto r2
    by_cases h36 : n = 36
    · subst h36
      have hm : mdOp 36 = .main op := hm
      cases hm
    · exact r3 36 (by omega) (by omega) none false rfl
  · intro n hn
    obtain rfl := md_rto hn
    refine ⟨2, 17, by omega, by omega, ⟨_, List.mem_cons_self ..⟩, ⟨⟨none, rfl⟩, rfl⟩, by show 17 + 4 < 35; omega, fun k k1 k2 => ⟨fun o ho => ?_, fun h => ?_⟩⟩
    · have ho : .lib o ∈ mdOut k := ho
      unfold mdOut at ho
      rw [if_neg (by omega), if_neg (by omega)] at ho
      split at ho
      · simp at ho
      · rw [if_neg (by omega), if_neg (by omega), if_neg (by omega), if_neg (by omega)] at ho; cases ho
    · have := md_rto h; omega
  · intro n k hnk hn hk
    obtain rfl := md_rto hn
    have := (hB _).1 hk
    omega
  · intro n
    by_cases h : n = 34 ∨ n = 35
    · exact ⟨38, by omega, rfl, by show 38 ≤ n + 4; omega⟩
    · refine ⟨2 * (n / 2) + 2, by omega, ?_, by show 2 * (n / 2) + 2 ≤ n + 4; omega⟩
      show mdOp _ = _
      unfold mdOp
      rw [if_neg (by omega), if_neg (by omega)]
  · intro n
    refine ⟨40 * ((n + 1) / 40) + 39, by omega, ?_, by show 40 * ((n + 1) / 40) + 39 ≤ n + 40; omega⟩
    show mdOp _ = _
    unfold mdOp mdSlot
    rw [if_pos (by omega), if_neg (by omega), if_neg (by omega), if_neg (by omega), if_neg (by omega), if_pos (by omega)]
  · intro m n hmn h1 h2
    have := md_tick h1
    have := md_tick h2
    show m + 2 * 4 < n
    omega
  · intro n f hf
    obtain ⟨h1, h2⟩ := hsend n f hf
    rw [h2]
    rcases h1 with rfl | rfl
    · exact ⟨17, by omega, by show 17 ≤ 2 + 15; omega, by decide⟩
    · exact ⟨65, by omega, by show 65 ≤ 50 + 15; omega, by decide⟩

end Modbus
