import Verif.Spec.TimedDevice
import Verif.Proofs.SlaveTimed
import Verif.Proofs.MasterHist
import Verif.Props.DriverSlave

/-! Timed executions of the slave device: from rest to rest. -/

namespace Modbus

open Spec

section
variable {cfg : Config} {id : U8} {x : DeviceTimed} {t15 t35 lat P X : Nat}

theorem Spec.DeviceTimed.seg_split (x : DeviceTimed) {a b c : Nat} (h1 : a ≤ b) (h2 : b ≤ c) : x.seg a c = x.seg a b ++ x.seg b c := by
  unfold DeviceTimed.seg
  rw [← List.map_append]
  congr 1
  have : c - a = (b - a) + (c - b) := by omega
  rw [this, ← List.range'_append_1]
  congr 2
  omega

theorem Spec.DeviceTimed.outs_split (x : DeviceTimed) {a b c : Nat} (h1 : a ≤ b) (h2 : b ≤ c) : x.outs a c = x.outs a b ++ x.outs b c := by
  unfold DeviceTimed.outs
  rw [← List.flatMap_append]
  congr 1
  have : c - a = (b - a) + (c - b) := by omega
  rw [this, ← List.range'_append_1]
  congr 2
  omega

theorem Spec.DeviceTimed.seg_one (x : DeviceTimed) (a : Nat) : x.seg a (a + 1) = [x.op a] := by
  unfold DeviceTimed.seg
  rw [show a + 1 - a = 1 by omega]; rfl

theorem Spec.DeviceTimed.outs_one (x : DeviceTimed) (a : Nat) : x.outs a (a + 1) = x.out a := by
  unfold DeviceTimed.outs
  rw [show a + 1 - a = 1 by omega]; simp

theorem Spec.DeviceTimed.seg_cons (x : DeviceTimed) {a c : Nat} (h : a < c) : x.seg a c = x.op a :: x.seg (a + 1) c := by
  rw [x.seg_split (Nat.le_succ a) h, x.seg_one]; rfl

theorem Spec.DeviceTimed.seg_length (x : DeviceTimed) (a b : Nat) : (x.seg a b).length = b - a := by
  unfold DeviceTimed.seg; simp

theorem Spec.DeviceTimed.mem_seg {x : DeviceTimed} {a b : Nat} {op : HOp} : op ∈ x.seg a b ↔ ∃ k, a ≤ k ∧ k < b ∧ x.op k = op := by
  unfold DeviceTimed.seg
  rw [List.mem_map]
  constructor
  · rintro ⟨k, h, rfl⟩
    have := List.mem_range'_1.1 h
    exact ⟨k, by omega, by omega, rfl⟩
  · rintro ⟨k, h1, h2, rfl⟩
    exact ⟨k, List.mem_range'_1.2 (by omega), rfl⟩

/-- A split of a segment is a split of its events. -/
theorem Spec.DeviceTimed.seg_at (x : DeviceTimed) {a b : Nat} {l r : List HOp} {op : HOp} (h : x.seg a b = l ++ op :: r) :
    a + l.length < b ∧ l = x.seg a (a + l.length) ∧ x.op (a + l.length) = op ∧ r = x.seg (a + l.length + 1) b := by
  have hl : (x.seg a b).length = l.length + (r.length + 1) := by rw [h]; simp
  rw [x.seg_length] at hl
  have hlt : a + l.length < b := by omega
  have h2 := h
  rw [x.seg_split (show a ≤ a + l.length by omega) (Nat.le_of_lt hlt), x.seg_cons hlt] at h2
  obtain ⟨e1, e2⟩ := List.append_inj h2 (by rw [x.seg_length]; omega)
  have e3 := List.cons.inj e2
  exact ⟨hlt, e1.symm, e3.1, e3.2.symm⟩

theorem Spec.DeviceTimed.Exec.seg_run (hx : x.Exec cfg id) (a n : Nat) :
    slaveSysRun cfg (x.st a) (x.seg a (a + n)) = .ok (x.st (a + n), x.outs a (a + n)) := by
  induction n with
  | zero => simp [DeviceTimed.seg, DeviceTimed.outs, slaveSysRun]
  | succ n ih =>
    rw [x.seg_split (show a ≤ a + n by omega) (show a + n ≤ a + (n + 1) by omega),
      x.outs_split (show a ≤ a + n by omega) (show a + n ≤ a + (n + 1) by omega)]
    have h1 : slaveSysRun cfg (x.st (a + n)) (x.seg (a + n) (a + (n + 1))) = .ok (x.st (a + (n + 1)), x.outs (a + n) (a + (n + 1))) := by
      rw [show a + (n + 1) = a + n + 1 by omega, x.seg_one, x.outs_one]
      have := sysRun_cons (hx.step (a + n)) (show slaveSysRun cfg _ [] = _ from rfl)
      rwa [List.append_nil] at this
    exact sysRun_append _ ih h1

/-- A known run of a segment. -/
theorem Spec.DeviceTimed.Exec.seg_eq (hx : x.Exec cfg id) {a b : Nat} (h : a ≤ b) {s' : SlaveSys} {o : List HOut}
    (hr : slaveSysRun cfg (x.st a) (x.seg a b) = .ok (s', o)) : x.st b = s' ∧ x.outs a b = o := by
  have := hx.seg_run a (b - a)
  rw [show a + (b - a) = b by omega, hr] at this
  simp only [Except.ok.injEq, Prod.mk.injEq] at this
  exact ⟨this.1.symm, this.2.symm⟩

theorem Spec.DeviceTimed.outs_nil {x : DeviceTimed} {a b : Nat} (h : x.outs a b = []) {k : Nat} (h1 : a ≤ k) (h2 : k < b) : x.out k = [] := by
  unfold DeviceTimed.outs at h
  rw [List.flatMap_eq_nil_iff] at h
  exact h k (List.mem_range'_1.2 ⟨h1, by omega⟩)

theorem Spec.DeviceTimed.outs_eq_nil {x : DeviceTimed} {a b : Nat} (h : ∀ k, a ≤ k → k < b → x.out k = []) : x.outs a b = [] := by
  unfold DeviceTimed.outs
  rw [List.flatMap_eq_nil_iff]
  intro k hk
  have := List.mem_range'_1.1 hk
  exact h k this.1 (by omega)

theorem Spec.DeviceTimed.Exec.time_le (hx : x.Exec cfg id) {a b : Nat} (h : a ≤ b) : x.time a ≤ x.time b := by
  induction h with
  | refl => exact Nat.le_refl _
  | step _ ih => exact Nat.le_trans ih (hx.mono _)

theorem Spec.DeviceTimed.Exec.step_eq (hx : x.Exec cfg id) {k : Nat} {op : HOp} (ho : x.op k = op) {s' : SlaveSys} {o : List HOut}
    (h : slaveSysStep cfg (x.st k) op = .ok (s', o)) : x.st (k + 1) = s' ∧ x.out k = o := by
  have := hx.step k
  rw [ho, h] at this
  simp only [Except.ok.injEq, Prod.mk.injEq] at this
  exact ⟨this.1.symm, this.2.symm⟩

/-! ### RTOF -/

theorem slaveSends_rtof (o : List SOut) : ∀ {s s' : SlaveSys} {out : List HOut}, slaveSends s o = .ok (s', out) → s'.rtof = s.rtof := by
  induction o with
  | nil => intro s s' out h; simp only [slaveSends, Except.ok.injEq, Prod.mk.injEq] at h; rw [← h.1]
  | cons a o ih =>
    intro s s' out h
    cases a with
    | send f =>
      simp only [slaveSends, slaveUsartSend] at h
      by_cases hp : 0 < s.lib.respLen.toNat
      · rw [if_pos hp, rd_ok _ (show 0 < 256 by decide)] at h
        simp only [ok_bind, pure_eq] at h
        obtain ⟨⟨s2, o2⟩, h2, h3⟩ := bind_ok h
        simp only [Except.ok.injEq, Prod.mk.injEq] at h3
        rw [← h3.1, ih h2]
      · rw [if_neg hp] at h
        simp only [ok_bind, pure_eq] at h
        obtain ⟨⟨s2, o2⟩, h2, h3⟩ := bind_ok h
        simp only [Except.ok.injEq, Prod.mk.injEq] at h3
        rw [← h3.1, ih h2]

theorem irqRx_frame {s s' : SlaveSys} {rx : Option U8} (h : slaveIrqRx cfg s rx = .ok s') :
    s'.rtof = s.rtof ∧ s'.cur = s.cur ∧ s'.last = s.last ∧ (s.lib.t35 ≠ .set → s'.lib.t35 ≠ .set) := by
  cases rx with
  | none => simp only [slaveIrqRx, Except.ok.injEq] at h; rw [← h]; exact ⟨rfl, rfl, rfl, fun h => h⟩
  | some b =>
    simp only [slaveIrqRx] at h
    obtain ⟨⟨l, o⟩, h1, h2⟩ := bind_ok h
    obtain ⟨-, -, -, -, -, -, -, -, -, -, e35, -⟩ := slaveStep_frame h1 (by simp) (by simp)
    have k1 : s.lib.t35 ≠ .set → l.t35 ≠ .set := by
      intro hs
      rcases e35 with e | ⟨e, -⟩
      · rw [e]; exact hs
      · cases e
    by_cases hg : s.gap = true
    · simp only [hg, if_true] at h2
      obtain ⟨⟨l2, o2⟩, h3, h4⟩ := bind_ok h2
      obtain ⟨-, -, -, -, -, -, -, -, -, -, f35, -⟩ := slaveStep_frame h3 (by simp) (by simp)
      simp only [pure_eq, Except.ok.injEq] at h4
      rw [← h4]
      refine ⟨rfl, rfl, rfl, fun hs => ?_⟩
      rcases f35 with e | ⟨e, -⟩
      · show l2.t35 ≠ _; rw [e]; exact k1 hs
      · cases e
    · simp only [hg, Bool.false_eq_true, if_false, pure_eq, Except.ok.injEq] at h2
      rw [← h2]
      exact ⟨rfl, rfl, rfl, k1⟩

theorem irqTx_frame {s s' : SlaveSys} {t : Bool} {o : List HOut} (h : slaveIrqTx cfg s t = .ok (s', o)) : s'.rtof = s.rtof := by
  cases t with
  | false => simp only [slaveIrqTx, Bool.false_eq_true, if_false, Except.ok.injEq, Prod.mk.injEq] at h; rw [← h.1]
  | true =>
    simp only [slaveIrqTx, if_true] at h
    by_cases hc : s.cur < s.last
    · rw [if_pos hc] at h
      obtain ⟨b, _, h2⟩ := bind_ok h
      simp only [pure_eq, Except.ok.injEq, Prod.mk.injEq] at h2
      rw [← h2.1]
    · rw [if_neg hc] at h
      obtain ⟨⟨l, o1⟩, _, h2⟩ := bind_ok h
      simp only [pure_eq, Except.ok.injEq, Prod.mk.injEq] at h2
      rw [← h2.1]

theorem irqTx_done {s s' : SlaveSys} {t : Bool} {o : List HOut} (h : slaveIrqTx cfg s t = .ok (s', o)) (hc : s.cur = s.last) :
    o = [] ∧ s'.cur = s'.last ∧ (s.lib.t35 ≠ .set → s'.lib.t35 ≠ .set) := by
  cases t with
  | false =>
    simp only [slaveIrqTx, Bool.false_eq_true, if_false, Except.ok.injEq, Prod.mk.injEq] at h
    rw [← h.1, ← h.2]; exact ⟨rfl, hc, fun h => h⟩
  | true =>
    simp only [slaveIrqTx, if_true] at h
    rw [if_neg (by omega)] at h
    obtain ⟨⟨l, o1⟩, h1, h2⟩ := bind_ok h
    obtain ⟨-, -, -, -, -, -, -, -, -, -, e35, -⟩ := slaveStep_frame h1 (by simp) (by simp)
    simp only [pure_eq, Except.ok.injEq, Prod.mk.injEq] at h2
    rw [← h2.1, ← h2.2]
    refine ⟨rfl, hc, fun hs => ?_⟩
    rcases e35 with e | ⟨e, -⟩
    · show l.t35 ≠ _; rw [e]; exact hs
    · cases e

theorem irqRto_frame {s s' : SlaveSys} (h : slaveIrqRto cfg s = .ok s') :
    s'.rtof = s.rtof ∧ s'.cur = s.cur ∧ s'.last = s.last ∧ (s.lib.t35 ≠ .set → s'.lib.t35 ≠ .set) := by
  unfold slaveIrqRto at h
  by_cases hr : s.rtof = true
  · rw [if_pos hr] at h
    obtain ⟨⟨l, o⟩, h1, h2⟩ := bind_ok h
    obtain ⟨-, -, -, -, -, -, -, -, -, -, e35, -⟩ := slaveStep_frame h1 (by simp) (by simp)
    simp only [pure_eq, Except.ok.injEq] at h2
    rw [← h2]
    refine ⟨rfl, rfl, rfl, fun hs => ?_⟩
    rcases e35 with e | ⟨e, -⟩
    · show l.t35 ≠ _; rw [e]; exact hs
    · cases e
  · rw [if_neg hr] at h
    simp only [Except.ok.injEq] at h
    rw [← h]; exact ⟨rfl, rfl, rfl, fun h => h⟩

/-- RTOF changes only with the receiver timeout and with the timer. -/
theorem sysStep_rtof {s s' : SlaveSys} {op : HOp} {o : List HOut} (h : slaveSysStep cfg s op = .ok (s', o)) :
    s'.rtof = if op = .rto then true else if op = .timer then false else s.rtof := by
  cases op with
  | main op =>
    rw [if_neg (by simp), if_neg (by simp)]
    simp only [slaveSysStep] at h
    split at h
    · simp only [Except.ok.injEq, Prod.mk.injEq] at h; rw [← h.1]
    · obtain ⟨⟨l, o1⟩, _, h2⟩ := bind_ok h
      have := slaveSends_rtof _ h2
      exact this
  | rto => simp only [slaveSysStep, Except.ok.injEq, Prod.mk.injEq] at h; rw [← h.1]; rfl
  | timer =>
    simp only [slaveSysStep] at h
    obtain ⟨⟨l, o1⟩, _, h2⟩ := bind_ok h
    simp only [pure_eq, Except.ok.injEq, Prod.mk.injEq] at h2
    rw [← h2.1]; rfl
  | usart rx t =>
    rw [if_neg (by simp), if_neg (by simp)]
    simp only [slaveSysStep] at h
    obtain ⟨s1, h1, h⟩ := bind_ok h
    obtain ⟨⟨s2, o2⟩, h2, h⟩ := bind_ok h
    obtain ⟨s3, h3, h⟩ := bind_ok h
    simp only [pure_eq, Except.ok.injEq, Prod.mk.injEq] at h
    rw [← h.1, (irqRto_frame h3).1, irqTx_frame h2, (irqRx_frame h1).1]

/-- Without a pending 3.5-char event and with an idle transmitter, an event other than the timer puts nothing out and changes neither. -/
theorem sysStep_no35 (hc : cfg.WF) {s s' : SlaveSys} {op : HOp} {o : List HOut} (h : slaveSysStep cfg s op = .ok (s', o)) (hop : op ≠ .timer)
    (h35 : s.lib.t35 ≠ .set) (hcur : s.cur = s.last) : o = [] ∧ s'.lib.t35 ≠ .set ∧ s'.cur = s'.last := by
  cases op with
  | main op =>
    simp only [slaveSysStep] at h
    split at h
    · simp only [Except.ok.injEq, Prod.mk.injEq] at h; rw [← h.1, ← h.2]; exact ⟨rfl, h35, hcur⟩
    · rename_i hm
      obtain ⟨⟨l, o1⟩, h1, h2⟩ := bind_ok h
      obtain ⟨e1, e2⟩ := C25_no_answer_without_event_partial cfg hc [op] s.lib l o1 h35 (by
        intro hmem
        rw [← List.mem_singleton.mp hmem] at hm
        exact hm (.inr rfl)) (by rw [slaveRun_one]; exact h1)
      subst e1
      simp only [slaveSends, Except.ok.injEq, Prod.mk.injEq] at h2
      rw [← h2.1, ← h2.2]
      exact ⟨rfl, e2, hcur⟩
  | rto => simp only [slaveSysStep, Except.ok.injEq, Prod.mk.injEq] at h; rw [← h.1, ← h.2]; exact ⟨rfl, h35, hcur⟩
  | timer => exact absurd rfl hop
  | usart rx t =>
    simp only [slaveSysStep] at h
    obtain ⟨s1, h1, h⟩ := bind_ok h
    obtain ⟨⟨s2, o2⟩, h2, h⟩ := bind_ok h
    obtain ⟨s3, h3, h⟩ := bind_ok h
    simp only [pure_eq, Except.ok.injEq, Prod.mk.injEq] at h
    obtain ⟨_, a2, a3, a4⟩ := irqRx_frame h1
    obtain ⟨b1, b2, b3⟩ := irqTx_done h2 (by rw [a2, a3, hcur])
    obtain ⟨_, c2, c3, c4⟩ := irqRto_frame h3
    rw [← h.1, ← h.2]
    exact ⟨b1, c4 (b3 (a4 h35)), by rw [c2, c3, b2]⟩

theorem Spec.DeviceTimed.Exec.no35 (hc : cfg.WF) (hx : x.Exec cfg id) {a : Nat} (h35 : (x.st a).lib.t35 ≠ .set) (hcur : (x.st a).cur = (x.st a).last)
    (n : Nat) : (∀ k, a ≤ k → k < a + n → x.op k ≠ .timer) →
    (∀ k, a ≤ k → k < a + n → x.out k = []) ∧ (x.st (a + n)).lib.t35 ≠ .set ∧ (x.st (a + n)).cur = (x.st (a + n)).last := by
  induction n with
  | zero => exact fun _ => ⟨fun k _ _ => by omega, h35, hcur⟩
  | succ n ih =>
    intro hn
    obtain ⟨i1, i2, i3⟩ := ih (fun k k1 k2 => hn k k1 (by omega))
    obtain ⟨j1, j2, j3⟩ := sysStep_no35 hc (hx.step (a + n)) (hn _ (by omega) (by omega)) i2 i3
    refine ⟨fun k k1 k2 => ?_, j2, j3⟩
    by_cases h : k = a + n
    · subst h; exact j1
    · exact i1 k k1 (by omega)

theorem Spec.DeviceTimed.Exec.rtof (hx : x.Exec cfg id) (n : Nat) :
    (x.st (n + 1)).rtof = if x.op n = .rto then true else if x.op n = .timer then false else (x.st n).rtof := sysStep_rtof (hx.step n)

theorem Spec.DeviceTimed.Exec.rtof_true (hx : x.Exec cfg id) {r : Nat} (hr : x.op r = .rto) (n : Nat) :
    (∀ k, r < k → k < r + 1 + n → x.op k ≠ .timer) → (x.st (r + 1 + n)).rtof = true := by
  induction n with
  | zero => intro _; rw [Nat.add_zero, hx.rtof, if_pos hr]
  | succ n ih =>
    intro h
    rw [← Nat.add_assoc, hx.rtof]
    split
    · rfl
    · rw [if_neg (h _ (by omega) (by omega))]
      exact ih (fun k k1 k2 => h k k1 (by omega))

theorem Spec.DeviceTimed.Exec.rtof_false (hx : x.Exec cfg id) {a : Nat} (hr : (x.st a).rtof = false) (n : Nat) :
    (∀ k, a ≤ k → k < a + n → x.op k ≠ .rto) → (x.st (a + n)).rtof = false := by
  induction n with
  | zero => exact fun _ => hr
  | succ n ih =>
    intro h
    rw [← Nat.add_assoc, hx.rtof, if_neg (h _ (by omega) (by omega))]
    split
    · rfl
    · exact ih (fun k k1 k2 => h k k1 (by omega))

/-! ### Timing -/

/-- Nothing but bytes starts silences: after a timer, without a byte there is neither a receiver timeout nor a timer. -/
theorem Spec.DeviceTimed.Hardware.still (hx : x.Exec cfg id) (hh : x.Hardware t15 t35 lat) {m z : Nat} (hm : x.op m = .timer)
    (hb : ∀ k, m < k → k ≤ z → ¬ x.Byte k) {k : Nat} (k1 : m < k) (k2 : k ≤ z) : x.op k ≠ .rto ∧ x.op k ≠ .timer := by
  have ho := hh.order
  constructor
  · intro h
    obtain ⟨j, j1, j2, j3, j4⟩ := hh.rtoOnly k h
    by_cases hj : m < j
    · exact hb j hj (by omega) j2
    · have hjm : j < m := by
        rcases Nat.lt_or_ge j m with h | h
        · exact h
        · have : j = m := by omega
          subst this
          obtain ⟨b, t, e⟩ := j2
          rw [hm] at e; cases e
      obtain ⟨j', i1, i2, i3, i4⟩ := hh.timerOnly m hm
      have : j' = j := by
        rcases Nat.lt_trichotomy j' j with h | h | h
        · exact absurd j2 (i4 j h hjm).1
        · exact h
        · exact absurd i2 (j4 j' h (by omega)).1
      subst this
      obtain ⟨n, n1, n2, n3⟩ := hh.rtoMust j' j2
      have hnm : n < m := by
        apply Classical.byContradiction
        intro h
        have := hx.time_le (show m ≤ n by omega)
        omega
      rcases n2 with n2 | n2
      · exact (i4 n n1 hnm).1 n2
      · exact (j4 n n1 (by omega)).2 n2
  · intro h
    obtain ⟨j, j1, j2, j3, j4⟩ := hh.timerOnly k h
    by_cases hj : m < j
    · exact hb j hj (by omega) j2
    · have : j ≠ m := by
        intro e
        subst e
        obtain ⟨b, t, e⟩ := j2
        rw [hm] at e; cases e
      exact (j4 m (by omega) k1).2 hm

/-- What is neither a byte nor a receiver timeout nor a timer is noise. -/
theorem Spec.DeviceTimed.Exec.noise (hx : x.Exec cfg id) {k : Nat} (h1 : ¬ x.Byte k) (h2 : x.op k ≠ .rto) (h3 : x.op k ≠ .timer) : (x.op k).noise cfg := by
  have h4 := hx.main k
  cases ho : x.op k with
  | rto => exact absurd ho h2
  | timer => exact absurd ho h3
  | usart rx t =>
    cases rx with
    | none => trivial
    | some b => exact absurd ⟨b, t, ho⟩ h1
  | main op =>
    have := h4 op ho
    cases op with
    | register t a p => cases t <;> exact this
    | poll | appBool | appReg => trivial
    | init | t15 | t35 | frameErr | rxByte | txDone => exact this.elim

/-- The last byte before an event. -/
theorem Spec.DeviceTimed.last_byte (x : DeviceTimed) {a b : Nat} (h : ∃ k, a ≤ k ∧ k < b ∧ x.Byte k) :
    ∃ k, a ≤ k ∧ k < b ∧ x.Byte k ∧ ∀ j, k < j → j < b → ¬ x.Byte j := by
  induction b with
  | zero => obtain ⟨k, _, h, _⟩ := h; omega
  | succ b ih =>
    by_cases hb : x.Byte b
    · obtain ⟨k, k1, k2, k3⟩ := h
      exact ⟨b, by omega, by omega, hb, fun j j1 j2 => by omega⟩
    · obtain ⟨k, k1, k2, k3⟩ := h
      have : k ≠ b := fun e => hb (e ▸ k3)
      obtain ⟨i, i1, i2, i3, i4⟩ := ih ⟨k, k1, by omega, k3⟩
      refine ⟨i, i1, by omega, i3, fun j j1 j2 => ?_⟩
      by_cases e : j = b
      · subst e; exact hb
      · exact i4 j j1 (by omega)

/-- The first event of a kind from `n` on. -/
theorem first_from (Q : Nat → Prop) {n m : Nat} (h : n ≤ m) (hm : Q m) : ∃ k, n ≤ k ∧ k ≤ m ∧ Q k ∧ ∀ j, n ≤ j → j < k → ¬ Q j := by
  induction m using Nat.strongRecOn with
  | ind m ih =>
    by_cases hex : ∃ j, n ≤ j ∧ j < m ∧ Q j
    · obtain ⟨j, j1, j2, j3⟩ := hex
      obtain ⟨k, k1, k2, k3, k4⟩ := ih j j2 j1 j3
      exact ⟨k, k1, by omega, k3, k4⟩
    · exact ⟨m, h, Nat.le_refl _, hm, fun j j1 j2 j3 => hex ⟨j, j1, j2, j3⟩⟩

/-- A point right after a timer event, or the beginning. -/
def DevStart (x : DeviceTimed) (c : Nat) : Prop := c = 0 ∨ x.op (c - 1) = .timer

/-- A byte, a receiver timeout or a timer event. -/
def LineEv (x : DeviceTimed) (k : Nat) : Prop := x.Byte k ∨ x.op k = .rto ∨ x.op k = .timer

theorem timer_not_byte {m : Nat} (hm : x.op m = .timer) : ¬ x.Byte m := by
  rintro ⟨b, t, e⟩; rw [hm] at e; cases e

theorem rto_not_byte {m : Nat} (hm : x.op m = .rto) : ¬ x.Byte m := by
  rintro ⟨b, t, e⟩; rw [hm] at e; cases e

/-- The last byte before the timer of a frame. -/
theorem frame_last (hh : x.Hardware t15 t35 lat) {c e m : Nat} (hs : DevStart x c) (hce : c ≤ e)
    (hl : ∀ k, c ≤ k → k < e → ¬ LineEv x k) (hm : x.op m = .timer) (hem : e ≤ m) :
    ∃ k, e ≤ k ∧ k < m ∧ x.Byte k ∧ x.time k + t35 ≤ x.time m ∧ ∀ j, k < j → j < m → ¬ x.Byte j := by
  obtain ⟨k, k1, k2, k3, k4⟩ := hh.timerOnly m hm
  have hck : c ≤ k := by
    apply Classical.byContradiction
    intro h
    rcases hs with h0 | h0
    · omega
    · by_cases hk : k = c - 1
      · subst hk; exact timer_not_byte h0 k2
      · exact (k4 (c - 1) (by omega) (by omega)).2 h0
  have hek : e ≤ k := by
    apply Classical.byContradiction
    intro h
    exact hl k hck (by omega) (.inl k2)
  exact ⟨k, hek, k1, k2, k3, fun j j1 j2 => (k4 j j1 j2).1⟩

/-- The receiver timeout of a frame and the interrupt for it. -/
theorem frame_rto (hx : x.Exec cfg id) (hh : x.Hardware t15 t35 lat) {c e m : Nat} (hs : DevStart x c) (hce : c ≤ e)
    (hl : ∀ k, c ≤ k → k < e → ¬ LineEv x k) (hem : e ≤ m) (hn : ∀ k, e ≤ k → k < m → x.op k ≠ .timer) (hm : x.op m = .timer) :
    ∃ r fb ft, e ≤ r ∧ r + 1 < m ∧ x.op r = .rto ∧ x.op (r + 1) = .usart fb ft ∧ ∀ k, e ≤ k → k < r → x.op k ≠ .rto := by
  obtain ⟨k, k1, k2, k3, k4, k5⟩ := frame_last hh hs hce hl hm hem
  have ho := hh.order
  obtain ⟨n, n1, n2, n3⟩ := hh.rtoMust k k3
  have hnm : n < m := by
    apply Classical.byContradiction
    intro h
    have := hx.time_le (show m ≤ n by omega)
    omega
  have hn2 : x.op n = .rto := by
    rcases n2 with h | h
    · exact absurd h (k5 n n1 hnm)
    · exact h
  obtain ⟨r, r1, r2, r3, r4⟩ := first_from (fun k => x.op k = .rto) (show e ≤ n by omega) hn2
  have hrt : (x.st (r + 1)).rtof = true := hx.rtof_true r3 0 (fun j j1 j2 => by omega)
  have hne : ∃ fb ft, x.op (r + 1) = .usart fb ft := by
    cases hop : x.op (r + 1) with
    | usart fb ft => exact ⟨fb, ft, rfl⟩
    | main op => exact absurd hop (hh.stalled _ op hrt)
    | rto =>
      obtain ⟨j, j1, j2, _, j4⟩ := hh.rtoOnly _ hop
      by_cases hj : j = r
      · subst hj; exact absurd j2 (rto_not_byte r3)
      · exact absurd r3 (j4 r (by omega) (by omega)).2
    | timer =>
      have hmr : m = r + 1 := by
        apply Classical.byContradiction
        intro h
        exact hn (r + 1) (by omega) (by omega) hop
      have hrn : r = n := by omega
      obtain ⟨i, rx, txe, i1, i2, i3⟩ := hh.irq r r3
      have hi : r + 1 ≤ i := i1
      have := hx.time_le hi
      rw [← hmr] at this
      rw [← hrn] at n3
      omega
  obtain ⟨fb, ft, hf⟩ := hne
  refine ⟨r, fb, ft, r1, ?_, r3, hf, r4⟩
  apply Classical.byContradiction
  intro h
  have : m = r + 1 := by omega
  rw [← this, hm] at hf
  cases hf

/-- The main program polls within `P`, unless RTOF is or gets set. -/
def DevPolls (x : DeviceTimed) (P : Nat) : Prop :=
  ∀ n, (x.st (n + 1)).rtof = false → ∃ m, n < m ∧ x.time m ≤ x.time n + P ∧ (x.op m = .main .poll ∨ x.op m = .rto)

/-- Event `p` has started the transmission of `F`. -/
structure DevSends (x : DeviceTimed) (p : Nat) (F : List U8) : Prop where
  out : ∃ b, x.out p = [.send F, .tdr b]
  st : (x.st (p + 1)).lib.st = .transmitting
  txf : (x.st (p + 1)).lib.txf = .set
  t35 : (x.st (p + 1)).lib.t35 = .cleared
  live : Live (x.st (p + 1)).lib
  cur : (x.st (p + 1)).cur = 0
  last : (x.st (p + 1)).last + 1 = F.length
  len : F.length ≤ 255

/-- The transmit interrupts for it come within `X`, and no byte comes in until more than `P` later. -/
def DevTx (x : DeviceTimed) (P X p : Nat) : Prop :=
  ∀ F, DevSends x p F → ∃ w, p < w ∧ x.time w ≤ x.time p + X ∧ F.length ≤ (x.seg (p + 1) (w + 1)).count (.usart none true) ∧
    ∀ k, p < k → x.Byte k → x.time w + P < x.time k

theorem Spec.DeviceTimed.Punctual.devTx (hp : x.Punctual P X) (p : Nat) : DevTx x P X p := by
  intro F h
  obtain ⟨b, hb⟩ := h.out
  exact hp.tx p F (by rw [hb]; exact List.mem_cons_self ..)

/-- The next poll, when no byte comes in. -/
theorem next_poll (hx : x.Exec cfg id) (hh : x.Hardware t15 t35 lat) (hp : DevPolls x P) {m n z : Nat} (hm : x.op m = .timer) (hmn : m ≤ n)
    (hr : (x.st (n + 1)).rtof = false) (hz : ∀ k, m < k → x.time k ≤ z → ¬ x.Byte k) (ht : x.time n + P ≤ z) :
    ∃ v, n < v ∧ x.op v = .main .poll ∧ x.time v ≤ x.time n + P ∧ (x.st (v + 1)).rtof = false := by
  obtain ⟨v, v1, v2, v3⟩ := hp n hr
  have hb : ∀ k, m < k → k ≤ v → ¬ x.Byte k := fun k k1 k2 => hz k k1 (by have := hx.time_le k2; omega)
  rcases v3 with v3 | v3
  · refine ⟨v, v1, v3, v2, ?_⟩
    have := hx.rtof_false hr (v - n) (fun k k1 k2 => (hh.still hx hm hb (show m < k by omega) (by omega)).1)
    rwa [show n + 1 + (v - n) = v + 1 by omega] at this
  · exact absurd v3 (hh.still hx hm hb (by omega) (Nat.le_refl _)).1

/-- The acting poll answers: the whole response goes out, and the device is at rest again before the next byte. -/
theorem dev_answer (hc : cfg.WF) (hx : x.Exec cfg id) (hh : x.Hardware t15 t35 lat) (hp : DevPolls x P) {m p c : Nat} (htx : DevTx x P X p) {l : Slave}
    (hm : x.op m = .timer) (hmp : m < p) (hb : ∀ k, m < k → k ≤ p → ¬ x.Byte k) (ho : x.op p = .main .poll) (hst : x.st p = ⟨l, c, c, false, false⟩)
    (hl : Live l) (h1 : l.st = .msgReceived) (h2 : l.t15 = .cleared) (h3 : l.t35 = .set) (h4 : l.ferr = .cleared) :
    (x.st (p + 1)).lib.mem = effect cfg.limits l.mem (requestOf l.req) ∧
    DevSends x p (rtuFrame l.id (encodeResponse (respond cfg.limits l.mem (requestOf l.req)))) ∧
    ∃ q v, p ≤ q ∧ q < v ∧ x.time q ≤ x.time p + X ∧
      wire (x.outs p (q + 1)) = rtuFrame l.id (encodeResponse (respond cfg.limits l.mem (requestOf l.req))) ∧
      frames (x.outs p (q + 1)) = [rtuFrame l.id (encodeResponse (respond cfg.limits l.mem (requestOf l.req)))] ∧
      HSync (x.st (v + 1)) ∧ (x.st (v + 1)).lib.id = l.id ∧ (∀ k, q < k → k ≤ v → x.out k = []) ∧ ∀ k, p < k → k ≤ v → ¬ LineEv x k := by
  obtain ⟨resp, respLen, hans, hbuf⟩ := slaveMsgReceived_send cfg hc hl.msgPtr hl.dataSet hl.drv h4 h3
  have hlen := encode_len cfg.limits l.mem (requestOf l.req)
  revert hans hbuf
  generalize hF : rtuFrame l.id (encodeResponse (respond cfg.limits l.mem (requestOf l.req))) = F
  intro hans hbuf
  have hFl : respLen.toNat = F.length := by rw [← hbuf, Buf.bytes_length]
  have hFl2 : 3 ≤ F.length := by rw [← hF, rtuFrame_length]; omega
  have hr256 := respLen.isLt
  obtain ⟨L, hL⟩ : ∃ L : Slave, L = { l with resp := resp, respLen := respLen, mem := effect cfg.limits l.mem (requestOf l.req), txf := .set, st := .transmitting, t35 := .cleared } := ⟨_, rfl⟩
  have y0 : slaveSysStep cfg (x.st p) (.main .poll) = .ok (⟨L, 0, respLen.toNat - 1, false, false⟩, [.send F, .tdr (resp 0)]) := by
    rw [hst]
    have hstep : slaveStep cfg l .poll = .ok (L, [.send F]) := by
      simp only [slaveStep, slavePoll, h1]
      rw [hL]; exact hans
    have hm : ¬ ((⟨l, c, c, false, false⟩ : SlaveSys).rtof = true ∨ SOp.poll.isMain = false) := by
      rintro (h | h) <;> cases h
    have hpos : 0 < L.respLen.toNat := by rw [hL]; show 0 < respLen.toNat; omega
    simp only [slaveSysStep, if_neg hm, hstep, ok_bind, slaveSends, slaveUsartSend, if_pos hpos, rd_ok L.resp (show 0 < 256 by decide), pure_eq]
    rw [hL]; rfl
  obtain ⟨e1, o1⟩ := hx.step_eq ho y0
  have v0 : Live L := by rw [hL]; exact live_of hl rfl rfl rfl rfl
  have hds : DevSends x p F :=
    ⟨⟨_, o1⟩, by rw [e1, hL], by rw [e1, hL], by rw [e1, hL], by rw [e1]; exact v0, by rw [e1], by rw [e1]; show respLen.toNat - 1 + 1 = _; omega, by omega⟩
  refine ⟨by rw [e1, hL], hds, ?_⟩
  obtain ⟨w, w1, w2, w3, w4⟩ := htx F hds
  have hz : ∀ k, m < k → x.time k ≤ x.time w + P → ¬ x.Byte k := by
    intro k k1 k2 hk
    by_cases h : k ≤ p
    · exact hb k k1 h hk
    · have := w4 k (by omega) hk
      omega
  have hbw : ∀ k, m < k → k ≤ w → ¬ x.Byte k := fun k k1 k2 => hz k k1 (by have := hx.time_le k2; omega)
  have rw' : (x.st (w + 1)).rtof = false := by
    have := hx.rtof_false (a := p + 1) (by rw [e1]) (w - p) (fun k k1 k2 => (hh.still hx hm hbw (show m < k by omega) (by omega)).1)
    rwa [show p + 1 + (w - p) = w + 1 by omega] at this
  obtain ⟨v, v1, v2, v3, _⟩ := next_poll hx hh hp hm (show m ≤ w by omega) rw' hz (Nat.le_refl _)
  have hbv : ∀ k, m < k → k ≤ v → ¬ x.Byte k := fun k k1 k2 => hz k k1 (by have := hx.time_le k2; omega)
  have nl : ∀ k, p < k → k ≤ v → ¬ LineEv x k := by
    rintro k k1 k2 (h | h | h)
    · exact hbv k (by omega) k2 h
    · exact (hh.still hx hm hbv (show m < k by omega) k2).1 h
    · exact (hh.still hx hm hbv (show m < k by omega) k2).2 h
  have hnz : ∀ k, p < k → k ≤ v → (x.op k).noise cfg := fun k k1 k2 =>
    hx.noise (fun h => nl k k1 k2 (.inl h)) (fun h => nl k k1 k2 (.inr (.inl h))) (fun h => nl k k1 k2 (.inr (.inr h)))
  obtain ⟨g1, g2, hsp, y1⟩ := tx_sys hc (x.seg (p + 1) (w + 1)) L 0 (respLen.toNat - 1) v0 (by rw [hL]) (by rw [hL]) (Nat.zero_le _) (by omega)
    (by
      intro op hop
      obtain ⟨k, k1, k2, rfl⟩ := DeviceTimed.mem_seg.1 hop
      exact hnz k (by omega) (by omega)) (by omega)
  obtain ⟨s1, s2, s3, s4⟩ := x.seg_at hsp
  rw [← e1, s2] at y1
  obtain ⟨e2, o2⟩ := hx.seg_eq (by omega) y1
  have hend := end_sys hc (l := { L with mem := appMem L.mem (hstrip (x.seg (p + 1) (p + 1 + g1.length))) }) (c := respLen.toNat - 1)
    (live_of v0 rfl rfl rfl rfl) (by rw [hL]) (by rw [hL]; exact h2) (h := x.seg (p + 1 + g1.length + 1) (v + 1)) (by
      intro op hop
      obtain ⟨k, k1, k2, rfl⟩ := DeviceTimed.mem_seg.1 hop
      exact hnz k (by omega) (by omega)) (by
      apply List.count_pos_iff.2
      exact DeviceTimed.mem_seg.2 ⟨v, by omega, by omega, v2⟩)
  obtain ⟨l5, y5, v5, e5⟩ := hend
  rw [← e2, ← s3, ← x.seg_cons (show p + 1 + g1.length < v + 1 by omega)] at y5
  obtain ⟨e6, o6⟩ := hx.seg_eq (by omega) y5
  obtain ⟨e5st, e515, e535, e5f, e5x, e5i, e5r, e5n, e5m⟩ := sig_eqs e5
  have houts : x.outs p (p + g1.length + 1) = [HOut.send F, .tdr (resp 0)] ++ ((L.resp.bytes 0 (respLen.toNat - 1 + 1)).drop (0 + 1)).map .tdr := by
    rw [x.outs_split (show p ≤ p + 1 by omega) (show p + 1 ≤ p + g1.length + 1 by omega), x.outs_one, o1,
      show p + g1.length + 1 = p + 1 + g1.length by omega, o2]
  refine ⟨p + g1.length, v, by omega, by omega, ?_, ?_, ?_, ?_, ?_, ?_, nl⟩
  · have := hx.time_le (show p + g1.length ≤ w by omega); omega
  · rw [houts, wire_append, wire_tdr]
    have hr : L.resp.bytes 0 (respLen.toNat - 1 + 1) = F := by
      rw [hL, Nat.sub_add_cancel (by omega)]; exact hbuf
    rw [hr]
    have h0 : resp 0 = F[0]'(by omega) := by
      have : F[0]? = some (resp 0) := by
        rw [← hbuf]
        obtain ⟨n, hn⟩ : ∃ n, respLen.toNat = n + 1 := ⟨respLen.toNat - 1, by omega⟩
        rw [hn, Buf.bytes_succ]; rfl
      rw [List.getElem?_eq_getElem (by omega)] at this
      exact (Option.some.inj this).symm
    show resp 0 :: F.drop 1 = F
    rw [h0]
    exact (List.drop_eq_getElem_cons (i := 0) (by omega)).symm
  · rw [houts, frames_append, frames_tdr]; rfl
  · rw [e6]
    refine ⟨⟨v5, e5st, e515, ?_, ?_, e5n⟩, e5x, rfl, rfl, rfl⟩
    · rw [e535, hL]
    · rw [e5f, hL]; exact h4
  · rw [e6]; show l5.id = _; rw [e5i, hL]
  · intro k k1 k2
    exact DeviceTimed.outs_nil o6 (by omega) (by omega)

/-- A good frame for the device came in between events `e` and `m`: the bytes up to the receiver timeout `r`, one `fb` with its interrupt, and nothing
afterwards; `l1` is the state of the library after them. -/
def FrameTaken (x : DeviceTimed) (id : U8) (e m : Nat) : Prop :=
  ∃ (r : Nat) (fb : Option U8) (l1 : Slave), (∃ ft, e ≤ r ∧ r + 1 < m ∧ x.op r = .rto ∧ x.op (r + 1) = .usart fb ft) ∧ l1.id = id ∧ l1.frameOk ∧
    hbytes (x.seg (r + 2) m) = [] ∧
    ((hbytes (x.seg e r) ++ fb.toList).length ≤ 255 → l1.reqLen.toNat = (hbytes (x.seg e r) ++ fb.toList).length ∧
      ∀ i, i < (hbytes (x.seg e r) ++ fb.toList).length → l1.req i = (hbytes (x.seg e r) ++ fb.toList).getD i 0)

/-- One frame: the acting poll, what goes out, and rest again before anything else arrives. -/
theorem dev_cycle_taken (hc : cfg.WF) (hx : x.Exec cfg id) (hh : x.Hardware t15 t35 lat) (hp : DevPolls x P) {c e m : Nat}
    (hq : ∀ k, m < k → x.Byte k → x.time m + 2 * P < x.time k)
    (htx : FrameTaken x id e m → ∀ p, m < p → x.time p ≤ x.time m + 2 * P → (∀ k, e ≤ k → k < p → x.out k = []) → DevTx x P X p) (hs : DevStart x c) (hce : c ≤ e)
    (hl : ∀ k, c ≤ k → k < e → ¬ LineEv x k) (hsy : HSync (x.st e)) (hid : (x.st e).lib.id = id) (hem : e ≤ m)
    (hn : ∀ k, e ≤ k → k < m → x.op k ≠ .timer) (hm : x.op m = .timer) :
    ∃ (r : Nat) (fb : Option U8) (ft : Bool) (l1 : Slave) (p e' : Nat), e ≤ r ∧ r + 1 < m ∧ x.op r = .rto ∧ x.op (r + 1) = .usart fb ft ∧
      (∀ k, e ≤ k → k < r → x.op k ≠ .rto) ∧
      m < p ∧ p < e' ∧ x.op p = .main .poll ∧ x.time p ≤ x.time m + 2 * P ∧ (∀ k, e ≤ k → k < p → x.out k = []) ∧
      HSync (x.st e') ∧ (x.st e').lib.id = id ∧ (∀ k, m < k → k < e' → ¬ LineEv x k) ∧ l1.id = id ∧
      (hbytes (x.seg (r + 2) m) = [] → (hbytes (x.seg e r) ++ fb.toList).length ≤ 255 →
        l1.reqLen.toNat = (hbytes (x.seg e r) ++ fb.toList).length ∧
        ∀ i, i < (hbytes (x.seg e r) ++ fb.toList).length → l1.req i = (hbytes (x.seg e r) ++ fb.toList).getD i 0) ∧
      if l1.frameOk ∧ hbytes (x.seg (r + 2) m) = [] then
        (x.st (p + 1)).lib.mem = effect cfg.limits (x.st p).lib.mem (requestOf l1.req) ∧
        DevSends x p (rtuFrame id (encodeResponse (respond cfg.limits (x.st p).lib.mem (requestOf l1.req)))) ∧
        ∃ q, p ≤ q ∧ q < e' ∧ x.time q ≤ x.time p + X ∧
          wire (x.outs p (q + 1)) = rtuFrame id (encodeResponse (respond cfg.limits (x.st p).lib.mem (requestOf l1.req))) ∧
          frames (x.outs p (q + 1)) = [rtuFrame id (encodeResponse (respond cfg.limits (x.st p).lib.mem (requestOf l1.req)))] ∧
          ∀ k, q < k → k < e' → x.out k = []
      else ∀ k, p ≤ k → k < e' → x.out k = [] := by
  obtain ⟨r, fb, ft, r1, r2, r3, r4, r5⟩ := frame_rto hx hh hs hce hl hem hn hm
  have q2 : ∀ k, m < k → x.time k ≤ x.time m + 2 * P → ¬ x.Byte k := by
    intro k k1 k2 hk
    have := hq k k1 hk
    omega
  have rm : (x.st (m + 1)).rtof = false := by
    rw [hx.rtof, hm]; rfl
  obtain ⟨p1, p11, p12, p13, p14⟩ := next_poll hx hh hp hm (Nat.le_refl m) rm q2 (by omega)
  obtain ⟨p2, p21, p22, p23, _⟩ := next_poll hx hh hp hm (show m ≤ p1 by omega) p14 q2 (by omega)
  have hb2 : ∀ k, m < k → k ≤ p2 → ¬ x.Byte k := fun k k1 k2 => q2 k k1 (by have := hx.time_le k2; omega)
  have nl2 : ∀ k, m < k → k ≤ p2 → ¬ LineEv x k := by
    rintro k k1 k2 (h | h | h)
    · exact hb2 k k1 k2 h
    · exact (hh.still hx hm hb2 k1 k2).1 h
    · exact (hh.still hx hm hb2 k1 k2).2 h
  have hnz : ∀ k, m < k → k ≤ p2 → (x.op k).noise cfg := fun k k1 k2 =>
    hx.noise (fun h => nl2 k k1 k2 (.inl h)) (fun h => nl2 k k1 k2 (.inr (.inl h))) (fun h => nl2 k k1 k2 (.inr (.inr h)))
  obtain ⟨E, hE⟩ : ∃ E : HExchange, E = { rx := x.seg e r, fb := fb, ft := ft, gap := x.seg (r + 2) m, n2 := x.seg (m + 1) (p2 + 1), tx := [], n3 := [] } := ⟨_, rfl⟩
  have hwf : E.WF cfg := by
    rw [hE]
    refine ⟨?_, ?_, ?_, ?_⟩
    · intro op hop
      obtain ⟨k, k1, k2, rfl⟩ := DeviceTimed.mem_seg.1 hop
      by_cases hb : x.Byte k
      · obtain ⟨b, t, e⟩ := hb; rw [e]; trivial
      · exact (hx.noise hb (r5 k k1 k2) (hn k k1 (by omega))).rx
    · intro op hop
      obtain ⟨k, k1, k2, rfl⟩ := DeviceTimed.mem_seg.1 hop
      have hrt : (x.st k).rtof = true := by
        have := hx.rtof_true r3 (k - (r + 1)) (fun j j1 j2 => hn j (by omega) (by omega))
        rwa [show r + 1 + (k - (r + 1)) = k by omega] at this
      cases ho : x.op k with
      | main op => exact absurd ho (hh.stalled k op hrt)
      | timer => exact absurd ho (hn k (by omega) k2)
      | rto | usart => trivial
    · intro op hop
      obtain ⟨k, k1, k2, rfl⟩ := DeviceTimed.mem_seg.1 hop
      exact hnz k (by omega) (by omega)
    · show 2 ≤ List.count _ (x.seg (m + 1) (p2 + 1))
      rw [x.seg_split (show m + 1 ≤ p1 + 1 by omega) (show p1 + 1 ≤ p2 + 1 by omega), List.count_append]
      have a1 : 0 < List.count (HOp.main SOp.poll) (x.seg (m + 1) (p1 + 1)) :=
        List.count_pos_iff.2 (DeviceTimed.mem_seg.2 ⟨p1, by omega, by omega, p12⟩)
      have a2 : 0 < List.count (HOp.main SOp.poll) (x.seg (p1 + 1) (p2 + 1)) :=
        List.count_pos_iff.2 (DeviceTimed.mem_seg.2 ⟨p2, by omega, by omega, p22⟩)
      omega
  have hrecv : E.recv = x.seg e (m + 1) := by
    rw [hE]
    show x.seg e r ++ .rto :: .usart fb ft :: (x.seg (r + 2) m ++ [.timer]) = _
    rw [x.seg_split r1 (show r ≤ m + 1 by omega), x.seg_cons (show r < m + 1 by omega), x.seg_cons (show r + 1 < m + 1 by omega), r3, r4,
      x.seg_split (show r + 1 + 1 ≤ m by omega) (show m ≤ m + 1 by omega), x.seg_one, hm]
  obtain ⟨l1, y1, v1, st1, t1, u1, x1, i1, m1, f1, b1⟩ := recv_sys hc hsy hwf
  rw [hrecv] at y1
  obtain ⟨e1, o1⟩ := hx.seg_eq (by omega) y1
  obtain ⟨a, b, l2, hab, y2, v2, e2⟩ := decide_sys hc v1 st1 t1 u1 x1 (c := (x.st e).last) hwf.n2 hwf.polls2
  rw [hsy.cur] at e1
  have hab' : x.seg (m + 1) (p2 + 1) = a ++ .main .poll :: b := by rw [← hab, hE]
  obtain ⟨s1, s2, s3, s4⟩ := x.seg_at hab'
  rw [← e1, s2] at y2
  obtain ⟨e3, o3⟩ := hx.seg_eq (by omega) y2
  obtain ⟨e2st, e215, e235, e2f, e2x, e2i, e2r, e2n, e2m⟩ := sig_eqs e2
  generalize hpdef : m + 1 + a.length = p at *
  have hpt : x.time p ≤ x.time m + 2 * P := by
    have := hx.time_le (show p ≤ p2 by omega); omega
  have hout : ∀ k, e ≤ k → k < p → x.out k = [] := by
    intro k k1 k2
    by_cases h : k < m + 1
    · exact DeviceTimed.outs_nil o1 k1 h
    · exact DeviceTimed.outs_nil o3 (by omega) k2
  have hgapE : E.gap = x.seg (r + 2) m := by rw [hE]
  have hfr : E.frame = hbytes (x.seg e r) ++ fb.toList := by rw [hE]; rfl
  rw [hgapE] at f1 b1
  rw [hfr] at b1
  by_cases hok : l1.frameOk ∧ hbytes (x.seg (r + 2) m) = []
  · have hf : l2.ferr = .cleared := by rw [e2f, if_pos hok.1, f1, if_pos hok.2]
    have hft : FrameTaken x id e m := ⟨r, fb, l1, ⟨ft, r1, r2, r3, r4⟩, by rw [i1, hid], hok.1, hok.2, b1 hok.2⟩
    obtain ⟨d1, d0, q, v, d2, d3, d4, d5, d6, d7, d8, d9, d10⟩ := dev_answer hc hx hh hp (htx hft p (by omega) hpt hout) hm (show m < p by omega)
      (fun k k1 k2 => hb2 k k1 (by omega)) s3 e3 v2 e2st e215 e235 hf
    refine ⟨r, fb, ft, l1, p, v + 1, r1, r2, r3, r4, r5, by omega, by omega, s3, hpt, hout, d7, by rw [d8, e2i, i1, hid], ?_, by rw [i1, hid], b1, ?_⟩
    · intro k k1 k2
      by_cases h : k ≤ p
      · exact nl2 k k1 (by omega)
      · exact d10 k (by omega) (by omega)
    · rw [if_pos hok]
      have hmem : (x.st p).lib.mem = l2.mem := by rw [e3]
      rw [e2r] at d0 d1 d5 d6
      rw [e2i, i1, hid] at d0 d5 d6
      rw [hmem]
      exact ⟨d1, d0, q, d2, by omega, d4, d5, d6, fun k k1 k2 => d9 k k1 (by omega)⟩
  · have hf : l2.ferr = .set := by
      rw [e2f, f1]
      by_cases h1 : l1.frameOk
      · rw [if_pos h1, if_neg (fun h => hok ⟨h1, h⟩)]
      · rw [if_neg h1]
    have p3 : slaveStep cfg l2 .poll = .ok ({ l2 with reqLen := 0, st := .idle, ferr := .cleared, t35 := .cleared }, []) := by
      simp only [slaveStep, slavePoll, e2st]
      exact slaveMsgReceived_drop cfg v2.msgPtr hf e235
    have y3 : slaveSysStep cfg (x.st p) (.main .poll) =
        .ok (⟨{ l2 with reqLen := 0, st := .idle, ferr := .cleared, t35 := .cleared }, (x.st e).last, (x.st e).last, false, false⟩, []) := by
      rw [e3]
      have hm : ¬ ((⟨l2, (x.st e).last, (x.st e).last, false, false⟩ : SlaveSys).rtof = true ∨ SOp.poll.isMain = false) := by
        rintro (h | h) <;> cases h
      simp only [slaveSysStep, if_neg hm, p3, ok_bind, slaveSends]
    obtain ⟨e4, o4⟩ := hx.step_eq s3 y3
    refine ⟨r, fb, ft, l1, p, p + 1, r1, r2, r3, r4, r5, by omega, by omega, s3, hpt, hout, ?_, ?_, ?_, by rw [i1, hid], b1, ?_⟩
    · rw [e4]
      exact ⟨⟨live_of v2 rfl rfl rfl rfl, rfl, e215, rfl, rfl, rfl⟩, e2x, rfl, rfl, rfl⟩
    · rw [e4]; show l2.id = id; rw [e2i, i1, hid]
    · intro k k1 k2; exact nl2 k k1 (by omega)
    · rw [if_neg hok]
      intro k k1 k2
      have : k = p := by omega
      subst this; exact o4

/-- One frame: the acting poll, what goes out, and rest again before anything else arrives. -/
theorem dev_cycle (hc : cfg.WF) (hx : x.Exec cfg id) (hh : x.Hardware t15 t35 lat) (hp : DevPolls x P) {c e m : Nat}
    (hq : ∀ k, m < k → x.Byte k → x.time m + 2 * P < x.time k)
    (htx : ∀ p, m < p → x.time p ≤ x.time m + 2 * P → (∀ k, e ≤ k → k < p → x.out k = []) → DevTx x P X p) (hs : DevStart x c) (hce : c ≤ e)
    (hl : ∀ k, c ≤ k → k < e → ¬ LineEv x k) (hsy : HSync (x.st e)) (hid : (x.st e).lib.id = id) (hem : e ≤ m)
    (hn : ∀ k, e ≤ k → k < m → x.op k ≠ .timer) (hm : x.op m = .timer) :
    ∃ (r : Nat) (fb : Option U8) (ft : Bool) (l1 : Slave) (p e' : Nat), e ≤ r ∧ r + 1 < m ∧ x.op r = .rto ∧ x.op (r + 1) = .usart fb ft ∧
      (∀ k, e ≤ k → k < r → x.op k ≠ .rto) ∧
      m < p ∧ p < e' ∧ x.op p = .main .poll ∧ x.time p ≤ x.time m + 2 * P ∧ (∀ k, e ≤ k → k < p → x.out k = []) ∧
      HSync (x.st e') ∧ (x.st e').lib.id = id ∧ (∀ k, m < k → k < e' → ¬ LineEv x k) ∧ l1.id = id ∧
      (hbytes (x.seg (r + 2) m) = [] → (hbytes (x.seg e r) ++ fb.toList).length ≤ 255 →
        l1.reqLen.toNat = (hbytes (x.seg e r) ++ fb.toList).length ∧
        ∀ i, i < (hbytes (x.seg e r) ++ fb.toList).length → l1.req i = (hbytes (x.seg e r) ++ fb.toList).getD i 0) ∧
      if l1.frameOk ∧ hbytes (x.seg (r + 2) m) = [] then
        (x.st (p + 1)).lib.mem = effect cfg.limits (x.st p).lib.mem (requestOf l1.req) ∧
        DevSends x p (rtuFrame id (encodeResponse (respond cfg.limits (x.st p).lib.mem (requestOf l1.req)))) ∧
        ∃ q, p ≤ q ∧ q < e' ∧ x.time q ≤ x.time p + X ∧
          wire (x.outs p (q + 1)) = rtuFrame id (encodeResponse (respond cfg.limits (x.st p).lib.mem (requestOf l1.req))) ∧
          frames (x.outs p (q + 1)) = [rtuFrame id (encodeResponse (respond cfg.limits (x.st p).lib.mem (requestOf l1.req)))] ∧
          ∀ k, q < k → k < e' → x.out k = []
      else ∀ k, p ≤ k → k < e' → x.out k = [] :=
  dev_cycle_taken hc hx hh hp hq (fun _ => htx) hs hce hl hsy hid hem hn hm

theorem dev_last_start (x : DeviceTimed) (m : Nat) : ∃ c, c ≤ m ∧ DevStart x c ∧ ∀ k, c ≤ k → k < m → x.op k ≠ .timer := by
  induction m with
  | zero => exact ⟨0, Nat.le_refl _, .inl rfl, fun k _ h => by omega⟩
  | succ m ih =>
    by_cases h : x.op m = .timer
    · exact ⟨m + 1, Nat.le_refl _, .inr h, fun k _ _ => by omega⟩
    · obtain ⟨c, c1, c2, c3⟩ := ih
      refine ⟨c, by omega, c2, fun k k1 k2 => ?_⟩
      by_cases hk : k = m
      · subst hk; exact h
      · exact c3 k k1 (by omega)

/-- After every timer event the device is at rest before anything else arrives. -/
theorem dev_rest (hc : cfg.WF) (hx : x.Exec cfg id) (hh : x.Hardware t15 t35 lat) (hp : x.Punctual P X) (c : Nat) : DevStart x c →
    ∃ e, c ≤ e ∧ (∀ k, c ≤ k → k < e → ¬ LineEv x k) ∧ HSync (x.st e) ∧ (x.st e).lib.id = id := by
  induction c using Nat.strongRecOn with
  | ind c ih =>
    intro hs
    by_cases h0 : c = 0
    · subst h0
      obtain ⟨m, hm⟩ := hx.init
      obtain ⟨s, h1, h2, h3, _⟩ := hsync_after_init cfg m id
      rw [h1] at hm
      simp only [Except.ok.injEq, Prod.mk.injEq] at hm
      refine ⟨0, Nat.le_refl _, fun k _ h => by omega, ?_, ?_⟩
      · rw [← hm.1]; exact h2
      · rw [← hm.1]; exact h3
    · have hm : x.op (c - 1) = .timer := by
        rcases hs with h | h
        · exact absurd h h0
        · exact h
      obtain ⟨c0, d1, d2, d3⟩ := dev_last_start x (c - 1)
      obtain ⟨e0, f1, f2, f3, f4⟩ := ih c0 (by omega) d2
      have hem : e0 ≤ c - 1 := by
        apply Classical.byContradiction
        intro h
        exact f2 (c - 1) d1 (by omega) (.inr (.inr hm))
      obtain ⟨r, fb, ft, l1, p, e', _, _, _, _, _, g1, g2, _, _, _, g6, g7, g8, _⟩ :=
        dev_cycle hc hx hh hp.poll (fun k k1 hk => hp.quiet (c - 1) k k1 hm hk) (fun p _ _ _ => hp.devTx p) d2 f1 f2 f3 f4 hem (fun k k1 k2 => d3 k (by omega) k2) hm
      exact ⟨e', by omega, fun k k1 k2 => g8 k (by omega) k2, g6, g7⟩

end

end Modbus
