import Verif.Proofs.MasterPcDevice
import Verif.Props.DeviceMasterTimed

/-! **C83**: interrupts and system ticks between any two statements of the master's polls, in real time. -/

namespace Modbus

open Spec

section
variable {cfg : Config} {x : MStmtTimed} {t15 t35 lat P D X : Nat}

/-- **C83.** Interrupts and ticks between any two statements of a poll make no difference: under the timing conditions, every execution with interrupts
between the statements of the polls is like one with uninterrupted polls that satisfies the conditions of C73. -/
theorem C83_polls_are_atomic (hw : cfg.MWF) (hT : 2 ≤ cfg.respTimeout) (hx : x.Exec cfg) (hh : x.Hardware t15 t35 lat)
    (ha : x.OneAnswer P cfg.respTimeout) (hp : x.Punctual P D X) :
    ∃ y : MDeviceTimed, y.Exec cfg ∧ y.Hardware t15 t35 lat ∧ y.OneAnswer P ∧ y.Punctual P D X ∧ x.Like y :=
  have he : MEnv cfg x t15 t35 lat P D X := ⟨hx, hh, hp, hT⟩
  ⟨matom cfg x, matom_exec hw he ha, matom_hardware hw he ha, matom_answer ha, matom_punctual he, matom_like hw he ha⟩

/-- A trace without the polls that put out nothing. -/
def busyOnly (tr : MTrace) : MTrace := tr.filter fun p => !decide (p = (.poll, []))

theorem accepted_busy (tr : MTrace) : accepted (busyOnly tr) = accepted tr := by
  unfold accepted busyOnly
  rw [List.filterMap_filter]
  congr 1
  funext p
  by_cases h : p = (.poll, [])
  · subst h; rfl
  · simp [h]

theorem snd_busy (tr : MTrace) : (busyOnly tr).flatMap Prod.snd = tr.flatMap Prod.snd := by
  induction tr with
  | nil => rfl
  | cons p tr ih =>
    unfold busyOnly at ih ⊢
    by_cases h : p = (.poll, [])
    · subst h
      rw [List.filter_cons_of_neg (by simp), ih]; simp
    · rw [List.filter_cons_of_pos (by simpa using h), List.flatMap_cons, List.flatMap_cons, ih]

theorem refused_busy (tr : MTrace) : refused (busyOnly tr) = refused tr := by
  unfold refused
  induction tr with
  | nil => rfl
  | cons p tr ih =>
    unfold busyOnly at ih ⊢
    by_cases h : p = (.poll, [])
    · subst h
      rw [List.filter_cons_of_neg (by simp), ih]; simp
    · rw [List.filter_cons_of_pos (by simpa using h), List.countP_cons, List.countP_cons, ih]

theorem main_busy (hx : x.Exec cfg) {y : MDeviceTimed} (hl : x.Like y) (ho : ∀ n, x.ev n = .stmt → y.op n ≠ .main .poll → x.out n = []) (n : Nat) :
    busyOnly (mainTrace (y.trace n)) = busyOnly (x.mainTrace n) := by
  induction n with
  | zero => rfl
  | succ n ih =>
    have e1 : x.mainTrace (n + 1) = x.mainTrace n ++ [n].filterMap (fun k => match x.ev k with
        | .app op => some (op, libOuts (x.out k))
        | .stmt => some (.poll, libOuts (x.out k))
        | .irq (.main op) => some (op, libOuts (x.out k))
        | _ => none) := by
      unfold MStmtTimed.mainTrace
      rw [List.range_succ, List.filterMap_append, List.cons_append]
      rfl
    rw [e1, y.trace_succ, mainTrace_append]
    unfold busyOnly at ih ⊢
    rw [List.filter_append, List.filter_append, ih]
    congr 1
    rw [hl.out n]
    cases hev : x.ev n with
    | call =>
      have := (hl.idle n (.inl hev) (fun h => by have := hl.only n h; rw [hev] at this; cases this)).2
      simp [mainTrace, this, hev]
    | app op => rw [hl.app n op hev]; simp [mainTrace, hev]
    | irq h =>
      rw [hl.irq n h hev]
      cases h <;> simp [mainTrace, hev]
    | stmt =>
      by_cases hp : y.op n = .main .poll
      · rw [hp]; simp [mainTrace, hev]
      · have h1 := (hl.idle n (.inr hev) hp).2
        simp [mainTrace, h1, hev, ho n hev hp, libOuts]

theorem wire_like {y : MDeviceTimed} (hl : x.Like y) (n : Nat) : mwire (y.trace n) = x.wire n := by
  induction n with
  | zero => rfl
  | succ n ih =>
    have e : x.wire (n + 1) = x.wire n ++ (x.out n).filterMap fun o => match o with
        | .tdr b => some b
        | _ => none := by
      unfold MStmtTimed.wire
      rw [List.range_succ, List.flatMap_append]
      simp
      rfl
    rw [e, y.trace_succ, mwire_append, ih]
    congr 1
    unfold mwire
    simp [hl.out n]
    rfl

/-- **C83**, spelled out: the claim of C73 with interrupts and ticks between any two statements. Every request accepted before event `n` is finished, by a
confirmation, data, an exception or an error report, within the time of C73; from then on it stays so; between polls the buffers are accounted for; and
whenever no request is being served, the bytes on the line are exactly the frames handed over. -/
theorem C83_master_device_in_time (hw : cfg.MWF) (hT : 2 ≤ cfg.respTimeout) (hx : x.Exec cfg) (hh : x.Hardware t15 t35 lat)
    (ha : x.OneAnswer P cfg.respTimeout) (hp : x.Punctual P D X) (hord : t15 + 2 * lat + P < t35) (n : Nat) :
    ∃ m, n ≤ m ∧
      x.time m ≤ x.time n + P +
        cfg.queueItems * ((cfg.repeatMax + 1) * (X + P + ((cfg.respTimeout - 1) * D + 2 * P) + ((t35 + lat - t15) + P) + P) + P) ∧
      ∀ q, m < q → ∃ done cur queued, Transactions cfg.repeatMax (x.mainTrace q) done cur queued ∧
        accepted (x.mainTrace n) <+: done.map Tx.req ∧
        (¬ x.InPoll q → ((x.st q).dev.sys.lib.st = .idle ↔ cur = none) ∧
          (x.st q).dev.sys.lib.freeQ.items.toNat + outstanding cur queued + refused (x.mainTrace q) = cfg.queueItems) ∧
        (cur = none → x.wire q = (sends (x.mainTrace q)).flatten) := by
  obtain ⟨y, y1, y2, y3, y4, y5⟩ := C83_polls_are_atomic hw hT hx hh ha hp
  have hquiet : ∀ n, x.ev n = .stmt → y.op n ≠ .main .poll → x.out n = [] := by
    intro n h1 h2
    obtain ⟨e1, e2⟩ := y5.idle n (.inr h1) h2
    have hs := y1.step n
    rw [e2] at hs
    have hr : (y.st n).rtof = false ∨ (y.st n).rtof = true := by cases (y.st n).rtof <;> simp
    rw [← y5.out n]
    simp only [masterSysStep, masterIrqRx, masterIrqTx, Bool.false_eq_true, if_false, ok_bind] at hs
    obtain ⟨s, -, hs⟩ := bind_ok hs
    simp only [pure_eq, Except.ok.injEq, Prod.mk.injEq] at hs
    exact hs.2.symm
  have hmain := main_busy hx y5 hquiet
  have hacc : ∀ k, accepted (mainTrace (y.trace k)) = accepted (x.mainTrace k) := fun k => by rw [← accepted_busy, hmain, accepted_busy]
  have hsnd : ∀ k, (mainTrace (y.trace k)).flatMap Prod.snd = (x.mainTrace k).flatMap Prod.snd := fun k => by rw [← snd_busy, hmain, snd_busy]
  have href : ∀ k, refused (mainTrace (y.trace k)) = refused (x.mainTrace k) := fun k => by rw [← refused_busy, hmain, refused_busy]
  obtain ⟨m, m1, m2, m3⟩ := C73_master_device_in_time hw hT y1 y2 y3 y4 hord n
  rw [y5.time, y5.time] at m2
  refine ⟨m, m1, m2, fun q hq => ?_⟩
  obtain ⟨done, cur, queued, t1, t2, t3, t4, t5⟩ := m3 q hq
  refine ⟨done, cur, queued, ⟨?_, ?_, t1.done_ok, t1.cur_ok, ?_⟩, ?_, fun hq => ⟨?_, ?_⟩, fun hc => ?_⟩
  · rw [← hacc]; exact t1.order
  · rw [← t1.output]; unfold outs; rw [hsnd]
  · rw [← hacc]; exact t1.valid
  · rw [← hacc]; exact t2
  · rw [← y5.st q hq]; exact t3
  · rw [← y5.st q hq, ← href]; exact t4
  · rw [← wire_like y5, t5 hc]; unfold sends; rw [hsnd]

end

end Modbus
