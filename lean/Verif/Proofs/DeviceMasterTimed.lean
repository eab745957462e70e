import Verif.Spec.TimedMasterDevice
import Verif.Props.MasterTimed
import Verif.Props.DriverMaster

/-! The timed master device: its library runs as in `Spec/Timed.lean`. -/

namespace Modbus

open Spec

/-! ### Flattening an infinite sequence of lists -/

section
variable {α : Type}

/-- The first `n` lists, one after the other. -/
def flat (L : Nat → List α) (n : Nat) : List α := (List.range n).flatMap L

/-- Where list `n` begins. -/
def pos (L : Nat → List α) (n : Nat) : Nat := (flat L n).length

theorem flat_succ (L : Nat → List α) (n : Nat) : flat L (n + 1) = flat L n ++ L n := by
  simp [flat, List.range_succ]

theorem pos_succ (L : Nat → List α) (n : Nat) : pos L (n + 1) = pos L n + (L n).length := by
  simp [pos, flat_succ]

theorem pos_mono (L : Nat → List α) {m n : Nat} (h : m ≤ n) : pos L m ≤ pos L n := by
  induction h with
  | refl => exact Nat.le_refl _
  | step _ ih => exact Nat.le_trans ih (by rw [pos_succ]; omega)

theorem flat_prefix (L : Nat → List α) {m n : Nat} (h : m ≤ n) : flat L m <+: flat L n := by
  induction h with
  | refl => exact List.prefix_rfl
  | step _ ih => exact ih.trans (by rw [flat_succ]; exact List.prefix_append _ _)

theorem flat_getElem? (L : Nat → List α) {i m n : Nat} (hm : i < pos L m) (hn : i < pos L n) : (flat L m)[i]? = (flat L n)[i]? := by
  have key : ∀ {m n : Nat}, m ≤ n → i < pos L m → (flat L m)[i]? = (flat L n)[i]? := by
    intro m n h hm
    obtain ⟨t, ht⟩ := flat_prefix L h
    rw [← ht, List.getElem?_append_left hm]
  rcases Nat.le_total m n with h | h
  · exact key h hm
  · exact (key h hn).symm

/-- The elements in a row, `f`, and from which list each comes, `ev`. -/
theorem flatten_exists (L : Nat → List α) (d : α) (hinf : ∀ n, ∃ m, n ≤ m ∧ L m ≠ []) :
    ∃ (f : Nat → α) (ev : Nat → Nat), (∀ n, (List.range (pos L n)).map f = flat L n) ∧
      (∀ i, pos L (ev i) ≤ i ∧ i < pos L (ev i) + (L (ev i)).length) ∧ (∀ i, f i ∈ L (ev i)) ∧
      ∀ n j, (h : j < (L n).length) → f (pos L n + j) = (L n)[j] ∧ ev (pos L n + j) = n := by
  have hub : ∀ i, ∃ n, i < pos L n := by
    intro i
    induction i with
    | zero =>
      obtain ⟨m, -, hm⟩ := hinf 0
      exact ⟨m + 1, by rw [pos_succ]; have := List.length_pos_iff.2 hm; omega⟩
    | succ i ih =>
      obtain ⟨n, hn⟩ := ih
      obtain ⟨m, h1, h2⟩ := hinf n
      refine ⟨m + 1, ?_⟩
      have := List.length_pos_iff.2 h2
      have := pos_mono L h1
      rw [pos_succ]; omega
  have hev : ∀ i, ∃ n, pos L n ≤ i ∧ i < pos L n + (L n).length := by
    intro i
    obtain ⟨n, hn⟩ := hub i
    induction n with
    | zero => cases hn
    | succ n ih =>
      by_cases h : i < pos L n
      · exact ih h
      · exact ⟨n, by omega, by rw [pos_succ] at hn; exact hn⟩
  have huniq : ∀ {i m n}, pos L m ≤ i → i < pos L m + (L m).length → pos L n ≤ i → i < pos L n + (L n).length → m = n := by
    intro i m n h1 h2 h3 h4
    rcases Nat.lt_trichotomy m n with h | h | h
    · have := pos_mono L (show m + 1 ≤ n from h)
      rw [pos_succ] at this
      omega
    · exact h
    · have := pos_mono L (show n + 1 ≤ m from h)
      rw [pos_succ] at this
      omega
  let ev : Nat → Nat := fun i => Classical.choose (hev i)
  have hevs : ∀ i, pos L (ev i) ≤ i ∧ i < pos L (ev i) + (L (ev i)).length := fun i => Classical.choose_spec (hev i)
  let f : Nat → α := fun i => (flat L (ev i + 1)).getD i d
  have hf : ∀ i n, i < pos L n → (flat L n)[i]? = some (f i) := by
    intro i n h
    have h1 : i < pos L (ev i + 1) := by rw [pos_succ]; exact (hevs i).2
    rw [flat_getElem? L h h1]
    show _ = some ((flat L (ev i + 1)).getD i d)
    rw [List.getD_eq_getElem?_getD, List.getElem?_eq_getElem h1]
    rfl
  have hfe : ∀ n j, (h : j < (L n).length) → f (pos L n + j) = (L n)[j] := by
    intro n j h
    have h1 : pos L n + j < pos L (n + 1) := by rw [pos_succ]; omega
    have := hf _ _ h1
    rw [flat_succ, List.getElem?_append_right (by show (flat L n).length ≤ (flat L n).length + j; omega)] at this
    rw [show pos L n + j - (flat L n).length = j by show (flat L n).length + j - (flat L n).length = j; omega, List.getElem?_eq_getElem h] at this
    exact (Option.some.inj this).symm
  refine ⟨f, ev, ?_, hevs, ?_, ?_⟩
  · intro n
    apply List.ext_getElem?
    intro i
    by_cases h : i < pos L n
    · rw [hf i n h, List.getElem?_map, List.getElem?_range h]; rfl
    · rw [List.getElem?_eq_none (by simp; omega), List.getElem?_eq_none (show (flat L n).length ≤ i by show pos L n ≤ i; omega)]
  · intro i
    have h := hevs i
    have h1 : i - pos L (ev i) < (L (ev i)).length := by omega
    have := hfe (ev i) (i - pos L (ev i)) h1
    rw [show pos L (ev i) + (i - pos L (ev i)) = i by omega] at this
    rw [this]
    exact List.getElem_mem h1
  · intro n j h
    refine ⟨hfe n j h, ?_⟩
    have := hevs (pos L n + j)
    exact huniq this.1 this.2 (by omega) (by omega)

end

/-! ### What the library experiences -/

/-- The operations of the first part of the UART handler. -/
def rxOps (s : MasterSys) : Option U8 → List MOp
  | none => []
  | some b => .rxByte b :: (if s.gap then [.frameErr] else [])

/-- The library's operations during an event of the device. -/
def evOps (s : MasterSys) : HMOp → List MOp
  | .main op => [op]
  | .rto => []
  | .timer => [.t35]
  | .usart rx t => rxOps s rx ++ (if t = true ∧ ¬ s.cur < s.last then [.txDone] else []) ++ (if s.rtof then [.t15] else [])

/-- The same with the library's outputs. -/
def evTrace (s : MasterSys) (op : HMOp) (o : List HMOut) : MTrace := (evOps s op).map fun p => (p, if p.isMain then libOuts o else [])

theorem evTrace_run {cfg : Config} {s s' : MasterSys} {op : HMOp} {o : List HMOut} (hp : op.proper)
    (h : masterSysStep cfg s op = .ok (s', o)) : masterRun cfg s.lib (evOps s op) = .ok (s'.lib, evTrace s op o) := by
  cases op with
  | main op =>
    have hm : op.isMain = true := hp
    have hp' : ¬ op.isMain = false := by rw [hm]; simp
    simp only [masterSysStep, hp'] at h
    obtain ⟨⟨l, o1⟩, h1, h2⟩ := bind_ok h
    obtain ⟨e1, e2⟩ := masterSends_lib h2
    rw [e2]
    have := run_one h1
    simpa [evOps, evTrace, hm, e1] using this
  | rto => cases h; rfl
  | timer =>
    simp only [masterSysStep] at h
    obtain ⟨⟨l, o1⟩, h1, h2⟩ := bind_ok h
    cases h2
    exact run_irq rfl h1
  | usart rx t =>
    simp only [masterSysStep] at h
    obtain ⟨s1, h1, h⟩ := bind_ok h
    obtain ⟨⟨s2, o2⟩, h2, h⟩ := bind_ok h
    obtain ⟨s3, h3, h⟩ := bind_ok h
    obtain rfl : s3 = s' := congrArg (fun x => (match x with | Except.ok y => y.1 | Except.error _ => s3 : MasterSys)) h
    clear h
    have p1 : ∃ m, masterRun cfg s.lib m = .ok (s1.lib, m.map fun p => (p, [])) ∧ (∀ p ∈ m, p.isMain = false) ∧
        m = rxOps s rx ∧
        s1.cur = s.cur ∧ s1.last = s.last ∧ s1.rtof = s.rtof := by
      cases rx with
      | none => cases h1; exact ⟨[], rfl, by simp, rfl, rfl, rfl, rfl⟩
      | some b =>
        simp only [masterIrqRx] at h1
        obtain ⟨⟨l, o1⟩, h4, h1⟩ := bind_ok h1
        simp only at h1
        split at h1
        · rename_i hg
          obtain ⟨⟨l', o1'⟩, h5, h1⟩ := bind_ok h1
          cases h1
          exact ⟨[.rxByte b] ++ [.frameErr], run_seq (run_irq rfl h4) (run_irq rfl h5), by simp [MOp.isMain], by simp [rxOps, hg], rfl, rfl, rfl⟩
        · rename_i hg
          cases h1
          exact ⟨[.rxByte b], run_irq rfl h4, by simp [MOp.isMain], by simp [rxOps, hg], rfl, rfl, rfl⟩
    obtain ⟨m1, a1, a2, a3, a4, a5, a6⟩ := p1
    have p2 : masterRun cfg s1.lib (if t = true ∧ ¬ s.cur < s.last then [.txDone] else []) =
        .ok (s2.lib, (if t = true ∧ ¬ s.cur < s.last then [.txDone] else []).map fun p => (p, [])) ∧ s2.rtof = s.rtof := by
      unfold masterIrqTx at h2
      rw [a4, a5] at h2
      split at h2
      · rename_i ht
        split at h2
        · rename_i hc
          obtain ⟨b, -, h2⟩ := bind_ok h2
          cases h2
          rw [if_neg (by simp [hc])]
          exact ⟨rfl, a6⟩
        · rename_i hc
          obtain ⟨⟨l, o1⟩, h4, h2⟩ := bind_ok h2
          cases h2
          rw [if_pos ⟨ht, hc⟩]
          exact ⟨run_irq rfl h4, a6⟩
      · rename_i ht
        cases h2
        rw [if_neg (by simp [ht])]
        exact ⟨rfl, a6⟩
    have p3 : masterRun cfg s2.lib (if s.rtof then [.t15] else []) = .ok (s3.lib, (if s.rtof then [MOp.t15] else []).map fun p => (p, [])) := by
      unfold masterIrqRto at h3
      rw [p2.2] at h3
      split at h3
      · rename_i hr
        obtain ⟨⟨l, o1⟩, h4, h3⟩ := bind_ok h3
        cases h3
        rw [if_pos hr]
        exact run_irq rfl h4
      · rename_i hr
        cases h3
        rw [if_neg hr]; rfl
    have h4 := run_seq (run_seq a1 p2.1) p3
    rw [← List.map_append, ← List.map_append] at h4
    simp only [evOps, evTrace, ← a3]
    rw [h4]
    congr 2
    apply List.map_congr_left
    intro p hp
    have : p.isMain = false := by
      rcases List.mem_append.1 hp with hp | hp
      · rcases List.mem_append.1 hp with hp | hp
        · exact a2 p hp
        · split at hp
          · rw [List.mem_singleton.1 hp]; rfl
          · cases hp
      · split at hp
        · rw [List.mem_singleton.1 hp]; rfl
        · cases hp
    rw [this]; rfl

theorem libTrace_init {cfg : Config} {s s' : MasterSys} {o : List HMOut} (h : masterSysStep cfg s (.main (.init .rtu)) = .ok (s', o)) :
    masterStep cfg s.lib (.init .rtu) = .ok (s'.lib, []) := by
  simp only [masterSysStep, show ¬ (MOp.isMain (.init .rtu) = false) by decide] at h
  obtain ⟨⟨l, o1⟩, h1, h2⟩ := bind_ok h
  have ho : o1 = [] := by
    simp only [masterStep] at h1
    obtain ⟨y, -, h1⟩ := bind_ok h1
    simp only [pure_eq, Except.ok.injEq, Prod.mk.injEq] at h1
    exact h1.2.symm
  rw [(masterSends_lib h2).2, ← ho]
  exact h1

/-! ### Infinite executions -/

section
variable {cfg : Config} {x : MDeviceTimed} {t15 t35 lat P D X : Nat}

/-- What the library experiences during event `n`. -/
def Spec.MDeviceTimed.lib (x : MDeviceTimed) (n : Nat) : MTrace := evTrace (x.st n) (x.op n) (x.out n)

theorem Spec.MDeviceTimed.Exec.legal (hx : x.Exec cfg) (n : Nat) : (x.op n).legal := by
  cases h : x.op n with
  | main op =>
    have := hx.main n op h
    cases op <;> first | exact this.elim | exact ⟨rfl, fun r hr => by cases hr; exact this⟩ | exact ⟨rfl, nofun⟩
  | _ => trivial

theorem Spec.MDeviceTimed.Exec.time_le (hx : x.Exec cfg) {m n : Nat} (h : m ≤ n) : x.time m ≤ x.time n := by
  induction h with
  | refl => exact Nat.le_refl _
  | step _ ih => exact Nat.le_trans ih (hx.mono _)

theorem Spec.MDeviceTimed.Exec.lt_of_time (hx : x.Exec cfg) {m n : Nat} (h : x.time m < x.time n) : m < n := by
  refine Classical.byContradiction fun hc => ?_
  have := hx.time_le (m := n) (n := m) (by omega)
  omega

/-- The library's part of a finite execution. -/
theorem Spec.MDeviceTimed.Exec.libRun (hx : x.Exec cfg) (n : Nat) :
    masterRun cfg Master.powerOn (.init .rtu :: (flat x.lib n).map Prod.fst) = .ok ((x.st n).lib, (.init .rtu, []) :: flat x.lib n) := by
  induction n with
  | zero =>
    have := libTrace_init hx.init
    exact run_one this
  | succ n ih =>
    have h := evTrace_run (hx.legal n).proper (hx.step n)
    have e : (x.lib n).map Prod.fst = evOps (x.st n) (x.op n) := by
      simp [MDeviceTimed.lib, evTrace, List.map_map, Function.comp_def]
    rw [← e] at h
    have := run_seq ih h
    rw [flat_succ, List.map_append]
    exact this

/-- The library of a timed device runs in time. -/
theorem Spec.MDeviceTimed.Exec.timed (hx : x.Exec cfg) (hinf : ∀ n, ∃ m, n ≤ m ∧ x.lib m ≠ []) : ∃ (y : TimedRun) (ev : Nat → Nat), y.Exec cfg ∧
    (∀ i, y.time i = x.time (ev i)) ∧ (∀ n, y.st (pos x.lib n) = (x.st n).lib ∧ y.trace (pos x.lib n) = (.init .rtu, []) :: flat x.lib n) ∧
    (∀ i, pos x.lib (ev i) ≤ i ∧ i < pos x.lib (ev i) + (x.lib (ev i)).length) ∧ (∀ i, (y.op i, y.out i) ∈ x.lib (ev i)) ∧
    ∀ n j, (h : j < (x.lib n).length) → (y.op (pos x.lib n + j), y.out (pos x.lib n + j)) = (x.lib n)[j] ∧ ev (pos x.lib n + j) = n := by
  obtain ⟨f, ev, f1, f2, f3, f4⟩ := flatten_exists x.lib (.poll, []) hinf
  have hge : ∀ i, i < pos x.lib (ev i + 1) := fun i => by rw [pos_succ]; exact (f2 i).2
  have hfst : ∀ n, (flat x.lib n).map Prod.fst = (List.range (pos x.lib n)).map fun i => (f i).1 := by
    intro n; rw [← f1 n, List.map_map]; rfl
  have hev : ∀ {i j}, i ≤ j → ev i ≤ ev j := by
    intro i j h
    refine Classical.byContradiction fun hc => ?_
    have h1 := pos_mono x.lib (show ev j + 1 ≤ ev i by omega)
    have h2 := hge j
    have h3 := (f2 i).1
    omega
  have hcon : ∀ i, (∀ m, (f i).1 ≠ .init m) ∧ ∀ r, (f i).1 = .request r → QtyOk r → DataOk r := by
    intro i
    have h := f3 i
    simp only [MDeviceTimed.lib, evTrace, List.mem_map] at h
    obtain ⟨p, hp, hpe⟩ := h
    rw [← hpe]
    have hl := hx.main (ev i)
    cases ho : x.op (ev i) with
    | main op =>
      rw [ho] at hp
      obtain rfl := List.mem_singleton.1 hp
      have := hl p ho
      refine ⟨?_, ?_⟩
      · rintro m rfl; exact this
      · rintro r rfl; exact this
    | rto => rw [ho] at hp; cases hp
    | timer => rw [ho] at hp; obtain rfl := List.mem_singleton.1 hp; exact ⟨nofun, nofun⟩
    | usart rx t =>
      rw [ho] at hp
      simp only [evOps, rxOps, List.mem_append] at hp
      rcases hp with (hp | hp) | hp
      · cases rx with
        | none => cases hp
        | some b =>
          rcases List.mem_cons.1 hp with rfl | hp
          · exact ⟨nofun, nofun⟩
          · split at hp
            · obtain rfl := List.mem_singleton.1 hp; exact ⟨nofun, nofun⟩
            · cases hp
      · split at hp
        · obtain rfl := List.mem_singleton.1 hp; exact ⟨nofun, nofun⟩
        · cases hp
      · split at hp
        · obtain rfl := List.mem_singleton.1 hp; exact ⟨nofun, nofun⟩
        · cases hp
  have hok : ∀ n, ∃ s tr, masterRun cfg Master.powerOn (.init .rtu :: (List.range n).map fun i => (f i).1) = .ok (s, tr) := by
    intro n
    have h := hx.libRun (ev n + 1)
    rw [hfst] at h
    obtain ⟨k, hk⟩ : ∃ k, pos x.lib (ev n + 1) = n + k := ⟨pos x.lib (ev n + 1) - n, by have := hge n; omega⟩
    rw [hk, List.range_add, List.map_append] at h
    obtain ⟨s1, u1, u2, k1, -⟩ := run_split (a := .init .rtu :: (List.range n).map fun i => (f i).1) h
    exact ⟨s1, u1, k1⟩
  obtain ⟨y, y1, y2, y3, y4⟩ := timedRun_of_ops (cfg := cfg) (time := fun i => x.time (ev i)) hok hcon (fun n => hx.time_le (hev (Nat.le_succ n)))
  have htr : ∀ n, y.st (pos x.lib n) = (x.st n).lib ∧ y.trace (pos x.lib n) = (.init .rtu, []) :: flat x.lib n := by
    intro n
    have h1 := y4 (pos x.lib n)
    have h2 := hx.libRun n
    rw [hfst] at h2
    rw [h2] at h1
    simp only [Except.ok.injEq, Prod.mk.injEq] at h1
    exact ⟨h1.1.symm, h1.2.symm⟩
  have hfi : ∀ i, (y.op i, y.out i) = f i := by
    intro i
    have h := (htr (ev i + 1)).2
    rw [← f1] at h
    have := congrArg (fun l => l[i + 1]?) h
    simp only [TimedRun.trace, List.getElem?_cons_succ, List.getElem?_map, List.getElem?_range (hge i), Option.map_some] at this
    exact Option.some.inj this
  refine ⟨y, ev, y3, fun i => congrFun y2 i, htr, f2, fun i => by rw [hfi]; exact f3 i, fun n j h => ?_⟩
  rw [hfi]
  exact f4 n j h

/-! ### The receiver timeout -/

theorem masterSends_rtof (o : List MOut) : ∀ {s s' : MasterSys} {out : List HMOut}, masterSends s o = .ok (s', out) → s'.rtof = true → s.rtof = true := by
  induction o with
  | nil => intro s s' out h hr; cases h; exact hr
  | cons a o ih =>
    intro s s' out h hr
    cases a with
    | send f =>
      simp only [masterSends] at h
      obtain ⟨⟨s1, o1⟩, h1, h⟩ := bind_ok h
      obtain ⟨⟨s2, o2⟩, h2, h⟩ := bind_ok h
      cases h
      have := ih h2 hr
      simp only [masterUsartSend] at h1
      repeat' split at h1
      · cases h1
      · obtain ⟨b, -, h1⟩ := bind_ok h1
        cases h1; cases this
      · cases h1; cases this
    | ret c =>
      simp only [masterSends] at h
      obtain ⟨⟨s2, o2⟩, h2, h⟩ := bind_ok h
      cases h
      exact ih h2 hr
    | event c =>
      simp only [masterSends] at h
      obtain ⟨⟨s2, o2⟩, h2, h⟩ := bind_ok h
      cases h
      exact ih h2 hr

/-- The parts of the UART handler. -/
theorem usart_parts {s s' : MasterSys} {rx : Option U8} {t : Bool} {o : List HMOut} (h : masterSysStep cfg s (.usart rx t) = .ok (s', o)) :
    ∃ s1 s2, masterIrqRx cfg s rx = .ok s1 ∧ masterIrqTx cfg s1 t = .ok (s2, o) ∧ masterIrqRto cfg s2 = .ok s' ∧
      s1.cur = s.cur ∧ s1.last = s.last ∧ s'.last = s.last ∧ s'.rtof = false ∧
      (t = true → s.cur < s.last → s'.cur = s.cur + 1 ∧ ∃ b, o = [.tdr b]) ∧ (¬ (t = true ∧ s.cur < s.last) → s'.cur = s.cur ∧ o = []) := by
  simp only [masterSysStep] at h
  obtain ⟨s1, h1, h⟩ := bind_ok h
  obtain ⟨⟨s2, o2⟩, h2, h⟩ := bind_ok h
  obtain ⟨s3, h3, h⟩ := bind_ok h
  simp only [pure_eq, Except.ok.injEq, Prod.mk.injEq] at h
  obtain ⟨e1, e2⟩ := h
  rw [← e1, ← e2]
  have p1 : s1.cur = s.cur ∧ s1.last = s.last := by
    cases rx with
    | none => cases h1; exact ⟨rfl, rfl⟩
    | some b =>
      simp only [masterIrqRx] at h1
      obtain ⟨⟨l, o1⟩, -, h1⟩ := bind_ok h1
      simp only at h1
      split at h1
      · obtain ⟨⟨l', o1'⟩, -, h1⟩ := bind_ok h1
        cases h1; exact ⟨rfl, rfl⟩
      · cases h1; exact ⟨rfl, rfl⟩
  have p3 : s3.cur = s2.cur ∧ s3.last = s2.last ∧ s3.rtof = false := by
    have h3 := h3
    unfold masterIrqRto at h3
    split at h3
    · obtain ⟨⟨l, o1⟩, -, h3⟩ := bind_ok h3
      cases h3; exact ⟨rfl, rfl, rfl⟩
    · rename_i hr
      cases h3; exact ⟨rfl, rfl, by simpa using hr⟩
  have p2 : s2.last = s1.last ∧ (t = true → s1.cur < s1.last → s2.cur = s1.cur + 1 ∧ ∃ b, o2 = [.tdr b]) ∧
      (¬ (t = true ∧ s1.cur < s1.last) → s2.cur = s1.cur ∧ o2 = []) := by
    have h2 := h2
    unfold masterIrqTx at h2
    split at h2
    · rename_i ht
      split at h2
      · rename_i hc
        obtain ⟨b, -, h2⟩ := bind_ok h2
        cases h2
        exact ⟨rfl, fun _ _ => ⟨rfl, b, rfl⟩, fun k => absurd ⟨ht, hc⟩ k⟩
      · rename_i hc
        obtain ⟨⟨l, o1⟩, -, h2⟩ := bind_ok h2
        cases h2
        exact ⟨rfl, fun _ k => absurd k hc, fun _ => ⟨rfl, rfl⟩⟩
    · rename_i ht
      cases h2
      exact ⟨rfl, fun k => absurd k ht, fun _ => ⟨rfl, rfl⟩⟩
  rw [p1.1, p1.2] at p2
  exact ⟨s1, s2, h1, h2, h3, p1.1, p1.2, p3.2.1.trans p2.1, p3.2.2, by rw [p3.1]; exact p2.2.1, by rw [p3.1]; exact p2.2.2⟩

/-- RTOF has been set by a receiver timeout; neither the UART handler nor the main program has run since. -/
theorem rtof_since (hx : x.Exec cfg) (hh : x.Hardware t15 t35 lat) (m : Nat) : (x.st m).rtof = true →
    ∃ r, r < m ∧ x.op r = .rto ∧ ∀ k, r < k → k < m → x.op k = .rto ∨ x.op k = .timer := by
  induction m with
  | zero =>
    intro h
    exfalso
    have h0 := hx.init
    simp only [masterSysStep, show ¬ (MOp.isMain (.init .rtu) = false) by decide] at h0
    obtain ⟨⟨l, o1⟩, h1, h2⟩ := bind_ok h0
    have := masterSends_rtof _ h2 h
    cases this
  | succ m ih =>
    intro h
    have hs := hx.step m
    cases ho : x.op m with
    | rto => exact ⟨m, by omega, ho, fun k k1 k2 => by omega⟩
    | timer =>
      rw [ho] at hs
      simp only [masterSysStep] at hs
      obtain ⟨⟨l, o1⟩, h1, hs⟩ := bind_ok hs
      simp only [pure_eq, Except.ok.injEq, Prod.mk.injEq] at hs
      rw [← hs.1] at h
      obtain ⟨r, r1, r2, r3⟩ := ih h
      refine ⟨r, by omega, r2, fun k k1 k2 => ?_⟩
      by_cases hk : k = m
      · subst hk; exact .inr ho
      · exact r3 k k1 (by omega)
    | usart rx t =>
      rw [ho] at hs
      obtain ⟨-, -, -, -, -, -, -, -, k, -⟩ := usart_parts hs
      rw [k] at h; cases h
    | main op =>
      exfalso
      rw [ho] at hs
      simp only [masterSysStep] at hs
      split at hs
      · rename_i k
        have := (hx.legal m).proper
        rw [ho] at this
        rw [show op.isMain = true from this] at k
        cases k
      · obtain ⟨⟨l, o1⟩, h1, hs⟩ := bind_ok hs
        have := masterSends_rtof _ hs h
        exact hh.stalled m op this ho

/-! ### The transmitter -/

/-- The transmitter's invariant at every moment. -/
theorem Spec.MDeviceTimed.Exec.mwinv (hw : cfg.MWF) (hx : x.Exec cfg) (n : Nat) : MWInv cfg (x.st n) (mframes (x.trace n)) (mwire (x.trace n)) := by
  induction n with
  | zero =>
    obtain ⟨l, h1, h2, h3⟩ := sysInit_ok hw MasterSys.powerOn
    have := hx.init
    rw [h1] at this
    simp only [Except.ok.injEq, Prod.mk.injEq] at this
    rw [← this.1]
    exact ⟨⟨_, h2⟩, Nat.le_refl _, fun h => absurd h (Nat.lt_irrefl _), .inl ⟨rfl, rfl, rfl⟩⟩
  | succ n ih =>
    have e : x.trace (n + 1) = x.trace n ++ [(x.op n, x.out n)] := by
      unfold MDeviceTimed.trace
      rw [List.range_succ, List.map_append]; rfl
    rcases ih.step hw (x.op n) (hx.legal n) with ⟨s', o, h1, h2⟩ | ⟨h1, h2⟩
    · rw [hx.step n] at h1
      simp only [Except.ok.injEq, Prod.mk.injEq] at h1
      obtain ⟨e1, e2⟩ := h1
      rw [e, mframes_append, mwire_append, e1, e2]
      exact h2
    · have := hx.step n
      rw [h1] at this
      simp only [masterSysStep, show ¬ (MOp.isMain .poll = false) by decide, h2, error_bind] at this
      cases this

/-- Transmit interrupts. -/
def txIrq : HMOp → Bool
  | .usart _ t => t
  | _ => false

/-- While the library waits for the end of a transmission, an event that does not report it leaves it waiting; only transmit interrupts move the
driver's pointer. -/
theorem tx_step (hw : cfg.MWF) {s s' : MasterSys} {g : Ghost} {op : HMOp} {o : List HMOut} (hi : MInv cfg s.lib g) (hl : op.legal)
    (h1 : s.lib.st = .transmitting) (h2 : s.lib.txf = .set) (h : masterSysStep cfg s op = .ok (s', o)) (hn : .txDone ∉ evOps s op) :
    s'.lib.st = .transmitting ∧ s'.lib.txf = .set ∧ s'.last = s.last ∧ (∀ f, .lib (.send f) ∉ o) ∧
      s'.cur = s.cur + (if txIrq op then 1 else 0) := by
  have lib : ∀ {ops : List MOp} {l l' : Master} {g : Ghost} {tr : MTrace}, MInv cfg l g → masterRun cfg l ops = .ok (l', tr) → (∀ p ∈ ops, p ≠ .poll ∧ (∀ m, p ≠ .init m) ∧ (∀ r, p ≠ .request r) ∧ p ≠ .txDone) →
      l.st = .transmitting → l.txf = .set → l'.st = .transmitting ∧ l'.txf = .set := by
    intro ops
    induction ops with
    | nil => intro l l' g tr hi hr _ k1 k2; cases hr; exact ⟨k1, k2⟩
    | cons p ops ih =>
      intro l l' g tr hi hr hp k1 k2
      obtain ⟨l1, o1, t1, r1, r2, -⟩ := run_cons_inv hr
      have hp1 := hp p (List.mem_cons_self ..)
      have e := masterStep_effect hw hi hp1.1 hp1.2.1 r1
      rcases masterStep_inv hw hi p hp1.2.1 (fun r hr => absurd hr (hp1.2.2.1 r)) with ⟨l2, o2, g2, j1, j2, -⟩ | ⟨-, j1, -⟩
      · rw [r1] at j1
        simp only [Except.ok.injEq, Prod.mk.injEq] at j1
        rw [← j1.1] at j2
        refine ih j2 r2 (fun q hq => hp q (List.mem_cons_of_mem _ hq)) (e.st.trans k1) ?_
        rw [e.txf', if_neg hp1.2.2.2]; exact k2
      · rw [r1] at j1; cases j1
  have hrun := evTrace_run hl.proper h
  cases op with
  | main op =>
    have hm : op.isMain = true := hl.proper
    simp only [masterSysStep, hm] at h
    rw [if_neg (by simp)] at h
    obtain ⟨⟨l, o1⟩, k1, k2⟩ := bind_ok h
    have hone : l.st = .transmitting ∧ l.txf = .set ∧ ∀ f, MOut.send f ∉ o1 := by
      by_cases hp : op = .poll
      · subst hp
        cases poll_case hw hi k1 with
        | txNop a b c d => rw [c, d]; exact ⟨h1, h2, nofun⟩
        | txEnd a b => rw [b] at h2; cases h2
        | idleNop a => rw [a] at h1; cases h1
        | send a => rcases a with a | a <;> rw [a] at h1 <;> cases h1
        | other a => rw [a] at h1; cases h1
        | check a => rw [a] at h1; cases h1
        | timeout a => rw [a] at h1; cases h1
        | waitNop a => rw [a] at h1; cases h1
        | recNop a => rw [a] at h1; cases h1
        | again a => rw [a] at h1; cases h1
        | finish a => rw [a] at h1; cases h1
      · have hni : ∀ m, op ≠ .init m := by rintro m rfl; exact hl
        have e := masterStep_effect hw hi hp hni k1
        refine ⟨e.st.trans h1, ?_, fun f hf => ?_⟩
        · rw [e.txf', if_neg (by rintro rfl; cases hm)]; exact h2
        · have hmem : MOut.send f ∈ outs [(op, o1)] := by simp [outs, hf, isOut]
          rw [e.outs] at hmem; cases hmem
    rw [masterSends_none _ _ hone.2.2] at k2
    simp only [Except.ok.injEq, Prod.mk.injEq] at k2
    rw [← k2.1, ← k2.2]
    refine ⟨hone.1, hone.2.1, rfl, ?_, by simp [txIrq]⟩
    intro f hf
    simp only [List.mem_map, HMOut.lib.injEq, exists_eq_right] at hf
    exact hone.2.2 f hf
  | rto => cases h; exact ⟨h1, h2, rfl, nofun, by simp [txIrq]⟩
  | timer =>
    have := lib hi hrun (by simp [evOps]) h1 h2
    simp only [masterSysStep] at h
    obtain ⟨⟨l, o1⟩, -, h⟩ := bind_ok h
    cases h
    exact ⟨this.1, this.2, rfl, nofun, by simp [txIrq]⟩
  | usart rx t =>
    have hops : ∀ p ∈ evOps s (.usart rx t), p ≠ .poll ∧ (∀ m, p ≠ .init m) ∧ (∀ r, p ≠ .request r) ∧ p ≠ .txDone := by
      intro p hp
      refine ⟨?_, ?_, ?_, fun e => hn (e ▸ hp)⟩ <;> (simp only [evOps, rxOps, List.mem_append] at hp; rcases hp with (hp | hp) | hp)
      all_goals first
        | (cases rx with
           | none => cases hp
           | some b =>
             rcases List.mem_cons.1 hp with rfl | hp
             · simp
             · split at hp
               · obtain rfl := List.mem_singleton.1 hp; simp
               · cases hp)
        | (split at hp
           · obtain rfl := List.mem_singleton.1 hp; simp
           · cases hp)
    have hlib := lib hi hrun hops h1 h2
    obtain ⟨s1, s2, -, -, -, -, -, u1, -, u2, u3⟩ := usart_parts h
    refine ⟨hlib.1, hlib.2, u1, ?_, ?_⟩
    · intro f hf
      by_cases ht : t = true ∧ s.cur < s.last
      · obtain ⟨-, b, e⟩ := u2 ht.1 ht.2
        rw [e] at hf; simp at hf
      · rw [(u3 ht).2] at hf; cases hf
    · cases t with
      | false => rw [(u3 (by simp)).1]; rfl
      | true =>
        rw [show txIrq (.usart rx true) = true from rfl, if_pos rfl]
        by_cases hc : s.cur < s.last
        · exact (u2 rfl hc).1
        · refine absurd ?_ hn
          simp [evOps, hc]

theorem Spec.MDeviceTimed.seg_succ (x : MDeviceTimed) {a b : Nat} (h : a ≤ b) : x.seg a (b + 1) = x.seg a b ++ [x.op b] := by
  unfold MDeviceTimed.seg
  rw [show b + 1 - a = (b - a) + 1 by omega, List.range'_concat, List.map_append]
  simp only [List.map_cons, List.map_nil, Nat.one_mul]
  rw [show a + (b - a) = b by omega]

/-- The driver reports the end of a transmission in time. -/
theorem tx_completes (hw : cfg.MWF) (hx : x.Exec cfg) (hp : x.Punctual P D X) {n : Nat} {f : List U8} (hf : .lib (.send f) ∈ x.out n)
    (hs : (x.st (n + 1)).lib.st = .transmitting ∧ (x.st (n + 1)).lib.txf = .set) (hlast : f.length = (x.st (n + 1)).last + 1) :
    ∃ m, n < m ∧ .txDone ∈ evOps (x.st m) (x.op m) ∧ x.time m ≤ x.time n + X := by
  obtain ⟨w, w1, w2, w3⟩ := hp.tx n f hf
  refine Classical.byContradiction fun hc => ?_
  have hno : ∀ m, n < m → m ≤ w → .txDone ∉ evOps (x.st m) (x.op m) := fun m m1 m2 hm =>
    hc ⟨m, m1, hm, Nat.le_trans (hx.time_le m2) w2⟩
  have key : ∀ k, n + 1 + k ≤ w + 1 → (x.st (n + 1 + k)).lib.st = .transmitting ∧ (x.st (n + 1 + k)).lib.txf = .set ∧
      (x.st (n + 1 + k)).last = (x.st (n + 1)).last ∧ (x.seg (n + 1) (n + 1 + k)).count (.usart none true) ≤ (x.st (n + 1 + k)).cur := by
    intro k
    induction k with
    | zero => intro _; exact ⟨hs.1, hs.2, rfl, by simp [MDeviceTimed.seg]⟩
    | succ k ih =>
      intro hk
      obtain ⟨i1, i2, i3, i4⟩ := ih (by omega)
      obtain ⟨g, hi⟩ := (hx.mwinv hw (n + 1 + k)).inv
      obtain ⟨j1, j2, j3, -, j5⟩ := tx_step hw hi (hx.legal _) i1 i2 (hx.step _) (hno (n + 1 + k) (by omega) (by omega))
      refine ⟨j1, j2, j3.trans i3, ?_⟩
      rw [show n + 1 + (k + 1) = n + 1 + k + 1 by omega, x.seg_succ (by omega), List.count_append, j5, List.count_singleton]
      by_cases e : x.op (n + 1 + k) = .usart none true
      · rw [e]; simp [txIrq]; omega
      · rw [if_neg (show ¬ (x.op (n + 1 + k) == HMOp.usart none true) = true by simpa using e)]; omega
  obtain ⟨-, -, k3, k4⟩ := key (w - n) (by omega)
  rw [show n + 1 + (w - n) = w + 1 by omega] at k3 k4
  have := (hx.mwinv hw (w + 1)).le
  omega

end

end Modbus
