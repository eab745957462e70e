import Verif.Spec.MasterStatements
import Verif.Props.PreemptAny
import Verif.Proofs.DriverMaster

/-! Master device statement by statement: the library's part of an interrupted poll is an interrupted poll of the library (`Proofs/PreemptAny.lean`), and
the driver's pointers follow the frames. -/

namespace Modbus

open Spec

/-! ### Outputs -/

theorem lineOf_append (a b : List HMOut) : lineOf (a ++ b) = lineOf a ++ lineOf b := by simp [lineOf]
theorem handed_append (a b : List HMOut) : handed (a ++ b) = handed a ++ handed b := by simp [handed]
theorem libOuts_append (a b : List HMOut) : libOuts (a ++ b) = libOuts a ++ libOuts b := by simp [libOuts]

theorem lineOf_lib (o : List MOut) : lineOf (o.map .lib) = [] := by
  induction o with
  | nil => rfl
  | cons x o ih => simp [lineOf]

/-! ### Interrupts -/

theorem masterAfter_nil (s : Master) : masterAfter s [] = s := by
  unfold masterAfter
  rw [show mrx [] = [] from rfl, rxMsgs_nil]
  rfl


/-- The next transmit interrupt writes another byte. -/
def More (d : MasterDev) : Prop := d.sys.txMsg < d.lastMsg ∨ (d.sys.txMsg = d.lastMsg ∧ d.sys.cur < d.sys.last)

/-- What an interrupt does to the device. -/
structure IntEff (d : MasterDev) (e : HMOp) (d' : MasterDev) (o : List HMOut) : Prop where
  lib : ∃ l, d'.sys.lib = masterAfter d.sys.lib l ∧ (.txDone ∈ l → ¬ More d)
  outs : libOuts o = []
  lastMsg : d'.lastMsg = d.lastMsg
  txMsg : d'.sys.txMsg = d.sys.txMsg
  last : d'.sys.last = d.sys.last
  tx : (d'.sys.cur = d.sys.cur ∧ o = []) ∨
    (e.isTxe = true ∧ More d ∧ d'.sys.cur = d.sys.cur + 1 ∧ o = [.tdr ((d.sys.lib.msgs d.sys.txMsg).req (d.sys.cur + 1))])

theorem after_req (s : Master) (l : List MEv) (j : Nat) : ((masterAfter s l).msgs j).req = (s.msgs j).req := rxMsgs_req _ _ _ _

theorem irqRx_after {cfg : Config} {s : MasterSys} (hd : s.lib.drv = true) (hs : s.lib.dataSet = true) (rx : Option U8) :
    ∃ l, .txDone ∉ l ∧ masterIrqRx cfg s rx = .ok { s with lib := masterAfter s.lib l } := by
  cases rx with
  | none => exact ⟨[], by simp, by rw [masterAfter_nil]; rfl⟩
  | some b =>
    have h1 := masterStep_int cfg s.lib hd hs (.rxByte b)
    cases hg : s.gap with
    | false =>
      refine ⟨[.rxByte b], by simp, ?_⟩
      simp only [masterIrqRx, MEv.op] at h1 ⊢
      simp only [h1, ok_bind, hg, Bool.false_eq_true, if_false, pure_eq]
    | true =>
      have h2 := masterStep_int cfg (masterAfter s.lib [.rxByte b]) hd hs .frameErr
      refine ⟨[.rxByte b] ++ [.frameErr], by simp, ?_⟩
      rw [← masterAfter_append]
      simp only [masterIrqRx, MEv.op] at h1 h2 ⊢
      simp only [h1, ok_bind, hg, if_true, h2, pure_eq]

theorem irqRto_after {cfg : Config} {s : MasterSys} (hd : s.lib.drv = true) (hs : s.lib.dataSet = true) :
    ∃ l g r, .txDone ∉ l ∧ masterIrqRto cfg s = .ok { s with lib := masterAfter s.lib l, gap := g, rtof := r } := by
  cases hg : s.rtof with
  | false => exact ⟨[], s.gap, s.rtof, by simp, by simp only [masterIrqRto, hg]; cases s; simp only at hg; subst hg; rw [masterAfter_nil]; rfl⟩
  | true =>
    have h1 := masterStep_int cfg s.lib hd hs .t15
    refine ⟨[.t15], true, false, by simp, ?_⟩
    simp only [masterIrqRto, hg, if_true]
    simp only [MEv.op] at h1
    simp only [h1, ok_bind, pure_eq]

theorem devTx_after {cfg : Config} {d : MasterDev} (hd : d.sys.lib.drv = true) (hs : d.sys.lib.dataSet = true) (t : Bool) :
    match masterDevTx cfg d t with
    | .ok (d', o) => ∃ l c, d' = { d with sys := { d.sys with lib := masterAfter d.sys.lib l, cur := c } } ∧ (.txDone ∈ l → ¬ More d) ∧
        ((c = d.sys.cur ∧ o = []) ∨ (t = true ∧ More d ∧ c = d.sys.cur + 1 ∧ o = [.tdr ((d.sys.lib.msgs d.sys.txMsg).req (d.sys.cur + 1))]))
    | .error _ => t = true ∧ More d ∧ 256 ≤ d.sys.cur + 1 := by
  cases t with
  | false => exact ⟨[], d.sys.cur, by rw [masterAfter_nil], by simp, .inl ⟨rfl, rfl⟩⟩
  | true =>
    unfold masterDevTx
    simp only [if_true]
    by_cases hm : More d
    · rw [if_pos (show d.sys.txMsg < d.lastMsg ∨ (d.sys.txMsg = d.lastMsg ∧ d.sys.cur < d.sys.last) from hm)]
      by_cases hc : d.sys.cur + 1 < 256
      · rw [rd_ok _ hc]
        exact ⟨[], d.sys.cur + 1, by rw [masterAfter_nil], by simp, .inr ⟨trivial, hm, rfl, rfl⟩⟩
      · have : rd (d.sys.lib.msgs d.sys.txMsg).req (d.sys.cur + 1) = .error .oobRead := by
          unfold rd; rw [if_neg hc]
        rw [this]
        exact ⟨trivial, hm, Nat.le_of_not_lt hc⟩
    · rw [if_neg (show ¬ (d.sys.txMsg < d.lastMsg ∨ (d.sys.txMsg = d.lastMsg ∧ d.sys.cur < d.sys.last)) from hm)]
      have h1 := masterStep_int cfg d.sys.lib hd hs .txDone
      simp only [MEv.op] at h1
      rw [h1]
      exact ⟨[.txDone], d.sys.cur, rfl, fun _ => hm, .inl ⟨rfl, rfl⟩⟩

/-- An interrupt. -/
theorem devInt_eff {cfg : Config} {d : MasterDev} (hd : d.sys.lib.drv = true) (hs : d.sys.lib.dataSet = true) (e : HMOp) :
    match masterDevInt cfg d e with
    | .ok (d', o) => IntEff d e d' o
    | .error _ => e.isTxe = true ∧ More d ∧ 256 ≤ d.sys.cur + 1 := by
  cases e with
  | main op =>
    by_cases ho : op = .tick
    · subst ho
      have h1 := masterStep_int cfg d.sys.lib hd hs .tick
      simp only [MEv.op] at h1
      simp only [masterDevInt, if_true, masterSysStep, MOp.isMain, Bool.true_eq_false, if_false, h1, ok_bind, masterSends, pure_eq]
      exact ⟨⟨[.tick], rfl, by simp⟩, rfl, rfl, rfl, rfl, .inl ⟨rfl, rfl⟩⟩
    · simp only [masterDevInt, if_neg ho]
      exact ⟨⟨[], (masterAfter_nil _).symm, by simp⟩, rfl, rfl, rfl, rfl, .inl ⟨rfl, rfl⟩⟩
  | rto => exact ⟨⟨[], (masterAfter_nil _).symm, by simp⟩, rfl, rfl, rfl, rfl, .inl ⟨rfl, rfl⟩⟩
  | timer =>
    have h1 := masterStep_int cfg d.sys.lib hd hs .t35
    simp only [MEv.op] at h1
    simp only [masterDevInt, masterSysStep, h1, ok_bind, pure_eq]
    exact ⟨⟨[.t35], rfl, by simp⟩, rfl, rfl, rfl, rfl, .inl ⟨rfl, rfl⟩⟩
  | usart rx t =>
    obtain ⟨l1, n1, h1⟩ := irqRx_after (cfg := cfg) hd hs rx
    have h2 := devTx_after (cfg := cfg) (d := { d with sys := { d.sys with lib := masterAfter d.sys.lib l1 } }) hd hs t
    simp only [masterDevInt, h1, ok_bind]
    cases hx : masterDevTx cfg { d with sys := { d.sys with lib := masterAfter d.sys.lib l1 } } t with
    | error er =>
      rw [hx] at h2
      exact h2
    | ok y =>
      obtain ⟨d', o⟩ := y
      rw [hx] at h2
      obtain ⟨l2, c, rfl, n2, tx⟩ := h2
      obtain ⟨l3, g, r, n3, h3⟩ := irqRto_after (cfg := cfg) (s := { d.sys with lib := masterAfter (masterAfter d.sys.lib l1) l2, cur := c }) hd hs
      simp only [ok_bind, h3, pure_eq]
      refine ⟨⟨l1 ++ l2 ++ l3, by rw [← masterAfter_append, ← masterAfter_append], ?_⟩, ?_, rfl, rfl, rfl, ?_⟩
      · intro h
        simp only [List.mem_append] at h
        rcases h with (h | h) | h
        · exact absurd h n1
        · exact n2 h
        · exact absurd h n3
      · rcases tx with ⟨-, rfl⟩ | ⟨-, -, -, rfl⟩ <;> rfl
      · rcases tx with ⟨rfl, rfl⟩ | ⟨rfl, t2, rfl, rfl⟩
        · exact .inl ⟨rfl, rfl⟩
        · refine .inr ⟨rfl, t2, rfl, ?_⟩
          simp only [after_req]

/-- `Inv` (of the device and the outputs so far) survives interrupts, except the marked ones in case `U`; then none of them is undefined. -/
def Stable (cfg : Config) (U : Prop) (r : MasterDev → HMOp → Bool) (Inv : MasterDev → List HMOut → Prop) : Prop :=
  ∀ d o e d0, Inv d o → d.sys.lib.drv = true → d.sys.lib.dataSet = true → (U → r d0 e = false) →
    match masterDevInt cfg d e with
    | .ok (d', o1) => Inv d' (o ++ o1)
    | .error _ => ¬ U

theorem ints_stable {cfg : Config} {U : Prop} {r : MasterDev → HMOp → Bool} {Inv : MasterDev → List HMOut → Prop} (hS : Stable cfg U r Inv)
    (d0 : MasterDev) (l : List HMOp) : ∀ (d : MasterDev) (o : List HMOut), Inv d o → d.sys.lib.drv = true → d.sys.lib.dataSet = true →
    (U → ∀ e ∈ l, r d0 e = false) →
    match runIntsO (masterDevInt cfg) d l with
    | .ok (d', o1) => Inv d' (o ++ o1) ∧ libOuts o1 = [] ∧ ∃ ml, d'.sys.lib = masterAfter d.sys.lib ml
    | .error _ => ¬ U := by
  induction l with
  | nil =>
    intro d o hi _ _ _
    simp only [runIntsO, List.append_nil]
    exact ⟨hi, rfl, [], (masterAfter_nil _).symm⟩
  | cons e l ih =>
    intro d o hi hd hs hr
    have h1 := hS d o e d0 hi hd hs (fun u => hr u e (List.mem_cons_self ..))
    have h2 := devInt_eff (cfg := cfg) hd hs e
    simp only [runIntsO]
    cases hx : masterDevInt cfg d e with
    | error er => rw [hx] at h1; exact h1
    | ok y =>
      obtain ⟨d', o1⟩ := y
      rw [hx] at h1 h2
      simp only at h1 h2
      obtain ⟨m1, e1, -⟩ := h2.lib
      have hd' : d'.sys.lib.drv = true := by rw [e1]; exact hd
      have hs' : d'.sys.lib.dataSet = true := by rw [e1]; exact hs
      have h3 := ih d' (o ++ o1) h1 hd' hs' (fun u e he => hr u e (List.mem_cons_of_mem _ he))
      simp only [ok_bind]
      cases hy : runIntsO (masterDevInt cfg) d' l with
      | error er => rw [hy] at h3; exact h3
      | ok z =>
        obtain ⟨d'', o2⟩ := z
        rw [hy] at h3
        simp only [ok_bind, pure_eq]
        obtain ⟨k1, k2, m2, e2⟩ := h3
        refine ⟨by rw [← List.append_assoc]; exact k1, by rw [libOuts_append, h2.outs, k2]; rfl, m1 ++ m2, ?_⟩
        rw [e2, e1, masterAfter_append]

/-! ### Programs -/

/-- Executions of `P` from states with `Inv`: the library goes through an execution of `p`, and `Post` holds at the end. -/
def Tr (cfg : Config) (U : Prop) (Post : MasterDev → List HMOut → Prop) (P : DProg) (p : MProg) (Inv : MasterDev → List HMOut → Prop) : Prop :=
  ∀ ints d o, Inv d o → d.sys.lib.drv = true → d.sys.lib.dataSet = true → (U → noRaceO (masterDevInt cfg) P ints d) →
    match runProgO (masterDevInt cfg) P ints d with
    | .ok (d', o1) => Post d' (o ++ o1) ∧ ∃ mi, runProg (masterInt cfg) p mi d.sys.lib = .ok (d'.sys.lib, libOuts o1)
    | .error e => U → ∃ mi, runProg (masterInt cfg) p mi d.sys.lib = .error e

section rules
variable {cfg : Config} {U : Prop} {Post Inv Inv' : MasterDev → List HMOut → Prop}

/-- Interrupts before the first step. -/
theorem runProg_pre {p : MProg} {s : Master} (hd : s.drv = true) (hs : s.dataSet = true) (l : List MEv) (mi : List (List MEv)) :
    runProg (masterInt cfg) p ((l ++ mi.headD []) :: mi.tail) s = runProg (masterInt cfg) p mi (masterAfter s l) := by
  have hd' : (masterAfter s l).drv = true := hd
  have hs' : (masterAfter s l).dataSet = true := hs
  cases p with
  | done =>
    simp only [runProg, runInts_master cfg s hd hs, runInts_master cfg _ hd' hs', okBind]
    rw [masterAfter_append]
    have : ((l ++ mi.headD []) :: mi.tail).flatten = l ++ mi.flatten := by cases mi <;> simp
    rw [this]
  | step r f k =>
    simp only [runProg, List.headD_cons, List.tail_cons, runInts_master cfg s hd hs, runInts_master cfg _ hd' hs', okBind]
    rw [masterAfter_append]

theorem tr_done (hS : Stable cfg U free Inv) (hP : ∀ d o, Inv d o → Post d o) : Tr cfg U Post .done .done Inv := by
  intro ints d o hi hd hs _
  have h := ints_stable hS d ints.flatten d o hi hd hs (fun _ _ _ => rfl)
  simp only [runProgO]
  cases hx : runIntsO (masterDevInt cfg) d ints.flatten with
  | error e => rw [hx] at h; exact fun u => absurd u h
  | ok y =>
    obtain ⟨d', o1⟩ := y
    rw [hx] at h
    obtain ⟨h1, h2, ml, h3⟩ := h
    refine ⟨hP _ _ h1, [ml], ?_⟩
    simp only [runProg, runInts_master cfg d.sys.lib hd hs, okBind, List.flatten_cons, List.flatten_nil, List.append_nil, h2, h3, pureOk]

/-- A step of the library. -/
theorem tr_lib {α β : Type} {r : MasterDev → HMOp → Bool} {r' : Master → MEv → Bool} {F : MasterDev → C (α × MasterDev × List HMOut)} {K : α → DProg}
    {f : Master → C (β × Master × List MOut)} {k : β → MProg} (hS : Stable cfg U r Inv)
    (h : ∀ d o, Inv d o → d.sys.lib.drv = true → d.sys.lib.dataSet = true →
      match F d with
      | .ok (a, d', o1) => ∃ b, f d.sys.lib = .ok (b, d'.sys.lib, libOuts o1) ∧ d'.sys.lib.drv = true ∧ d'.sys.lib.dataSet = true ∧
          ∃ Inv' : MasterDev → List HMOut → Prop, Inv' d' (o ++ o1) ∧ Tr cfg U Post (K a) (k b) Inv'
      | .error e => f d.sys.lib = .error e) : Tr cfg U Post (.step r F K) (.step r' f k) Inv := by
  intro ints d o hi hd hs hr
  have h1 := ints_stable hS d (ints.headD []) d o hi hd hs (fun u => (hr u).1)
  simp only [runProgO]
  cases hx : runIntsO (masterDevInt cfg) d (ints.headD []) with
  | error e => rw [hx] at h1; exact fun u => absurd u h1
  | ok y =>
    obtain ⟨d1, o1⟩ := y
    rw [hx] at h1
    obtain ⟨k1, k2, ml, k3⟩ := h1
    have hd1 : d1.sys.lib.drv = true := by rw [k3]; exact hd
    have hs1 : d1.sys.lib.dataSet = true := by rw [k3]; exact hs
    have h2 := h d1 (o ++ o1) k1 hd1 hs1
    simp only [ok_bind]
    cases hF : F d1 with
    | error e =>
      rw [hF] at h2
      intro _
      refine ⟨[ml], ?_⟩
      have h2 : f d1.sys.lib = .error e := h2
      rw [k3] at h2
      simp only [runProg, List.headD_cons, runInts_master cfg d.sys.lib hd hs, okBind, h2, errBind]
    | ok z =>
      obtain ⟨a, d2, o2⟩ := z
      rw [hF] at h2
      obtain ⟨b, b1, b2, b3, Inv', b4, b5⟩ := h2
      have h3 := b5 ints.tail d2 (o ++ o1 ++ o2) b4 b2 b3 (fun u => (hr u).2 d1 o1 a d2 o2 hx hF)
      rw [k3] at b1
      simp only [ok_bind]
      cases hy : runProgO (masterDevInt cfg) (K a) ints.tail d2 with
      | error e =>
        rw [hy] at h3
        intro u
        obtain ⟨mi, h4⟩ := h3 u
        refine ⟨ml :: mi, ?_⟩
        simp only [runProg, List.headD_cons, List.tail_cons, runInts_master cfg d.sys.lib hd hs, okBind, b1, h4, errBind]
      | ok w =>
        obtain ⟨d3, o3⟩ := w
        rw [hy] at h3
        obtain ⟨h4, mi, h5⟩ := h3
        simp only [ok_bind, pure_eq]
        refine ⟨by simpa only [List.append_assoc] using h4, ml :: mi, ?_⟩
        simp only [runProg, List.headD_cons, List.tail_cons, runInts_master cfg d.sys.lib hd hs, okBind, b1, h5, pureOk,
          libOuts_append, k2, List.nil_append]

/-- A step of the driver. -/
theorem tr_drv {r : MasterDev → HMOp → Bool} {F : MasterDev → C (Unit × MasterDev × List HMOut)} {K : Unit → DProg} {p : MProg}
    (hS : Stable cfg U r Inv)
    (h : ∀ d o, Inv d o → d.sys.lib.drv = true → d.sys.lib.dataSet = true →
      ∃ d' o1, F d = .ok ((), d', o1) ∧ d'.sys.lib = d.sys.lib ∧ libOuts o1 = [] ∧ Inv' d' (o ++ o1))
    (hK : Tr cfg U Post (K ()) p Inv') : Tr cfg U Post (.step r F K) p Inv := by
  intro ints d o hi hd hs hr
  have h1 := ints_stable hS d (ints.headD []) d o hi hd hs (fun u => (hr u).1)
  simp only [runProgO]
  cases hx : runIntsO (masterDevInt cfg) d (ints.headD []) with
  | error e => rw [hx] at h1; exact fun u => absurd u h1
  | ok y =>
    obtain ⟨d1, o1⟩ := y
    rw [hx] at h1
    obtain ⟨k1, k2, ml, k3⟩ := h1
    have hd1 : d1.sys.lib.drv = true := by rw [k3]; exact hd
    have hs1 : d1.sys.lib.dataSet = true := by rw [k3]; exact hs
    obtain ⟨d2, o2, hF, e1, e2, hi2⟩ := h d1 (o ++ o1) k1 hd1 hs1
    simp only [ok_bind, hF]
    have hd2 : d2.sys.lib.drv = true := by rw [e1]; exact hd1
    have hs2 : d2.sys.lib.dataSet = true := by rw [e1]; exact hs1
    have h3 := hK ints.tail d2 (o ++ o1 ++ o2) hi2 hd2 hs2 (fun u => (hr u).2 d1 o1 () d2 o2 hx hF)
    rw [e1, k3] at h3
    cases hy : runProgO (masterDevInt cfg) (K ()) ints.tail d2 with
    | error e =>
      rw [hy] at h3
      intro u
      obtain ⟨mi, h4⟩ := h3 u
      exact ⟨_, (runProg_pre hd hs ml mi).trans h4⟩
    | ok w =>
      obtain ⟨d3, o3⟩ := w
      rw [hy] at h3
      obtain ⟨h4, mi, h5⟩ := h3
      simp only [ok_bind, pure_eq]
      refine ⟨by simpa only [List.append_assoc] using h4, _, (runProg_pre hd hs ml mi).trans ?_⟩
      rw [h5]
      simp only [libOuts_append, k2, e2, List.nil_append]

end rules

end Modbus
