import Verif.Props.ExamplesLiveDemo

/-! **C95**: the hypotheses are met, and all that the theorem speaks of happens. -/

namespace Modbus

open Spec

/-- Events of the master's device can be had from its program. -/
theorem xlm_lift {cfg : Config} (ops : List HMOp) : (∀ op ∈ ops, ∀ m, op = .main m → m = .poll ∨ m = .tick) → ∀ {e : ExMaster} {s' : MasterSys} {t : HMTrace},
    masterSysRun cfg e.sys ops = .ok (s', t) → ∃ e', exRun cfg e (ops.map toE) = .ok (e', t) ∧ e'.sys = s' := by
  induction ops with
  | nil => intro _ e s' t h; cases h; exact ⟨e, rfl, rfl⟩
  | cons op ops ih =>
    intro hp e s' t h
    simp only [masterSysRun] at h
    obtain ⟨⟨s1, o1⟩, k1, h⟩ := bind_ok h
    obtain ⟨⟨s2, t2⟩, k2, h⟩ := bind_ok h
    cases h
    have dev : ∀ x : ExMaster, x.sys = e.sys → ∃ e1, exDevice cfg x op = .ok (e1, [(op, o1)]) ∧ e1.sys = s1 := by
      intro x hx
      exact ⟨{ sys := s1, app := exCallbacks x.app o1 }, by simp only [exDevice, hx, k1, ok_bind, pure_eq], rfl⟩
    have st : ∃ e1, exStep cfg e (toE op) = .ok (e1, [(op, o1)]) ∧ e1.sys = s1 := by
      cases op with
      | main m =>
        rcases hp _ (List.mem_cons_self ..) m rfl with rfl | rfl
        · exact dev e rfl
        · exact dev { e with app := { e.app with timer := if e.app.timer = 0 then 0 else e.app.timer - 1 } } rfl
      | rto => exact dev e rfl
      | usart rx txe => exact dev e rfl
      | timer => exact dev e rfl
    obtain ⟨e1, h1, h2⟩ := st
    obtain ⟨e2, h3, h4⟩ := ih (fun q hq => hp q (List.mem_cons_of_mem _ hq)) (e := e1) (by rw [h2]; exact k2)
    exact ⟨e2, by simp only [List.map_cons, exRun, h1, h3, ok_bind, pure_eq]; rfl, h4⟩

/-- Steps make a run. -/
theorem xlm_slice (a b : Nat) : masterSysRun Config.default (xlmSt a) ((List.range b).map fun k => xlmOp (a + k)) =
    .ok (xlmSt (a + b), (List.range b).map fun k => (xlmOp (a + k), xlmOut (a + k))) := by
  induction b with
  | zero => rfl
  | succ b ih =>
    rw [List.range_succ, List.map_append, List.map_append]
    exact msysRun_snoc ih (xlm_step (a + b))

theorem xlm_stands {n : Nat} (h : n ≤ 1200) : xlmSt n = xlm0 := by
  have h1 := (Classical.choose_spec xlm_chain).1 n
  have h2 : ((List.range n).map fun n => (xlmOp n, xlmOut n)) = (List.range n).map fun i => (HMOp.main (xlIdle i), ([] : List HMOut)) := by
    apply List.map_congr_left
    intro k hk
    have := List.mem_range.1 hk
    simp only [xlmOp, xlmOut, if_pos (show k < 1200 by omega)]
  rw [h2, xlm_stand] at h1
  exact (Option.some.inj h1).symm

/-- The program while it waits. -/
def xlE (n : Nat) : ExMaster :=
  { sys := xlm0, app := { coil := false, hreg := 0, prevCoil := false, prevHreg := 0, timer := BitVec.ofNat 16 (300 - n / 4) } }

theorem xlE_run (n : Nat) : n ≤ 1200 → exRun Config.default (xlE 0) ((List.range n).map fun k => toE (xlmOp k)) =
    .ok (xlE n, (List.range n).map fun k => (xlmOp k, xlmOut k)) := by
  have snoc : ∀ {a : List EOp} {op : EOp} {e e1 e2 : ExMaster} {t t1 : HMTrace}, exRun Config.default e a = .ok (e1, t) →
      exStep Config.default e1 op = .ok (e2, t1) → exRun Config.default e (a ++ [op]) = .ok (e2, t ++ t1) := by
    intro a
    induction a with
    | nil => intro op e e1 e2 t t1 h1 h2; cases h1; simp only [List.nil_append, exRun, h2, ok_bind, pure_eq, List.append_nil]
    | cons x a ih =>
      intro op e e1 e2 t t1 h1 h2
      simp only [exRun] at h1
      obtain ⟨⟨s3, t3⟩, q1, h1⟩ := bind_ok h1
      obtain ⟨⟨s4, t4⟩, q2, h1⟩ := bind_ok h1
      cases h1
      simp only [List.cons_append, exRun, q1, ok_bind, ih q2 h2, pure_eq, List.append_assoc]
  induction n with
  | zero => intro _; rfl
  | succ n ih =>
    intro h
    have ih := ih (by omega)
    rw [List.range_succ, List.map_append, List.map_append]
    refine snoc ih ?_
    have hs := xlm_step n
    rw [xlm_stands (by omega), xlm_stands h] at hs
    have ho : xlmOut n = [] := (xlm_out (by omega)).1
    rw [ho] at hs
    have e : xlmOp n = if n % 4 = 3 then .main .tick else .main .poll := xlm_op_idle (by omega)
    simp only [List.map_cons, List.map_nil, ho]
    split at e
    · rename_i h4
      rw [e] at hs ⊢
      show exDevice Config.default _ (.main .tick) = _
      have ht : (if BitVec.ofNat 16 (300 - n / 4) = 0 then 0 else BitVec.ofNat 16 (300 - n / 4) - 1) = BitVec.ofNat 16 (300 - (n + 1) / 4) := by
        have h5 : (BitVec.ofNat 16 (300 - n / 4)).toNat = 300 - n / 4 := by rw [BitVec.toNat_ofNat]; omega
        rw [if_neg (by intro h6; rw [h6] at h5; have : (0 : BitVec 16).toNat = 0 := rfl; omega)]
        apply BitVec.eq_of_toNat_eq
        rw [BitVec.toNat_sub, h5, BitVec.toNat_ofNat]
        have : (1 : BitVec 16).toNat = 1 := rfl
        omega
      have hE : xlE (n + 1) = { sys := xlm0, app := { (xlE n).app with timer := if (xlE n).app.timer = 0 then 0 else (xlE n).app.timer - 1 } } := by
        unfold xlE
        dsimp only
        rw [ht]
      rw [hE]
      simp only [exDevice, show (xlE n).sys = xlm0 from rfl, hs, ok_bind, pure_eq]
      rfl
    · rename_i h4
      rw [e] at hs ⊢
      show exDevice Config.default _ (.main .poll) = _
      simp only [exDevice, xlE, hs, ok_bind, pure_eq, show (n + 1) / 4 = n / 4 by omega]
      rfl

theorem xlE_init : exDevice Config.default ExMaster.powerOn (.main (.init .rtu)) = .ok (xlE 0, [(.main (.init .rtu), [])]) := by
  show exDevice Config.default ⟨MasterSys.powerOn, ExMaster.powerOn.app⟩ _ = _
  simp only [exDevice, xlm_init, ok_bind, pure_eq]
  rfl

theorem xl_master : RunsExampleMaster Config.default xlm := by
  intro n
  refine ⟨1200 + 4 + n, by omega, ?_⟩
  have h1 := xlE_run 1200 (Nat.le_refl _)
  have hreq : ((List.range 4).map fun k => xlmOp (1200 + k)) = (exRequests (xlE 1200).app).map fun r => .main (.request r) := by decide +kernel
  have h2 := xlm_slice 1200 4
  rw [hreq, xlm_stands (Nat.le_refl _)] at h2
  have h3 : exStep Config.default (xlE 1200) .update = .ok ({ sys := xlmSt (1200 + 4), app := { (xlE 1200).app with timer := 300 } },
      (List.range 4).map fun k => (xlmOp (1200 + k), xlmOut (1200 + k))) := by
    have ht : (xlE 1200).app.timer = 0 := by decide +kernel
    simp only [exStep, if_pos ht, show (xlE 1200).sys = xlm0 from rfl, h2, ok_bind, pure_eq]
  have hp : ∀ op ∈ (List.range n).map (fun k => xlmOp (1200 + 4 + k)), ∀ m, op = .main m → m = .poll ∨ m = .tick := by
    intro op ho m hm
    obtain ⟨k, -, rfl⟩ := List.mem_map.1 ho
    by_cases hk : 1381 ≤ 1200 + 4 + k
    · rcases (xlm_out (.inr hk)).2 with e | e <;> (rw [e] at hm; cases hm; simp)
    · have key : ∀ k, k < 177 → xlmOp (1200 + 4 + k) = .main .poll ∨ xlmOp (1200 + 4 + k) = .main .tick ∨ mainOp? (xlmOp (1200 + 4 + k)) = none := by decide +kernel
      rcases key k (by omega) with e | e | e
      · rw [hm] at e; cases e; simp
      · rw [hm] at e; cases e; simp
      · rw [hm] at e; cases e
  obtain ⟨e', h4, -⟩ := xlm_lift _ hp (e := { sys := xlmSt (1200 + 4), app := { (xlE 1200).app with timer := 300 } }) (xlm_slice (1200 + 4) n)
  refine ⟨(List.range 1200).map (fun k => toE (xlmOp k)) ++ .update :: ((List.range n).map (fun k => xlmOp (1200 + 4 + k))).map toE, e', ?_⟩
  have app : ∀ (a : List EOp) {b : List EOp} {e e1 e2 : ExMaster} {t t1 : HMTrace}, exRun Config.default e a = .ok (e1, t) →
      exRun Config.default e1 b = .ok (e2, t1) → exRun Config.default e (a ++ b) = .ok (e2, t ++ t1) := by
    intro a
    induction a with
    | nil => intro b e e1 e2 t t1 h1 h2; cases h1; exact h2
    | cons x a ih =>
      intro b e e1 e2 t t1 h1 h2
      simp only [exRun] at h1
      obtain ⟨⟨s3, t3⟩, q1, h1⟩ := bind_ok h1
      obtain ⟨⟨s4, t4⟩, q2, h1⟩ := bind_ok h1
      cases h1
      simp only [List.cons_append, exRun, q1, ok_bind, ih q2 h2, pure_eq, List.append_assoc]
  have h5 : exRun Config.default (xlE 1200) (.update :: ((List.range n).map (fun k => xlmOp (1200 + 4 + k))).map toE) =
      .ok (e', ((List.range 4).map fun k => (xlmOp (1200 + k), xlmOut (1200 + k))) ++ (List.range n).map fun k => (xlmOp (1200 + 4 + k), xlmOut (1200 + 4 + k))) := by
    rw [exRun, h3]
    show (exRun Config.default _ _ >>= _) = _
    rw [h4]; rfl
  have h6 := app _ h1 h5
  simp only [exMain, xlE_init, ok_bind, h6, pure_eq]
  have tr : xlm.trace (1200 + 4 + n) = (.main (.init .rtu), []) :: (List.range (1200 + 4 + n)).map fun k => (xlmOp k, xlmOut k) := rfl
  rw [tr, xl_range, xl_range]
  simp only [List.cons_append, List.nil_append, List.append_assoc]

theorem xls_slice (a b : Nat) : ∃ o, slaveSysRun Config.default (xlsSt a) ((List.range b).map fun k => xlsOp (a + k)) = .ok (xlsSt (a + b), o) := by
  have snoc : ∀ {l : List HOp} {op : HOp} {s s1 s2 : SlaveSys} {o o1 : List HOut}, slaveSysRun Config.default s l = .ok (s1, o) →
      slaveSysStep Config.default s1 op = .ok (s2, o1) → slaveSysRun Config.default s (l ++ [op]) = .ok (s2, o ++ o1) := by
    intro l
    induction l with
    | nil => intro op s s1 s2 o o1 h1 h2; cases h1; simp only [List.nil_append, slaveSysRun, h2, ok_bind, pure_eq, List.append_nil]
    | cons x l ih =>
      intro op s s1 s2 o o1 h1 h2
      simp only [slaveSysRun] at h1
      obtain ⟨⟨s3, t3⟩, q1, h1⟩ := bind_ok h1
      obtain ⟨⟨s4, t4⟩, q2, h1⟩ := bind_ok h1
      cases h1
      simp only [List.cons_append, slaveSysRun, q1, ok_bind, ih q2 h2, pure_eq, List.append_assoc]
  induction b with
  | zero => exact ⟨[], rfl⟩
  | succ b ih =>
    obtain ⟨o, ih⟩ := ih
    rw [List.range_succ, List.map_append]
    exact ⟨_, snoc ih (xls_step (a + b))⟩

/-- The main program's registrations, one by one. -/
theorem xl_regs (ops : List SOp) : ∀ {x : XSlave} {s' : SlaveSys} {o : List HOut}, x.todo = ops → x.sys.rtof = false →
    slaveSysRun Config.default x.sys (ops.map .main) = .ok (s', o) →
    ∃ x', xRun Config.default x (List.replicate ops.length .main) = .ok (x', (ops.map .main, o)) ∧ x'.sys = s' ∧ x'.todo = [] := by
  induction ops with
  | nil => intro x s' o h1 _ h; cases h; exact ⟨x, rfl, rfl, h1⟩
  | cons op ops ih =>
    intro x s' o h1 hr h
    simp only [List.map_cons, slaveSysRun] at h
    obtain ⟨⟨s1, o1⟩, k1, h⟩ := bind_ok h
    obtain ⟨⟨s2, o2⟩, k2, h⟩ := bind_ok h
    cases h
    have hr1 : s1.rtof = false := by have := xsys_rtof k1; exact this.trans hr
    obtain ⟨x', g1, g2, g3⟩ := ih (x := { x with todo := ops, sys := s1 }) rfl hr1 k2
    have hs : xStep Config.default x .main = .ok ({ x with todo := ops, sys := s1 }, ([.main op], o1)) := by
      simp only [xStep, hr, h1, xDevice, k1, ok_bind, pure_eq]
      rfl
    refine ⟨x', ?_, g2, g3⟩
    show xRun Config.default x (.main :: List.replicate ops.length .main) = _
    rw [xRun, hs]
    show (xRun Config.default _ _ >>= _) = _
    rw [g1]; rfl

theorem xls_clear (n : Nat) : ∀ a, 81 ≤ a → clearPolls (xlsSt a).rtof ((List.range n).map fun k => xlsOp (a + k)) = true := by
  induction n with
  | zero => intro a _; rfl
  | succ n ih =>
    intro a ha
    have e : ((List.range (n + 1)).map fun k => xlsOp (a + k)) = xlsOp a :: (List.range n).map fun k => xlsOp (a + 1 + k) := by
      rw [List.range_succ_eq_map, List.map_cons, List.map_map]
      congr 1
      apply List.map_congr_left
      intro k _
      have e : a + (k + 1) = a + 1 + k := by omega
      simp only [Function.comp_apply, Nat.succ_eq_add_one, e]
    have ih := ih (a + 1) (by omega)
    rw [xls_rtof] at ih
    rw [e]
    cases ho : xlsOp a with
    | rto => rw [ho] at ih; exact ih
    | timer => rw [ho] at ih; exact ih
    | usart p q => rw [ho] at ih; exact ih
    | main op =>
      rw [ho] at ih
      have hp : op = .poll := by
        by_cases hn : a < 943 ∨ 1080 ≤ a
        · rw [xls_op_poll (by omega)] at ho
          cases ho; rfl
        · have key : ∀ k, k < 137 → xlsOp (943 + k) = .main .poll ∨ isMainOp (xlsOp (943 + k)) = false := by decide +kernel
          have k := key (a - 943) (by omega)
          rw [show 943 + (a - 943) = a by omega] at k
          rcases k with e | e
          · rw [ho] at e; cases e; rfl
          · rw [ho] at e; cases e
      subst hp
      have hr : (xlsSt a).rtof = false := by
        cases hb : (xlsSt a).rtof with
        | false => rfl
        | true => exact absurd ho (xls_hardware.stalled a .poll hb)
      have ih : clearPolls (xlsSt a).rtof _ = true := ih
      rw [hr] at ih
      simp only [clearPolls, ih, hr]
      rfl

theorem xl_slave : RunsExampleSlave Config.default xls := by
  refine ⟨?_, fun n => ⟨81 + n, by omega, ?_⟩⟩
  · show _ = Except.ok (xlsSt 0, [])
    rw [xls_start]; exact xls_init
  obtain ⟨o1, h1⟩ := xls_slice 0 81
  have e1 : ((List.range 81).map fun k => xlsOp (0 + k)) = xRegistrations.map .main := by decide +kernel
  rw [e1, xls_start] at h1
  obtain ⟨x1, g1, g2, g3⟩ := xl_regs xRegistrations (x := { sys := xls0, led := false, todo := xRegistrations, turn := false }) rfl rfl h1
  have g2 : x1.sys = xlsSt 81 := g2
  obtain ⟨o2, h2⟩ := xls_slice 81 n
  rw [← g2] at h2
  obtain ⟨xops, x2, g4⟩ := x_lift _ g3 (by rw [g2]; exact xls_clear n 81 (Nat.le_refl _)) h2
  have app : ∀ (a : List XOp) {s s1 s2 : XSlave} {t1 t2 : XTrace} {b : List XOp}, xRun Config.default s a = .ok (s1, t1) → xRun Config.default s1 b = .ok (s2, t2) →
      xRun Config.default s (a ++ b) = .ok (s2, (t1.1 ++ t2.1, t1.2 ++ t2.2)) := by
    intro a
    induction a with
    | nil => intro s s1 s2 t1 t2 b h1 h2; cases h1; exact h2
    | cons y a ih =>
      intro s s1 s2 t1 t2 b h1 h2
      simp only [xRun] at h1
      obtain ⟨⟨s3, t3⟩, q1, h1⟩ := bind_ok h1
      obtain ⟨⟨s4, t4⟩, q2, h1⟩ := bind_ok h1
      cases h1
      simp only [List.cons_append, xRun, q1, ok_bind, ih q2 h2, pure_eq, List.append_assoc]
  have g5 := app _ g1 g4
  have h0 : xStep Config.default XSlave.powerOn .main = .ok ({ sys := xls0, led := false, todo := xRegistrations, turn := false }, ([.main (.init .rtu 1)], [])) := rfl
  have tr : (List.range (81 + n)).map xlsOp = xRegistrations.map .main ++ (List.range n).map fun k => xlsOp (81 + k) := by
    rw [xl_range, ← e1]
    simp only [Nat.zero_add]
  refine ⟨List.replicate xRegistrations.length .main ++ xops, x2, [] ++ (o1 ++ o2), ?_⟩
  have goal : xMain Config.default (List.replicate xRegistrations.length .main ++ xops) =
      .ok (x2, .main (.init .rtu 1) :: (List.range (81 + n)).map xlsOp, [] ++ (o1 ++ o2)) := by
    unfold xMain
    rw [xRun, h0, ok_bind, tr]
    generalize xRegistrations.map HOp.main = R at g5
    dsimp only at g5 ⊢
    rw [g5]
    simp only [ok_bind, pure_eq, List.cons_append, List.nil_append]
  exact goal

/-- **C95** is about something: the two example programs on two boards at 115200 baud, with the shipped configuration. After 300 ticks the master makes its
first round of requests, all are accepted, and within 26 more ticks all four have been carried out and reported. Then coil 0 of the slave is off, as its coil 1
has always been (it was on at power-on), by `C95_examples_live`. -/
theorem C95_happens : ∃ (x : MDeviceTimed) (y : DeviceTimed) (τ : BusTimes), Config.default.MWF ∧ Config.default.WF ∧ XFits Config.default ∧
    TimedBus Config.default Config.default 1 τ x y ∧ τ.Fit Config.default.respTimeout ∧ RunsExampleMaster Config.default x ∧ RunsExampleSlave Config.default y ∧
    x.op 1202 = .main (.request (.writeSingleCoil 0 1 false)) ∧ x.out 1202 = [.lib (.ret .sendToQueue)] ∧
    callbacks (x.trace 1381) = [.coilRead 1 1 false, .hregRead 1 1 2002, .coilWrite 1 0 1, .hregWrite 1 0 1] ∧
    bitAt (y.st 81).lib.mem.coils (y.st 81).lib.mem.bools 0 = true ∧ ∃ k, bitAt (y.st k).lib.mem.coils (y.st k).lib.mem.bools 0 = false := by
  obtain ⟨arr, ha, hfit, -⟩ := C76_board_times_fit 115200 (by decide)
  have ha' : arrValue 115200 = .ok 1750 := rfl
  rw [ha'] at ha
  obtain rfl := Except.ok.inj ha
  have hw : Config.default.MWF := by exact ⟨by decide, by decide, by decide⟩
  have hc : Config.default.WF := by decide
  have hf : XFits Config.default := ⟨by decide, by decide, by decide, by decide⟩
  refine ⟨xlm, xls, _, hw, hc, hf, xl_bus, hfit, xl_master, xl_slave, by decide +kernel, by decide +kernel, ?_, ?_, ?_⟩
  · have tr : xlm.trace 1381 = (.main (.init .rtu), []) :: (List.range (1200 + 181)).map fun k => (xlmOp k, xlmOut k) := rfl
    rw [tr, xl_range, xlm_slice1, xlm_slice2]
    have h0 : ∀ j, callbacks ((List.range j).map fun i => (HMOp.main (xlIdle i), ([] : List HMOut))) = [] := by
      intro j
      unfold callbacks
      rw [List.filterMap_eq_nil_iff]
      intro o ho
      obtain ⟨p, hp, ho⟩ := List.mem_flatMap.1 ho
      obtain ⟨i, -, rfl⟩ := List.mem_map.1 hp
      cases ho
    have h1 := h0 1200
    generalize ((List.range 1200).map fun i => (HMOp.main (xlIdle i), ([] : List HMOut))) = z at h1
    have h2 : callbacks (xlmTab.map Prod.snd) = [.coilRead 1 1 false, .hregRead 1 1 2002, .coilWrite 1 0 1, .hregWrite 1 0 1] := by decide +kernel
    rw [← List.singleton_append, callbacks_append, callbacks_append, h1, h2]
    rfl
  · have h1 := (Classical.choose_spec xls_chain).1 81
    rw [xls_slice1] at h1
    have h2 : xlsSt 81 = xls81 := by
      unfold xls81
      rw [h1]; rfl
    show bitAt (xlsSt 81).lib.mem.coils (xlsSt 81).lib.mem.bools 0 = true
    rw [h2]
    decide +kernel
  · have h := (C95_examples_live hw hc hf xl_bus hfit xl_master xl_slave).2.2.1 1202 false (by decide +kernel) (by decide +kernel)
    obtain ⟨k, hk⟩ : ∃ k, xlm.time 1202 + Config.default.queueItems * (BusTimes.most (boardTimes (115200 : BitVec 32).toNat (rtorValue 115200).toNat (1750 : BitVec 32).toNat)
        Config.default.respTimeout + (boardTimes (115200 : BitVec 32).toNat (rtorValue 115200).toNat (1750 : BitVec 32).toNat).Pm) +
        2 * (boardTimes (115200 : BitVec 32).toNat (rtorValue 115200).toNat (1750 : BitVec 32).toNat).Pm < xls.time k := by
      generalize xlm.time 1202 + _ + _ = B
      refine ⟨1080 + B, ?_⟩
      show B < xlsTime (1080 + B)
      rw [xls_time_tail (by omega)]
      omega
    exact ⟨k, (h k hk).1⟩

end Modbus
