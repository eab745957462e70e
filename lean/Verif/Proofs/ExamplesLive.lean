import Verif.Spec.ExamplesLive
import Verif.Props.Serial
import Verif.Props.Mirror

/-! Proofs for C95: the two example programs in real time. -/

namespace Modbus

open Spec

/-! ### The slave's program -/

theorem xRun_shape {cfg : Config} (ops : List XOp) : ∀ {s s' : XSlave} {t : XTrace}, xRun cfg s ops = .ok (s', t) →
    ∃ done polls, mainOps t.1 = done ++ polls ∧ s.todo = done ++ s'.todo ∧ (∀ op ∈ polls, op = .poll) ∧ (polls ≠ [] → s'.todo = []) := by
  induction ops with
  | nil => intro s s' t h; cases h; exact ⟨[], [], rfl, rfl, nofun, fun h => absurd rfl h⟩
  | cons op ops ih =>
    intro s s' t h
    by_cases ht : s.todo = []
    · obtain ⟨a, b⟩ := xRun_polls _ ht h
      exact ⟨[], _, rfl, by rw [ht, a]; rfl, b, fun _ => a⟩
    simp only [xRun] at h
    obtain ⟨⟨s1, t1⟩, k1, h⟩ := bind_ok h
    obtain ⟨⟨s2, t2⟩, k2, h⟩ := bind_ok h
    cases h
    obtain ⟨done, polls, e1, e2, e3, e4⟩ := ih k2
    have same : ∀ {hop : HOp}, (∀ m, hop ≠ .main m) → xDevice cfg s hop = .ok (s1, t1) → s1.todo = s.todo ∧ mainOps t1.1 = [] := by
      intro hop hm hd
      simp only [xDevice] at hd
      obtain ⟨⟨m, o⟩, -, hd⟩ := bind_ok hd
      cases hd
      refine ⟨rfl, ?_⟩
      cases hop <;> first | exact absurd rfl (hm _) | rfl
    have stay : s1.todo = s.todo ∧ mainOps t1.1 = [] →
        ∃ done polls, mainOps (t1.1 ++ t2.1) = done ++ polls ∧ s.todo = done ++ s2.todo ∧ (∀ op ∈ polls, op = .poll) ∧ (polls ≠ [] → s2.todo = []) := by
      rintro ⟨a, b⟩
      exact ⟨done, polls, by rw [mainOps_append, b, e1]; rfl, by rw [← a, e2], e3, e4⟩
    cases op with
    | rto => exact stay (same (by simp) k1)
    | usart rx txe => exact stay (same (by simp) k1)
    | timer => exact stay (same (by simp) k1)
    | main =>
      simp only [xStep] at k1
      split at k1
      · cases k1; exact stay ⟨rfl, rfl⟩
      · cases hl : s.todo with
        | nil => exact absurd hl ht
        | cons op rest =>
          rw [hl] at k1
          simp only [xDevice] at k1
          obtain ⟨⟨m, o⟩, -, k1⟩ := bind_ok k1
          cases k1
          have e2' : rest = done ++ s2.todo := e2
          exact ⟨op :: done, polls, by rw [mainOps_append, e1]; rfl, by rw [e2']; rfl, e3, e4⟩

/-- What the slave's main program does before event `k`. -/
def DeviceTimed.calls (y : DeviceTimed) (k : Nat) : List SOp := mainOps ((List.range k).map y.op)

theorem calls_succ (y : DeviceTimed) (k : Nat) : DeviceTimed.calls y (k + 1) = DeviceTimed.calls y k ++ mainOps [y.op k] := by
  unfold DeviceTimed.calls
  rw [List.range_succ, List.map_append, mainOps_append]
  rfl

theorem calls_le (y : DeviceTimed) {j k : Nat} (h : j ≤ k) : DeviceTimed.calls y j <+: DeviceTimed.calls y k := by
  induction h with
  | refl => exact List.prefix_refl _
  | step _ ih => rw [calls_succ]; exact List.IsPrefix.trans ih (List.prefix_append ..)

theorem appOps_calls (y : DeviceTimed) (k : Nat) : y.appOps k = (DeviceTimed.calls y k).filter isAppOp := by
  unfold Spec.DeviceTimed.appOps DeviceTimed.calls
  generalize (List.range k).map y.op = l
  induction l with
  | nil => rfl
  | cons op l ih =>
    cases op with
    | main op =>
      by_cases h : isAppOp op = true
      · rw [List.filterMap_cons_some (b := op) (by simp [h]), ih]
        show _ = (op :: mainOps l).filter isAppOp
        rw [List.filter_cons_of_pos h]
      · rw [List.filterMap_cons_none (by simp [h]), ih]
        show _ = (op :: mainOps l).filter isAppOp
        rw [List.filter_cons_of_neg h]
    | _ => exact ih

theorem xRegs_app : xRegistrations.filter isAppOp = xRegistrations := by decide +kernel

theorem xRegs_noPoll : ∀ op ∈ xRegistrations, op ≠ .poll := by decide +kernel

/-- Registrations first, then polls. -/
theorem Spec.RunsExampleSlave.shape {cfg : Config} {y : DeviceTimed} (h : RunsExampleSlave cfg y) (k : Nat) :
    ∃ done polls rest, DeviceTimed.calls y k = done ++ polls ∧ xRegistrations = done ++ rest ∧ (∀ op ∈ polls, op = .poll) ∧ (polls ≠ [] → rest = []) := by
  obtain ⟨k', hk, ops, e, o, hx⟩ := h.runs k
  obtain ⟨done, polls, e1, e2, e3, e4⟩ := xRun_shape _ hx
  have e1' : SOp.init .rtu 1 :: DeviceTimed.calls y k' = done ++ polls := e1
  have e2' : SOp.init .rtu 1 :: xRegistrations = done ++ e.todo := e2
  cases done with
  | nil =>
    rw [List.nil_append] at e1'
    have := e3 (.init .rtu 1) (by rw [← e1']; exact List.mem_cons_self ..)
    cases this
  | cons d done =>
    simp only [List.cons_append, List.cons.injEq] at e1' e2'
    obtain ⟨-, e1'⟩ := e1'
    obtain ⟨-, e2'⟩ := e2'
    obtain ⟨t, ht⟩ := calls_le y hk
    rw [e1'] at ht
    rcases List.append_eq_append_iff.1 ht with ⟨as, h1, h2⟩ | ⟨bs, h1, h2⟩
    · exact ⟨DeviceTimed.calls y k, [], as ++ e.todo, (List.append_nil _).symm, by rw [e2', h1, List.append_assoc], nofun, fun h => absurd rfl h⟩
    · refine ⟨done, bs, e.todo, h1, e2', fun op ho => e3 op (by rw [h2]; exact List.mem_append_left _ ho), fun hn => e4 ?_⟩
      rw [h2]
      cases bs with
      | nil => exact absurd rfl hn
      | cons _ _ => simp

theorem Spec.RunsExampleSlave.appOps_prefix {cfg : Config} {y : DeviceTimed} (h : RunsExampleSlave cfg y) (k : Nat) : y.appOps k <+: xRegistrations := by
  obtain ⟨done, polls, rest, e1, e2, e3, e4⟩ := h.shape k
  have hp : polls.filter isAppOp = [] := by
    rw [List.filter_eq_nil_iff]
    intro op ho; rw [e3 op ho]; simp [isAppOp]
  have hd : done.filter isAppOp = done := by
    refine List.filter_eq_self.2 fun op ho => ?_
    have : op ∈ xRegistrations.filter isAppOp := by rw [xRegs_app, e2]; exact List.mem_append_left _ ho
    exact (List.mem_filter.1 this).2
  rw [appOps_calls, e1, List.filter_append, hp, hd, List.append_nil]
  exact ⟨rest, e2.symm⟩

/-- After a poll, everything is registered. -/
theorem Spec.RunsExampleSlave.registered {cfg : Config} {y : DeviceTimed} (h : RunsExampleSlave cfg y) {j k : Nat} (hj : j < k) (hop : y.op j = .main .poll) :
    y.appOps k = xRegistrations := by
  obtain ⟨done, polls, rest, e1, e2, e3, e4⟩ := h.shape k
  have hmem : SOp.poll ∈ DeviceTimed.calls y k := by
    refine (calls_le y (show j + 1 ≤ k by omega)).subset ?_
    rw [calls_succ, hop]
    exact List.mem_append_right _ (List.mem_singleton.2 rfl)
  rw [e1] at hmem
  have hne : polls ≠ [] := by
    rintro rfl
    rw [List.append_nil] at hmem
    exact xRegs_noPoll _ (by rw [e2]; exact List.mem_append_left _ hmem) rfl
  have hr := e4 hne
  rw [hr, List.append_nil] at e2
  have hp : polls.filter isAppOp = [] := by
    rw [List.filter_eq_nil_iff]
    intro op ho; rw [e3 op ho]; simp [isAppOp]
  rw [appOps_calls, e1, List.filter_append, hp, ← e2, xRegs_app, List.append_nil]

/-- No registration after a poll. -/
theorem Spec.RunsExampleSlave.app_first {cfg : Config} {y : DeviceTimed} (h : RunsExampleSlave cfg y) {j k : Nat} {op : SOp} (hj : j < k) (hp : y.op j = .main .poll)
    (hk : y.op k = .main op) : isAppOp op = false := by
  cases ha : isAppOp op with
  | false => rfl
  | true =>
    have h1 := h.registered hj hp
    have h2 := h.registered (show j < k + 1 by omega) hp
    rw [appOps_calls, calls_succ, hk, List.filter_append, ← appOps_calls, h1] at h2
    have h3 := congrArg List.length h2
    have : mainOps [HOp.main op] = [op] := rfl
    rw [this, List.filter_cons_of_pos ha] at h3
    simp at h3

/-! ### The slave's data -/

theorem runActs_apps (l : Limits) (ops : List SOp) : ∀ (m : AppMem) (as : List Act),
    runActs l m (ops.map Act.app ++ as) = runActs l (ops.foldl appAct m) as := by
  induction ops with
  | nil => intro m as; rfl
  | cons op ops ih => intro m as; exact ih _ _

theorem appMem_acts (ops : List SOp) (h : ∀ op ∈ ops, isAppOp op = true) : ∀ m, appMem m ops = ops.foldl appAct m := by
  induction ops with
  | nil => intro m; rfl
  | cons op ops ih =>
    intro m
    have h1 := h op (List.mem_cons_self ..)
    have ih := ih fun op ho => h op (List.mem_cons_of_mem _ ho)
    cases op with
    | register t a p => cases t <;> exact ih _
    | appBool p v => exact ih _
    | appReg p v => exact ih _
    | _ => cases h1

theorem runActs_reqs (l : Limits) (rs : List MReq) : ∀ m, runActs l m (rs.map Act.req) = (seqMem l m rs, seqEvs l m rs) := by
  induction rs with
  | nil => intro m; rfl
  | cons r rs ih =>
    intro m
    simp only [List.map_cons, runActs, ih]
    rfl

/-- The history of the slave: registrations, then requests. -/
theorem Spec.SerialSlave.example {cfg : Config} {l : Limits} {id : U8} {x : MDeviceTimed} {y : DeviceTimed} {D : Nat → List Tx} {H : Nat → List Act}
    (S : SerialSlave l id x y D H) (h : RunsExampleSlave cfg y) (k : Nat) :
    ∃ rs, H k = (y.appOps k).map Act.app ++ rs.map Act.req ∧ (rs ≠ [] → y.appOps k = xRegistrations) := by
  suffices ∃ rs, H k = (y.appOps k).map Act.app ++ rs.map Act.req ∧ (rs ≠ [] → ∃ j, j < k ∧ y.op j = .main .poll) by
    obtain ⟨rs, h1, h2⟩ := this
    refine ⟨rs, h1, fun hn => ?_⟩
    obtain ⟨j, hj, hp⟩ := h2 hn
    exact h.registered hj hp
  induction k with
  | zero => exact ⟨[], by rw [S.start]; rfl, fun h => absurd rfl h⟩
  | succ k ih =>
    obtain ⟨rs, h1, h2⟩ := ih
    have ha := S.apps (k + 1)
    have ha0 := S.apps k
    rcases S.step k with ⟨op, e1, e2, e3⟩ | ⟨r, e1, e3⟩ | e3
    · have hrs : rs = [] := by
        refine Classical.byContradiction fun hn => ?_
        obtain ⟨j, hj, hp⟩ := h2 hn
        rw [h.app_first hj hp e1] at e2
        cases e2
      subst hrs
      rw [e3, List.filterMap_append, ha0] at ha
      refine ⟨[], ?_, fun h => absurd rfl h⟩
      rw [e3, h1, ← ha]
      simp [Act.app?]
    · rw [e3, List.filterMap_append, ha0] at ha
      refine ⟨rs ++ [r], ?_, fun _ => ⟨k, Nat.lt_succ_self _, e1⟩⟩
      rw [e3, h1, ← ha]
      simp [Act.app?]
    · rw [e3, ha0] at ha
      refine ⟨rs, by rw [e3, h1, ha], fun hn => ?_⟩
      obtain ⟨j, hj, hp⟩ := h2 hn
      exact ⟨j, by omega, hp⟩

/-! ### The four requests -/

/-- A request as the example program makes them. -/
def ExReq (r : MReq) : Prop := ∃ c v, r ∈ exampleRound c v

/-- The slave's data: all registered, everything but coil 0 and holding register 0 as at power-on. -/
structure ExMem (m : AppMem) : Prop where
  lay : XLayout m
  bools : ∀ p, p ≠ xCoil 0 → m.bools p = xInitMem.bools p
  regs : ∀ p, p ≠ xHreg 0 → m.regs p = xInitMem.regs p

/-- What the requests report. -/
def exReports : List MEvent := [.coilRead 1 1 false, .hregRead 1 1 2002, .coilWrite 1 0 1, .hregWrite 1 0 1]

/-- The effect of a request of the example program. -/
def exEffect (m : AppMem) : MReq → AppMem
  | .writeSingleCoil _ _ c => { m with bools := fun p => if p = xCoil 0 then c else m.bools p }
  | .writeSingleReg _ _ v => { m with regs := fun p => if p = xHreg 0 then v else m.regs p }
  | _ => m

theorem ex_request_effect {cfg : Config} (hf : XFits cfg) {m : AppMem} (hm : ExMem m) {r : MReq} (hr : ExReq r) :
    effect cfg.limits m (asRequest r) = exEffect m r ∧ ∀ e ∈ outcome cfg.limits m r, e ∈ exReports := by
  have hl := hm.lay
  have f1 : ¬ cfg.limits.coils < 2 := by have := hf.coils; show ¬ cfg.coilsQty < 2; omega
  have f2 : ¬ cfg.limits.hregs < 2 := by have := hf.hregs; show ¬ cfg.hregQty < 2; omega
  have f3 : ¬ cfg.limits.coils ≤ 0 := by omega
  have f4 : ¬ cfg.limits.hregs ≤ 0 := by omega
  have t1 : m.coils 1 = some (xCoil 1) := by rw [hl.coils]; rfl
  have t0 : m.coils 0 = some (xCoil 0) := by rw [hl.coils]; rfl
  have u1 : m.hregs 1 = some (xHreg 1) := by rw [hl.hregs]; rfl
  have u0 : m.hregs 0 = some (xHreg 0) := by rw [hl.hregs]; rfl
  obtain ⟨c, v, hr⟩ := hr
  simp only [exampleRound, List.mem_cons, List.not_mem_nil, or_false] at hr
  rcases hr with rfl | rfl | rfl | rfl
  · have x1 : exceptionFor cfg.limits m (asRequest (.readCoils 1 1 1)) = none := by
      simp [exceptionFor, asRequest, BitTab.table, BitTab.limit, f1, t1, allRegistered]
    have b1 : bitAt m.coils m.bools 1 = false := by
      simp only [bitAt, t1]
      rw [hm.bools _ (by decide)]; rfl
    have o1 : outcome cfg.limits m (.readCoils 1 1 1) = [.coilRead 1 1 (bitAt m.coils m.bools 1)] := by
      unfold outcome; rw [x1]; rfl
    rw [o1, b1]
    exact ⟨rfl, by decide⟩
  · have x2 : exceptionFor cfg.limits m (asRequest (.readHoldingReg 1 1 1)) = none := by
      simp [exceptionFor, asRequest, RegTab.table, RegTab.limit, f2, u1, allRegistered]
    have b1 : regAt m.hregs m.regs 1 = 2002 := by
      simp only [regAt, u1]
      rw [hm.regs _ (by decide)]; rfl
    have o2 : outcome cfg.limits m (.readHoldingReg 1 1 1) = [.hregRead 1 1 (regAt m.hregs m.regs 1)] := by
      unfold outcome; rw [x2]; rfl
    rw [o2, b1]
    exact ⟨rfl, by decide⟩
  · have x3 : exceptionFor cfg.limits m (asRequest (.writeSingleCoil 0 1 c)) = none := by
      cases c <;> simp [exceptionFor, asRequest, f3, t0]
    have e3 : effect cfg.limits m (asRequest (.writeSingleCoil 0 1 c)) =
        { m with bools := storeAll m.coils 0 (fun _ => decide ((if c then 0xFF00 else 0x0000) ≠ 0)) m.bools 1 } := if_pos x3
    have g6 : storeAll m.coils 0 (fun _ => decide ((if c then 0xFF00 else 0x0000) ≠ 0)) m.bools 1 = fun p => if p = xCoil 0 then c else m.bools p := by
      funext p
      simp only [storeAll, Nat.add_zero, t0]
      cases c <;> rfl
    have o3 : outcome cfg.limits m (.writeSingleCoil 0 1 c) = [.coilWrite 1 0 1] := by
      unfold outcome; rw [x3]
    rw [e3, g6, o3]
    exact ⟨rfl, by decide⟩
  · have x4 : exceptionFor cfg.limits m (asRequest (.writeSingleReg 0 1 v)) = none := by
      simp [exceptionFor, asRequest, f4, u0]
    have e4 : effect cfg.limits m (asRequest (.writeSingleReg 0 1 v)) =
        { m with regs := storeAll m.hregs 0 (fun _ => BitVec.ofNat 16 v.toNat) m.regs 1 } := if_pos x4
    have g6 : storeAll m.hregs 0 (fun _ => BitVec.ofNat 16 v.toNat) m.regs 1 = fun p => if p = xHreg 0 then v else m.regs p := by
      funext p
      simp only [storeAll, Nat.add_zero, u0, BitVec.ofNat_toNat, BitVec.setWidth_eq]
    have o4 : outcome cfg.limits m (.writeSingleReg 0 1 v) = [.hregWrite 1 0 1] := by
      unfold outcome; rw [x4]
    rw [e4, g6, o4]
    exact ⟨rfl, by decide⟩

theorem ExMem.effect {m : AppMem} (h : ExMem m) {r : MReq} (hr : ExReq r) : ExMem (exEffect m r) := by
  obtain ⟨c, v, hr⟩ := hr
  simp only [exampleRound, List.mem_cons, List.not_mem_nil, or_false] at hr
  rcases hr with rfl | rfl | rfl | rfl
  · exact h
  · exact h
  · exact ⟨⟨h.lay.coils, h.lay.dins, h.lay.hregs, h.lay.inregs⟩, fun p hp => (if_neg hp).trans (h.bools p hp), h.regs⟩
  · exact ⟨⟨h.lay.coils, h.lay.dins, h.lay.hregs, h.lay.inregs⟩, h.bools, fun p hp => (if_neg hp).trans (h.regs p hp)⟩

theorem ex_seq {cfg : Config} (hf : XFits cfg) (rs : List MReq) : ∀ {m : AppMem}, ExMem m → (∀ r ∈ rs, ExReq r) →
    seqMem cfg.limits m rs = rs.foldl exEffect m ∧ ExMem (rs.foldl exEffect m) ∧ ∀ e ∈ seqEvs cfg.limits m rs, e ∈ exReports := by
  induction rs with
  | nil => intro m hm _; exact ⟨rfl, hm, nofun⟩
  | cons r rs ih =>
    intro m hm hr
    have h1 := hr r (List.mem_cons_self ..)
    obtain ⟨e1, e2⟩ := ex_request_effect hf hm h1
    obtain ⟨i1, i2, i3⟩ := ih (hm.effect h1) fun q hq => hr q (List.mem_cons_of_mem _ hq)
    have hs : seqMem cfg.limits m (r :: rs) = seqMem cfg.limits (exEffect m r) rs := by show seqMem _ (Spec.effect _ _ _) _ = _; rw [e1]
    have he : seqEvs cfg.limits m (r :: rs) = outcome cfg.limits m r ++ seqEvs cfg.limits (exEffect m r) rs := by
      show _ ++ seqEvs _ (Spec.effect _ _ _) _ = _; rw [e1]
    refine ⟨hs.trans i1, i2, fun e h => ?_⟩
    rw [he] at h
    exact (List.mem_append.1 h).elim (e2 e) (i3 e)

theorem exMem_registered : ExMem (appMem xInitMem xRegistrations) := by
  have key : ∀ (ops : List SOp), (∀ op ∈ ops, ∃ t a p, op = SOp.register t a p) → ∀ m, (appMem m ops).bools = m.bools ∧ (appMem m ops).regs = m.regs := by
    intro ops
    induction ops with
    | nil => intro _ m; exact ⟨rfl, rfl⟩
    | cons op ops ih =>
      intro h m
      obtain ⟨t, a, p, rfl⟩ := h op (List.mem_cons_self ..)
      have ih := ih (fun op ho => h op (List.mem_cons_of_mem _ ho))
      cases t <;> exact ih _
  have hreg : ∀ op ∈ xRegistrations, ∃ t a p, op = SOp.register t a p := by
    intro op ho
    rcases List.mem_append.1 ho with ho | ho
    · obtain ⟨i, -, ho⟩ := List.mem_flatMap.1 ho
      simp only [xRegister, List.mem_cons, List.not_mem_nil, or_false] at ho
      rcases ho with rfl | rfl | rfl | rfl <;> exact ⟨_, _, _, rfl⟩
    · obtain rfl := List.mem_singleton.1 ho
      exact ⟨_, _, _, rfl⟩
  obtain ⟨h1, h2⟩ := key _ hreg xInitMem
  exact ⟨xLayout_registered, fun p _ => by rw [h1], fun p _ => by rw [h2]⟩

theorem reg_prefix_mem {ops : List SOp} (h : ops <+: xRegistrations) : (ops.foldl appAct xInitMem).bools = xInitMem.bools ∧
    (ops.foldl appAct xInitMem).regs = xInitMem.regs := by
  have hreg : ∀ op ∈ ops, ∃ t a p, op = SOp.register t a p := by
    intro op ho
    replace ho := h.subset ho
    rcases List.mem_append.1 ho with ho | ho
    · obtain ⟨i, -, ho⟩ := List.mem_flatMap.1 ho
      simp only [xRegister, List.mem_cons, List.not_mem_nil, or_false] at ho
      rcases ho with rfl | rfl | rfl | rfl <;> exact ⟨_, _, _, rfl⟩
    · obtain rfl := List.mem_singleton.1 ho
      exact ⟨_, _, _, rfl⟩
  clear h
  generalize xInitMem = m
  induction ops generalizing m with
  | nil => exact ⟨rfl, rfl⟩
  | cons op ops ih =>
    obtain ⟨t, a, p, rfl⟩ := hreg op (List.mem_cons_self ..)
    have ih := ih (fun op ho => hreg op (List.mem_cons_of_mem _ ho))
    cases t <;> exact ih _

/-! ### The master's program -/

theorem callbacks_append (a b : HMTrace) : callbacks (a ++ b) = callbacks a ++ callbacks b := by
  unfold callbacks
  rw [List.flatMap_append, List.filterMap_append]

/-- Every request call belongs to the round of what has been read. -/
theorem exHistory_mem {tr : HMTrace} {n : Nat} (h : ExHistory tr n) : ∀ {pre post : HMTrace} {r : MReq} {o : List HMOut},
    tr = pre ++ (.main (.request r), o) :: post → r ∈ exampleRound (lastCoil pre) (lastReg pre) := by
  induction h with
  | start => intro pre post r o e; cases pre <;> cases e
  | @other tr n x h hr ih =>
    intro pre post r o e
    rcases List.append_eq_append_iff.1 e with ⟨as, h1, h2⟩ | ⟨bs, h1, h2⟩
    · exfalso
      cases as with
      | nil =>
        rw [List.nil_append] at h2
        have := (List.cons.inj h2).1
        rw [this] at hr
        cases hr
      | cons a as =>
        have := (List.cons.inj h2).2
        cases as <;> cases this
    · cases bs with
      | nil =>
        rw [List.nil_append] at h2
        have := (List.cons.inj h2).1
        rw [← this] at hr
        cases hr
      | cons b bs =>
        obtain ⟨hb, h2⟩ := List.cons.inj h2
        exact ih (by rw [h1, ← hb])
  | @round tr rd n h h300 hm ho ih =>
    intro pre post r o e
    have inner : ∀ {rd1 rd2 : HMTrace}, rd = rd1 ++ (.main (.request r), o) :: rd2 → pre = tr ++ rd1 → r ∈ exampleRound (lastCoil pre) (lastReg pre) := by
      intro rd1 rd2 e1 e2
      have hc : callbacks rd1 = [] := by
        unfold callbacks
        rw [List.filterMap_eq_nil_iff]
        intro out hout
        obtain ⟨y, hy, hy2⟩ := List.mem_flatMap.1 hout
        rcases ho y (by rw [e1]; exact List.mem_append_left _ hy) with h | h <;> rw [h] at hy2 <;>
          · rw [List.mem_singleton.1 hy2]; rfl
      rw [e2, lastCoil_append, lastReg_append, hc]
      show r ∈ exampleRound (lastCoil tr) (lastReg tr)
      have : (HMOp.main (.request r)) ∈ rd.map Prod.fst := List.mem_map.2 ⟨(.main (.request r), o), by rw [e1]; simp, rfl⟩
      rw [hm] at this
      obtain ⟨r', h1, h2⟩ := List.mem_map.1 this
      cases h2
      exact h1
    rcases List.append_eq_append_iff.1 e with ⟨as, h1, h2⟩ | ⟨bs, h1, h2⟩
    · exact inner h2 h1
    · cases bs with
      | nil => exact inner (rd1 := []) (rd2 := post) h2.symm (by rw [h1, List.append_nil, List.append_nil])
      | cons b bs =>
        obtain ⟨hb, h2⟩ := List.cons.inj h2
        exact ih (by rw [h1, ← hb])

theorem trace_split (x : MDeviceTimed) {a n : Nat} (h : a < n) : ∃ post, x.trace n = x.trace a ++ (x.op a, x.out a) :: post := by
  obtain ⟨d, rfl⟩ : ∃ d, n = a + 1 + d := ⟨n - (a + 1), by omega⟩
  induction d with
  | zero => exact ⟨[], x.trace_succ a⟩
  | succ d ih =>
    obtain ⟨post, ih⟩ := ih (by omega)
    refine ⟨post ++ [(x.op (a + 1 + d), x.out (a + 1 + d))], ?_⟩
    rw [show a + 1 + (d + 1) = (a + 1 + d) + 1 from rfl, x.trace_succ, ih, List.append_assoc]
    rfl

theorem trace_prefix (x : MDeviceTimed) {a n : Nat} (h : a ≤ n) : x.trace a <+: x.trace n := by
  rcases Nat.lt_or_ge a n with h' | h'
  · obtain ⟨post, e⟩ := trace_split x h'
    exact ⟨_, e.symm⟩
  · obtain rfl : a = n := by omega
    exact List.prefix_refl _

/-- Every request of the master belongs to a round of what has been read. -/
theorem Spec.RunsExampleMaster.request {cfg : Config} (hw : cfg.MWF) {x : MDeviceTimed} (h : RunsExampleMaster cfg x) {a : Nat} {r : MReq}
    (ho : x.op a = .main (.request r)) : r ∈ exampleRound (lastCoil (x.trace a)) (lastReg (x.trace a)) := by
  obtain ⟨n, hn, ops, e, hm⟩ := h (a + 1)
  obtain ⟨ea, ta, k, k1, i⟩ := exMain_inv hw ops
  rw [hm] at k1
  cases k1
  obtain ⟨post, hp⟩ := trace_split x (show a < n by omega)
  rw [ho] at hp
  exact exHistory_mem i.hist hp

theorem Spec.RunsExampleMaster.callbacks_eq {cfg : Config} (hw : cfg.MWF) {x : MDeviceTimed} (h : RunsExampleMaster cfg x) (n : Nat) :
    ∃ n', n ≤ n' ∧ callbacks (x.trace n') = (outs (mainTrace (x.trace n'))).filterMap evOf := by
  obtain ⟨n', hn, ops, e, hm⟩ := h n
  obtain ⟨ea, ta, k, k1, i⟩ := exMain_inv hw ops
  rw [hm] at k1
  cases k1
  obtain ⟨hops, -, j2⟩ := i.run
  exact ⟨n', hn, callbacks_outs (irq_silent j2)⟩

theorem accepted_step (x : MDeviceTimed) (q : Nat) : accepted (mainTrace (x.trace (q + 1))) = accepted (mainTrace (x.trace q)) ∨
    ∃ r, x.op q = .main (.request r) ∧ accepted (mainTrace (x.trace (q + 1))) = accepted (mainTrace (x.trace q)) ++ [r] := by
  cases hop : x.op q with
  | main op =>
    have := (mainTrace_step (x := x) q).1 op hop
    rw [this, accepted_append']
    cases op with
    | request r =>
      by_cases ho : libOuts (x.out q) = [.ret .sendToQueue]
      · exact .inr ⟨r, rfl, by rw [ho]; rfl⟩
      · left
        have : accepted [(MOp.request r, libOuts (x.out q))] = [] := by
          unfold accepted
          rw [List.filterMap_cons_none]
          · rfl
          · split
            · rename_i r' heq
              exact absurd (Prod.mk.inj heq).2 ho
            · rfl
        rw [this, List.append_nil]
    | _ => exact .inl (by show _ ++ [] = _; rw [List.append_nil])
  | _ => exact .inl (congrArg _ ((mainTrace_step (x := x) q).2 (by rw [hop]; simp)))

theorem accepted_requests {x : MDeviceTimed} {P : MReq → Prop} {a : Nat} (h : ∀ q, a ≤ q → ∀ r, x.op q = .main (.request r) → P r) {q : Nat} (hq : a ≤ q) :
    ∃ t, accepted (mainTrace (x.trace q)) = accepted (mainTrace (x.trace a)) ++ t ∧ ∀ r ∈ t, P r := by
  induction hq with
  | refl => exact ⟨[], (List.append_nil _).symm, nofun⟩
  | @step q hq ih =>
    obtain ⟨t, e, ht⟩ := ih
    rcases accepted_step x q with e' | ⟨r, ho, e'⟩
    · exact ⟨t, by rw [e', e], ht⟩
    · refine ⟨t ++ [r], by rw [e', e, List.append_assoc], fun r' hr' => ?_⟩
      rcases List.mem_append.1 hr' with h1 | h1
      · exact ht r' h1
      · rw [List.mem_singleton.1 h1]; exact h q hq r ho

end Modbus
