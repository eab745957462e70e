import Verif.Props.DriverTransaction
import Verif.Props.DriverSlave
import Verif.Props.EndToEnd
import Verif.Spec.Bus

/-! C64: a transaction between two devices, from the master's application over the drivers and the line to the slave's application and back. -/

namespace Modbus

open Spec

/-- A device with a slave hears the request frame of `r`. -/
theorem slave_device_side {cfg : Config} (hc : cfg.WF) {sl : SlaveSys} (hsy : HSync sl) {r : MReq} (hid : sl.lib.id = reqSlave r) (hq : QtyOk r)
    (hd : DataOk r) {x : HExchange} (hx : x.Timed cfg) (hf : x.frame = reqFrame r) :
    ∃ pre post sl' o, x.ops = pre ++ .main .poll :: post ∧ .timer ∈ pre ∧ slaveSysRun cfg sl x.ops = .ok (sl', o) ∧
      wire o = rtuFrame (reqSlave r) (encodeResponse (respond cfg.limits (appMem sl.lib.mem (mainOps pre)) (asRequest r))) ∧
      HSync sl' ∧ sl'.lib.id = sl.lib.id ∧
      sl'.lib.mem = appMem (effect cfg.limits (appMem sl.lib.mem (mainOps pre)) (asRequest r)) (mainOps post) := by
  have hg : x.Good cfg sl.lib.id :=
    { hx with frame := by rw [hid, hf]; exact reqFrame_good r hq hd }
  obtain ⟨pre, post, sl', o, h1, h2, h3, h4, -, h5, h6, h7⟩ := C58_one_exchange cfg hc sl hsy x hg
  have ha := frameRequest_reqFrame r hq hd
  rw [hf, ha.respond, hid] at h4
  rw [hf, ha.effect] at h7
  exact ⟨pre, post, sl', o, h1, h2, h3, h4, h5, h6, h7⟩

/-- **C64.** Two devices, each with library, driver and interrupts. Master: any history that has reached a state with no event pending and whose next
poll transmits `r`; then at most `R` failed attempts and an attempt without a gap. Slave: synchronised, with the addressed ID and any memory. If the
slave receives the frame which the master puts on the line (last conclusion), it writes exactly one response to the line, and if the
master receives these bytes as the response of its last attempt, then its application is told, at the last poll, exactly the
prescribed outcome for the slave application's memory at the moment of processing; `r` has exactly its prescribed effect on that memory. -/
theorem C64_device_end_to_end {cfgM cfgS : Config} (hw : cfgM.MWF) (hc : cfgS.WF) {ops : List HMOp} (hl : ∀ op ∈ ops, op.legal) {s s1 : MasterSys}
    {htr : HMTrace} (h : masterSysRun cfgM MasterSys.powerOn (.main (.init .rtu) :: ops) = .ok (s, htr)) {fe ce : Bool} (hs : Standing fe ce s.lib)
    {r : MReq} (hq : QtyOk r) (hd : DataOk r) {o : List HMOut} (hp : masterSysStep cfgM s (.main .poll) = .ok (s1, o))
    (ho : libOuts o = [.send (reqFrame r)]) {as : List HMAttempt} (hf : HFailed cfgM.respTimeout r fe ce as false false)
    (hlen : as.length ≤ cfgM.repeatMax) {a : HMAttempt} (ha : a.Wf cfgM.respTimeout r) (hg : a.gapped = false)
    {sl : SlaveSys} (hsy : HSync sl) (hid : sl.lib.id = reqSlave r) {x : HExchange} (hx : x.Timed cfgS) (hxf : x.frame = reqFrame r) :
    ∃ pre post sl' so, x.ops = pre ++ .main .poll :: post ∧ .timer ∈ pre ∧ slaveSysRun cfgS sl x.ops = .ok (sl', so) ∧ HSync sl' ∧
      sl'.lib.id = sl.lib.id ∧
      sl'.lib.mem = appMem (effect cfgS.limits (appMem sl.lib.mem (mainOps pre)) (asRequest r)) (mainOps post) ∧
      (a.resp.frame = wire so → ∃ s' htr', masterSysRun cfgM s (.main .poll :: hretries as ++ a.init ++ [.main .poll]) =
          .ok (s', htr' ++ [(.main .poll, (outcome cfgS.limits (appMem sl.lib.mem (mainOps pre)) r).map fun e => .lib (.event e))]) ∧
        mwire htr' = (List.replicate (as.length + 1) (reqFrame r)).flatten ∧ Standing false false s'.lib) := by
  obtain ⟨pre, post, sl', so, h1, h2, h3, h4, h5, h6, h7⟩ := slave_device_side hc hsy hid hq hd hx hxf
  refine ⟨pre, post, sl', so, h1, h2, h3, h5, h6, h7, fun he => ?_⟩
  obtain ⟨hgr, hev⟩ := response_outcome (l := cfgS.limits) (m := appMem sl.lib.mem (mainOps pre)) r hq
  rw [← h4, ← he] at hgr hev
  obtain ⟨s', htr', k1, k2, -, k4⟩ := C62_device_transaction hw hl h hs hq hp ho hf hlen ha hg hgr
  exact ⟨s', htr', by rw [k1, hev], k2, k4⟩

/-! ### Non-vacuity -/

/-- An attempt in which nothing special happens and response `f` comes in. -/
def simpleHA (r : MReq) (f : List U8) : HMAttempt :=
  { tx := List.replicate ((reqFrame r).length - 1) (.usart none true), w2 := [], others := [],
    resp := { rx := hmrx f, mid := [], fb := none, ft := false, w := [] }, w4 := [], w5 := [] }

/-- An attempt with a gap in the response. -/
def gapHA (r : MReq) (f g : List U8) : HMAttempt :=
  { tx := .main .tick :: List.replicate ((reqFrame r).length - 1) (.usart none true), w2 := [.usart none false], others := [],
    resp := { rx := hmrx f, mid := [], fb := none, ft := false, w := hmrx g }, w4 := [.main .poll], w5 := [.main .tick] }

theorem hmBytes_hmrx (f : List U8) : hmBytes (hmrx f) = f := by
  induction f with
  | nil => rfl
  | cons b f ih => exact congrArg (b :: ·) ih

theorem hmTicks_hmrx (f : List U8) : hmTicks (hmrx f) = 0 := by
  unfold hmTicks
  rw [List.count_eq_zero]
  intro h
  obtain ⟨b, -, hb⟩ := List.mem_map.1 h
  cases hb

theorem silent_hmrx (f : List U8) : silent false (hmrx f) = false := by
  induction f with
  | nil => rfl
  | cons b f ih => exact ih

theorem reqFrame_pos (r : MReq) : 0 < (reqFrame r).length := by rw [reqFrame_length]; omega

theorem simpleHA_frame (r : MReq) (f : List U8) : (simpleHA r f).resp.frame = f := by
  show hmBytes (hmrx f) ++ [] ++ [] = f
  rw [hmBytes_hmrx, List.append_nil, List.append_nil]

theorem simpleHA_wf {T : Nat} (hT : 2 ≤ T) {r : MReq} {f : List U8} (h0 : f ≠ []) (hl : f.length ≤ 255) (ha : f.getD 0 0 = reqSlave r) :
    (simpleHA r f).Wf T r := by
  have hf := simpleHA_frame r f
  refine { tx := ?_, txIrqs := ?_, w2 := ?_, others := ?_, resp := ⟨⟨?_, ?_, ?_, rfl, by rw [hf]; exact h0, by rw [hf]; exact hl⟩, by rw [hf]; exact ha⟩, time := ?_, w4 := ?_, room := ?_, w5 := ?_ }
  · intro op ho
    rw [(List.mem_replicate.mp ho).2]; trivial
  · have := reqFrame_pos r
    show List.count _ (List.replicate _ _) + 1 = _
    rw [List.count_replicate_self]; omega
  · intro op ho; cases ho
  · intro op ho; cases ho
  · intro op ho
    obtain ⟨b, -, rfl⟩ := List.mem_map.1 ho
    trivial
  · intro op ho; cases ho
  · intro op ho; cases ho
  · show 0 + (hmTicks (hmrx f) + 0 + 0) + 1 < T
    rw [hmTicks_hmrx]; omega
  · intro op ho; cases ho
  · rw [hf]; exact hl
  · intro op ho; cases ho

theorem gapHA_frame (r : MReq) (f g : List U8) : (gapHA r f g).resp.frame = f ++ g := by
  show hmBytes (hmrx f) ++ [] ++ hmBytes (hmrx g) = _
  rw [hmBytes_hmrx, hmBytes_hmrx, List.append_nil]

theorem gapHA_wf {T : Nat} (hT : 2 ≤ T) {r : MReq} {f g : List U8} (h0 : f ≠ []) (hl : (f ++ g).length ≤ 255) (ha : (f ++ g).getD 0 0 = reqSlave r) :
    (gapHA r f g).Wf T r := by
  have hf := gapHA_frame r f g
  refine { tx := ?_, txIrqs := ?_, w2 := ?_, others := ?_, resp := ⟨⟨?_, ?_, ?_, silent_hmrx g, by rw [hf]; simp [h0], by rw [hf]; exact hl⟩, by rw [hf]; exact ha⟩, time := ?_, w4 := ?_, room := ?_, w5 := ?_ }
  · intro op ho
    rcases List.mem_cons.1 ho with rfl | ho
    · trivial
    · rw [(List.mem_replicate.mp ho).2]; trivial
  · have := reqFrame_pos r
    show List.count _ (_ :: List.replicate _ _) + 1 = _
    rw [List.count_cons_of_ne (by simp), List.count_replicate_self]; omega
  · intro op ho
    rw [List.mem_singleton.1 ho]; trivial
  · intro op ho; cases ho
  · intro op ho
    obtain ⟨b, -, rfl⟩ := List.mem_map.1 ho
    trivial
  · intro op ho; cases ho
  · intro op ho
    obtain ⟨b, -, rfl⟩ := List.mem_map.1 ho
    trivial
  · show 0 + (hmTicks (hmrx f) + 0 + hmTicks (hmrx g)) + 1 < T
    rw [hmTicks_hmrx, hmTicks_hmrx]; omega
  · intro op ho
    rw [List.mem_singleton.1 ho]; trivial
  · rw [hf]; exact hl
  · intro op ho
    rw [List.mem_singleton.1 ho]; trivial

theorem lateByte_hmrx (f : List U8) (ops : List HMOp) : lateByte false false (hmrx f ++ ops) = lateByte false false ops := by
  induction f with
  | nil => rfl
  | cons b f ih => exact ih

theorem simpleHA_gapped (r : MReq) (f : List U8) : (simpleHA r f).gapped = false := by
  show lateByte false false ([] ++ (hmrx f ++ .rto :: [] ++ .usart none false :: [] ++ [.main .poll]) ++ []) = false
  rw [List.nil_append, List.append_nil, List.append_assoc, List.append_assoc, lateByte_hmrx]
  rfl

/-- A master device after initialisation and one request call. -/
theorem device_one_request {cfg : Config} (hw : cfg.MWF) {r : MReq} (hq : QtyOk r) (hd : DataOk r) :
    ∃ s tr s1 o, masterSysRun cfg MasterSys.powerOn [.main (.init .rtu), .main (.request r)] = .ok (s, tr) ∧ Standing false false s.lib ∧
      masterSysStep cfg s (.main .poll) = .ok (s1, o) ∧ libOuts o = [.send (reqFrame r)] := by
  obtain ⟨l2, t, l3, h1, h2, h3⟩ := one_request hw Master.powerOn hq hd
  obtain ⟨l, i1, i2, i3⟩ := sysInit_ok hw MasterSys.powerOn
  simp only [masterRun] at h1
  rw [show masterStep cfg Master.powerOn (.init .rtu) = .ok (l, []) from i3] at h1
  simp only [ok_bind] at h1
  obtain ⟨⟨la, ta⟩, k1, k2⟩ := bind_ok h1
  obtain ⟨⟨lb, ob⟩, k3, k4⟩ := bind_ok k1
  simp only [pure_eq, Except.ok.injEq, Prod.mk.injEq] at k2 k4
  obtain ⟨rfl, rfl⟩ := k4
  obtain ⟨rfl, -⟩ := k2
  have hns : ∀ f, MOut.send f ∉ ob := by
    intro f hf
    simp only [masterStep] at k3
    obtain ⟨⟨c, l'⟩, -, e⟩ := bind_ok k3
    simp only [pure_eq, Except.ok.injEq, Prod.mk.injEq] at e
    rw [← e.2] at hf
    simp at hf
  have hreq := sys_main (s := { MasterSys.powerOn with lib := l, gap := false }) (op := .request r) rfl (by simp) k3 hns
  have hrun := sysM_append _ (sysM_one i1) (sysM_one hreq)
  have hl : ∀ op ∈ [HMOp.main (.request r)], op.legal := by
    intro op hop
    obtain rfl := List.mem_singleton.1 hop
    exact ⟨rfl, fun _ h => by cases h; exact fun _ => hd⟩
  obtain ⟨g, hi⟩ := device_inv hw hl hrun
  obtain ⟨i, g1, -, a2⟩ := start_P1 hw hi h2 h3 hq
  obtain ⟨s1, o, b1, -, -, b4⟩ := sys_send (s := { MasterSys.powerOn with lib := lb, gap := false }) h3 a2
  exact ⟨_, _, s1, o, hrun, h2, b1, b4⟩

/-- A slave exchange in which nothing special happens. -/
def simpleHX (f : List U8) : HExchange :=
  { rx := hrx f, fb := none, ft := true, gap := [], n2 := [.main .poll, .main .poll], tx := List.replicate 256 (.usart none true), n3 := [.main .poll] }

theorem hbytes_hrx (f : List U8) : hbytes (hrx f) = f := by
  induction f with
  | nil => rfl
  | cons b f ih => exact congrArg (b :: ·) ih

theorem simpleHX_frame (f : List U8) : (simpleHX f).frame = f := by
  show hbytes (hrx f) ++ [] = f
  rw [hbytes_hrx, List.append_nil]

theorem simpleHX_timed (cfg : Config) (f : List U8) : (simpleHX f).Timed cfg := by
  refine { rx := ?_, gap := ?_, n2 := ?_, polls2 := Nat.le_refl 2, nogap := rfl, tx := ?_, n3 := ?_, irqs := ?_, polls3 := Nat.le_refl 1 }
  · intro op ho
    obtain ⟨b, -, rfl⟩ := List.mem_map.1 ho
    trivial
  · intro op ho; cases ho
  · show ∀ op ∈ ([.main .poll, .main .poll] : List HOp), _
    simp [HOp.noise, SOp.noise]
  · intro op ho
    rw [(List.mem_replicate.mp ho).2]; trivial
  · show ∀ op ∈ ([.main .poll] : List HOp), _
    simp [HOp.noise, SOp.noise]
  · show 256 ≤ List.count _ (List.replicate 256 _)
    rw [List.count_replicate_self]; exact Nat.le_refl _

theorem simpleHX_mainOps (f : List U8) : ∀ op ∈ mainOps (simpleHX f).ops, op = .poll := by
  have h1 : ∀ f : List U8, mainOps (hrx f) = [] := by
    intro f
    induction f with
    | nil => rfl
    | cons b f ih => exact ih
  have h2 : ∀ n, mainOps (List.replicate n (.usart none true)) = [] := by
    intro n
    induction n with
    | zero => rfl
    | succ n ih => exact ih
  intro op ho
  simp only [HExchange.ops, HExchange.recv, simpleHX, mainOps_append, h1, h2, List.mem_append] at ho
  simpa [mainOps] using ho

theorem appMem_polls (l : List SOp) (h : ∀ op ∈ l, op = .poll) (m : AppMem) : appMem m l = m := by
  induction l with
  | nil => rfl
  | cons op l ih =>
    obtain rfl := h op (List.mem_cons_self ..)
    exact ih fun o ho => h o (List.mem_cons_of_mem _ ho)

/-- Non-vacuity of C62 and C64: for every request with an allowed quantity and proper data, every slave memory and all configurations
with a timeout of at least two ticks, the simple schedule meets all hypotheses, and the applications see the prescribed outcome and effect. -/
theorem device_end_to_end_simple {cfgM cfgS : Config} (hw : cfgM.MWF) (hT : 2 ≤ cfgM.respTimeout) (hc : cfgS.WF) {r : MReq} (hq : QtyOk r)
    (hd : DataOk r) (mem : AppMem) :
    ∃ s tr sl sl' so s' tr', masterSysRun cfgM MasterSys.powerOn [.main (.init .rtu), .main (.request r)] = .ok (s, tr) ∧
      slaveSysRun cfgS (SlaveSys.powerOn mem) [.main (.init .rtu (reqSlave r))] = .ok (sl, []) ∧
      slaveSysRun cfgS sl (simpleHX (reqFrame r)).ops = .ok (sl', so) ∧ sl'.lib.mem = effect cfgS.limits mem (asRequest r) ∧
      masterSysRun cfgM s (.main .poll :: (simpleHA r (wire so)).init ++ [.main .poll]) =
        .ok (s', tr' ++ [(.main .poll, (outcome cfgS.limits mem r).map fun e => .lib (.event e))]) ∧
      mwire tr' = reqFrame r := by
  obtain ⟨s, tr, s1, o, h1, h2, h3, h4⟩ := device_one_request hw hq hd
  have hl : ∀ op ∈ [HMOp.main (.request r)], op.legal := by
    intro op hop
    obtain rfl := List.mem_singleton.1 hop
    exact ⟨rfl, fun _ h => by cases h; exact fun _ => hd⟩
  obtain ⟨sl, i1, i2, i3, i4⟩ := hsync_after_init cfgS mem (reqSlave r)
  have hx := simpleHX_timed cfgS (reqFrame r)
  have hf := simpleHX_frame (reqFrame r)
  obtain ⟨pre, post, sl', so, e1, e2, e3, e4, -, -, e7⟩ := slave_device_side hc i2 i3 hq hd hx hf
  obtain ⟨hg, -⟩ := response_outcome (l := cfgS.limits) (m := appMem sl.lib.mem (mainOps pre)) r hq
  rw [← e4] at hg
  have hpos : wire so ≠ [] := by rw [e4]; simp [rtuFrame]
  obtain ⟨pre', post', sl'', so', k1, -, k3, -, -, k6, k7⟩ := C64_device_end_to_end hw hc hl h1 h2 hq hd h3 h4 (.nil _ _) (by simp)
    (simpleHA_wf hT hpos hg.len_le hg.slave) (simpleHA_gapped _ _) i2 i3 hx hf
  rw [e3] at k3
  simp only [Except.ok.injEq, Prod.mk.injEq] at k3
  obtain ⟨rfl, rfl⟩ := k3
  obtain ⟨s', tr', q1, q2, -⟩ := k7 (simpleHA_frame _ _)
  have hm := simpleHX_mainOps (reqFrame r)
  rw [k1, mainOps_append] at hm
  have hmem : ∀ m, appMem m (mainOps pre') = m := appMem_polls _ fun op ho => hm op (List.mem_append_left _ ho)
  have hmem' : ∀ m, appMem m (mainOps post') = m := appMem_polls _ fun op ho => hm op (List.mem_append_right _ (List.mem_cons_of_mem _ ho))
  rw [hmem, i4] at q1
  rw [hmem, hmem', i4] at k6
  refine ⟨s, tr, sl, sl', so, s', tr', h1, ?_, e3, k6, q1, by simpa using q2⟩
  simp only [slaveSysRun, i1, ok_bind, pure_eq]
  rfl

/-- A gap in the first response, then a good one: the hypotheses of C62 are met, the request is on the line twice, the value is delivered. -/
example : ∃ s tr s' tr', masterSysRun Config.default MasterSys.powerOn [.main (.init .rtu), .main (.request (.readHoldingReg 7 1 9))] = .ok (s, tr) ∧
    masterSysRun Config.default s (.main .poll :: hretries [gapHA (.readHoldingReg 7 1 9) [9, 3, 2] ((rtuFrame 9 [3, 2, 0xAA, 0xBB]).drop 3)] ++
      (simpleHA (.readHoldingReg 7 1 9) (rtuFrame 9 [3, 2, 0xAA, 0xBB])).init ++ [.main .poll]) =
      .ok (s', tr' ++ [(.main .poll, [.lib (.event (.hregRead 9 7 0xAABB))])]) ∧
    mwire tr' = reqFrame (.readHoldingReg 7 1 9) ++ reqFrame (.readHoldingReg 7 1 9) := by
  have hq : QtyOk (.readHoldingReg 7 1 9) := by decide
  have hw : Config.default.MWF := default_mwf
  obtain ⟨s, tr, s1, o, h1, h2, h3, h4⟩ := device_one_request hw hq trivial
  have hl : ∀ op ∈ [HMOp.main (.request (.readHoldingReg 7 1 9))], op.legal := by
    intro op hop
    obtain rfl := List.mem_singleton.1 hop
    exact ⟨rfl, fun _ h => by cases h; exact fun _ => trivial⟩
  have hT : 2 ≤ Config.default.respTimeout := by decide
  have hgood : GoodResponse (.readHoldingReg 7 1 9) (simpleHA (.readHoldingReg 7 1 9) (rtuFrame 9 [3, 2, 0xAA, 0xBB])).resp.frame := by
    rw [simpleHA_frame]
    exact ⟨(crc16_eq_zero_iff _).1 (by decide +kernel), by decide +kernel, .inr (by decide +kernel), by decide +kernel, by decide +kernel⟩
  have hfail : HFailed Config.default.respTimeout (.readHoldingReg 7 1 9) false false
      [gapHA (.readHoldingReg 7 1 9) [9, 3, 2] ((rtuFrame 9 [3, 2, 0xAA, 0xBB]).drop 3)] false false := by
    refine .frame (ce1 := false) (gapHA_wf hT (by simp) (by decide +kernel) (by decide +kernel)) (.inr (by decide +kernel)) ?_ (.nil _ _)
    simp only [Bool.false_eq_true, false_or, false_iff, Classical.not_not]
    exact (crc16_eq_zero_iff _).1 (by decide +kernel)
  have hwf : (simpleHA (.readHoldingReg 7 1 9) (rtuFrame 9 [3, 2, 0xAA, 0xBB])).Wf Config.default.respTimeout (.readHoldingReg 7 1 9) :=
    simpleHA_wf hT (by simp [rtuFrame]) (by decide +kernel) (by decide +kernel)
  obtain ⟨s', tr', k1, k2, -⟩ := C62_device_transaction hw hl h1 h2 hq h3 h4 hfail (by decide) hwf (simpleHA_gapped _ _) hgood
  rw [simpleHA_frame, show responseEvents (.readHoldingReg 7 1 9) (rtuFrame 9 [3, 2, 0xAA, 0xBB]) = [.hregRead 9 7 0xAABB] by decide +kernel] at k1
  exact ⟨s, tr, s', tr', h1, k1, by simpa using k2⟩

end Modbus
