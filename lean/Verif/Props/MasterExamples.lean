import Verif.Props.MasterFaults

/-! Non-vacuity of the transaction theorems: concrete schedules that meet their hypotheses. -/

namespace Modbus

open Spec

/-- Nothing special happens: the bytes, the event, the poll. -/
def heard (f : List U8) : Heard := { rx := f.map .rxByte, w := [] }

theorem mBytes_map (f : List U8) : mBytes (f.map .rxByte) = f := by
  unfold mBytes
  rw [List.filterMap_map]
  exact List.filterMap_some

theorem heard_frame (f : List U8) : (heard f).frame = f := by
  show mBytes (f.map .rxByte) ++ [] = f
  rw [List.append_nil, mBytes_map]

theorem heard_wf {f : List U8} (h : f ≠ []) (hl : f.length ≤ 255) : (heard f).Wf := by
  refine ⟨?_, by simp [heard], by rw [heard_frame]; exact h, by rw [heard_frame]; exact hl⟩
  intro op hop
  obtain ⟨b, -, rfl⟩ := List.mem_map.1 hop
  exact .inr (.inl ⟨b, rfl⟩)

theorem heard_ticks (f : List U8) : (heard f).ticks = 0 := by
  simp only [Heard.ticks, heard, tickCount, List.countP_map]
  rw [List.countP_eq_zero.2 (by simp)]
  rfl

/-- An attempt with a poll here and there, a tick and a further request while transmitting, another slave's frame (if any),
and the response `f`. -/
def simpleAttempt (others : List (List U8)) (f : List U8) : Attempt :=
  { w1 := [.poll, .tick, .request (.readCoils 0 1 1)], w2 := [.tick], others := others.map heard, resp := heard f, w4 := [.poll, .tick], w5 := [.tick] }

theorem heards_ticks (l : List (List U8)) : ((l.map heard).map Heard.ticks).sum = 0 := by
  induction l with
  | nil => rfl
  | cons x l ih =>
    rw [List.map_cons, List.map_cons, List.sum_cons, ih, heard_ticks]

theorem simpleAttempt_wf {T : Nat} (hT : 2 ≤ T) {r : MReq} {others : List (List U8)} {f : List U8}
    (ho : ∀ x ∈ others, x ≠ [] ∧ x.length ≤ 255 ∧ x.getD 0 0 ≠ reqSlave r) (hf : f ≠ []) (hl : f.length ≤ 255) (hs : f.getD 0 0 = reqSlave r) :
    (simpleAttempt others f).Wf T r := by
  refine ⟨?_, ?_, ?_, ⟨heard_wf hf hl, by simp only [simpleAttempt, heard_frame]; exact hs⟩, ?_, ?_, ?_, ?_⟩
  · simp [simpleAttempt, MOp.noise, DataOk]
  · simp [simpleAttempt, MOp.quiet, MOp.noise]
  · intro x hx
    obtain ⟨y, hy, rfl⟩ := List.mem_map.1 hx
    obtain ⟨h1, h2, h3⟩ := ho y hy
    exact ⟨heard_wf h1 h2, by rw [heard_frame]; exact h3⟩
  · simp only [simpleAttempt, heards_ticks, heard_ticks]; omega
  · simp [simpleAttempt, MOp.noise, MOp.tailNoise]
  · simp only [simpleAttempt, heard_frame]; simpa [mBytes] using hl
  · simp [simpleAttempt, MOp.quiet, MOp.noise]

theorem not_broken_simple (others : List (List U8)) (f : List U8) : ¬ (simpleAttempt others f).broken := by
  unfold Attempt.broken simpleAttempt
  simp [Heard.ops, heard]

/-- The master after one request following the initialisation. -/
theorem one_request {cfg : Config} (hw : cfg.MWF) (s0 : Master) {r : MReq} (hq : QtyOk r) (hd : DataOk r) :
    ∃ s tr s1, masterRun cfg s0 [.init .rtu, .request r] = .ok (s, tr) ∧ Standing false false s ∧
      masterStep cfg s .poll = .ok (s1, [.send (reqFrame r)]) := by
  obtain ⟨sa, h1, h2⟩ := standing_init hw s0
  have hok : OpsOk [] := by intro op hop; cases hop
  obtain ⟨sb, o, h3, -, h4⟩ := standing_kept hw hok h1 h2 (op := .request r) (by simp) (by simp) (by simp)
    ⟨by simp, by rintro _ ⟨⟩ _; exact hd⟩
  obtain ⟨tr', g, sx, e, hi, hg, -⟩ := run_from_init hw hok h1
  obtain ⟨s2, h5⟩ := C29_request_frame hw hok h1 h2.st (by
      simp only [masterRun] at h1
      obtain ⟨⟨sa', _⟩, k1, k2⟩ := bind_ok h1
      simp only [masterStep] at k1
      obtain ⟨si, k3, k4⟩ := bind_ok k1
      cases k4
      cases k2
      unfold masterInit at k3
      split at k3
      · cases k3
      · obtain ⟨fq, k5, k6⟩ := bind_ok k3
        cases k6
        rfl)
    (by
      have he := hi.free.items_eq
      cases hg with
      | nil =>
        intro hz
        rw [hz] at he
        simp [Ghost.fresh] at he
        have := hw.qpos
        omega
      | cons _ _ => simp at e) r hq hd
  simp only [masterRun, h3, ok_bind] at h5
  obtain ⟨⟨s3, t3⟩, j1, j2⟩ := bind_ok h5
  obtain ⟨⟨s4, o4⟩, j3, j4⟩ := bind_ok j1
  simp only [pure_eq, Except.ok.injEq, Prod.mk.injEq] at j2 j4
  obtain ⟨rfl, rfl⟩ := j4
  have : o4 = [.send (reqFrame r)] := by
    have := j2.2
    simp at this
    exact this.2
  subst this
  exact ⟨sb, _, s4, run_seq h1 (run_one h3), h4, j3⟩

/-- A concrete case of `transaction_succeeds` and C40: a read of two registers from slave 9. First the slave's response is broken
(CRC error), then slave 4 talks, then the correct response comes: both values are delivered after two transmissions. -/
example : ∃ s s' tr tr', masterRun smallCfg Master.powerOn [.init .rtu, .request (.readHoldingReg 0xFFFF 2 9)] = .ok (s, tr) ∧
    masterRun smallCfg s (.poll :: retries [simpleAttempt [] [9, 3, 0]] ++
      (simpleAttempt [[4, 1, 2]] (rtuFrame 9 [3, 4, 0xAA, 0xBB, 0xCC, 0xDD])).init ++ [.poll]) =
      .ok (s', tr' ++ [(.poll, [.event (.hregRead 9 0xFFFF 0xAABB), .event (.hregRead 9 0 0xCCDD)])]) ∧
    outs tr' = [.send (rtuFrame 9 [3, 0xFF, 0xFF, 0, 2]), .send (rtuFrame 9 [3, 0xFF, 0xFF, 0, 2])] := by
  have hT : 2 ≤ smallCfg.respTimeout := by decide
  obtain ⟨s, tr, s1, h1, h2, h3⟩ := one_request smallCfg_wf Master.powerOn (r := .readHoldingReg 0xFFFF 2 9) (by decide) trivial
  have hok : OpsOk [.request (.readHoldingReg 0xFFFF 2 9)] := by
    intro op hop
    obtain rfl := List.mem_singleton.1 hop
    exact ⟨by simp, by rintro _ ⟨⟩ _; trivial⟩
  have hfail : Failed smallCfg.respTimeout (.readHoldingReg 0xFFFF 2 9) false false [simpleAttempt [] [9, 3, 0]] false false := by
    refine .crc (simpleAttempt_wf hT (by simp) (by simp) (by simp) rfl) (not_broken_simple _ _) (.inr ?_) (.nil _ _)
    rw [← crc16_eq_zero_iff]
    simp only [simpleAttempt, heard_frame]
    decide +kernel
  have hgood : GoodResponse (.readHoldingReg 0xFFFF 2 9) (simpleAttempt [[4, 1, 2]] (rtuFrame 9 [3, 4, 0xAA, 0xBB, 0xCC, 0xDD])).resp.frame := by
    simp only [simpleAttempt, heard_frame]
    exact ⟨⟨_, rfl⟩, rfl, .inr rfl, by decide, by decide⟩
  obtain ⟨s', tr', k1, k2, -⟩ := C40_read_delivered smallCfg_wf hok h1 h2 (by decide) h3 hfail (by decide)
    (simpleAttempt_wf hT (by simp [reqSlave]) (by simp [rtuFrame]) (by simp [rtuFrame]) rfl) (not_broken_simple _ _) hgood trivial
    (by simp only [simpleAttempt, heard_frame]; rfl)
  have hev : ((List.range (reqField (.readHoldingReg 0xFFFF 2 9)).toNat).map fun i => MOut.event (itemEvent
      (simpleAttempt [[4, 1, 2]] (rtuFrame 9 [3, 4, 0xAA, 0xBB, 0xCC, 0xDD])).resp.frame i (.readHoldingReg 0xFFFF 2 9))) =
      [.event (.hregRead 9 0xFFFF 0xAABB), .event (.hregRead 9 0 0xCCDD)] := by
    simp only [simpleAttempt, heard_frame]
    decide +kernel
  rw [hev] at k1
  exact ⟨s, s', tr, tr', h1, k1, k2⟩

/-- A concrete case of C41 and C42: a coil write to slave 9, confirmed, or answered by exception 2. -/
example : ∃ s s' s'' tr tr' tr'', masterRun smallCfg Master.powerOn [.init .rtu, .request (.writeSingleCoil 5 9 true)] = .ok (s, tr) ∧
    masterRun smallCfg s (.poll :: (simpleAttempt [] (rtuFrame 9 [5, 0, 5, 0xFF, 0])).init ++ [.poll]) = .ok (s', tr' ++ [(.poll, [.event (.coilWrite 9 5 1)])]) ∧
    masterRun smallCfg s (.poll :: (simpleAttempt [] (rtuFrame 9 [5 + 128, 2])).init ++ [.poll]) =
      .ok (s'', tr'' ++ [(.poll, [.event (.coilExc { slave := 9, fc := 5, code := 2, adr := 5, qty := 0xFF00 })])]) := by
  have hT : 2 ≤ smallCfg.respTimeout := by decide
  obtain ⟨s, tr, s1, h1, h2, h3⟩ := one_request smallCfg_wf Master.powerOn (r := .writeSingleCoil 5 9 true) (by decide) trivial
  have hok : OpsOk [.request (.writeSingleCoil 5 9 true)] := by
    intro op hop
    obtain rfl := List.mem_singleton.1 hop
    exact ⟨by simp, by rintro _ ⟨⟩ _; trivial⟩
  have hgood : GoodResponse (.writeSingleCoil 5 9 true) (simpleAttempt [] (rtuFrame 9 [5, 0, 5, 0xFF, 0])).resp.frame := by
    simp only [simpleAttempt, heard_frame]
    exact ⟨⟨_, rfl⟩, rfl, .inr rfl, by decide, by decide⟩
  obtain ⟨s', tr', k1, k2, -⟩ := C41_write_confirmed smallCfg_wf hok h1 h2 (by decide) h3 (.nil _ _) (by decide)
    (simpleAttempt_wf hT (by simp) (by simp [rtuFrame]) (by simp [rtuFrame]) rfl) (not_broken_simple _ _) hgood (by simp [IsRead])
    (by simp only [simpleAttempt, heard_frame]; rfl)
  obtain ⟨s'', tr'', j1, j2, -⟩ := C42_exception_reported smallCfg_wf hok h1 h2 (by decide) h3 (.nil _ _) (by decide) (fc := 5) (code := 2)
    (a := simpleAttempt [] (rtuFrame 9 [5 + 128, 2])) (simpleAttempt_wf hT (by simp) (by simp [rtuFrame]) (by simp [rtuFrame]) rfl) (not_broken_simple _ _) (by decide)
    (by simp only [simpleAttempt, heard_frame]; rfl)
  exact ⟨s, s', s'', tr, tr', tr'', h1, k1, j1⟩

/-- What the example driver makes of a response with a gap: the bytes before it, the 1.5-char event, then bytes each with a frame error, some
of them after the poll that checks the response. -/
def gapAttempt (f1 f2 f3 : List U8) : Attempt :=
  { w1 := [.poll], w2 := [], others := [], resp := { rx := f1.map .rxByte, w := f2.flatMap fun b => [.rxByte b, .frameErr] },
    w4 := .poll :: f3.flatMap fun b => [.rxByte b, .frameErr], w5 := [] }

theorem mBytes_gap (f : List U8) : mBytes (f.flatMap fun b => [.rxByte b, .frameErr]) = f := by
  induction f with
  | nil => rfl
  | cons b f ih => rw [List.flatMap_cons, mBytes_append, ih]; rfl

theorem tickCount_gap (f : List U8) : tickCount (f.flatMap fun b => [.rxByte b, .frameErr]) = 0 := by
  unfold tickCount
  rw [List.countP_eq_zero]
  intro op ho
  obtain ⟨b, -, hb⟩ := List.mem_flatMap.1 ho
  simp only [List.mem_cons, List.not_mem_nil, or_false] at hb
  rcases hb with rfl | rfl <;> simp

theorem gapAttempt_wf {T : Nat} (hT : 2 ≤ T) {r : MReq} {f1 f2 f3 : List U8} (hf : f1 ≠ []) (hl : (f1 ++ f2 ++ f3).length ≤ 255)
    (hs : f1.getD 0 0 = reqSlave r) : (gapAttempt f1 f2 f3).Wf T r := by
  have hfr : (gapAttempt f1 f2 f3).resp.frame = f1 ++ f2 := by
    show mBytes (f1.map .rxByte) ++ mBytes (f2.flatMap fun b => [.rxByte b, .frameErr]) = _
    rw [mBytes_map, mBytes_gap]
  have h0 : (gapAttempt f1 f2 f3).resp.ticks = 0 := by
    show tickCount (f1.map .rxByte) + tickCount (f2.flatMap fun b => [.rxByte b, .frameErr]) = 0
    rw [tickCount_gap]
    simp [tickCount, List.countP_map, List.countP_eq_zero]
  rw [List.length_append] at hl
  refine ⟨?_, by simp [gapAttempt], by simp [gapAttempt], ⟨⟨?_, ?_, by rw [hfr]; simp [hf], by rw [hfr]; omega⟩, ?_⟩, ?_, ?_, ?_, by simp [gapAttempt]⟩
  · intro op ho
    obtain rfl := List.mem_singleton.1 ho
    trivial
  · intro op ho
    obtain ⟨b, -, rfl⟩ := List.mem_map.1 ho
    exact .inr (.inl ⟨b, rfl⟩)
  · intro op ho
    obtain ⟨b, -, hb⟩ := List.mem_flatMap.1 ho
    simp only [List.mem_cons, List.not_mem_nil, or_false] at hb
    rcases hb with rfl | rfl
    · exact .inr (.inl ⟨b, rfl⟩)
    · exact .inr (.inr (.inr (.inr rfl)))
  · rw [hfr]
    cases f1 with
    | nil => exact absurd rfl hf
    | cons b f1 => exact hs
  · rw [h0]; show ([].map Heard.ticks).sum + 0 + 1 < T; simp; omega
  · intro op ho
    rcases List.mem_cons.1 ho with rfl | ho
    · exact .inl trivial
    · obtain ⟨b, -, hb⟩ := List.mem_flatMap.1 ho
      simp only [List.mem_cons, List.not_mem_nil, or_false] at hb
      rcases hb with rfl | rfl
      · exact .inr (.inl ⟨b, rfl⟩)
      · exact .inr (.inr rfl)
  · rw [hfr]
    show (f1 ++ f2).length + (mBytes ([.poll] ++ f3.flatMap fun b => [.rxByte b, .frameErr])).length ≤ 255
    rw [mBytes_append, mBytes_gap]
    exact hl

theorem default_mwf : Config.default.MWF := ⟨by decide, by decide, by decide⟩

/-- A correct response with a gap of more than 1.5 characters, the rest before the poll that checks it: repeated, then delivered. If the rest
comes after that poll, the response seems to have a wrong CRC as well, and it takes two repetitions (C46). -/
example : ∃ s s' s'' tr tr' tr'', masterRun Config.default Master.powerOn [.init .rtu, .request (.readHoldingReg 7 1 9)] = .ok (s, tr) ∧
    masterRun Config.default s (.poll :: retries [gapAttempt [9, 3, 2] ((rtuFrame 9 [3, 2, 0xAA, 0xBB]).drop 3) []] ++
      (simpleAttempt [] (rtuFrame 9 [3, 2, 0xAA, 0xBB])).init ++ [.poll]) = .ok (s', tr' ++ [(.poll, [.event (.hregRead 9 7 0xAABB)])]) ∧
    masterRun Config.default s (.poll :: retries [gapAttempt [9, 3, 2] [] ((rtuFrame 9 [3, 2, 0xAA, 0xBB]).drop 3), simpleAttempt [] (rtuFrame 9 [3, 2, 0xAA, 0xBB])] ++
      (simpleAttempt [] (rtuFrame 9 [3, 2, 0xAA, 0xBB])).init ++ [.poll]) = .ok (s'', tr'' ++ [(.poll, [.event (.hregRead 9 7 0xAABB)])]) := by
  have hT : 2 ≤ Config.default.respTimeout := by decide
  obtain ⟨s, tr, s1, h1, h2, h3⟩ := one_request default_mwf Master.powerOn (r := .readHoldingReg 7 1 9) (by decide) trivial
  have hok : OpsOk [.request (.readHoldingReg 7 1 9)] := by
    intro op hop
    obtain rfl := List.mem_singleton.1 hop
    exact ⟨by simp, by rintro _ ⟨⟩ _; trivial⟩
  have hev : (responseEvents (.readHoldingReg 7 1 9) (simpleAttempt [] (rtuFrame 9 [3, 2, 0xAA, 0xBB])).resp.frame).map MOut.event =
      [.event (.hregRead 9 7 0xAABB)] := by
    simp only [simpleAttempt, heard_frame]
    decide +kernel
  have hgood : GoodResponse (.readHoldingReg 7 1 9) (simpleAttempt [] (rtuFrame 9 [3, 2, 0xAA, 0xBB])).resp.frame := by
    simp only [simpleAttempt, heard_frame]
    exact ⟨⟨_, rfl⟩, rfl, .inr rfl, by decide, by decide⟩
  have hsw : (simpleAttempt [] (rtuFrame 9 [3, 2, 0xAA, 0xBB])).Wf Config.default.respTimeout (.readHoldingReg 7 1 9) :=
    simpleAttempt_wf hT (by simp) (by simp [rtuFrame]) (by simp [rtuFrame]) rfl
  have hcrc : ∀ l : List U8, crc16 l = 0 → CrcCorrect l := fun l => (crc16_eq_zero_iff l).1
  have fail1 : Failed Config.default.respTimeout (.readHoldingReg 7 1 9) false false [gapAttempt [9, 3, 2] ((rtuFrame 9 [3, 2, 0xAA, 0xBB]).drop 3) []] false false := by
    refine .frame (ce1 := false) (gapAttempt_wf hT (by simp) (by simp [rtuFrame]) rfl) (.inr (by decide +kernel)) ?_ (.nil _ _)
    simp only [Bool.false_eq_true, false_or, false_iff, Classical.not_not]
    exact hcrc _ (by decide +kernel)
  have fail2 : Failed Config.default.respTimeout (.readHoldingReg 7 1 9) false false
      [gapAttempt [9, 3, 2] [] ((rtuFrame 9 [3, 2, 0xAA, 0xBB]).drop 3), simpleAttempt [] (rtuFrame 9 [3, 2, 0xAA, 0xBB])] false false := by
    refine .frame (ce1 := true) (gapAttempt_wf hT (by simp) (by simp [rtuFrame]) rfl) (.inr (by decide +kernel)) ?_
      (.crc hsw (not_broken_simple _ _) (.inl rfl) (.nil _ _))
    simp only [true_iff]
    refine .inr fun h => ?_
    exact absurd ((crc16_eq_zero_iff _).2 h) (by decide +kernel)
  obtain ⟨s', tr', k1, -⟩ := transaction_succeeds default_mwf hok h1 h2 (by decide) h3 fail1 (by decide) hsw (not_broken_simple _ _) hgood
  obtain ⟨s'', tr'', k2, -⟩ := transaction_succeeds default_mwf hok h1 h2 (by decide) h3 fail2 (by decide) hsw (not_broken_simple _ _) hgood
  rw [hev] at k1 k2
  exact ⟨s, s', s'', tr, tr', tr'', h1, k1, k2⟩

end Modbus
