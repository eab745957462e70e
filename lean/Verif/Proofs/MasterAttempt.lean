import Verif.Proofs.MasterExchange
import Verif.Props.MasterHist

/-! One attempt of a transaction: composition of the phases. -/

namespace Modbus

open Spec

theorem Heard.Wf.opsOk {h : Heard} (hh : h.Wf) : ∀ op ∈ h.ops, (∀ m, op ≠ .init m) ∧ ∀ r, op = .request r → QtyOk r → DataOk r := by
  intro op hop
  simp only [Heard.ops, List.mem_append, List.mem_cons, List.mem_singleton, List.not_mem_nil, or_false] at hop
  rcases hop with (k | rfl | k) | rfl
  · exact (hh.rx op k).contract
  · simp
  · exact (hh.w op k).contract
  · simp

theorem Heard.frameErr_iff {h : Heard} : MOp.frameErr ∈ h.ops ↔ MOp.frameErr ∈ h.rx ++ h.w := by
  simp only [Heard.ops, List.mem_append, List.mem_cons, List.mem_singleton, reduceCtorEq, false_or, or_false, List.not_mem_nil]

theorem feAfter_heard (h : Heard) (fe : Flag) : feAfter fe h.ops = feAfter (feAfter fe h.rx) h.w := by
  rw [← feAfter_append]
  unfold feAfter
  simp only [h.frameErr_iff]

/-- The frame is received and its end signalled. -/
theorem heard_to_check {cfg : Config} (hw : cfg.MWF) {i : Nat} {r : MReq} {c0 : U8} {fe ce : Flag} {k : Nat} {s : Master} {g : Ghost}
    (hi : MInv cfg s g) (h : P3 cfg i r c0 fe ce k [] s) {x : Heard} (hx : x.Wf) (ht : k + x.ticks + 1 < cfg.respTimeout) :
    ∃ s' tr g', masterRun cfg s (x.rx ++ .t15 :: x.w) = .ok (s', tr) ∧ outs tr = [] ∧ MInv cfg s' g' ∧
      P4 cfg i r c0 (feAfter fe x.ops) ce (k + x.ticks) x.frame s' := by
  unfold Heard.ticks at ht
  have hle := hx.le
  unfold Heard.frame at hle
  obtain ⟨s1, t1, g1, a1, a2, a3, a4⟩ := phase3 hw hi h x.rx hx.rx (by omega) (by rw [List.length_append] at hle; rw [List.nil_append]; omega)
  obtain ⟨s2, o, g2, b1, b2, b3, b4⟩ := phase34 hw a3 a4
  obtain ⟨s3, t3, g3, c1, c2, c3, c4⟩ := phase4 hw b3 b4 x.w hx.w hle
  have hq := run_seq (run_one b1) c1
  refine ⟨s3, t1 ++ ([(MOp.t15, o)] ++ t3), g3, run_seq a1 hq, ?_, c3, ?_⟩
  · rw [outs_append, outs_append, a2, b2, c2]; rfl
  · rw [List.nil_append] at c4
    unfold Heard.ticks
    rw [← Nat.add_assoc, feAfter_heard]
    exact c4

/-- A frame of another slave changes nothing. -/
theorem heard_other {cfg : Config} (hw : cfg.MWF) {i : Nat} {r : MReq} {c0 : U8} {fe ce : Flag} {k : Nat} {s : Master} {g : Ghost}
    (hi : MInv cfg s g) (h : P3 cfg i r c0 fe ce k [] s) {x : Heard} (hx : x.Wf) (ht : k + x.ticks + 1 < cfg.respTimeout)
    (hsl : x.frame.getD 0 0 ≠ reqSlave r) :
    ∃ s' tr g', masterRun cfg s x.ops = .ok (s', tr) ∧ outs tr = [] ∧ MInv cfg s' g' ∧
      P3 cfg i r c0 (feAfter fe x.ops) ce (k + x.ticks) [] s' := by
  obtain ⟨s1, t1, g1, a1, a2, a3, a4⟩ := heard_to_check hw hi h hx ht
  obtain ⟨s2, g2, b1, b3, b4⟩ := phase43 hw a3 a4 hx.some hsl
  refine ⟨s2, t1 ++ [(.poll, [])], g2, run_seq a1 (run_one b1), ?_, b3, ?_⟩
  · rw [outs_append, a2]; rfl
  · exact b4

theorem heard_others {cfg : Config} (hw : cfg.MWF) {i : Nat} {r : MReq} {c0 : U8} {ce : Flag} (l : List Heard) :
    ∀ {fe : Flag} {k : Nat} {s : Master} {g : Ghost},
    MInv cfg s g → P3 cfg i r c0 fe ce k [] s → (∀ x ∈ l, x.Wf ∧ x.frame.getD 0 0 ≠ reqSlave r) →
    k + (l.map Heard.ticks).sum + 1 < cfg.respTimeout →
    ∃ s' tr g', masterRun cfg s (l.flatMap Heard.ops) = .ok (s', tr) ∧ outs tr = [] ∧ MInv cfg s' g' ∧
      P3 cfg i r c0 (feAfter fe (l.flatMap Heard.ops)) ce (k + (l.map Heard.ticks).sum) [] s' := by
  induction l with
  | nil =>
    intro fe k s g hi h _ _
    exact ⟨s, [], g, rfl, rfl, hi, by simpa [feAfter] using h⟩
  | cons x l ih =>
    intro fe k s g hi h hl ht
    simp only [List.map_cons, List.sum_cons] at ht
    obtain ⟨s1, t1, g1, a1, a2, a3, a4⟩ := heard_other hw hi h (hl x (by simp)).1 (by omega) (hl x (by simp)).2
    obtain ⟨s2, t2, g2, b1, b2, b3, b4⟩ := ih a3 a4 (fun y hy => hl y (by simp [hy])) (by omega)
    refine ⟨s2, t1 ++ t2, g2, by rw [List.flatMap_cons]; exact run_seq a1 b1, by rw [outs_append, a2, b2]; rfl, b3, ?_⟩
    rw [List.flatMap_cons, feAfter_append, List.map_cons, List.sum_cons, ← Nat.add_assoc]
    exact b4

/-- An attempt up to the last poll. -/
theorem attempt_init {cfg : Config} (hw : cfg.MWF) {i : Nat} {r : MReq} {c0 : U8} {fe ce : Flag} {s : Master} {g : Ghost}
    (hi : MInv cfg s g) (h : P1 i r c0 fe ce .cleared s) {a : Attempt} (ha : a.Wf cfg.respTimeout r) :
    ∃ s' tr g', masterRun cfg s a.init = .ok (s', tr) ∧ outs tr = [] ∧ MInv cfg s' g' ∧
      ((CrcCorrect a.resp.frame ∧ P6 i r c0 (if a.broken then .set else fe) ce a.resp.frame s') ∨
       (¬ CrcCorrect a.resp.frame ∧ P6 i r c0 (if a.broken then .set else fe) .set a.resp.frame s')) := by
  have htm := ha.time
  obtain ⟨s1, t1, g1, a1, a2, a3, a4⟩ := phase1 hw hi h a.w1 ha.w1
  obtain ⟨s2, o2, g2, b1, b2, b3, b4⟩ := phase12 hw a3 a4
  obtain ⟨s3, t3, g3, c1, c2, c3, c4⟩ := phase2 hw b3 b4 a.w2 ha.w2
  obtain ⟨s4, g4, d1, d3, d4⟩ := phase23 hw c3 c4
  obtain ⟨s5, t5, g5, e1, e2, e3, e4⟩ := heard_others hw a.others d3 d4 ha.others (by omega)
  obtain ⟨s6, t6, g6, f1, f2, f3, f4⟩ := heard_to_check hw e3 e4 ha.resp.1 (by omega)
  obtain ⟨s7, g7, j1, j2, j3⟩ := phase45 hw f3 f4 ha.resp.1.some ha.resp.2
  have hbr : feAfter (feAfter (feAfter fe (a.others.flatMap Heard.ops)) a.resp.ops) a.w4 = if a.broken then .set else fe := by
    rw [← feAfter_append, ← feAfter_append, ← List.append_assoc]; rfl
  have fin : ∀ ce', P5 i r c0 (feAfter (feAfter fe (a.others.flatMap Heard.ops)) a.resp.ops) ce' a.resp.frame 0 s7 →
      ∃ s' tr g', masterRun cfg s a.init = .ok (s', tr) ∧ outs tr = [] ∧ MInv cfg s' g' ∧
        P6 i r c0 (if a.broken then .set else fe) ce' a.resp.frame s' := by
    intro ce' h5
    obtain ⟨s8, t8, g8, l1, l2, l3, l4⟩ := phase5 hw j2 h5 a.w4 ha.w4 ha.room
    rw [hbr] at l4
    obtain ⟨s9, o9, g9, m1, m2, m3, m4⟩ := phase56 hw l3 l4
    obtain ⟨s10, t10, g10, n1, n2, n3, n4⟩ := phase6 hw m3 m4 a.w5 ha.w5
    refine ⟨s10, t1 ++ ([(.txDone, o2)] ++ (t3 ++ ([(.poll, [])] ++ (t5 ++ (t6 ++ ([(.poll, [])] ++ (t8 ++ ([(.t35, o9)] ++ t10)))))))), g10, ?_, ?_, n3, n4⟩
    · have := run_seq a1 (run_seq (run_one b1) (run_seq c1 (run_seq (run_one d1) (run_seq e1 (run_seq f1 (run_seq (run_one j1)
        (run_seq l1 (run_seq (run_one m1) n1))))))))
      rw [← this]
      simp [Attempt.init, Heard.ops]
    · simp only [outs_append, a2, b2, c2, e2, f2, l2, m2, n2]; rfl
  rcases j3 with ⟨hc, h5⟩ | ⟨hc, h5⟩
  · obtain ⟨s', tr, g', k1, k2, k3, k4⟩ := fin _ h5
    exact ⟨s', tr, g', k1, k2, k3, .inl ⟨hc, k4⟩⟩
  · obtain ⟨s', tr, g', k1, k2, k3, k4⟩ := fin _ h5
    exact ⟨s', tr, g', k1, k2, k3, .inr ⟨hc, k4⟩⟩

/-- Idle with no event or error pending. -/
structure Ready (s : Master) : Prop where
  st : s.st = .idle
  t15 : s.t15 = .cleared
  ferr : s.ferr = .cleared
  crcf : s.crcf = .cleared

/-- The last poll: a good response. -/
theorem final_ok {cfg : Config} (hw : cfg.MWF) {i : Nat} {r : MReq} {c0 : U8} {f : List U8} {s : Master} {g : Ghost}
    (hi : MInv cfg s g) (h : P6 i r c0 .cleared .cleared f s) (hf : GoodResponse r f) :
    ∃ s' g', masterStep cfg s .poll = .ok (s', (responseEvents r f).map .event) ∧ MInv cfg s' g' ∧ Ready s' := by
  obtain ⟨i', r', c, hc, h1⟩ := hi.curIs (by rw [h.st_eq]; decide)
  have hii : i' = i := by have := h1.1; rw [h.cur.1] at this; exact (Option.some.inj this).symm
  subst hii
  obtain ⟨s', k1, k2, k3, k4, k5, k6, k7⟩ := processEnd_inv hw hi (s1 := s) hc rfl rfl rfl rfl rfl rfl hi.flags
  have hev := respEvents_good h.cur.2.2.1 h.cur.2.2.2 hf h.bytes
  have hst : masterStep cfg s .poll = .ok (s', (responseEvents r f).map .event) := by
    simp only [masterStep, masterPoll, h.st_eq, masterReceived]
    rw [if_neg (by simp [h.ferr_eq]), if_neg (by simp [h.crcf_eq]), if_pos ⟨h.ferr_eq, h.crcf_eq, h.t35_eq⟩]
    unfold masterCorrect
    rw [h.cur.1]
    simp only [respEvents_ds i' hi.data, hev, ok_bind, k1]
    rfl
  exact ⟨s', _, hst, k2, ⟨processEnd_st k1, by rw [k3]; exact h.t15_eq, by rw [k5]; exact h.ferr_eq, by rw [k6]; exact h.crcf_eq⟩⟩

/-- The last poll: an error, repetitions left; then the next poll transmits again. -/
theorem final_repeat {cfg : Config} (hw : cfg.MWF) {i : Nat} {r : MReq} {c0 : U8} {fe ce : Flag} {f : List U8} {s : Master} {g : Ghost}
    (hi : MInv cfg s g) (h : P6 i r c0 fe ce f s) (he : fe = .set ∨ ce = .set) (hR : c0.toNat + 1 ≤ cfg.repeatMax) :
    ∃ s' g', masterRun cfg s [.poll, .poll] = .ok (s', [silentPoll, sent r]) ∧ MInv cfg s' g' ∧
      P1 i r (c0 + 1) (if fe = .set then .cleared else fe) (if fe = .set then ce else .cleared) .cleared s' := by
  have hcnt : (c0 + 1).toNat = c0.toNat + 1 := by
    have := hw.rle
    rw [BitVec.toNat_add]
    exact Nat.mod_eq_of_lt (by simp; omega)
  obtain ⟨sm, j1, j2⟩ : ∃ sm, masterStep cfg s .poll = .ok (sm, []) ∧
      PS .repeatRequest i r (c0 + 1) (if fe = .set then .cleared else fe) (if fe = .set then ce else .cleared) sm ∧ sm.t15 = .cleared := by
    by_cases hfe : fe = .set
    · rw [if_pos hfe, if_pos hfe]
      refine ⟨{ s with repeatCnt := s.repeatCnt + 1, msgs := setMsg s.msgs i { s.msgs i with respLen := 0 }, st := .repeatRequest, ferr := .cleared }, ?_,
        ⟨rfl, ⟨h.cur.1, h.cur.2.1, (SameReq.set s.msgs i { s.msgs i with respLen := 0 } rfl rfl).holds h.cur.2.2.1, h.cur.2.2.2⟩, by simp [h.cnt], rfl, h.crcf_eq⟩, h.t15_eq⟩
      simp only [masterStep, masterPoll, h.st_eq, masterReceived]
      rw [if_pos ⟨h.ferr_eq.trans hfe, h.t35_eq⟩]
      unfold masterFrameError
      simp only []
      rw [if_pos (by rw [h.cnt, hcnt]; exact hR), clearRespLen_ok (s := { s with repeatCnt := s.repeatCnt + 1 }) h.cur.1]
      rfl
    · rw [if_neg hfe, if_neg hfe]
      have hce : ce = .set := he.resolve_left hfe
      refine ⟨{ s with repeatCnt := s.repeatCnt + 1, msgs := setMsg s.msgs i { s.msgs i with respLen := 0 }, st := .repeatRequest, crcf := .cleared }, ?_,
        ⟨rfl, ⟨h.cur.1, h.cur.2.1, (SameReq.set s.msgs i { s.msgs i with respLen := 0 } rfl rfl).holds h.cur.2.2.1, h.cur.2.2.2⟩, by simp [h.cnt], h.ferr_eq, rfl⟩, h.t15_eq⟩
      simp only [masterStep, masterPoll, h.st_eq, masterReceived]
      rw [if_neg (by rw [h.ferr_eq]; simp [hfe]), if_pos ⟨h.crcf_eq.trans hce, h.t35_eq⟩]
      unfold masterCrcError
      simp only []
      rw [if_pos (by rw [h.cnt, hcnt]; exact hR), clearRespLen_ok (s := { s with repeatCnt := s.repeatCnt + 1 }) h.cur.1]
      rfl
  obtain ⟨gm, hgm⟩ := step_inv_of hw hi (by simp) j1
  obtain ⟨q, qt⟩ := j2
  have j3 : masterStep cfg sm .poll = .ok ({ sm with rxTarget := some i, txf := .set, st := .transmitting }, [.send (reqFrame r)]) := by
    simp only [masterStep, masterPoll, q.st_eq]
    exact send_inv hgm.drv hgm.data q.cur.1 q.cur.2.2.1
  obtain ⟨g', hg'⟩ := step_inv_of hw hgm (by simp) j3
  exact ⟨_, g', run_seq (run_one j1) (run_one j3), hg', ⟨rfl, ⟨q.cur.1, rfl, q.cur.2.2.1, q.cur.2.2.2⟩, q.cnt, q.ferr_eq, q.crcf_eq⟩, rfl, qt⟩

/-- The last poll: an error, no repetitions left. -/
theorem final_fail {cfg : Config} (hw : cfg.MWF) {i : Nat} {r : MReq} {c0 : U8} {fe ce : Flag} {f : List U8} {s : Master} {g : Ghost}
    (hi : MInv cfg s g) (h : P6 i r c0 fe ce f s) (he : fe = .set ∨ ce = .set) (hR : c0.toNat = cfg.repeatMax) (hf : f ≠ []) :
    ∃ s' g' fc, masterStep cfg s .poll = .ok (s', [.event (.commErr { slave := f.getD 0 0, fc := fc &&& 0x7F, adr := 0, qty := 0, err := if fe = .set then .frame else .crc })]) ∧
      (2 ≤ f.length → fc = f.getD 1 0) ∧ MInv cfg s' g' ∧ s'.st = .idle ∧ s'.t15 = .cleared ∧ s'.ferr = fe ∧ s'.crcf = ce := by
  have hcnt : (s.repeatCnt + 1).toNat = c0.toNat + 1 := by
    have := hw.rle
    rw [h.cnt, BitVec.toNat_add]
    exact Nat.mod_eq_of_lt (by simp; omega)
  obtain ⟨i', r', c, hc, h1⟩ := hi.curIs (by rw [h.st_eq]; decide)
  have hii : i' = i := by have := h1.1; rw [h.cur.1] at this; exact (Option.some.inj this).symm
  subst hii
  have hl : 0 < f.length := List.length_pos_iff.2 hf
  have g0 := getD_of_bytes h.bytes (k := 0) hl
  obtain ⟨s', k1, k2, k3, k4, k5, k6, k7⟩ := processEnd_inv hw hi (s1 := { s with repeatCnt := s.repeatCnt + 1 }) hc rfl rfl rfl rfl rfl rfl hi.flags
  refine ⟨s', _, (s.msgs i').resp 1, ?_, fun h2 => getD_of_bytes h.bytes h2, k2, processEnd_st k1, by rw [k3]; exact h.t15_eq, by rw [k5]; exact h.ferr_eq, by rw [k6]; exact h.crcf_eq⟩
  simp only [masterStep, masterPoll, h.st_eq, masterReceived]
  by_cases hfe : fe = .set
  · rw [if_pos hfe, if_pos ⟨h.ferr_eq.trans hfe, h.t35_eq⟩]
    unfold masterFrameError
    simp only []
    rw [if_neg (by rw [hcnt]; omega), commReport_eq (s := { s with repeatCnt := s.repeatCnt + 1 }) h.cur.1 hi.data, ok_bind, k1, ← g0]
    rfl
  · have hce : ce = .set := he.resolve_left hfe
    rw [if_neg hfe, if_neg (by rw [h.ferr_eq]; simp [hfe]), if_pos ⟨h.crcf_eq.trans hce, h.t35_eq⟩]
    unfold masterCrcError
    simp only []
    rw [if_neg (by rw [hcnt]; omega), commReport_eq (s := { s with repeatCnt := s.repeatCnt + 1 }) h.cur.1 hi.data, ok_bind, k1, ← g0]
    rfl

end Modbus
