import Verif.Proofs.MasterAttempt

/-! Complete transactions of the master: C38, C40, C41, C42, C45, C46. -/

namespace Modbus

open Spec

/-- After an initialisation no error is pending. -/
theorem standing_init {cfg : Config} (hw : cfg.MWF) (s0 : Master) :
    ∃ s, masterRun cfg s0 [.init .rtu] = .ok (s, [(.init .rtu, [])]) ∧ Standing false false s := by
  obtain ⟨fq, h1, -⟩ := pushAllLoop_rep cfg.queueItems hw.qle cfg.queueItems 0 (by omega) s0.freeQ.init
    (Queue.init_rep _ hw.qpos _)
  have hq := hw.qle
  refine ⟨_, run_one (by simp only [masterStep]; unfold masterInit; rw [if_neg (by omega), h1, ok_bind]; rfl), ⟨rfl, rfl, rfl, rfl⟩⟩

theorem flagOf_set {b : Bool} : flagOf b = .set ↔ b = true := by cases b <;> decide

theorem bool_eq {a b : Bool} (h : a = true ↔ b = true) : a = b := by
  cases a <;> cases b <;> simp at h ⊢

/-- The poll that transmits the next request. -/
theorem start_P1' {cfg : Config} (hw : cfg.MWF) {s s1 : Master} {g : Ghost} (hi : MInv cfg s g) (hs : s.st = .idle)
    {r : MReq} (hp : masterStep cfg s .poll = .ok (s1, [.send (reqFrame r)])) (hq : QtyOk r) :
    ∃ i g', MInv cfg s1 g' ∧ P1 i r 0 s.ferr s.crcf s.t15 s1 := by
  cases hpe : g.pend with
  | nil =>
    have k1 : masterStep cfg s .poll = _ := poll_idle_nop hi hs hpe
    rw [hp] at k1; cases k1
  | cons r' rest =>
    obtain ⟨s2, i, j1, j2, j3, j4, j5, j6, j7, j8, j9, j10, j11, -⟩ := poll_idle_send hw hi hs hpe
    have k1 : masterStep cfg s .poll = _ := j1
    rw [hp] at k1
    simp only [Except.ok.injEq, Prod.mk.injEq, List.cons.injEq, MOut.send.injEq, and_true] at k1
    obtain ⟨rfl, hfr⟩ := k1
    rcases masterStep_inv hw hi .poll (by simp) (by simp) with ⟨s2, o, g', q1, q2, q3⟩ | ⟨-, q1, -⟩
    · rw [hp] at q1
      cases q1
      refine ⟨i, g', q2, ⟨j2, ⟨j4, j5, ?_, hq⟩, ?_, j10, j11⟩, j3, j8⟩
      · unfold Holds at j6 ⊢; rw [hfr]; exact j6
      · have hc := hi.idle_iff.1 hs
        have hcur := q2.cur
        generalize hout : [MOut.send (reqFrame r)] = out at q3
        cases q3 with
        | finish r i c evs hc' => rw [hc] at hc'; cases hc'
        | silent _ _ => cases hout
        | start r i tl rest hc' ht hp' =>
          obtain ⟨-, -, -, -, -, -, q | q⟩ := hcur
          · rw [j2] at q; cases q.1
          · exact BitVec.eq_of_toNat_eq (by simpa using q.2)
        | again r i c hc' => rw [hc] at hc'; cases hc'
    · rw [hp] at q1; cases q1

theorem start_P1 {cfg : Config} (hw : cfg.MWF) {s s1 : Master} {g : Ghost} (hi : MInv cfg s g) {fe ce : Bool} (hs : Standing fe ce s)
    {r : MReq} (hp : masterStep cfg s .poll = .ok (s1, [.send (reqFrame r)])) (hq : QtyOk r) :
    ∃ i g', MInv cfg s1 g' ∧ P1 i r 0 (flagOf fe) (flagOf ce) .cleared s1 := by
  obtain ⟨i, g', h1, h2⟩ := start_P1' hw hi hs.st hp hq
  rw [hs.ferr, hs.crcf, hs.t15] at h2
  exact ⟨i, g', h1, h2⟩

/-- The operations of failed attempts, each followed by the poll that transmits again. -/
def retries (as : List Attempt) : List MOp := as.flatMap fun a => a.ops ++ [.poll]

theorem attempt_flags {fe : Flag} {a : Attempt} : (if a.broken then .set else fe) = .set ↔ a.broken ∨ fe = .set := by
  by_cases h : a.broken <;> simp [h]

/-- Failed attempts: the frame is transmitted again after each. -/
theorem failed_run {cfg : Config} (hw : cfg.MWF) {i : Nat} {r : MReq} {as : List Attempt} {fe ce fe' ce' : Bool}
    (hf : Failed cfg.respTimeout r fe ce as fe' ce') :
    ∀ {c0 : U8} {s : Master} {g : Ghost}, MInv cfg s g → P1 i r c0 (flagOf fe) (flagOf ce) .cleared s → c0.toNat + as.length ≤ cfg.repeatMax →
    ∃ s' tr g', masterRun cfg s (retries as) = .ok (s', tr) ∧ outs tr = List.replicate as.length (.send (reqFrame r)) ∧
      MInv cfg s' g' ∧ P1 i r (c0 + BitVec.ofNat 8 as.length) (flagOf fe') (flagOf ce') .cleared s' := by
  induction hf with
  | nil fe ce =>
    intro c0 s g hi h _
    exact ⟨s, [], g, rfl, rfl, hi, by simpa using h⟩
  | @frame fe ce ce1 fe' ce' a as ha h1 h2 h3 ih =>
    intro c0 s g hi h hl
    simp only [List.length_cons] at hl
    obtain ⟨s1, t1, g1, k1, k2, k3, k4⟩ := attempt_init hw hi h ha
    have hfe : (if a.broken then Flag.set else flagOf fe) = .set := by
      rw [attempt_flags, flagOf_set]; exact h1.symm
    have hP : P6 i r c0 .set (flagOf ce1) a.resp.frame s1 := by
      rcases k4 with ⟨hc, k4⟩ | ⟨hc, k4⟩
      · rw [hfe] at k4
        have : ce1 = ce := bool_eq (h2.trans ⟨fun e => e.resolve_right (fun k => k hc), .inl⟩)
        rw [this]; exact k4
      · rw [hfe] at k4
        have : ce1 = true := h2.2 (.inr hc)
        rw [this]; exact k4
    obtain ⟨s2, g2, m1, m2, m3⟩ := final_repeat hw k3 hP (.inl rfl) (by omega)
    rw [if_pos rfl, if_pos rfl] at m3
    have hcn : (c0 + 1).toNat = c0.toNat + 1 := by
      have := hw.rle
      rw [BitVec.toNat_add]
      exact Nat.mod_eq_of_lt (by simp; omega)
    obtain ⟨s3, t3, g3, n1, n2, n3, n4⟩ := ih m2 m3 (by rw [hcn]; omega)
    refine ⟨s3, t1 ++ [silentPoll, sent r] ++ t3, g3, ?_, ?_, n3, ?_⟩
    · have := run_seq (run_seq k1 m1) n1
      rw [← this]; simp [retries, Attempt.ops]
    · rw [outs_append, outs_append, k2, n2]
      rfl
    · have : c0 + BitVec.ofNat 8 (a :: as).length = c0 + 1 + BitVec.ofNat 8 as.length := by
        apply BitVec.eq_of_toNat_eq
        simp
        omega
      rw [this]; exact n4
  | @crc ce fe' ce' a as ha h1 h2 h3 ih =>
    intro c0 s g hi h hl
    simp only [List.length_cons] at hl
    obtain ⟨s1, t1, g1, k1, k2, k3, k4⟩ := attempt_init hw hi h ha
    rw [if_neg h1] at k4
    have hP : P6 i r c0 .cleared .set a.resp.frame s1 := by
      rcases k4 with ⟨hc, k4⟩ | ⟨hc, k4⟩
      · have : ce = true := h2.resolve_right (fun e => e hc)
        rw [this] at k4; exact k4
      · exact k4
    obtain ⟨s2, g2, m1, m2, m3⟩ := final_repeat hw k3 hP (.inr rfl) (by omega)
    rw [if_neg (by decide), if_neg (by decide)] at m3
    have hcn : (c0 + 1).toNat = c0.toNat + 1 := by
      have := hw.rle
      rw [BitVec.toNat_add]
      exact Nat.mod_eq_of_lt (by simp; omega)
    obtain ⟨s3, t3, g3, n1, n2, n3, n4⟩ := ih m2 m3 (by rw [hcn]; omega)
    refine ⟨s3, t1 ++ [silentPoll, sent r] ++ t3, g3, ?_, ?_, n3, ?_⟩
    · have := run_seq (run_seq k1 m1) n1
      rw [← this]; simp [retries, Attempt.ops]
    · rw [outs_append, outs_append, k2, n2]
      rfl
    · have : c0 + BitVec.ofNat 8 (a :: as).length = c0 + 1 + BitVec.ofNat 8 as.length := by
        apply BitVec.eq_of_toNat_eq
        simp
        omega
      rw [this]; exact n4

/-- **A transaction that succeeds** (basis of C40, C41, C42 and C45, C46). In any initialised execution that has reached an idle
state with pending errors `fe`, `ce` and whose next poll transmits a request `r`: after any number `≤ R` of failed attempts
that leave no pending error and a last attempt, without frame error, whose response is good, what has been put out is: the
frame, once per attempt, then exactly the callbacks which the response prescribes, at the last poll; and no error is pending. -/
theorem transaction_succeeds {cfg : Config} (hw : cfg.MWF) {ops : List MOp} (ho : OpsOk ops) {s0 s s1 : Master} {tr : MTrace}
    (h : masterRun cfg s0 (.init .rtu :: ops) = .ok (s, tr)) {fe ce : Bool} (hs : Standing fe ce s) {r : MReq} (hq : QtyOk r)
    (hp : masterStep cfg s .poll = .ok (s1, [.send (reqFrame r)])) {as : List Attempt}
    (hf : Failed cfg.respTimeout r fe ce as false false) (hl : as.length ≤ cfg.repeatMax) {a : Attempt}
    (ha : a.Wf cfg.respTimeout r) (hb : ¬ a.broken) (hg : GoodResponse r a.resp.frame) :
    ∃ s' tr', masterRun cfg s (.poll :: retries as ++ a.init ++ [.poll]) =
        .ok (s', tr' ++ [(.poll, (responseEvents r a.resp.frame).map .event)]) ∧
      outs tr' = List.replicate (as.length + 1) (.send (reqFrame r)) ∧ Standing false false s' := by
  obtain ⟨tr', g, sx, rfl, hi, -⟩ := run_from_init hw ho h
  obtain ⟨i, g1, a1, a2⟩ := start_P1 hw hi hs hp hq
  obtain ⟨s2, t2, g2, b1, b2, b3, b4⟩ := failed_run hw hf a1 a2 (by simpa using hl)
  obtain ⟨s3, t3, g3, c1, c2, c3, c4⟩ := attempt_init hw b3 b4 ha
  rcases c4 with ⟨hc, c4⟩ | ⟨hc, c4⟩
  · rw [if_neg hb] at c4
    obtain ⟨s4, g4, d1, d2, d3⟩ := final_ok hw c3 c4 hg
    refine ⟨s4, [sent r] ++ t2 ++ t3, ?_, ?_, ⟨d3.st, d3.t15, d3.ferr, d3.crcf⟩⟩
    · have := run_seq (run_seq (run_seq (run_one hp) b1) c1) (run_one d1)
      simpa using this
    · rw [outs_append, outs_append, b2, c2, List.append_nil]
      rfl
  · exact absurd hg.crc hc

/-- **A transaction that fails.** As `transaction_succeeds`, but all `R + 1` attempts fail: the frame is transmitted `R + 1` times,
then there is exactly one communication error report, and the error of the last attempt stays pending. -/
theorem transaction_fails {cfg : Config} (hw : cfg.MWF) {ops : List MOp} (ho : OpsOk ops) {s0 s s1 : Master} {tr : MTrace}
    (h : masterRun cfg s0 (.init .rtu :: ops) = .ok (s, tr)) {fe ce : Bool} (hs : Standing fe ce s) {r : MReq} (hq : QtyOk r)
    (hp : masterStep cfg s .poll = .ok (s1, [.send (reqFrame r)])) {as : List Attempt} {fe1 ce1 fe2 ce2 : Bool}
    (hf : Failed cfg.respTimeout r fe ce as fe1 ce1) (hl : as.length = cfg.repeatMax) {a : Attempt}
    (ha : a.Wf cfg.respTimeout r) (h1 : fe2 = true ↔ fe1 = true ∨ a.broken)
    (h2 : ce2 = true ↔ ce1 = true ∨ ¬ CrcCorrect a.resp.frame) (hbad : fe2 = true ∨ ce2 = true) :
    ∃ s' tr' rep, masterRun cfg s (.poll :: retries as ++ a.init ++ [.poll]) = .ok (s', tr' ++ [(.poll, [.event (.commErr rep)])]) ∧
      outs tr' = List.replicate (cfg.repeatMax + 1) (.send (reqFrame r)) ∧ rep.slave = reqSlave r ∧
      rep.err = (if fe2 = true then .frame else .crc) ∧ Standing fe2 ce2 s' := by
  obtain ⟨tr', g, sx, rfl, hi, -⟩ := run_from_init hw ho h
  obtain ⟨i, g1, a1, a2⟩ := start_P1 hw hi hs hp hq
  obtain ⟨s2, t2, g2, b1, b2, b3, b4⟩ := failed_run hw hf a1 a2 (by simpa using Nat.le_of_eq hl)
  obtain ⟨s3, t3, g3, c1, c2, c3, c4⟩ := attempt_init hw b3 b4 ha
  have hfe : (if a.broken then Flag.set else flagOf fe1) = flagOf fe2 := by
    by_cases hb : a.broken
    · rw [if_pos hb, h1.2 (.inr hb)]; rfl
    · rw [if_neg hb]
      have : fe2 = fe1 := bool_eq (h1.trans ⟨fun e => e.resolve_right hb, .inl⟩)
      rw [this]
  have hP : P6 i r (0 + BitVec.ofNat 8 as.length) (flagOf fe2) (flagOf ce2) a.resp.frame s3 := by
    rw [hfe] at c4
    rcases c4 with ⟨hc, c4⟩ | ⟨hc, c4⟩
    · have : ce2 = ce1 := bool_eq (h2.trans ⟨fun e => e.resolve_right (fun k => k hc), .inl⟩)
      rw [this]; exact c4
    · rw [h2.2 (.inr hc)]; exact c4
  have hR := hw.rle
  obtain ⟨s4, g4, fc, d1, -, d2, d3, d4, d5, d6⟩ := final_fail hw c3 hP (by rw [flagOf_set, flagOf_set]; exact hbad)
    (by simp; omega) ha.resp.1.some
  refine ⟨s4, [sent r] ++ t2 ++ t3, { slave := a.resp.frame.getD 0 0, fc := fc &&& 0x7F, adr := 0, qty := 0, err := if flagOf fe2 = .set then .frame else .crc }, ?_, ?_, ha.resp.2, ?_, ⟨d3, d4, d5, d6⟩⟩
  · have := run_seq (run_seq (run_seq (run_one hp) b1) c1) (run_one d1)
    simpa using this
  · rw [outs_append, outs_append, b2, c2, hl, List.append_nil]
    rfl
  · simp only [flagOf_set]

/-- The callback for item `i` of a read request with response frame `f`. -/
def itemEvent (f : List U8) (i : Nat) : MReq → MEvent
  | .readCoils a _ s => .coilRead s (a + BitVec.ofNat 16 i) (frameBit f i)
  | .readDiscreteInputs a _ s => .disinRead s (a + BitVec.ofNat 16 i) (frameBit f i)
  | .readInputReg a _ s => .inregRead s (a + BitVec.ofNat 16 i) (frameReg f i)
  | .readHoldingReg a _ s => .hregRead s (a + BitVec.ofNat 16 i) (frameReg f i)
  | r => .hregRead (reqSlave r) 0 0

/-- One of the four read requests. -/
def IsRead : MReq → Prop
  | .readCoils .. | .readDiscreteInputs .. | .readInputReg .. | .readHoldingReg .. => True
  | _ => False

/-- The callback confirming a write request. -/
def confirmEvent : MReq → MEvent
  | .writeSingleCoil a s _ => .coilWrite s a 1
  | .writeSingleReg a s _ => .hregWrite s a 1
  | .writeMultipleCoils a q s _ => .coilWrite s a q
  | .writeMultipleReg a q s _ => .hregWrite s a q
  | r => .hregWrite (reqSlave r) 0 0

theorem responseEvents_read {r : MReq} {f : List U8} (hr : IsRead r) (hs : f.getD 0 0 = reqSlave r) (hfc : f.getD 1 0 = reqFc r) :
    responseEvents r f = (List.range (reqField r).toNat).map (fun i => itemEvent f i r) := by
  unfold responseEvents
  simp only [hs, hfc]
  cases r <;> first | exact hr.elim | rfl

theorem responseEvents_write {r : MReq} {f : List U8} (hr : ¬ IsRead r) (hs : f.getD 0 0 = reqSlave r) (hfc : f.getD 1 0 = reqFc r) :
    responseEvents r f = [confirmEvent r] := by
  unfold responseEvents
  simp only [hs, hfc]
  cases r <;> first | exact absurd trivial hr | rfl

/-- **C40.** A read transaction whose last attempt gets a complete matching response: the last poll makes exactly one callback
per requested item, in order, of the kind of the request, with the slave's ID, address `start + i` and the `i`-th value. -/
theorem C40_read_delivered {cfg : Config} (hw : cfg.MWF) {ops : List MOp} (ho : OpsOk ops) {s0 s s1 : Master} {tr : MTrace}
    (h : masterRun cfg s0 (.init .rtu :: ops) = .ok (s, tr)) {fe ce : Bool} (hs : Standing fe ce s) {r : MReq} (hq : QtyOk r)
    (hp : masterStep cfg s .poll = .ok (s1, [.send (reqFrame r)])) {as : List Attempt}
    (hf : Failed cfg.respTimeout r fe ce as false false) (hl : as.length ≤ cfg.repeatMax) {a : Attempt}
    (ha : a.Wf cfg.respTimeout r) (hb : ¬ a.broken) (hg : GoodResponse r a.resp.frame) (hr : IsRead r)
    (hfc : a.resp.frame.getD 1 0 = reqFc r) :
    ∃ s' tr', masterRun cfg s (.poll :: retries as ++ a.init ++ [.poll]) =
        .ok (s', tr' ++ [(.poll, (List.range (reqField r).toNat).map fun i => .event (itemEvent a.resp.frame i r))]) ∧
      outs tr' = List.replicate (as.length + 1) (.send (reqFrame r)) ∧ Standing false false s' := by
  obtain ⟨s', tr', k1, k2, k3⟩ := transaction_succeeds hw ho h hs hq hp hf hl ha hb hg
  refine ⟨s', tr', ?_, k2, k3⟩
  rw [k1, responseEvents_read hr hg.slave hfc, List.map_map]
  rfl

/-- **C41.** A write transaction whose last attempt gets the response with the same function code: the last poll makes exactly
one confirmation, of the right kind, with the request's slave, address and quantity. -/
theorem C41_write_confirmed {cfg : Config} (hw : cfg.MWF) {ops : List MOp} (ho : OpsOk ops) {s0 s s1 : Master} {tr : MTrace}
    (h : masterRun cfg s0 (.init .rtu :: ops) = .ok (s, tr)) {fe ce : Bool} (hs : Standing fe ce s) {r : MReq} (hq : QtyOk r)
    (hp : masterStep cfg s .poll = .ok (s1, [.send (reqFrame r)])) {as : List Attempt}
    (hf : Failed cfg.respTimeout r fe ce as false false) (hl : as.length ≤ cfg.repeatMax) {a : Attempt}
    (ha : a.Wf cfg.respTimeout r) (hb : ¬ a.broken) (hg : GoodResponse r a.resp.frame) (hr : ¬ IsRead r)
    (hfc : a.resp.frame.getD 1 0 = reqFc r) :
    ∃ s' tr', masterRun cfg s (.poll :: retries as ++ a.init ++ [.poll]) = .ok (s', tr' ++ [(.poll, [.event (confirmEvent r)])]) ∧
      outs tr' = List.replicate (as.length + 1) (.send (reqFrame r)) ∧ Standing false false s' := by
  obtain ⟨s', tr', k1, k2, k3⟩ := transaction_succeeds hw ho h hs hq hp hf hl ha hb hg
  refine ⟨s', tr', ?_, k2, k3⟩
  rw [k1, responseEvents_write hr hg.slave hfc]
  rfl

/-- **C42.** A transaction answered by an exception response `slave, 128 + fc, code, CRC`: the last poll makes exactly the exception
callback for `fc` (none if `fc` is no supported function code), with the slave, `fc`, `code`, and the request's address and
quantity (or value). -/
theorem C42_exception_reported {cfg : Config} (hw : cfg.MWF) {ops : List MOp} (ho : OpsOk ops) {s0 s s1 : Master} {tr : MTrace}
    (h : masterRun cfg s0 (.init .rtu :: ops) = .ok (s, tr)) {fe ce : Bool} (hs : Standing fe ce s) {r : MReq} (hq : QtyOk r)
    (hp : masterStep cfg s .poll = .ok (s1, [.send (reqFrame r)])) {as : List Attempt}
    (hf : Failed cfg.respTimeout r fe ce as false false) (hl : as.length ≤ cfg.repeatMax) {a : Attempt}
    (ha : a.Wf cfg.respTimeout r) (hb : ¬ a.broken) {fc code : U8} (hfc : fc.toNat < 128)
    (hg : a.resp.frame = rtuFrame (reqSlave r) [fc + 128, code]) :
    ∃ s' tr', masterRun cfg s (.poll :: retries as ++ a.init ++ [.poll]) =
        .ok (s', tr' ++ [(.poll, (exceptionEvent r (reqSlave r) fc code).map .event)]) ∧
      outs tr' = List.replicate (as.length + 1) (.send (reqFrame r)) ∧ Standing false false s' := by
  have hx : 128 ≤ (fc + 128).toNat := by rw [BitVec.toNat_add]; simp; omega
  have hgr : GoodResponse r a.resp.frame := by
    rw [hg]
    refine ⟨⟨_, rfl⟩, rfl, .inl hx, ?_, ?_⟩
    · show respLenFor r (fc + 128) ≤ _
      unfold respLenFor
      rw [if_pos hx]; simp [rtuFrame]
    · simp [rtuFrame]
  obtain ⟨s', tr', k1, k2, k3⟩ := transaction_succeeds hw ho h hs hq hp hf hl ha hb hgr
  refine ⟨s', tr', ?_, k2, k3⟩
  have : responseEvents r a.resp.frame = exceptionEvent r (reqSlave r) fc code := by
    rw [hg]
    show (if 128 ≤ (fc + 128).toNat then exceptionEvent r (reqSlave r) (fc + 128 - 128) code else _) = _
    rw [if_pos hx, BitVec.add_sub_cancel]
  rw [k1, this]

end Modbus
