import Verif.Props.MasterExchange

/-! Liveness of the master and its gaps: C37, C38, C45, C46, C47. -/

namespace Modbus

open Spec

/-- Requests, ticks, received bytes, 3.5-char events and completions leave an idle master as it stands. -/
theorem standing_kept {cfg : Config} (hw : cfg.MWF) {ops : List MOp} (ho : OpsOk ops) {s0 s : Master} {tr : MTrace}
    (h : masterRun cfg s0 (.init .rtu :: ops) = .ok (s, tr)) {fe ce : Bool} (hs : Standing fe ce s) {op : MOp}
    (h1 : op ≠ .poll) (h2 : op ≠ .t15) (h3 : op ≠ .frameErr) (h4 : (∀ m, op ≠ .init m) ∧ ∀ r, op = .request r → QtyOk r → DataOk r) :
    ∃ s' o, masterStep cfg s op = .ok (s', o) ∧ outs [(op, o)] = [] ∧ Standing fe ce s' := by
  obtain ⟨tr', g, sx, rfl, hi, -⟩ := run_from_init hw ho h
  obtain ⟨s', o, g', k1, k2, -⟩ := step_effect hw hi h1 h4
  exact ⟨s', o, k1, k2.outs, ⟨k2.st.trans hs.st, by rw [k2.t15', if_neg h2]; exact hs.t15, by rw [k2.ferr', if_neg h3]; exact hs.ferr,
    k2.crcf.trans hs.crcf⟩⟩

/-- Running operations that keep a state property and put nothing out, whatever they are. -/
theorem run_silent {cfg : Config} (hw : cfg.MWF) (P : Master → Prop) (ok : MOp → Prop)
    (step : ∀ s g op, MInv cfg s g → P s → ok op → (∀ m, op ≠ .init m) ∧ (∀ r, op = .request r → QtyOk r → DataOk r) →
      ∃ s' o, masterStep cfg s op = .ok (s', o) ∧ outs [(op, o)] = [] ∧ P s') :
    ∀ (ops : List MOp), OpsOk ops → (∀ op ∈ ops, ok op) → ∀ {s : Master} {g : Ghost}, MInv cfg s g → P s →
      ∃ s' tr g', masterRun cfg s ops = .ok (s', tr) ∧ outs tr = [] ∧ MInv cfg s' g' ∧ P s' := by
  intro ops ho hok s g hi hp
  obtain ⟨s', tr, g', k1, k2, k3, k4⟩ := run_phase hw (fun _ s => P s) ops ho (fun pre op suf s g e hi hp =>
    step s g op hi hp (hok op (by rw [← e]; simp)) (ho op (by rw [← e]; simp))) hi hp
  exact ⟨s', tr, g', k1, k2, k3, k4⟩

/-! ## C46 -/

/-- After a communication error report its error is still pending: in every execution. -/
theorem C46_error_stays_pending {cfg : Config} (hw : cfg.MWF) {ops : List MOp} (ho : OpsOk ops) {s0 s : Master}
    {tr : MTrace} {rep : ErrReport} {o : List MOut} (h : masterRun cfg s0 (.init .rtu :: (ops ++ [.poll])) = .ok (s, tr ++ [(.poll, o)]))
    (he : .event (.commErr rep) ∈ o) : s.st = .idle ∧ ((rep.err = .frame ∧ s.ferr = .set) ∨ (rep.err = .crc ∧ s.crcf = .set)) := by
  obtain ⟨tr', g, s1, e1, -, -, hi1, hr⟩ := run_from_init hw (fun op hop => by
    rcases List.mem_append.1 hop with k | k
    · exact ho op k
    · simp at k; subst k; simp) h
  rw [masterRun_append] at hr
  obtain ⟨⟨sm, t1⟩, k1, hr⟩ := bind_ok hr
  obtain ⟨⟨s2, t2⟩, k2, hr⟩ := bind_ok hr
  simp only [masterRun] at k2
  obtain ⟨⟨s3, o3⟩, k3, k2⟩ := bind_ok k2
  cases k2
  cases hr
  obtain ⟨gm, j1, -⟩ := masterRun_ok hw ho hi1 k1
  have hoo : o3 = o := by
    have := congrArg List.getLast? e1
    rw [List.getLast?_append] at this
    rw [show (MOp.init Mode.rtu, ([] : List MOut)) :: (t1 ++ [(MOp.poll, o3)]) = ((MOp.init Mode.rtu, ([] : List MOut)) :: t1) ++ [(MOp.poll, o3)] from rfl,
      List.getLast?_append] at this
    simpa using this.symm
  subst hoo
  rcases poll_event_cases hw j1 k3 he with ⟨q1, q2, q3, i, r, c, hc, rfl⟩ | ⟨q1, i, r, c, er, hc, hcc, her, rfl⟩ | ⟨q1, q2, q3, q4, i, r, c, evs, hc, hev, rfl⟩
  · simp at he
  · simp at he
    subst he
    have hcur := j1.cur
    rw [hc] at hcur
    obtain ⟨c1, c2, c3, c4, c5, c6, q | q⟩ := hcur
    · simp [q1] at q
    have hcnt := cnt_succ q.2 c6 hw.rle
    have k3' : masterPoll cfg sm = .ok (_, [.event (.commErr { slave := (sm.msgs i).resp 0, fc := (sm.msgs i).resp 1 &&& 0x7F, adr := 0, qty := 0, err := er })]) := k3
    unfold masterPoll at k3'
    rw [q1] at k3'
    simp only [masterReceived] at k3'
    obtain ⟨sp, p1, p2, p3, p4, p5, p6, p7⟩ := processEnd_inv hw j1 (s1 := { sm with repeatCnt := sm.repeatCnt + 1 }) hc rfl rfl rfl rfl rfl rfl j1.flags
    split at k3'
    · rename_i hf
      unfold masterFrameError at k3'
      simp only [hcnt] at k3'
      rw [if_neg (by omega), commReport_eq (s := { sm with repeatCnt := sm.repeatCnt + 1 }) c1 j1.data, ok_bind, p1] at k3'
      simp only [ok_bind, pure_eq, Except.ok.injEq, Prod.mk.injEq, List.cons.injEq, MOut.event.injEq, MEvent.commErr.injEq, ErrReport.mk.injEq] at k3'
      obtain ⟨rfl, k3'⟩ := k3'
      refine ⟨processEnd_st p1, .inl ⟨k3'.1.2.2.2.2.symm, by rw [p5]; exact hf.1⟩⟩
    split at k3'
    · rename_i hf
      unfold masterCrcError at k3'
      simp only [hcnt] at k3'
      rw [if_neg (by omega), commReport_eq (s := { sm with repeatCnt := sm.repeatCnt + 1 }) c1 j1.data, ok_bind, p1] at k3'
      simp only [ok_bind, pure_eq, Except.ok.injEq, Prod.mk.injEq, List.cons.injEq, MOut.event.injEq, MEvent.commErr.injEq, ErrReport.mk.injEq] at k3'
      obtain ⟨rfl, k3'⟩ := k3'
      refine ⟨processEnd_st p1, .inr ⟨k3'.1.2.2.2.2.symm, by rw [p6]; exact hf.1⟩⟩
    split at k3'
    · rename_i hf
      rcases her with ⟨-, e⟩ | ⟨-, e⟩
      · rw [hf.1] at e; cases e
      · rw [hf.2.1] at e; cases e
    · cases k3'
  · have hcur := j1.cur
    rw [hc] at hcur
    simp at he
    have := respEvents_noerr hcur.2.2.1 hcur.2.2.2.1 hev _ he
    simp [isErrorReport] at this

/-- **C46 is violated**, for every failed transaction and every next request (`R ≥ 1`): in any execution with a pending error
(and `C46_error_stays_pending` says that there is one after every communication error report), a perfectly good response
to the next request is not delivered: the request is transmitted a second time instead. -/
theorem C46_good_response_rejected_violated {cfg : Config} (hw : cfg.MWF) (hR : 1 ≤ cfg.repeatMax) {ops : List MOp} (ho : OpsOk ops) {s0 s s1 : Master} {tr : MTrace}
    (h : masterRun cfg s0 (.init .rtu :: ops) = .ok (s, tr)) {fe ce : Bool} (hs : Standing fe ce s) (hpend : fe = true ∨ ce = true)
    {r : MReq} (hq : QtyOk r) (hp : masterStep cfg s .poll = .ok (s1, [.send (reqFrame r)])) {a : Attempt}
    (ha : a.Wf cfg.respTimeout r) (hg : GoodResponse r a.resp.frame) :
    ∃ s' tr', masterRun cfg s (.poll :: a.ops ++ [.poll]) = .ok (s', tr') ∧
      outs tr' = [.send (reqFrame r), .send (reqFrame r)] := by
  obtain ⟨tr', g, sx, rfl, hi, -⟩ := run_from_init hw ho h
  obtain ⟨i, g1, a1, a2⟩ := start_P1 hw hi hs hp hq
  obtain ⟨s3, t3, g3, c1, c2, c3, c4⟩ := attempt_init hw a1 a2 ha
  rcases c4 with ⟨-, c4⟩ | ⟨hc, -⟩
  · obtain ⟨s2, g2, m1, -⟩ := final_repeat hw c3 c4 (by
      rcases hpend with e | e
      · left; rw [attempt_flags]; right; exact flagOf_set.2 e
      · right; exact flagOf_set.2 e) (by simpa using hR)
    refine ⟨s2, [sent r] ++ t3 ++ [silentPoll, sent r], ?_, ?_⟩
    · have := run_seq (run_seq (run_one hp) c1) m1
      simpa [Attempt.ops] using this
    · rw [outs_append, outs_append, c2]; rfl
  · exact absurd hg.crc hc

/-- ... and with `R = 0` it is even reported as a communication error. -/
theorem C46_good_response_reported_as_error_violated {cfg : Config} (hw : cfg.MWF) (hR : cfg.repeatMax = 0) {ops : List MOp} (ho : OpsOk ops) {s0 s s1 : Master} {tr : MTrace}
    (h : masterRun cfg s0 (.init .rtu :: ops) = .ok (s, tr)) {fe ce : Bool} (hs : Standing fe ce s) (hpend : fe = true ∨ ce = true)
    {r : MReq} (hq : QtyOk r) (hp : masterStep cfg s .poll = .ok (s1, [.send (reqFrame r)])) {a : Attempt}
    (ha : a.Wf cfg.respTimeout r) (hb : ¬ a.broken) (hg : GoodResponse r a.resp.frame) :
    ∃ s' tr' rep, masterRun cfg s (.poll :: a.ops) = .ok (s', tr') ∧ outs tr' = [.send (reqFrame r), .event (.commErr rep)] ∧
      Standing fe ce s' := by
  obtain ⟨s', tr', rep, k1, k2, -, -, k3⟩ := transaction_fails hw ho h hs hq hp (.nil fe ce) (by simp [hR]) ha (fe2 := fe) (ce2 := ce)
    ⟨.inl, fun e => e.resolve_right hb⟩ ⟨.inl, fun e => e.resolve_right (fun k => k hg.crc)⟩ hpend
  refine ⟨s', tr' ++ [(.poll, [.event (.commErr rep)])], rep, by simpa [retries, Attempt.ops] using k1, ?_, k3⟩
  rw [outs_append, k2, hR]
  rfl

/-- **C46, what holds.** After a transaction that ended with a good response, or with a timeout when no error was pending
(`C37_timeout_partial`), the next request's good response is delivered at the first attempt: with no error pending no retry is
needed. -/
theorem C46_first_attempt_partial {cfg : Config} (hw : cfg.MWF) {ops : List MOp} (ho : OpsOk ops) {s0 s s1 : Master} {tr : MTrace}
    (h : masterRun cfg s0 (.init .rtu :: ops) = .ok (s, tr)) (hs : Standing false false s) {r : MReq} (hq : QtyOk r)
    (hp : masterStep cfg s .poll = .ok (s1, [.send (reqFrame r)])) {a : Attempt}
    (ha : a.Wf cfg.respTimeout r) (hb : ¬ a.broken) (hg : GoodResponse r a.resp.frame) :
    ∃ s' tr', masterRun cfg s (.poll :: a.ops) = .ok (s', tr') ∧
      outs tr' = .send (reqFrame r) :: (responseEvents r a.resp.frame).map .event ∧ Standing false false s' := by
  obtain ⟨s', tr', k1, k2, k3⟩ := transaction_succeeds hw ho h hs hq hp (.nil false false) (by simp) ha hb hg
  refine ⟨s', tr' ++ [(.poll, (responseEvents r a.resp.frame).map .event)], by simpa [retries, Attempt.ops] using k1, ?_, k3⟩
  rw [outs_append, k2]
  show _ ++ ((responseEvents r a.resp.frame).map MOut.event ++ []).filter isOut = _
  rw [List.append_nil, List.filter_eq_self.2 (by intro x hx; obtain ⟨e, -, rfl⟩ := List.mem_map.1 hx; rfl)]
  rfl

/-! ## C37 -/

/-- Operations other than polls while waiting. -/
theorem phase3_nopoll {cfg : Config} (hw : cfg.MWF) {i : Nat} {r : MReq} {c0 : U8} {fe ce : Flag} {k : Nat} {f : List U8} {s : Master} {g : Ghost}
    (hi : MInv cfg s g) (h : P3 cfg i r c0 fe ce k f s) (w : List MOp) (hn : ∀ op ∈ w, op.rxNoise ∧ op ≠ .poll)
    (hl : (f ++ mBytes w).length ≤ 255) :
    ∃ s' tr g', masterRun cfg s w = .ok (s', tr) ∧ outs tr = [] ∧ MInv cfg s' g' ∧
      P3 cfg i r c0 (feAfter fe w) ce (k + tickCount w) (f ++ mBytes w) s' := by
  refine run_phase hw (fun pre s => P3 cfg i r c0 (feAfter fe pre) ce (k + tickCount pre) (f ++ mBytes pre) s) w (fun op hop => (hn op hop).1.contract) ?_ hi
    (by simpa [tickCount, mBytes, feAfter] using h)
  intro pre op suf s g e hi h
  have hno := hn op (by rw [← e]; simp)
  obtain ⟨s', o, g', k1, k2, -⟩ := step_effect hw hi hno.2 hno.1.contract
  refine ⟨s', o, k1, k2.outs, ?_⟩
  rw [tickCount_append, mBytes_append, feAfter_append, ← Nat.add_assoc, ← List.append_assoc]
  refine h.step k2 ?_ ?_
  · rintro rfl; rcases hno.1 with hno | ⟨b, hb⟩ | hb | hb
    · exact hno
    · cases hb
    · cases hb
    · cases hb
  · rw [show pre ++ op :: suf = (pre ++ [op]) ++ suf by simp] at e
    rw [← e, mBytes_append, mBytes_append, List.length_append, List.length_append, List.length_append] at hl
    rw [List.length_append, List.length_append]
    omega

/-- The poll at timer 1. -/
theorem poll_timeout {cfg : Config} (hw : cfg.MWF) {i : Nat} {r : MReq} {c0 : U8} {fe ce : Flag} {k : Nat} {f : List U8} {s : Master} {g : Ghost}
    (hi : MInv cfg s g) (h : P3 cfg i r c0 fe ce k f s) (hk : k + 1 = cfg.respTimeout) :
    ∃ s' g' rep, masterStep cfg s .poll = .ok (s', [.event (.timeoutErr rep)]) ∧ MInv cfg s' g' ∧
      rep.slave = reqSlave r ∧ rep.adr = reqAdr r ∧ rep.qty = reqField r ∧ rep.err = .timeout ∧
      s'.st = .idle ∧ s'.t15 = .cleared ∧ s'.ferr = fe ∧ s'.crcf = ce := by
  obtain ⟨i', r', c, hc, h1⟩ := hi.curIs (by rw [h.st_eq]; decide)
  have hii : i' = i := by have := h1.1; rw [h.cur.1] at this; exact (Option.some.inj this).symm
  subst hii
  obtain ⟨s', k1, k2, k3, k4, k5, k6, k7⟩ := processEnd_inv hw hi (s1 := s) hc rfl rfl rfl rfl rfl rfl hi.flags
  refine ⟨s', _, { slave := reqSlave r, fc := (s.msgs i').resp 1, adr := reqAdr r, qty := reqField r, err := .timeout }, ?_, k2, rfl, rfl, rfl, rfl,
    processEnd_st k1, by rw [k3]; exact h.t15_eq, by rw [k5]; exact h.ferr_eq, by rw [k6]; exact h.crcf_eq⟩
  simp only [masterStep, masterPoll, h.st_eq, masterWaiting]
  rw [if_neg (by rw [h.t15_eq]; decide), if_pos (by rw [h.timer_eq]; omega), timeoutReport_eq h.cur.1 hi.data h.cur.2.2.1, ok_bind, k1]
  rfl

/-- A request transmitted and its completion noticed. -/
def sendOps (w1 w2 : List MOp) : List MOp := w1 ++ .txDone :: w2 ++ [.poll]

theorem run_to_wait {cfg : Config} (hw : cfg.MWF) {i : Nat} {r : MReq} {c0 : U8} {fe ce : Flag} {s : Master} {g : Ghost}
    (hi : MInv cfg s g) (h : P1 i r c0 fe ce .cleared s) {w1 w2 : List MOp} (h1 : ∀ op ∈ w1, op.noise) (h2 : ∀ op ∈ w2, op.quiet) :
    ∃ s' tr g', masterRun cfg s (sendOps w1 w2) = .ok (s', tr) ∧ outs tr = [] ∧ MInv cfg s' g' ∧ P3 cfg i r c0 fe ce 0 [] s' := by
  obtain ⟨s1, t1, g1, a1, a2, a3, a4⟩ := phase1 hw hi h w1 h1
  obtain ⟨s2, o2, g2, b1, b2, b3, b4⟩ := phase12 hw a3 a4
  obtain ⟨s3, t3, g3, c1, c2, c3, c4⟩ := phase2 hw b3 b4 w2 h2
  obtain ⟨s4, g4, d1, d3, d4⟩ := phase23 hw c3 c4
  refine ⟨s4, t1 ++ ([(MOp.txDone, o2)] ++ (t3 ++ [(MOp.poll, [])])), g4, ?_, ?_, d3, d4⟩
  · have := run_seq a1 (run_seq (run_one b1) (run_seq c1 (run_one d1)))
    rw [← this]; simp [sendOps]
  · simp only [outs_append, a2, b2, c2]; rfl

/-- **C37, what holds.** A transmitted request to which only other slaves answer (if any): if there is a poll at the right time,
that is, after the tick number `T - 1` and before the next one, that poll reports the timeout (and nothing else happens before),
the transaction is over, and no error becomes pending except a frame error signalled meanwhile. `w3` contains the
first `T - 2` ticks, any number of polls and any received bytes without an end-of-frame event. -/
theorem C37_timeout_partial {cfg : Config} (hw : cfg.MWF) (hT : 2 ≤ cfg.respTimeout) {ops : List MOp} (ho : OpsOk ops) {s0 s s1 : Master} {tr : MTrace}
    (h : masterRun cfg s0 (.init .rtu :: ops) = .ok (s, tr)) {fe ce : Bool} (hs : Standing fe ce s) {r : MReq} (hq : QtyOk r)
    (hp : masterStep cfg s .poll = .ok (s1, [.send (reqFrame r)])) {w1 w2 w3 w4 : List MOp} {others : List Heard}
    (h1 : ∀ op ∈ w1, op.noise) (h2 : ∀ op ∈ w2, op.quiet)
    (hoth : ∀ x ∈ others, x.Wf ∧ x.frame.getD 0 0 ≠ reqSlave r)
    (h3 : ∀ op ∈ w3, op.rxNoise) (h4 : ∀ op ∈ w4, op.rxNoise ∧ op ≠ .poll ∧ op ≠ .tick)
    (hbytes : (mBytes w3 ++ mBytes w4).length ≤ 255)
    (ht : (others.map Heard.ticks).sum + tickCount w3 + 2 = cfg.respTimeout) :
    ∃ s' tr' rep, masterRun cfg s (.poll :: sendOps w1 w2 ++ others.flatMap Heard.ops ++ w3 ++ .tick :: w4 ++ [.poll]) =
        .ok (s', tr' ++ [(.poll, [.event (.timeoutErr rep)])]) ∧ outs tr' = [.send (reqFrame r)] ∧
      rep.slave = reqSlave r ∧ rep.adr = reqAdr r ∧ rep.qty = reqField r ∧ rep.err = .timeout ∧
      (MOp.frameErr ∉ others.flatMap Heard.ops ++ w3 ++ w4 → Standing fe ce s') := by
  obtain ⟨tr', g, sx, rfl, hi, -⟩ := run_from_init hw ho h
  obtain ⟨i, g1, a1, a2⟩ := start_P1 hw hi hs hp hq
  obtain ⟨s2, t2, g2, b1, b2, b3, b4⟩ := run_to_wait hw a1 a2 h1 h2
  obtain ⟨s3, t3, g3, c1, c2, c3, c4⟩ := heard_others hw others b3 b4 hoth (by omega)
  rw [List.length_append] at hbytes
  obtain ⟨s4, t4, g4, d1, d2, d3, d4⟩ := phase3 hw c3 c4 w3 h3 (by omega) (by rw [List.nil_append]; omega)
  have hm : mBytes (MOp.tick :: w4) = mBytes w4 := rfl
  obtain ⟨s5, t5, g5, e1, e2, e3, e4⟩ := phase3_nopoll hw d3 d4 (.tick :: w4) (by
    intro op hop
    rcases List.mem_cons.1 hop with rfl | k
    · exact ⟨.inl trivial, by simp⟩
    · exact ⟨(h4 op k).1, (h4 op k).2.1⟩) (by rw [hm, List.nil_append, List.length_append]; omega)
  have hw4 : tickCount w4 = 0 := by
    unfold tickCount
    rw [List.countP_eq_zero]
    intro op hop
    simpa using (h4 op hop).2.2
  have htk : tickCount (MOp.tick :: w4) = 1 := by
    rw [show MOp.tick :: w4 = [MOp.tick] ++ w4 from rfl, tickCount_append, hw4]; rfl
  obtain ⟨s6, g6, rep, f1, f2, f3, f4, f5, f6, f7, f8, f9, f10⟩ := poll_timeout hw e3 e4 (by omega)
  refine ⟨s6, [sent r] ++ t2 ++ t3 ++ t4 ++ t5, rep, ?_, ?_, f3, f4, f5, f6, ?_⟩
  · have := run_seq (run_seq (run_seq (run_seq (run_seq (run_one hp) b1) c1) d1) e1) (run_one f1)
    simpa using this
  · simp only [outs_append, b2, c2, d2, e2]; rfl
  · intro hn
    refine ⟨f7, f8, ?_, f10⟩
    rw [f9, ← feAfter_append, ← feAfter_append]
    unfold feAfter
    rw [if_neg (by simpa using hn)]

/-- Waiting with the timer run down unnoticed. -/
structure MStuck (s : Master) : Prop where
  st : s.st = .waiting
  t15 : s.t15 = .cleared
  timer : s.timer = 0

theorem mstuck_step {cfg : Config} (hw : cfg.MWF) {s : Master} {g : Ghost} (hi : MInv cfg s g) (h : MStuck s) {op : MOp} (hop : op ≠ .t15)
    (hc : (∀ m, op ≠ .init m) ∧ ∀ r, op = .request r → QtyOk r → DataOk r) :
    ∃ s' o, masterStep cfg s op = .ok (s', o) ∧ outs [(op, o)] = [] ∧ MStuck s' := by
  by_cases hp : op = .poll
  · subst hp
    refine ⟨s, [], ?_, rfl, h⟩
    simp only [masterStep, masterPoll, h.st, masterWaiting]
    rw [if_neg (by rw [h.t15]; decide), if_neg (by rw [h.timer]; decide)]
  · obtain ⟨s', o, g', k1, k2, -⟩ := step_effect hw hi hp hc
    exact ⟨s', o, k1, k2.outs, ⟨k2.st.trans h.st, by rw [k2.t15', if_neg hop]; exact h.t15, by rw [k2.timer, h.timer]; omega⟩⟩

/-- **C37 is violated**, for every request, timeout `T` and history: if the tick number `T` comes before a poll has seen the state
after tick number `T - 1` (two ticks between two polls at the wrong moment), then no timeout is ever reported: whatever polls, ticks,
requests, received bytes, completions, frame errors and 3.5-char events follow, nothing more is put out by the master and the
request is never given up; only a 1.5-char event (an answer) can end the wait. With `T = 0` this happens always. -/
theorem C37_missed_timeout_violated {cfg : Config} (hw : cfg.MWF) {ops : List MOp} (ho : OpsOk ops) {s0 s s1 : Master} {tr : MTrace}
    (h : masterRun cfg s0 (.init .rtu :: ops) = .ok (s, tr)) {fe ce : Bool} (hs : Standing fe ce s) {r : MReq} (hq : QtyOk r)
    (hp : masterStep cfg s .poll = .ok (s1, [.send (reqFrame r)])) {w1 w2 w3 w4 cont : List MOp}
    (h1 : ∀ op ∈ w1, op.noise) (h2 : ∀ op ∈ w2, op.quiet)
    (h3 : ∀ op ∈ w3, op.rxNoise) (h4 : ∀ op ∈ w4, op.rxNoise ∧ op ≠ .poll)
    (hbytes : (mBytes w3 ++ mBytes w4).length ≤ 255)
    (ht3 : w3 = [] ∨ tickCount w3 + 1 < cfg.respTimeout) (ht : cfg.respTimeout ≤ tickCount w3 + tickCount w4)
    (hcont : OpsOk cont) (hno : ∀ op ∈ cont, op ≠ .t15) :
    ∃ s' tr', masterRun cfg s (.poll :: sendOps w1 w2 ++ w3 ++ w4 ++ cont) = .ok (s', tr') ∧ outs tr' = [.send (reqFrame r)] ∧
      s'.st = .waiting := by
  obtain ⟨tr', g, sx, rfl, hi, -⟩ := run_from_init hw ho h
  obtain ⟨i, g1, a1, a2⟩ := start_P1 hw hi hs hp hq
  obtain ⟨s2, t2, g2, b1, b2, b3, b4⟩ := run_to_wait hw a1 a2 h1 h2
  rw [List.length_append] at hbytes
  obtain ⟨s4, t4, g4, d1, d2, d3, d4⟩ : ∃ s' tr g', masterRun cfg s2 w3 = .ok (s', tr) ∧ outs tr = [] ∧ MInv cfg s' g' ∧
      P3 cfg i r 0 (feAfter (flagOf fe) w3) (flagOf ce) (0 + tickCount w3) ([] ++ mBytes w3) s' := by
    rcases ht3 with rfl | ht3
    · exact ⟨s2, [], g2, rfl, rfl, b3, by simpa [feAfter, tickCount, mBytes] using b4⟩
    · exact phase3 hw b3 b4 w3 h3 (by omega) (by rw [List.nil_append]; omega)
  obtain ⟨s5, t5, g5, e1, e2, e3, e4⟩ := phase3_nopoll hw d3 d4 w4 h4 (by rw [List.nil_append, List.length_append]; omega)
  obtain ⟨s6, t6, g6, f1, f2, f3, f4⟩ := run_silent hw MStuck (· ≠ .t15) (fun s g op hi hp ho hc => mstuck_step hw hi hp ho hc) cont hcont hno e3
    ⟨e4.st_eq, e4.t15_eq, by rw [e4.timer_eq]; omega⟩
  refine ⟨s6, [sent r] ++ t2 ++ t4 ++ t5 ++ t6, ?_, ?_, f4.st⟩
  · have := run_seq (run_seq (run_seq (run_seq (run_one hp) b1) d1) e1) f1
    simpa using this
  · simp only [outs_append, b2, d2, e2, f2]; rfl

/-! ## C38 -/

/-- **C38.** In any execution: while the master waits for the response to the request in buffer `i`, the check of a frame with
another address byte makes no callback and no transmission, changes neither the state nor the timer nor the repetition
counter, and empties the receive buffer. -/
theorem C38_other_slaves_ignored {cfg : Config} (hw : cfg.MWF) {ops : List MOp} (ho : OpsOk ops) {s0 s : Master} {tr : MTrace}
    (h : masterRun cfg s0 (.init .rtu :: ops) = .ok (s, tr)) (hst : s.st = .waiting) (ht : s.t15 = .set) :
    ∃ i r a b, s.msgBuf = some i ∧ tr = a ++ sent r :: b ∧ outs b = [] ∧ ((s.msgs i).resp 0 ≠ reqSlave r →
      ∃ s', masterStep cfg s .poll = .ok (s', []) ∧ s'.st = .waiting ∧ s'.timer = s.timer ∧ s'.repeatCnt = s.repeatCnt ∧
        s'.msgBuf = some i ∧ s'.t15 = .cleared ∧ s'.ferr = s.ferr ∧ s'.crcf = s.crcf ∧
        s'.msgs i = { s.msgs i with respLen := 0 } ∧ s'.freeQ = s.freeQ ∧ s'.txQ = s.txQ ∧ s'.rxTarget = s.rxTarget) := by
  obtain ⟨tr', g, s1, rfl, hi, -, hi1, hr⟩ := run_from_init hw ho h
  have hh := masterRun_hist hw ho hi1 (hi1.fresh_hist [(.init .rtu, [])]) hr
  unfold HInv at hh
  rw [hst] at hh
  obtain ⟨i, r, a, b, d, q1, q2, q3, q4, -⟩ := hh
  refine ⟨i, r, a, b ++ silentPoll :: d, q1.1, q2, ?_, ?_⟩
  · rw [outs_append, q3, show silentPoll :: d = [silentPoll] ++ d from rfl, outs_append, q4]; rfl
  intro hne
  have he := masterRecv_eq q1.1 hi.data q1.2.2.1
  rw [if_pos (Ne.symm hne)] at he
  refine ⟨{ s with t15 := .cleared, t35 := .cleared, msgs := setMsg s.msgs i { s.msgs i with respLen := 0 } }, ?_, hst, rfl, rfl, q1.1, rfl, rfl, rfl,
    by simp [setMsg_same], rfl, rfl, rfl⟩
  have hp : masterPoll cfg s = masterRecv s := by
    simp only [masterPoll, hst, masterWaiting]
    rw [if_pos ht]
  exact hp.trans he

/-! ## C45 -/

/-- Received, the 3.5-char event consumed. -/
structure Hung (s : Master) : Prop where
  st : s.st = .received
  t35 : s.t35 = .cleared

theorem hung_step {cfg : Config} (hw : cfg.MWF) {s : Master} {g : Ghost} (hi : MInv cfg s g) (h : Hung s) {op : MOp} (hop : op ≠ .t35)
    (hc : (∀ m, op ≠ .init m) ∧ ∀ r, op = .request r → QtyOk r → DataOk r) :
    ∃ s' o, masterStep cfg s op = .ok (s', o) ∧ outs [(op, o)] = [] ∧ Hung s' := by
  by_cases hp : op = .poll
  · subst hp
    refine ⟨s, [], ?_, rfl, h⟩
    simp only [masterStep, masterPoll, h.st, masterReceived]
    have := h.t35
    rw [if_neg (by simp [this]), if_neg (by simp [this]), if_neg (by simp [this])]
  · obtain ⟨s', o, g', k1, k2, -⟩ := step_effect hw hi hp hc
    exact ⟨s', o, k1, k2.outs, ⟨k2.st.trans h.st, by rw [k2.t35', if_neg hop]; exact h.t35⟩⟩

/-- **C45 is violated**, for every request and history: if the 3.5-char event of a response comes before the poll that checks it,
then, whatever follows except a further 3.5-char event (polls, ticks, requests, received bytes, completions, frame errors,
1.5-char events), nothing is ever put out again: no data, no error, no timeout, no further request. -/
theorem C45_hang_violated {cfg : Config} (hw : cfg.MWF) {ops : List MOp} (ho : OpsOk ops) {s0 s s1 : Master} {tr : MTrace}
    (h : masterRun cfg s0 (.init .rtu :: ops) = .ok (s, tr)) {fe ce : Bool} (hs : Standing fe ce s) {r : MReq} (hq : QtyOk r)
    (hp : masterStep cfg s .poll = .ok (s1, [.send (reqFrame r)])) {w1 w2 w5 cont : List MOp} {x : Heard}
    (h1 : ∀ op ∈ w1, op.noise) (h2 : ∀ op ∈ w2, op.quiet) (hx : x.Wf) (hsl : x.frame.getD 0 0 = reqSlave r)
    (ht : x.ticks + 1 < cfg.respTimeout) (h5 : ∀ op ∈ w5, op.quiet)
    (hcont : OpsOk cont) (hno : ∀ op ∈ cont, op ≠ .t35) :
    ∃ s' tr', masterRun cfg s (.poll :: sendOps w1 w2 ++ (x.rx ++ .t15 :: x.w) ++ .t35 :: w5 ++ .poll :: cont) = .ok (s', tr') ∧
      outs tr' = [.send (reqFrame r)] ∧ s'.st = .received := by
  obtain ⟨tr', g, sx, rfl, hi, -⟩ := run_from_init hw ho h
  obtain ⟨i, g1, a1, a2⟩ := start_P1 hw hi hs hp hq
  obtain ⟨s2, t2, g2, b1, b2, b3, b4⟩ := run_to_wait hw a1 a2 h1 h2
  obtain ⟨s3, t3, g3, c1, c2, c3, c4⟩ := heard_to_check hw b3 b4 hx (by omega)
  obtain ⟨s4, o4, g4, d1, d2, d3⟩ := step_effect hw c3 (op := .t35) (by simp) (by simp)
  have hm := d2.msg i c4.cur.1 c4.cur.2.1 (by rw [c4.st_eq]; decide)
  have d4 : P4 cfg i r 0 (feAfter (flagOf fe) x.ops) (flagOf ce) (0 + x.ticks) x.frame s4 :=
    ⟨c4.toPS.effect d2 (by decide) (by simp), by rw [d2.t15', if_neg (by simp)]; exact c4.t15_eq, by rw [d2.timer, c4.timer_eq]; simp,
      by rw [hm]; exact c4.len, by rw [hm]; exact c4.bytes⟩
  obtain ⟨s5, t5, g5, e1, e2, e3, e4⟩ := phase4 hw d3 d4 w5 (fun op ho => .inl (h5 op ho))
    (by rw [mBytes_quiet fun op ho => (h5 op ho).1, List.append_nil]; exact hx.le)
  rw [mBytes_quiet fun op ho => (h5 op ho).1, List.append_nil] at e4
  obtain ⟨s6, g6, f1, f2, f3⟩ := phase45 hw e3 e4 hx.some hsl
  have hh : Hung s6 := by
    rcases f3 with ⟨-, q⟩ | ⟨-, q⟩ <;> exact ⟨q.st_eq, q.t35_eq⟩
  obtain ⟨s7, t7, g7, j1, j2, j3, j4⟩ := run_silent hw Hung (· ≠ .t35) (fun s g op hi hp ho hc => hung_step hw hi hp ho hc) cont hcont hno f2 hh
  refine ⟨s7, [sent r] ++ t2 ++ t3 ++ [(MOp.t35, o4)] ++ t5 ++ [(MOp.poll, [])] ++ t7, ?_, ?_, j4.st⟩
  · have := run_seq (run_seq (run_seq (run_seq (run_seq (run_seq (run_one hp) b1) c1) (run_one d1)) e1) (run_one f1)) j1
    simpa using this
  · simp only [outs_append, b2, c2, d2.outs, e2, j2]; rfl

/-- **C45, what holds.** With a poll between the two events (`Attempt.Wf`), every response from the requested slave, with whatever
content but a function code mismatch (C43), ends the attempt: good ones are delivered (`transaction_succeeds`), bad ones make the master
repeat the request, or report a communication error when no repetition is left. -/
theorem C45_attempt_ends_partial {cfg : Config} (hw : cfg.MWF) {ops : List MOp} (ho : OpsOk ops) {s0 s s1 : Master} {tr : MTrace}
    (h : masterRun cfg s0 (.init .rtu :: ops) = .ok (s, tr)) {fe ce : Bool} (hs : Standing fe ce s) {r : MReq} (hq : QtyOk r)
    (hp : masterStep cfg s .poll = .ok (s1, [.send (reqFrame r)])) {as : List Attempt} {fe1 ce1 : Bool}
    (hf : Failed cfg.respTimeout r fe ce as fe1 ce1) (hl : as.length ≤ cfg.repeatMax) {a : Attempt} (ha : a.Wf cfg.respTimeout r)
    (hgood : fe1 = false → ce1 = false → ¬ a.broken → CrcCorrect a.resp.frame → GoodResponse r a.resp.frame) :
    ∃ s' tr' o, masterRun cfg s (.poll :: retries as ++ a.init ++ [.poll]) = .ok (s', tr' ++ [(.poll, o)]) ∧
      outs tr' = List.replicate (as.length + 1) (.send (reqFrame r)) ∧
      ((o = (responseEvents r a.resp.frame).map .event ∧ Standing false false s') ∨
       (∃ rep, o = [.event (.commErr rep)] ∧ as.length = cfg.repeatMax ∧ s'.st = .idle) ∨
       (o = [] ∧ as.length < cfg.repeatMax ∧ ∃ s'', masterStep cfg s' .poll = .ok (s'', [.send (reqFrame r)]))) := by
  classical
  by_cases hok : fe1 = false ∧ ce1 = false ∧ ¬ a.broken ∧ CrcCorrect a.resp.frame
  · obtain ⟨rfl, rfl, hb, hc⟩ := hok
    obtain ⟨s', tr', k1, k2, k3⟩ := transaction_succeeds hw ho h hs hq hp hf hl ha hb (hgood rfl rfl hb hc)
    exact ⟨s', tr', _, k1, k2, .inl ⟨rfl, k3⟩⟩
  · have hbad : (fe1 || decide a.broken) = true ∨ (ce1 || decide (¬ CrcCorrect a.resp.frame)) = true := by
      simp only [Bool.or_eq_true, decide_eq_true_eq]
      by_cases e1 : fe1 = true
      · exact .inl (.inl e1)
      by_cases e2 : a.broken
      · exact .inl (.inr e2)
      by_cases e3 : ce1 = true
      · exact .inr (.inl e3)
      right; right
      intro hc
      exact hok ⟨by simpa using e1, by simpa using e3, e2, hc⟩
    by_cases hlast : as.length = cfg.repeatMax
    · obtain ⟨s', tr', rep, k1, k2, -, -, k5⟩ := transaction_fails hw ho h hs hq hp hf hlast ha (fe2 := fe1 || decide a.broken) (by simp)
        (ce2 := ce1 || decide (¬ CrcCorrect a.resp.frame)) (by simp only [Bool.or_eq_true, decide_eq_true_eq]) hbad
      exact ⟨s', tr', _, k1, by rw [k2, hlast], .inr (.inl ⟨rep, rfl, hlast, k5.st⟩)⟩
    · obtain ⟨tr', g, sx, rfl, hi, -⟩ := run_from_init hw ho h
      obtain ⟨i, g1, a1, a2⟩ := start_P1 hw hi hs hp hq
      obtain ⟨s2, t2, g2, b1, b2, b3, b4⟩ := failed_run hw hf a1 a2 (by simpa using hl)
      obtain ⟨s3, t3, g3, c1, c2, c3, c4⟩ := attempt_init hw b3 b4 ha
      have hR := hw.rle
      obtain ⟨fe2, ce2, hP, he⟩ : ∃ fe2 ce2, P6 i r (0 + BitVec.ofNat 8 as.length) fe2 ce2 a.resp.frame s3 ∧ (fe2 = .set ∨ ce2 = .set) := by
        rcases c4 with ⟨hc, c4⟩ | ⟨hc, c4⟩
        · refine ⟨_, _, c4, ?_⟩
          rw [attempt_flags, flagOf_set, flagOf_set]
          refine Classical.byContradiction fun hcon => ?_
          apply hok
          refine ⟨by simpa using fun e => hcon (.inl (.inr e)), by simpa using fun e => hcon (.inr e), fun e => hcon (.inl (.inl e)), hc⟩
        · exact ⟨_, _, c4, .inr rfl⟩
      obtain ⟨s4, g4, m1, m2, m3⟩ := final_repeat hw c3 hP he (by simp; omega)
      simp only [masterRun] at m1
      obtain ⟨⟨sa, oa⟩, n1, m1⟩ := bind_ok m1
      obtain ⟨⟨sb, ob⟩, n2, m1⟩ := bind_ok m1
      obtain ⟨⟨sc, oc⟩, n3, n2⟩ := bind_ok n2
      simp only [pure_eq, ok_bind, Except.ok.injEq, Prod.mk.injEq] at n2 m1
      obtain ⟨rfl, rfl⟩ := n2
      obtain ⟨rfl, e⟩ := m1
      simp only [List.cons.injEq, Prod.mk.injEq, true_and, and_true] at e
      obtain ⟨rfl, rfl⟩ := e
      refine ⟨sa, [sent r] ++ t2 ++ t3, [], ?_, ?_, .inr (.inr ⟨rfl, by omega, _, n3⟩)⟩
      · have := run_seq (run_seq (run_seq (run_one hp) b1) c1) (run_one n1)
        simpa using this
      · rw [outs_append, outs_append, b2, c2, List.append_nil]
        rfl

end Modbus
