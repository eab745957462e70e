import Verif.Proofs.QueueStepsIdle
import Verif.Spec.QueueSteps
import Verif.Props.Callbacks

/-! C88: requests made by interrupt handlers (or tasks of a higher priority) while `update_modbus_master_manager` runs. -/

namespace Modbus

open Spec

theorem go_lin {cfg : Config} (hw : cfg.MWF) {i : Nat} {x : QMaster} (hx : FrontIs cfg i x.lib) {ints : List (List MReq)} (hl : ReqsOk ints.flatten)
    (hr : noRace (reqInt cfg) (popTxQ cfg.queueItems fun z => qassign (fun s => { s with msgBuf := z }) masterSendQ) ints x) :
    ∃ pre post x1 s2 o x3, ints.flatten = pre ++ post ∧ runInts (reqInt cfg) x pre = .ok x1 ∧ masterPoll cfg x1.lib = .ok (s2, o) ∧
      runInts (reqInt cfg) { lib := s2, rets := x1.rets } post = .ok x3 ∧
      runProg (reqInt cfg) (popTxQ cfg.queueItems fun z => qassign (fun s => { s with msgBuf := z }) masterSendQ) ints x = .ok (x3, o) := by
  unfold popTxQ at hr ⊢
  have e0 := flatten_headD ints
  rw [e0] at hl
  obtain ⟨y0, a1, a2, -⟩ := ints_front hw x.lib (PushOk.id _) hl.left hx
  have fin : ∀ l : List MReq, ∀ is y, ints.flatten = l ++ is.flatten → runInts (reqInt cfg) x l = .ok y → FrontIs cfg i y.lib → ReqsOk is.flatten →
      noRace (reqInt cfg) (popTakeQ cfg.queueItems fun z => qassign (fun s => { s with msgBuf := z }) masterSendQ) is y →
      ∃ pre post x1 s2 o x3, ints.flatten = pre ++ post ∧ runInts (reqInt cfg) x pre = .ok x1 ∧ masterPoll cfg x1.lib = .ok (s2, o) ∧
        runInts (reqInt cfg) { lib := s2, rets := x1.rets } post = .ok x3 ∧
        runProg (reqInt cfg) (popTakeQ cfg.queueItems fun z => qassign (fun s => { s with msgBuf := z }) masterSendQ) is y = .ok (x3, o) := by
    intro l is y h1 h2 h3 h4 h5
    obtain ⟨pre, post, x1, s2, o, x3, k1, k2, k3, k4, k5⟩ := take_lin hw h3 h4 h5
    exact ⟨l ++ pre, post, x1, s2, o, x3, by rw [h1, k1, List.append_assoc], ints_app _ h2 k2, k3, k4, k5⟩
  by_cases h : y0.lib.txQ.head = y0.lib.txQ.tail
  · have hr := q_test_race (b := true) a1 (decide_ht h) hr
    rw [q_test (b := true) a1 (decide_ht h)]
    rw [if_pos rfl] at hr ⊢
    have e1 := flatten_headD ints.tail
    have hl1 := hl.right
    rw [e1] at hl1
    obtain ⟨y1, b1, b2, -⟩ := ints_front hw y0.lib (PushOk.id _) hl1.left a2
    obtain ⟨-, -, t3, -⟩ := front_poll hw b2
    have hr := q_test_race (b := false) b1 (decide_hf t3) hr
    rw [q_test (b := false) b1 (decide_hf t3)]
    rw [if_neg (by simp)] at hr ⊢
    exact fin (ints.headD [] ++ ints.tail.headD []) _ _ (by rw [e0, e1, List.append_assoc]) (ints_app _ a1 b1) b2 hl1.right hr
  · have hr := q_test_race (b := false) a1 (decide_hf h) hr
    rw [q_test (b := false) a1 (decide_hf h)]
    rw [if_neg (by simp)] at hr ⊢
    exact fin _ _ _ e0 a1 a2 hl.right hr

/-- With no message in transaction. -/
theorem poll_nocur {cfg : Config} (hw : cfg.MWF) {x : QMaster} (hx : NoCur cfg x.lib) {ints : List (List MReq)} (hl : ReqsOk ints.flatten)
    (hr : noRace (reqInt cfg) (masterPollQ cfg) ints x) : PollAs cfg x ints := by
  right
  have hidle : ∀ q, NoCur cfg q → q.st = .idle := by
    rintro q ⟨g, h, hc⟩
    have := h.cur
    rw [hc] at this
    exact this.1
  have hne : ∀ q, NoCur cfg q → (q.txQ.head ≠ q.txQ.tail ∨ 0 < q.txQ.items.toNat) → ∃ i, FrontIs cfg i q := by
    rintro q ⟨g, h, hc⟩ hq
    cases htl : g.tl with
    | cons i l => exact ⟨i, g, l, h, hc, htl⟩
    | nil =>
      have htx := h.tx
      rw [htl] at htx
      rcases hq with hq | hq
      · exact absurd (htx.head_tail.2 (.inl rfl)) hq
      · rw [htx.items_eq] at hq; simp at hq
  unfold masterPollQ at hr ⊢
  have e0 := flatten_headD ints
  rw [e0] at hl
  obtain ⟨y0, a1, a2⟩ := ints_nocur hw hl.left hx
  have f0 : (fun s : Master => (.ok (s.st, s, []) : C (MasterSt × Master × List MOut))) y0.lib = .ok (.idle, y0.lib, []) := by
    dsimp only; rw [hidle _ a2]
  have hr := (q_race a1 f0 hr).2
  rw [q_quiet a1 f0]
  simp only at hr ⊢
  have fin : ∀ l : List MReq, ∀ is y, ints.flatten = l ++ is.flatten → runInts (reqInt cfg) x l = .ok y → (∃ i, FrontIs cfg i y.lib) → ReqsOk is.flatten →
      noRace (reqInt cfg) (popTxQ cfg.queueItems fun z => qassign (fun s => { s with msgBuf := z }) masterSendQ) is y →
      ∃ pre post x1 s2 o x3, ints.flatten = pre ++ post ∧ runInts (reqInt cfg) x pre = .ok x1 ∧ masterPoll cfg x1.lib = .ok (s2, o) ∧
        runInts (reqInt cfg) { lib := s2, rets := x1.rets } post = .ok x3 ∧
        runProg (reqInt cfg) (popTxQ cfg.queueItems fun z => qassign (fun s => { s with msgBuf := z }) masterSendQ) is y = .ok (x3, o) := by
    intro l is y h1 h2 h3 h4 h5
    obtain ⟨i, h3⟩ := h3
    obtain ⟨pre, post, x1, s2, o, x3, k1, k2, k3, k4, k5⟩ := go_lin hw h3 h4 h5
    exact ⟨l ++ pre, post, x1, s2, o, x3, by rw [h1, k1, List.append_assoc], ints_app _ h2 k2, k3, k4, k5⟩
  unfold masterIdleQ at hr ⊢
  have e1 := flatten_headD ints.tail
  have hl1 := hl.right
  rw [e1] at hl1
  obtain ⟨y1, b1, b2⟩ := ints_nocur hw hl1.left a2
  by_cases h : y1.lib.txQ.head = y1.lib.txQ.tail
  · have ht : decide (y1.lib.txQ.head ≠ y1.lib.txQ.tail) = false := by simpa using h
    have hr := q_test_race (b := false) b1 ht hr
    rw [q_test (b := false) b1 ht]
    rw [if_neg (by simp)] at hr ⊢
    have e2 := flatten_headD ints.tail.tail
    have hl2 := hl1.right
    rw [e2] at hl2
    obtain ⟨y2, c1, c2⟩ := ints_nocur hw hl2.left b2
    by_cases h2 : 0 < y2.lib.txQ.items.toNat
    · have hr := q_test_race (b := true) c1 (decide_ht h2) hr
      rw [q_test (b := true) c1 (decide_ht h2)]
      rw [if_pos rfl] at hr ⊢
      exact fin (ints.headD [] ++ (ints.tail.headD [] ++ ints.tail.tail.headD [])) _ _ (by rw [e0, e1, e2]; simp only [List.append_assoc]) (ints_app _ a1 (ints_app _ b1 c1))
        (hne _ c2 (.inr h2)) hl2.right hr
    · rw [q_test (b := false) c1 (decide_hf h2), if_neg (by simp)]
      obtain ⟨y3, d1, d2⟩ := ints_nocur hw hl2.right c2
      refine ⟨ints.headD [] ++ (ints.tail.headD [] ++ ints.tail.tail.headD []), ints.tail.tail.tail.flatten, y2, y2.lib, [], y3,
        by rw [e0, e1, e2]; simp only [List.append_assoc], ints_app _ a1 (ints_app _ b1 c1), ?_, d1, ?_⟩
      · obtain ⟨g, hg, hc⟩ := c2
        have ha : y2.lib.txQ.available = false := by
          have h3 := hg.tx.available
          have h4 := hg.tx.items_eq
          rw [h3]
          cases htl : g.tl with
          | nil => rfl
          | cons a l => rw [htl] at h4; simp at h4; omega
        simp only [masterPoll, hidle _ ⟨g, hg, hc⟩, masterIdle, ha]
        rfl
      · simp only [runProg, d1, okBind, pureOk]
  · have ht : decide (y1.lib.txQ.head ≠ y1.lib.txQ.tail) = true := by simpa using h
    have hr := q_test_race (b := true) b1 ht hr
    rw [q_test (b := true) b1 ht]
    rw [if_pos rfl] at hr ⊢
    exact fin (ints.headD [] ++ ints.tail.headD []) _ _ (by rw [e0, e1, List.append_assoc]) (ints_app _ a1 b1) (hne _ b2 (.inl h)) hl1.right hr

/-- **C88**, one poll. Requests made by interrupt handlers during a poll, at most one between two steps of the poll and none inside the update of a counter: the
poll behaves as if some of them had been made before it and the others after it, in the same order and with the same return values. -/
theorem C88_poll_partial {cfg : Config} (hw : cfg.MWF) {s : Master} {g : Ghost} (h : MInv cfg s g) {ints : List (List MReq)}
    (hl : ∀ r ∈ ints.flatten, QtyOk r → DataOk r) (hg : ∀ l ∈ ints, l.length ≤ 1) (hr : noRace (reqInt cfg) (masterPollQ cfg) ints { lib := s, rets := [] }) :
    (∃ u, masterPoll cfg s = .error u ∧ masterQStep cfg s (.pollReq ints) = .error u) ∨
    ∃ pre post cs ds s' out, ints.flatten = pre ++ post ∧ cs.length = pre.length ∧ ds.length = post.length ∧
      masterQStep cfg s (.pollReq ints) = .ok (s', out ++ (cs ++ ds).map .ret) ∧
      masterRun cfg s (pre.map .request ++ .poll :: post.map .request) = .ok (s', asked pre cs ++ (.poll, out) :: asked post ds) := by
  have hx : PollAs cfg { lib := s, rets := [] } ints := by
    cases hc : g.cur with
    | none => exact poll_nocur hw (x := { lib := s, rets := [] }) ⟨g, h, hc⟩ hl hr
    | some z =>
      obtain ⟨i, r, c⟩ := z
      exact poll_cur hw (i := i) (x := { lib := s, rets := [] }) ⟨g, r, c, h, hc⟩ hl hg hr
  rcases hx with ⟨u, h1, h2⟩ | ⟨pre, post, x1, s2, o, x3, k1, k2, k3, k4, k5⟩
  · exact .inl ⟨u, h1, by simp only [masterQStep, h2]; rfl⟩
  · have hl' : ReqsOk (pre ++ post) := by rw [← k1]; exact hl
    obtain ⟨y1, g1, cs, a1, a2, -, a4, a5, a6⟩ := ints_base hw hl'.left (x := { lib := s, rets := [] }) h
    rw [k2] at a1
    cases a1
    rcases masterStep_inv hw a2 .poll (by simp) (by simp) with ⟨s', o', g', l1, l2, -⟩ | ⟨-, l1, -⟩
    · have l3 : masterPoll cfg x1.lib = .ok (s', o') := l1
      rw [k3] at l3
      cases l3
      obtain ⟨y3, g3, ds, b1, b2, -, b4, b5, b6⟩ := ints_base hw hl'.right (x := { lib := s2, rets := x1.rets }) l2
      rw [k4] at b1
      cases b1
      refine .inr ⟨pre, post, cs, ds, x3.lib, o, k1, a5, b5, ?_, ?_⟩
      · simp only [masterQStep, k5, okBind, pureOk]
        rw [b4, a4]
        simp
      · exact run_append_ok a6 (by
          have h7 : masterRun cfg x1.lib [.poll] = .ok (s2, [(.poll, o)]) := run_single l1
          exact run_append_ok h7 b6)
    · have l3 : masterPoll cfg x1.lib = .error .oobRead := l1
      rw [k3] at l3
      cases l3

theorem asked_fst : ∀ {rs : List MReq} {cs : List ReqRet}, cs.length = rs.length → (asked rs cs).map Prod.fst = rs.map .request
  | [], [], _ => rfl
  | r :: rs, c :: cs, h => by
    show MOp.request r :: (asked rs cs).map Prod.fst = _
    rw [asked_fst (by simpa using h)]
    rfl
  | [], c :: cs, h => by simp at h
  | r :: rs, [], h => by simp at h

theorem qrun_inv {cfg : Config} (hw : cfg.MWF) : ∀ {ops : List MQOp}, QOpsOk ops → ∀ {s : Master} {g : Ghost}, MInv cfg s g → WellTimed cfg s ops →
    (∃ s' tr a, masterQRun cfg s ops = .ok (s', tr) ∧ tr.map Prod.fst = ops ∧ InOrder tr a ∧ masterRun cfg s (a.map Prod.fst) = .ok (s', a) ∧ OpsOk (a.map Prod.fst)) ∨
    (∃ u ops' tr a s1, masterQRun cfg s ops = .error u ∧ ops' <+: ops ∧ tr.map Prod.fst = ops' ∧ InOrder tr a ∧ masterRun cfg s (a.map Prod.fst) = .ok (s1, a) ∧
      OpsOk (a.map Prod.fst) ∧ masterPoll cfg s1 = .error u)
  | [], _, s, g, h, _ => .inl ⟨s, [], [], rfl, rfl, .nil, rfl, fun _ hx => by cases hx⟩
  | op :: ops, ho, s, g, h, ht => by
    have ho2 : QOpsOk ops := ⟨fun o hm => ho.1 o (by simp [hm]), fun o hm => ho.2 o (by simp [hm])⟩
    -- one operation
    have step : (∃ u, masterQStep cfg s op = .error u ∧ masterPoll cfg s = .error u) ∨
        ∃ s1 out b, masterQStep cfg s op = .ok (s1, out) ∧ masterRun cfg s (b.map Prod.fst) = .ok (s1, b) ∧ OpsOk (b.map Prod.fst) ∧
          (∀ t a, InOrder t a → InOrder ((op, out) :: t) (b ++ a)) ∧ WellTimed cfg s1 ops := by
      cases op with
      | op p =>
        have hp := ho.1 p (by simp)
        rcases masterStep_inv hw h p hp.1 hp.2 with ⟨s', o, g', k1, k2, k3⟩ | ⟨rfl, k1, k2⟩
        · refine .inr ⟨s', o, [(p, o)], k1, run_single k1, ?_, fun t a => .op, ht s' o k1⟩
          intro x hx
          simp only [List.map_cons, List.map_nil, List.mem_singleton] at hx
          subst hx; exact hp
        · exact .inl ⟨_, k1, k1⟩
      | pollReq ints =>
        obtain ⟨t1, t2, t3⟩ := ht
        have hints := ho.2 ints (by simp)
        rcases C88_poll_partial hw h hints t1 t2 with ⟨u, h1, h2⟩ | ⟨pre, post, cs, ds, s', out, k1, k2, k3, k4, k5⟩
        · exact .inl ⟨u, h2, h1⟩
        · refine .inr ⟨s', _, asked pre cs ++ (.poll, out) :: asked post ds, k4, ?_, ?_, ?_, t3 _ _ k4⟩
          · rw [List.map_append, List.map_cons, asked_fst k2, asked_fst k3]; exact k5
          · rw [List.map_append, List.map_cons, asked_fst k2, asked_fst k3]
            intro x hx
            have hreq : ∀ r ∈ ints.flatten, (∀ m, MOp.request r ≠ .init m) ∧ ∀ r', MOp.request r = .request r' → QtyOk r' → DataOk r' := by
              intro r hr
              refine ⟨fun m => nofun, fun r' e => ?_⟩
              cases e; exact hints r hr
            rw [k1] at hreq
            simp only [List.mem_append, List.mem_map, List.mem_cons] at hx
            rcases hx with ⟨r, hr, rfl⟩ | rfl | ⟨r, hr, rfl⟩
            · exact hreq r (by simp [hr])
            · exact ⟨fun m => nofun, fun r e => nomatch e⟩
            · exact hreq r (by simp [hr])
          · intro t a hta
            rw [List.append_assoc]
            exact .poll k1 k2 k3 hta
    rcases step with ⟨u, h1, h2⟩ | ⟨s1, out, b, h1, h2, h3, h4, h5⟩
    · exact .inr ⟨u, [], [], [], s, by simp only [masterQRun, h1, error_bind], List.nil_prefix, rfl, .nil, rfl, (fun _ hx => by cases hx), h2⟩
    · obtain ⟨g1, i1, -⟩ := masterRun_ok hw h3 h h2
      have hok : ∀ a : MTrace, OpsOk (a.map Prod.fst) → OpsOk ((b ++ a).map Prod.fst) := by
        intro a ha x hx
        rw [List.map_append, List.mem_append] at hx
        rcases hx with hx | hx
        · exact h3 x hx
        · exact ha x hx
      rcases qrun_inv hw ho2 i1 h5 with ⟨s', tr, a, j1, j2, j3, j4, j5⟩ | ⟨u, ops', tr, a, s2, j1, j2, j3, j4, j5, j6, j7⟩
      · exact .inl ⟨s', (op, out) :: tr, b ++ a, by simp only [masterQRun, h1, ok_bind, j1, pure_eq], by rw [List.map_cons, j2], h4 _ _ j3,
          by rw [List.map_append]; exact run_append_ok h2 j4, hok a j5⟩
      · refine .inr ⟨u, op :: ops', (op, out) :: tr, b ++ a, s2, by simp only [masterQRun, h1, ok_bind, j1, error_bind], ?_, by rw [List.map_cons, j3], h4 _ _ j4,
          by rw [List.map_append]; exact run_append_ok h2 j5, hok a j6, j7⟩
        obtain ⟨t, rfl⟩ := j2; exact ⟨t, rfl⟩

/-- **C88**, what holds. As long as the handlers are well timed: whatever requests they make during whatever polls, the history is as good as an ordinary one in
which those requests are made before or after the polls, in the same order and with the same values returned. It ends in the same state, and every poll makes the
same callbacks and hands the same frames to the driver. Every theorem about ordinary histories applies to it. -/
theorem C88_requests_in_interrupts_partial {cfg : Config} (hw : cfg.MWF) {ops : List MQOp} (ho : QOpsOk ops) {s0 s1 s : Master} {tr : List (MQOp × List MOut)}
    (h1 : masterStep cfg s0 (.init .rtu) = .ok (s1, [])) (ht : WellTimed cfg s1 ops) (h : masterQRun cfg s1 ops = .ok (s, tr)) :
    ∃ a, InOrder tr a ∧ masterRun cfg s0 (.init .rtu :: a.map Prod.fst) = .ok (s, (.init .rtu, []) :: a) ∧ OpsOk (a.map Prod.fst) := by
  obtain ⟨s1', k1, k2⟩ := masterInit_inv hw s0
  have hst : masterStep cfg s0 (.init .rtu) = .ok (s1', []) := by simp only [masterStep, k1, ok_bind, pure_eq]
  rw [h1] at hst
  cases hst
  rcases qrun_inv hw ho k2 ht with ⟨s', tr', a, j1, j2, j3, j4, j5⟩ | ⟨u, ops', tr', a, s2, j1, -⟩
  · rw [h] at j1
    cases j1
    exact ⟨a, j3, by simp only [masterRun, h1, ok_bind, j4, pure_eq], j5⟩
  · rw [h] at j1; cases j1

/-- C34, C35, C44 with requests made by handlers: the outputs of the history are those of its transactions, one after the other, in the order in which the requests
were accepted, wherever they were made; no message is lost and none used twice. -/
theorem C88_transactions_partial {cfg : Config} (hw : cfg.MWF) {ops : List MQOp} (ho : QOpsOk ops) {s0 s1 s : Master} {tr : List (MQOp × List MOut)}
    (h1 : masterStep cfg s0 (.init .rtu) = .ok (s1, [])) (ht : WellTimed cfg s1 ops) (h : masterQRun cfg s1 ops = .ok (s, tr)) :
    ∃ a done cur queued, InOrder tr a ∧ Transactions cfg.repeatMax ((.init .rtu, []) :: a) done cur queued ∧ (s.st = .idle ↔ cur = none) ∧
      s.freeQ.items.toNat + outstanding cur queued + refused ((.init .rtu, []) :: a) = cfg.queueItems := by
  obtain ⟨a, h2, h3, h4⟩ := C88_requests_in_interrupts_partial hw ho h1 ht h
  obtain ⟨done, cur, queued, b1, b2, -, b3, -⟩ := master_transactions hw h4 h3
  exact ⟨a, done, cur, queued, h2, b1, b2, b3⟩

theorem asked_mem : ∀ {rs : List MReq} {cs : List ReqRet} {o : MOp}, o ∈ (asked rs cs).map Prod.fst → ∃ r ∈ rs, o = .request r
  | [], _, o, h => by simp [asked] at h
  | r :: rs, [], o, h => by simp [asked] at h
  | r :: rs, c :: cs, o, h => by
    rw [show asked (r :: rs) (c :: cs) = (MOp.request r, [MOut.ret c]) :: asked rs cs from rfl, List.map_cons, List.mem_cons] at h
    rcases h with rfl | h
    · exact ⟨r, by simp, rfl⟩
    · obtain ⟨r', k1, k2⟩ := asked_mem h
      exact ⟨r', by simp [k1], k2⟩

theorem Spec.InOrder.asked_of {t : List (MQOp × List MOut)} {a : MTrace} (h : InOrder t a) : ∀ {r : MReq}, MOp.request r ∈ a.map Prod.fst → AskedIn (t.map Prod.fst) r := by
  induction h with
  | nil => intro r h; simp at h
  | op _ ih =>
    intro r h
    rw [List.map_cons, List.mem_cons] at h
    rcases h with h | h
    · exact .inl (List.mem_cons.2 (.inl (congrArg MQOp.op h)))
    · rcases ih h with k | ⟨ints, k1, k2⟩
      · exact .inl (by simp only [List.map_cons, List.mem_cons]; exact .inr k)
      · exact .inr ⟨ints, by simp only [List.map_cons, List.mem_cons]; exact .inr k1, k2⟩
  | @poll ints pre post cs ds out t a hf hc hd _ ih =>
    intro r h
    rw [List.map_append, List.mem_append, List.map_cons, List.mem_cons, List.map_append, List.mem_append] at h
    rcases h with h | h | h | h
    · obtain ⟨r', k1, k2⟩ := asked_mem h
      cases k2
      exact .inr ⟨ints, by simp, by rw [hf]; simp [k1]⟩
    · cases h
    · obtain ⟨r', k1, k2⟩ := asked_mem h
      cases k2
      exact .inr ⟨ints, by simp, by rw [hf]; simp [k1]⟩
    · rcases ih h with k | ⟨ints, k1, k2⟩
      · exact .inl (by simp only [List.map_cons, List.mem_cons]; exact .inr k)
      · exact .inr ⟨ints, by simp only [List.map_cons, List.mem_cons]; exact .inr k1, k2⟩

/-- C43 with requests made by handlers: well timed, and with bit reads limited to 126 bits, they never lead to undefined behaviour, whatever is received. -/
theorem C88_defined_partial {cfg : Config} (hw : cfg.MWF) {ops : List MQOp} (ho : QOpsOk ops) {s0 s1 : Master}
    (h1 : masterStep cfg s0 (.init .rtu) = .ok (s1, [])) (ht : WellTimed cfg s1 ops)
    (hbits : ∀ r, AskedIn ops r → IsBitRead r → (reqField r).toNat ≤ 126) : ∃ s tr, masterQRun cfg s1 ops = .ok (s, tr) := by
  obtain ⟨s1', k1, k2⟩ := masterInit_inv hw s0
  have hst : masterStep cfg s0 (.init .rtu) = .ok (s1', []) := by simp only [masterStep, k1, ok_bind, pure_eq]
  rw [h1] at hst
  cases hst
  rcases qrun_inv hw ho k2 ht with ⟨s', tr', a, j1, -⟩ | ⟨u, ops', tr', a, s2, j1, j2, j3, j4, j5, j6, j7⟩
  · exact ⟨s', tr', j1⟩
  · exfalso
    have hok : OpsOk (a.map Prod.fst ++ [.poll]) := by
      intro x hx
      rcases List.mem_append.1 hx with hx | hx
      · exact j6 x hx
      · simp only [List.mem_singleton] at hx; subst hx; exact ⟨fun m => nofun, fun r e => nomatch e⟩
    obtain ⟨s3, tr3, k⟩ := C43_defined_partial hw hok s0 (by
      intro r hr
      refine hbits r ?_
      rcases List.mem_append.1 hr with hr | hr
      · have := j4.asked_of hr
        rw [j3] at this
        obtain ⟨t, rfl⟩ := j2
        rcases this with h | ⟨ints, h, h'⟩
        · exact .inl (by simp [h])
        · exact .inr ⟨ints, by simp [h], h'⟩
      · simp at hr)
    rw [show (MOp.init .rtu :: (a.map Prod.fst ++ [.poll])) = (MOp.init .rtu :: a.map Prod.fst) ++ [.poll] from rfl, masterRun_append] at k
    have e : masterRun cfg s0 (.init .rtu :: a.map Prod.fst) = .ok (s2, (.init .rtu, []) :: a) := by
      simp only [masterRun, h1, ok_bind, j5, pure_eq]
    rw [e, ok_bind] at k
    simp [masterRun, masterStep, j7, error_bind] at k

/-- A poll during which no request arrives is the poll of the base model, in every state: the splitting of the queue functions into single accesses changes nothing
by itself. -/
theorem C88_uninterrupted (cfg : Config) (s : Master) : masterQStep cfg s (.pollReq []) = masterStep cfg s .poll := by
  simp only [masterQStep, unint_pollQ, masterStep]
  cases masterPoll cfg s with
  | error u => rfl
  | ok z =>
    obtain ⟨s', o⟩ := z
    show Except.ok (s', o ++ []) = _
    rw [List.append_nil]

end Modbus
