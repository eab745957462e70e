import Verif.Proofs.QueueStepsUnint

/-! C88: a poll working on a message. -/

namespace Modbus

open Spec

section rest
variable {i : Nat} {E : QProg}

theorem rest_assign {g : Master → Master} {k : QProg} (h : ∀ t q, g (merge i t q) = merge i (g t) q) (h1 : ∀ t, (g t).msgBuf = t.msgBuf) (h2 : ∀ t, (g t).dataSet = t.dataSet)
    (hk : RestTo i E k) : RestTo i E (qassign g k) := by
  refine .step (fun t q hb hd hq => ⟨by rw [h]; rfl, fun a t' o e => ?_⟩) fun _ => hk
  simp only [Except.ok.injEq, Prod.mk.injEq] at e
  rw [← e.2.1, h1, h2]
  exact ⟨hb, hd⟩

theorem rest_assignC {g : Master → C Master} {k : QProg}
    (h : ∀ t q, t.msgBuf = some i → t.dataSet = true → q.dataSet = true → ∃ t', g t = .ok t' ∧ g (merge i t q) = .ok (merge i t' q) ∧ t'.msgBuf = t.msgBuf ∧ t'.dataSet = t.dataSet)
    (hk : RestTo i E k) : RestTo i E (qassignC g k) := by
  refine .step (fun t q hb hd hq => ?_) fun _ => hk
  obtain ⟨t', h1, h2, h3, h4⟩ := h t q hb hd hq
  refine ⟨by simp only [h1, h2]; rfl, fun a t'' o e => ?_⟩
  simp only [h1, okBind, pureOk, Except.ok.injEq, Prod.mk.injEq] at e
  rw [← e.2.1, h3, h4]
  exact ⟨hb, hd⟩

theorem rest_test {c : Master → Bool} {p r : QProg} (h : ∀ t q, c (merge i t q) = c t) (hp : RestTo i E p) (hr : RestTo i E r) : RestTo i E (qtest c p r) := by
  refine .step (fun t q hb hd hq => ⟨by rw [h]; rfl, fun a t' o e => ?_⟩) fun a => ?_
  · simp only [Except.ok.injEq, Prod.mk.injEq] at e
    rw [← e.2.1]
    exact ⟨hb, hd⟩
  · cases a
    · rw [if_neg (by simp)]; exact hr
    · rw [if_pos rfl]; exact hp

theorem merge_msg (i : Nat) (t q : Master) : (merge i t q).msgs i = t.msgs i := by simp [merge, qview]

theorem rest_curMsg {α : Type} {b : Bool} {f : MMsg → C (α × List MOut)} {k : α → QProg} (hk : ∀ a, RestTo i E (k a)) :
    RestTo i E (qstep b (fun s => do let m ← curMsg s; let x ← f m; return (x.1, s, x.2)) k) := by
  refine .step (fun t q hb hd hq => ?_) hk
  have h1 : curMsg t = .ok (t.msgs i) := by simp only [curMsg, hb, hd, if_true]
  have h2 : curMsg (merge i t q) = .ok (t.msgs i) := by
    have e1 : (merge i t q).msgBuf = some i := hb
    have e2 : (merge i t q).dataSet = true := hq
    simp only [curMsg, e1, e2, if_true, merge_msg]
  simp only [h1, h2, okBind]
  cases f (t.msgs i) with
  | error u => exact ⟨rfl, fun a t' o e => by cases e⟩
  | ok z =>
    refine ⟨rfl, fun a t' o e => ?_⟩
    simp only [okBind, pureOk, Except.ok.injEq, Prod.mk.injEq] at e
    rw [← e.2.1]
    exact ⟨hb, hd⟩

theorem rest_read {α : Type} {b : Bool} {f : MMsg → C α} {k : α → QProg} (hk : ∀ a, RestTo i E (k a)) :
    RestTo i E (qstep b (fun s => do let m ← curMsg s; let x ← f m; return (x, s, [])) k) := by
  have := rest_curMsg (i := i) (E := E) (b := b) (f := fun m => do let x ← f m; return (x, [])) hk
  have e : (fun s : Master => (do let m ← curMsg s; let x ← f m; return (x, s, []) : C (α × Master × List MOut))) =
      fun s => do let m ← curMsg s; let x ← (do let x ← f m; return (x, [])); return (x.1, s, x.2) := by
    funext s
    cases curMsg s with
    | error u => rfl
    | ok m => simp only [okBind]; cases f m <;> rfl
  rw [e]
  exact this

theorem rest_report {o : List MOut} {k : QProg} (hk : RestTo i E k) : RestTo i E (qstep false (fun s => .ok ((), s, o)) fun _ => k) := by
  refine .step (fun t q hb hd hq => ⟨rfl, fun a t' o e => ?_⟩) fun _ => hk
  simp only [Except.ok.injEq, Prod.mk.injEq] at e
  rw [← e.2.1]
  exact ⟨hb, hd⟩

theorem rest_clear {k : QProg} (hk : RestTo i E k) : RestTo i E (qassignC clearRespLen k) := by
  refine rest_assignC (fun t q hb hd hq => ?_) hk
  have h2 : (merge i t q).msgBuf = some i := hb
  refine ⟨{ t with msgs := setMsg t.msgs i { t.msgs i with respLen := 0 } }, by simp only [clearRespLen, hb], ?_, rfl, rfl⟩
  simp only [clearRespLen, h2, merge_msg]
  simp only [merge, qview, Except.ok.injEq, Master.mk.injEq, true_and, and_true]
  refine ⟨?_, hb.symm ▸ rfl⟩
  funext j
  by_cases hj : j = i
  · subst hj; simp [setMsg]
  · simp [setMsg, hj]

theorem rest_sendQ : RestTo i E masterSendQ := by
  unfold masterSendQ
  refine .step (fun t q hb hd hq => ?_) fun _ => ?_
  · have e1 : (merge i t q).msgBuf = some i := hb
    have e2 : (merge i t q).dataSet = true := hq
    have e3 : (merge i t q).drv = t.drv := rfl
    have e : masterDrvSend (merge i t q) = masterDrvSend t := by
      simp only [masterDrvSend, e1, e2, e3, hb, hd, merge_msg]
    rw [e]
    cases masterDrvSend t with
    | error u => exact ⟨rfl, fun a t' o e => by cases e⟩
    | ok o =>
      refine ⟨rfl, fun a t' o e => ?_⟩
      simp only [okBind, pureOk, Except.ok.injEq, Prod.mk.injEq] at e
      rw [← e.2.1]; exact ⟨hb, hd⟩
  · refine .step (fun t q hb hd hq => ?_) fun _ => ?_
    · have e1 : (merge i t q).msgBuf = some i := hb
      have e3 : (merge i t q).drv = t.drv := rfl
      simp only [masterEnableRx, e1, e3, hb]
      split
      · exact ⟨rfl, fun a t' o e => by cases e⟩
      · refine ⟨?_, fun a t' o e => ?_⟩
        · simp only [okBind, pureOk]
          cases t; simp only at hb; subst hb; rfl
        · simp only [okBind, pureOk, Except.ok.injEq, Prod.mk.injEq] at e
          rw [← e.2.1]; exact ⟨rfl, hd⟩
    · exact rest_assign (fun _ _ => rfl) (fun _ => rfl) (fun _ => rfl) (rest_assign (fun _ _ => rfl) (fun _ => rfl) (fun _ => rfl) .done)

theorem rest_endQ (cfg : Config) : RestTo i (pushFreeQ cfg.queueItems endP) (masterProcessEndQ cfg) :=
  rest_assign (fun _ _ => rfl) (fun _ => rfl) (fun _ => rfl) .stop

theorem rest_timeoutQ (cfg : Config) : RestTo i (pushFreeQ cfg.queueItems endP) (masterTimeoutQ cfg) :=
  rest_read fun _ => rest_read fun _ => rest_read fun _ => rest_read fun _ => rest_report (rest_endQ cfg)

theorem rest_recvQ : RestTo i E masterRecvQ := by
  refine rest_read fun _ => rest_assign (fun _ _ => rfl) (fun _ => rfl) (fun _ => rfl) (rest_assign (fun _ _ => rfl) (fun _ => rfl) (fun _ => rfl) (rest_read fun r => ?_))
  split
  · exact rest_assign (fun _ _ => rfl) (fun _ => rfl) (fun _ => rfl) (rest_assign (fun _ _ => rfl) (fun _ => rfl) (fun _ => rfl)
      (rest_assign (fun _ _ => rfl) (fun _ => rfl) (fun _ => rfl) .done))
  · split
    · exact rest_clear .done
    · exact rest_assign (fun _ _ => rfl) (fun _ => rfl) (fun _ => rfl) (rest_assign (fun _ _ => rfl) (fun _ => rfl) (fun _ => rfl) .done)

theorem rest_waitingQ (cfg : Config) : RestTo i (pushFreeQ cfg.queueItems endP) (masterWaitingQ cfg) :=
  rest_test (fun _ _ => rfl) rest_recvQ (rest_test (fun _ _ => rfl) (rest_timeoutQ cfg) .done)

theorem rest_transmittingQ (cfg : Config) : RestTo i E (masterTransmittingQ cfg) :=
  rest_test (fun _ _ => rfl) (rest_clear (rest_assign (fun _ _ => rfl) (fun _ => rfl) (fun _ => rfl) (rest_assign (fun _ _ => rfl) (fun _ => rfl) (fun _ => rfl) .done))) .done

theorem rest_correctQ (cfg : Config) : RestTo i (pushFreeQ cfg.queueItems endP) (masterCorrectQ cfg) := by
  refine .step (fun t q hb hd hq => ?_) fun _ => rest_endQ cfg
  have e1 : (merge i t q).msgBuf = some i := hb
  have e2 : (merge i t q).dataSet = true := hq
  simp only [e1, e2, hb, hd, merge_msg]
  cases readSlaveResp true (t.msgs i) with
  | error u => exact ⟨rfl, fun a t' o e => by cases e⟩
  | ok z =>
    refine ⟨rfl, fun a t' o e => ?_⟩
    simp only [okBind, pureOk, Except.ok.injEq, Prod.mk.injEq] at e
    rw [← e.2.1]; exact ⟨hb, hd⟩

theorem rest_commQ (cfg : Config) (e : RespErr) : RestTo i (pushFreeQ cfg.queueItems endP) (masterCommQ cfg e) :=
  rest_read fun _ => rest_read fun _ => rest_report (rest_endQ cfg)

theorem rest_crcQ (cfg : Config) : RestTo i (pushFreeQ cfg.queueItems endP) (masterCrcErrorQ cfg) :=
  rest_assign (fun _ _ => rfl) (fun _ => rfl) (fun _ => rfl) (rest_test (fun _ _ => rfl)
    (rest_assign (fun _ _ => rfl) (fun _ => rfl) (fun _ => rfl) (rest_assign (fun _ _ => rfl) (fun _ => rfl) (fun _ => rfl) (rest_clear .done))) (rest_commQ cfg .crc))

theorem rest_frameQ (cfg : Config) : RestTo i (pushFreeQ cfg.queueItems endP) (masterFrameErrorQ cfg) :=
  rest_assign (fun _ _ => rfl) (fun _ => rfl) (fun _ => rfl) (rest_test (fun _ _ => rfl)
    (rest_assign (fun _ _ => rfl) (fun _ => rfl) (fun _ => rfl) (rest_assign (fun _ _ => rfl) (fun _ => rfl) (fun _ => rfl) (rest_clear .done))) (rest_commQ cfg .frame))

theorem rest_received3Q (cfg : Config) : RestTo i (pushFreeQ cfg.queueItems endP) (masterReceived3Q cfg) :=
  rest_test (fun _ _ => rfl) (rest_test (fun _ _ => rfl) (rest_test (fun _ _ => rfl) (rest_correctQ cfg) .done) .done) .done

theorem rest_receivedQ (cfg : Config) : RestTo i (pushFreeQ cfg.queueItems endP) (masterReceivedQ cfg) := by
  have h2 : RestTo i (pushFreeQ cfg.queueItems endP) (qtest (fun s => s.crcf = .set) (qtest (fun s => s.t35 = .set) (masterCrcErrorQ cfg) (masterReceived3Q cfg)) (masterReceived3Q cfg)) :=
    rest_test (fun _ _ => rfl) (rest_test (fun _ _ => rfl) (rest_crcQ cfg) (rest_received3Q cfg)) (rest_received3Q cfg)
  exact rest_test (fun _ _ => rfl) (rest_test (fun _ _ => rfl) (rest_frameQ cfg) h2) h2

end rest

/-- What a poll with requests amounts to: some of the requests, the poll of the base model, the other requests. -/
def PollAs (cfg : Config) (x : QMaster) (ints : List (List MReq)) : Prop :=
  (∃ u, masterPoll cfg x.lib = .error u ∧ runProg (reqInt cfg) (masterPollQ cfg) ints x = .error u) ∨
  ∃ pre post x1 s2 o x3, ints.flatten = pre ++ post ∧ runInts (reqInt cfg) x pre = .ok x1 ∧ masterPoll cfg x1.lib = .ok (s2, o) ∧
    runInts (reqInt cfg) { lib := s2, rets := x1.rets } post = .ok x3 ∧ runProg (reqInt cfg) (masterPollQ cfg) ints x = .ok (x3, o)

theorem withRets_inv {rs : List ReqRet} {r : C (Master × List MOut)} {x : QMaster} {o : List MOut} (h : withRets rs r = .ok (x, o)) : r = .ok (x.lib, o) ∧ x.rets = rs := by
  cases r with
  | error u => cases h
  | ok z => cases h; exact ⟨rfl, rfl⟩

theorem withRets_inv_err {rs : List ReqRet} {r : C (Master × List MOut)} {u : UB} (h : withRets rs r = .error u) : r = .error u := by
  cases r with
  | error v => cases h; rfl
  | ok z => cases h

/-- A poll working on a message. -/
theorem poll_cur {cfg : Config} (hw : cfg.MWF) {i : Nat} {x : QMaster} (hx : HasCur cfg i x.lib) {ints : List (List MReq)} (hl : ReqsOk ints.flatten)
    (hg : ∀ g ∈ ints, g.length ≤ 1) (hr : noRace (reqInt cfg) (masterPollQ cfg) ints x) : PollAs cfg x ints := by
  have hst : x.lib.msgBuf = some i ∧ x.lib.st ≠ .idle := by
    obtain ⟨g, r, c, h, hc⟩ := hx
    have := h.cur
    rw [hc] at this
    obtain ⟨h1, -, -, -, -, -, h2 | h2⟩ := this
    · exact ⟨h1, by rw [h2.1]; simp⟩
    · rcases h2.1 with h3 | h3 | h3 <;> exact ⟨h1, by rw [h3]; simp⟩
  -- the first step reads the state
  have hp : RestTo i (pushFreeQ cfg.queueItems endP) (match x.lib.st with
      | .idle => masterIdleQ cfg
      | .repeatRequest => masterSendQ
      | .transmitting => masterTransmittingQ cfg
      | .waiting => masterWaitingQ cfg
      | .received => masterReceivedQ cfg) := by
    cases hs : x.lib.st with
    | idle => exact absurd hs hst.2
    | repeatRequest => exact rest_sendQ
    | transmitting => exact rest_transmittingQ cfg
    | waiting => exact rest_waitingQ cfg
    | received => exact rest_receivedQ cfg
  generalize hprog : (match x.lib.st with
      | .idle => masterIdleQ cfg
      | .repeatRequest => masterSendQ
      | .transmitting => masterTransmittingQ cfg
      | .waiting => masterWaitingQ cfg
      | .received => masterReceivedQ cfg) = prog at hp
  have hpoll : ∀ (y : QMaster) (is : List (List MReq)) (y1 : QMaster), y1.lib.st = x.lib.st → runInts (reqInt cfg) y (is.headD []) = .ok y1 →
      runProg (reqInt cfg) (masterPollQ cfg) is y = runProg (reqInt cfg) prog is.tail y1 ∧
      (noRace (reqInt cfg) (masterPollQ cfg) is y → noRace (reqInt cfg) prog is.tail y1) := by
    intro y is y1 hy h1
    unfold masterPollQ
    rw [q_quiet (a := x.lib.st) (s := y1.lib) h1 (by rw [hy])]
    refine ⟨by rw [← hprog]; cases x.lib.st <;> rfl, fun h => ?_⟩
    have := (q_race (a := x.lib.st) (s := y1.lib) (o := []) h1 (by rw [hy]) h).2
    rw [← hprog]; revert this; cases x.lib.st <;> exact fun h => h
  -- the base poll after some requests
  have hbase : ∀ (y : QMaster), HasCur cfg i y.lib → KeptBy i x.lib y.lib → ∀ r, runProg (reqInt cfg) prog [] { lib := merge i x.lib y.lib, rets := y.rets } = r →
      withRets y.rets (masterPoll cfg y.lib) = r := by
    intro y hy hk r hr
    rw [merge_kept hk hy.data hx.data] at hr
    rw [← hr, ← unint_pollQ, (hpoll { lib := y.lib, rets := y.rets } [] y (by rw [hk.1]) rfl).1]
    rfl
  have e0 := flatten_headD ints
  rw [e0] at hl
  obtain ⟨y0, a1, a2, -⟩ := ints_merge hw x.lib hl.left hx
  have hk0 := ints_kept hw hl.left hx a1
  obtain ⟨hrun, hrace⟩ := hpoll x ints y0 (by rw [hk0.1]) a1
  have hy0 : y0 = { lib := merge i x.lib y0.lib, rets := y0.rets } := by rw [merge_kept hk0 a2.data hx.data]
  have hr1 := hrace hr
  rw [hy0] at hrun hr1
  rcases rest_end hw hp x.lib hst.1 hx.data with ⟨u, hu⟩ | ⟨T, o, hT, hdone⟩ | ⟨T, o, hT, hTb, hstop⟩
  · refine .inl ⟨u, ?_, ?_⟩
    · have := hbase x hx (KeptBy.rfl' i _) _ (hu x [] hx (by simp [ReqsOk]))
      exact withRets_inv_err this
    · rw [hrun]; exact hu y0 _ a2 hl.right
  · obtain ⟨x', k1, k2, k3⟩ := hdone y0 ints.tail a2 hl.right
    have hall : runInts (reqInt cfg) x ints.flatten = .ok x' := by rw [e0]; exact ints_app _ a1 k1
    have hk := ints_kept hw (by rw [e0]; exact hl) hx hall
    obtain ⟨x'', j1, j2, j3⟩ := hdone x' [] k2 (by simp [ReqsOk])
    cases j1
    have := hbase x' k2 hk _ j3
    refine .inr ⟨ints.flatten, [], x', merge i T x'.lib, o, { lib := merge i T x'.lib, rets := x'.rets }, by simp, hall, (withRets_inv this).1, rfl, ?_⟩
    rw [hrun]; exact k3
  · -- the message goes back to the queue of free messages
    have hS : ∀ q, HasCur cfg i q → KeptBy i x.lib q → masterPoll cfg q = .ok (pushEnd cfg i T q, o) := by
      intro q hq hk
      obtain ⟨n, x', j1, j2, j3, -⟩ := hstop { lib := q, rets := [] } [] hq (by simp [ReqsOk])
      simp only [List.take_nil, List.flatten_nil, runInts, Except.ok.injEq] at j1
      subst j1
      rw [List.drop_nil, push_nil hTb hq] at j3
      have := hbase { lib := q, rets := [] } hq hk _ j3
      have h2 := (withRets_inv this).1
      rw [h2]; simp
    have hS2 : ∀ q, HasCur cfg i q → KeptBy i x.lib q → Inv cfg (pushEnd cfg i T q) := by
      intro q hq hk
      obtain ⟨g, r, c, h, hc⟩ := hq
      rcases masterStep_inv hw h .poll (by simp) (by simp) with ⟨s', o', g', l1, l2, -⟩ | ⟨-, l1, -⟩
      · have l3 : masterPoll cfg q = .ok (s', o') := l1
        rw [hS q ⟨g, r, c, h, hc⟩ hk] at l3
        cases l3
        exact ⟨g', l2⟩
      · have l3 : masterPoll cfg q = .error .oobRead := l1
        rw [hS q ⟨g, r, c, h, hc⟩ hk] at l3
        cases l3
    obtain ⟨n, y1, b1, b2, b3, b4⟩ := hstop y0 ints.tail a2 hl.right
    have hsplit : ints.tail.flatten = (ints.tail.take n).flatten ++ (ints.tail.drop n).flatten := by rw [← List.flatten_append, List.take_append_drop]
    have hl2 := hl.right
    rw [hsplit] at hl2
    have hk1 : KeptBy i x.lib y1.lib := hk0.trans (ints_kept hw hl2.left a2 b1)
    obtain ⟨pre, post, z1, z2, c1, c2, c3, c4, c5⟩ := push_lin_kept hw hTb (x0 := x.lib) hS2 b2 hk1 hl2.right
      (fun g hgm => hg g (List.mem_of_mem_tail (List.mem_of_mem_drop hgm))) (b4 hr1)
    have hkz : KeptBy i x.lib z1.lib := hk1.trans (ints_kept hw (by rw [c1] at hl2; exact hl2.right.left) b2 c2)
    refine .inr ⟨ints.headD [] ++ ((ints.tail.take n).flatten ++ pre), post, z1, _, o, z2, ?_, ints_app _ a1 (ints_app _ b1 c2), hS z1.lib c3 hkz, c4, ?_⟩
    · rw [e0, hsplit, c1]; simp only [List.append_assoc]
    · rw [hrun, b3, c5]
      simp only [okBind, pureOk, List.append_nil]

end Modbus
