import Verif.Proofs.CallbacksPoll
import Verif.Props.MasterFaults

/-! C80: request calls made from inside the library's callbacks. -/

namespace Modbus

open Spec

theorem countP_events (out : List MOut) : (out.filter (fun x => !isRetOut x)).countP isEventOut = out.countP isEventOut := by
  induction out with
  | nil => rfl
  | cons a l ih =>
    rw [List.filter_cons, List.countP_cons]
    cases a with
    | ret c => rw [if_neg (by simp [isRetOut]), ih]; simp [isEventOut]
    | send b => rw [if_pos (by simp [isRetOut]), List.countP_cons, ih]
    | event e => rw [if_pos (by simp [isRetOut]), List.countP_cons, ih]

theorem mem_zipReq {y : MOp × List MOut} : ∀ {l : List MReq} {l' : List MOut}, y ∈ List.zipWith (fun r x => (MOp.request r, [x])) l l' → ∃ r ∈ l, y.1 = .request r
  | [], _, h => by simp at h
  | _ :: _, [], h => by simp at h
  | a :: l, b :: l', h => by
    rw [List.zipWith_cons_cons, List.mem_cons] at h
    rcases h with rfl | h
    · exact ⟨a, by simp, rfl⟩
    · obtain ⟨r, h1, h2⟩ := mem_zipReq h
      exact ⟨r, by simp [h1], h2⟩

theorem madeIn_calls (sc : List (List MReq)) (out : List MOut) :
    madeIn (calls sc) out = (sc.take ((out.filter (fun x => !isRetOut x)).countP isEventOut)).flatten := by
  rw [countP_events]
  unfold madeIn calls
  rw [← List.map_take]
  generalize sc.take _ = l
  induction l with
  | nil => rfl
  | cons a l ih =>
    rw [List.map_cons, List.flatten_cons, List.filterMap_append, ih, List.flatten_cons]
    congr 1
    rw [List.filterMap_map]
    induction a with
    | nil => rfl
    | cons b a ih => simpa [reqOf] using ih

theorem run_single {cfg : Config} {s s' : Master} {op : MOp} {o : List MOut} (h : masterStep cfg s op = .ok (s', o)) :
    masterRun cfg s [op] = .ok (s', [(op, o)]) := by
  simp only [masterRun, h, ok_bind, pure_eq]

/-- One poll: the same calls before the poll lead to the same state, with the same values returned and the same callbacks. If the poll with calls inside
its callbacks is undefined, so is the poll without them. -/
theorem C80_poll {cfg : Config} (hw : cfg.MWF) {s : Master} {g : Ghost} (h : MInv cfg s g) {sc : List (List MReq)} (hsc : ∀ rs ∈ sc, ∀ r ∈ rs, QtyOk r → DataOk r) :
    (∃ u, masterPoll cfg s = .error u ∧ masterPollCb cfg s (calls sc) = .error u) ∨
    ∃ s' out, masterPollCb cfg s (calls sc) = .ok (s', out) ∧
      (∃ s1, masterPoll cfg s = .ok (s1, out.filter (fun o => !isRetOut o))) ∧
      masterRun cfg s ((asOrdinary (.pollCb (calls sc), out)).map Prod.fst) = .ok (s', asOrdinary (.pollCb (calls sc), out)) ∧
      (cfg.queueItems = 1 → ∀ c, MOut.ret c ∈ out → c = .freeQueueEmpty) := by
  rcases poll_callbacks hw h hsc with ⟨u, h1, h2⟩ | ⟨s1, s2, s', o, out, rets, h1, h2, h3, h4, h5, h6, h7, h8⟩
  · exact .inl ⟨u, h1, h2⟩
  · refine .inr ⟨s', out, h2, ⟨s1, by rw [h6]; exact h1⟩, ?_, ?_⟩
    · have hm : madeIn (calls sc) out = (sc.take (o.countP isEventOut)).flatten := by rw [madeIn_calls, h6]
      have e : asOrdinary (.pollCb (calls sc), out) =
          List.zipWith (fun r x => (MOp.request r, [x])) (sc.take (o.countP isEventOut)).flatten rets ++ [(.poll, o)] := by
        show List.zipWith _ (madeIn (calls sc) out) _ ++ [_] = _
        rw [hm, h5, h6]
      have hf : (List.zipWith (fun r x => (MOp.request r, [x])) (sc.take (o.countP isEventOut)).flatten rets).map Prod.fst =
          ((sc.take (o.countP isEventOut)).flatten).map .request := by
        generalize (sc.take (o.countP isEventOut)).flatten = l at h7 ⊢
        clear h3 h5 h8 e hm
        induction l generalizing rets with
        | nil => simp
        | cons a l ih =>
          cases rets with
          | nil => cases h7
          | cons b rets => simp only [List.zipWith_cons_cons, List.map_cons]; rw [ih rets (by simpa using h7)]
      rw [e, List.map_append, hf]
      exact run_append_ok h3 (run_single (op := .poll) h4)
    · intro hN c hc
      have : MOut.ret c ∈ rets := by rw [← h5]; exact List.mem_filter.2 ⟨hc, rfl⟩
      have := h8 hN _ this
      cases this; rfl

theorem asOrdinary_ok {cfg : Config} {op : MCOp} {o : List MOut} {s s' : Master}
    (h : masterRun cfg s ((asOrdinary (op, o)).map Prod.fst) = .ok (s', asOrdinary (op, o))) (hok : COpsOk [op]) : OpsOk ((asOrdinary (op, o)).map Prod.fst) := by
  intro x hx
  obtain ⟨y, hy, rfl⟩ := List.mem_map.1 hx
  cases op with
  | op p =>
    simp only [asOrdinary, List.mem_singleton] at hy
    subst hy
    exact hok.1 p (by simp)
  | pollCb script =>
    obtain ⟨sc, rfl, hsc⟩ := hok.2 script (by simp)
    simp only [asOrdinary, List.mem_append, List.mem_singleton] at hy
    rcases hy with hy | rfl
    · obtain ⟨r, hr, he⟩ := mem_zipReq hy
      rw [he]
      refine ⟨fun m => nofun, ?_⟩
      intro r' e
      cases e
      rw [madeIn_calls] at hr
      obtain ⟨rs, h1, h2⟩ := List.mem_flatten.1 hr
      exact hsc rs (List.mem_of_mem_take h1) r h2
    · exact ⟨fun m => nofun, fun r e => nomatch e⟩

theorem crun_inv {cfg : Config} (hw : cfg.MWF) {ops : List MCOp} (ho : COpsOk ops) : ∀ {s : Master} {g : Ghost}, MInv cfg s g →
    (∃ (s' : Master) (tr : List (MCOp × List MOut)), masterCRun cfg s ops = .ok (s', tr) ∧ tr.map Prod.fst = ops ∧ masterRun cfg s ((tr.flatMap asOrdinary).map Prod.fst) = .ok (s', tr.flatMap asOrdinary) ∧
      OpsOk ((tr.flatMap asOrdinary).map Prod.fst) ∧ (∃ g', MInv cfg s' g') ∧
      (cfg.queueItems = 1 → ∀ script out c, (MCOp.pollCb script, out) ∈ tr → MOut.ret c ∈ out → c = .freeQueueEmpty)) ∨
    (∃ (u : UB) (pre : List MCOp) (s1 : Master) (tr : List (MCOp × List MOut)), masterCRun cfg s ops = .error u ∧ pre <+: ops ∧ pre = tr.map Prod.fst ∧
      masterRun cfg s ((tr.flatMap asOrdinary).map Prod.fst) = .ok (s1, tr.flatMap asOrdinary) ∧ OpsOk ((tr.flatMap asOrdinary).map Prod.fst) ∧ masterPoll cfg s1 = .error u) := by
  induction ops with
  | nil =>
    intro s g h
    exact .inl ⟨s, [], rfl, rfl, rfl, (fun _ hx => by cases hx), ⟨g, h⟩, (fun _ _ _ _ hx => by cases hx)⟩
  | cons op ops ih =>
    intro s g h
    have ho1 : COpsOk [op] := ⟨fun o hm => ho.1 o (by simp at hm; simp [hm]), fun o hm => ho.2 o (by simp at hm; simp [hm])⟩
    have ho2 : COpsOk ops := ⟨fun o hm => ho.1 o (by simp [hm]), fun o hm => ho.2 o (by simp [hm])⟩
    have step : (∃ u, masterCStep cfg s op = .error u ∧ masterPoll cfg s = .error u) ∨
        ∃ s1 o, masterCStep cfg s op = .ok (s1, o) ∧ masterRun cfg s ((asOrdinary (op, o)).map Prod.fst) = .ok (s1, asOrdinary (op, o)) ∧
          (cfg.queueItems = 1 → ∀ script out c, (MCOp.pollCb script, out) = (op, o) → MOut.ret c ∈ out → c = .freeQueueEmpty) := by
      cases op with
      | op p =>
        have hp := ho1.1 p (by simp)
        rcases masterStep_inv hw h p hp.1 hp.2 with ⟨s', o, g', k1, k2, k3⟩ | ⟨rfl, k1, k2⟩
        · exact .inr ⟨s', o, k1, run_single k1, fun _ _ _ _ e => by cases e⟩
        · exact .inl ⟨_, k1, k1⟩
      | pollCb script =>
        obtain ⟨sc, rfl, hsc⟩ := ho1.2 script (by simp)
        rcases C80_poll hw h hsc with ⟨u, h1, h2⟩ | ⟨s', out, h1, -, h2, h3⟩
        · exact .inl ⟨u, h2, h1⟩
        · exact .inr ⟨s', out, h1, h2, fun hN _ _ c e hc => by cases e; exact h3 hN c hc⟩
    rcases step with ⟨u, h1, h2⟩ | ⟨s1, o, h1, h2, hfull⟩
    · exact .inr ⟨u, [], s, [], by simp only [masterCRun, h1, error_bind], List.nil_prefix, rfl, rfl, (fun _ hx => by cases hx), h2⟩
    · have hok := asOrdinary_ok h2 ho1
      obtain ⟨g1, i1, -⟩ := masterRun_ok hw hok h h2
      have hok2 : ∀ tr : List (MCOp × List MOut), OpsOk ((tr.flatMap asOrdinary).map Prod.fst) → OpsOk ((((op, o) :: tr).flatMap asOrdinary).map Prod.fst) := by
        intro tr ht x hx
        rw [List.flatMap_cons, List.map_append, List.mem_append] at hx
        rcases hx with hx | hx
        · exact hok x hx
        · exact ht x hx
      rcases ih ho2 i1 with ⟨s', tr, j1, j2, j3, j4, j5, j6⟩ | ⟨u, pre, s2, tr, j1, j2, j3, j4, j5, j6⟩
      · refine .inl ⟨s', (op, o) :: tr, by simp only [masterCRun, h1, ok_bind, j1, pure_eq], by rw [List.map_cons, j2], ?_, hok2 tr j4, j5, ?_⟩
        · rw [List.flatMap_cons, List.map_append]
          exact run_append_ok h2 j3
        · intro hN script out c hm hc
          rcases List.mem_cons.1 hm with e | hm
          · exact hfull hN script out c e hc
          · exact j6 hN script out c hm hc
      · refine .inr ⟨u, op :: pre, s2, (op, o) :: tr, by simp only [masterCRun, h1, ok_bind, j1, error_bind], ?_, by rw [List.map_cons, j3], ?_, hok2 tr j5, j6⟩
        · obtain ⟨t, rfl⟩ := j2; exact ⟨t, rfl⟩
        · rw [List.flatMap_cons, List.map_append]
          exact run_append_ok h2 j4

/-- **C80.** Whatever request calls the application makes inside its callbacks, in whatever polls: the history is as good as the ordinary history in which each
poll's calls are made, in the same order and with the same values returned, just before the poll. It ends in the same state, and every poll makes the same
callbacks and hands the same frames to the driver. Every theorem about ordinary histories applies to it. -/
theorem C80_callback_requests {cfg : Config} (hw : cfg.MWF) {ops : List MCOp} (ho : COpsOk ops) {s0 s : Master} {tr : List (MCOp × List MOut)}
    (h : masterCRun cfg s0 (.op (.init .rtu) :: ops) = .ok (s, tr)) :
    masterRun cfg s0 ((tr.flatMap asOrdinary).map Prod.fst) = .ok (s, tr.flatMap asOrdinary) ∧
      ∃ rest, tr = (.op (.init .rtu), []) :: rest ∧ rest.map Prod.fst = ops ∧ OpsOk ((rest.flatMap asOrdinary).map Prod.fst) := by
  obtain ⟨s1, h1, h2⟩ := masterInit_inv hw s0
  have hst : masterStep cfg s0 (.init .rtu) = .ok (s1, []) := by simp only [masterStep, h1, ok_bind, pure_eq]
  simp only [masterCRun, masterCStep, hst, ok_bind] at h
  rcases crun_inv hw ho h2 with ⟨s', rest, j1, j2, j3, j4, j5, -⟩ | ⟨u, pre, s2, rest, j1, -⟩
  · rw [j1] at h
    simp only [ok_bind, pure_eq, Except.ok.injEq, Prod.mk.injEq] at h
    obtain ⟨rfl, rfl⟩ := h
    refine ⟨?_, rest, rfl, j2, j4⟩
    rw [List.flatMap_cons, List.map_append]
    exact run_append_ok (run_single hst) j3
  · rw [j1] at h; cases h

/-- C34, C35, C44 with request calls inside callbacks: the outputs of the history are those of its transactions, one after the other, in order of acceptance,
wherever the requests were made. -/
theorem C80_transactions {cfg : Config} (hw : cfg.MWF) {ops : List MCOp} (ho : COpsOk ops) {s0 s : Master} {tr : List (MCOp × List MOut)}
    (h : masterCRun cfg s0 (.op (.init .rtu) :: ops) = .ok (s, tr)) :
    ∃ done cur queued, Transactions cfg.repeatMax (tr.flatMap asOrdinary) done cur queued ∧ (s.st = .idle ↔ cur = none) ∧
      s.freeQ.items.toNat + outstanding cur queued + refused (tr.flatMap asOrdinary) = cfg.queueItems := by
  obtain ⟨h1, rest, rfl, -, h2⟩ := C80_callback_requests hw ho h
  obtain ⟨done, cur, queued, a, b, -, c, -⟩ := master_transactions hw h2 (show masterRun cfg s0 (.init .rtu :: _) = _ from h1)
  exact ⟨done, cur, queued, a, b, c⟩

/-- Inside a callback the transaction that is ending still holds its message buffer: with a single buffer no request can ever be made from a callback. -/
theorem C80_single_slot {cfg : Config} (hw : cfg.MWF) (hN : cfg.queueItems = 1) {ops : List MCOp} (ho : COpsOk ops) {s0 s : Master} {tr : List (MCOp × List MOut)}
    (h : masterCRun cfg s0 (.op (.init .rtu) :: ops) = .ok (s, tr)) {script : List (List AppCall)} {out : List MOut} {c : ReqRet}
    (hm : (MCOp.pollCb script, out) ∈ tr) (hc : MOut.ret c ∈ out) : c = .freeQueueEmpty := by
  obtain ⟨s1, h1, h2⟩ := masterInit_inv hw s0
  have hst : masterStep cfg s0 (.init .rtu) = .ok (s1, []) := by simp only [masterStep, h1, ok_bind, pure_eq]
  simp only [masterCRun, masterCStep, hst, ok_bind] at h
  rcases crun_inv hw ho h2 with ⟨s', rest, j1, j2, j3, j4, j5, j6⟩ | ⟨u, pre, s2, rest, j1, -⟩
  · rw [j1] at h
    simp only [ok_bind, pure_eq, Except.ok.injEq, Prod.mk.injEq] at h
    obtain ⟨rfl, rfl⟩ := h
    rcases List.mem_cons.1 hm with e | hm
    · cases e
    · exact j6 hN script out c hm hc
  · rw [j1] at h; cases h

/-- The requests an application makes, between polls or inside callbacks. -/
def RequestedIn (ops : List MCOp) (r : MReq) : Prop :=
  MCOp.op (.request r) ∈ ops ∨ ∃ script, MCOp.pollCb script ∈ ops ∧ ∃ cs ∈ script, AppCall.request r ∈ cs

theorem requested_of_ordinary {r : MReq} : ∀ {tr : List (MCOp × List MOut)}, MOp.request r ∈ (tr.flatMap asOrdinary).map Prod.fst → RequestedIn (tr.map Prod.fst) r := by
  intro tr hm
  obtain ⟨y, hy, he⟩ := List.mem_map.1 hm
  obtain ⟨⟨op, o⟩, hx, hy⟩ := List.mem_flatMap.1 hy
  have hop : op ∈ tr.map Prod.fst := List.mem_map.2 ⟨_, hx, rfl⟩
  cases op with
  | op p =>
    simp only [asOrdinary, List.mem_singleton] at hy
    subst hy
    have he' : p = MOp.request r := he
    subst he'
    exact .inl hop
  | pollCb script =>
    right
    refine ⟨script, hop, ?_⟩
    simp only [asOrdinary, List.mem_append, List.mem_singleton] at hy
    rcases hy with hy | rfl
    · obtain ⟨r', hr, he'⟩ := mem_zipReq hy
      rw [he'] at he
      cases he
      unfold madeIn at hr
      obtain ⟨a, ha, hra⟩ := List.mem_filterMap.1 hr
      obtain ⟨cs, hcs, hac⟩ := List.mem_flatten.1 ha
      cases a with
      | poll => cases hra
      | request q => cases hra; exact ⟨cs, List.mem_of_mem_take hcs, hac⟩
    · cases he

/-- C43 with request calls inside callbacks: with bit reads limited to 126 bits nothing the application requests from inside its callbacks leads to undefined
behaviour, whatever is received. -/
theorem C80_no_undefined_behaviour {cfg : Config} (hw : cfg.MWF) {ops : List MCOp} (ho : COpsOk ops) (s0 : Master)
    (hbits : ∀ r, RequestedIn ops r → IsBitRead r → (reqField r).toNat ≤ 126) :
    ∃ s tr, masterCRun cfg s0 (.op (.init .rtu) :: ops) = .ok (s, tr) := by
  obtain ⟨s1, h1, h2⟩ := masterInit_inv hw s0
  have hst : masterStep cfg s0 (.init .rtu) = .ok (s1, []) := by simp only [masterStep, h1, ok_bind, pure_eq]
  rcases crun_inv hw ho h2 with ⟨s', rest, j1, -⟩ | ⟨u, pre, s2, rest, j1, j2, j3, j4, j5, j6⟩
  · exact ⟨s', (.op (.init .rtu), []) :: rest, by simp only [masterCRun, masterCStep, hst, ok_bind, j1, pure_eq]⟩
  · exfalso
    have hok : OpsOk ((rest.flatMap asOrdinary).map Prod.fst ++ [.poll]) := by
      intro x hx
      rcases List.mem_append.1 hx with hx | hx
      · exact j5 x hx
      · simp only [List.mem_singleton] at hx; subst hx; exact ⟨fun m => nofun, fun r e => nomatch e⟩
    obtain ⟨s3, tr3, k⟩ := C43_defined_partial hw hok s0 (by
      intro r hr
      refine hbits r ?_
      rcases List.mem_append.1 hr with hr | hr
      · have := requested_of_ordinary hr
        rw [← j3] at this
        obtain ⟨t, rfl⟩ := j2
        rcases this with h | ⟨script, h, h'⟩
        · exact .inl (by simp [h])
        · exact .inr ⟨script, by simp [h], h'⟩
      · simp at hr)
    rw [show (MOp.init .rtu :: ((rest.flatMap asOrdinary).map Prod.fst ++ [.poll])) = (MOp.init .rtu :: (rest.flatMap asOrdinary).map Prod.fst) ++ [.poll] from rfl,
      masterRun_append] at k
    have : masterRun cfg s0 (.init .rtu :: (rest.flatMap asOrdinary).map Prod.fst) = .ok (s2, (.init .rtu, []) :: rest.flatMap asOrdinary) :=
      run_append_ok (run_single hst) j4
    rw [this] at k
    simp only [ok_bind, masterRun, masterStep, j6, error_bind] at k
    cases k

/-! ### What must not be called from a callback -/

/-- **`update_modbus_master_manager` must not be called from a callback.** In every reachable state in which the next poll reports a timeout while another request is
queued: if the timeout callback calls it twice, the timeout is reported twice and the queued request `r` is put on the line, but then the transaction of `r` is
closed as if it were the one that timed out: the library is idle, `r` is in no queue, and its message buffer, into which the answer will still be received, is free. Once
the queue is empty, polls and ticks produce nothing: the outcome of `r` is never reported. -/
theorem C80_nested_poll_forgets {cfg : Config} (hw : cfg.MWF) {ops : List MOp} (ho : OpsOk ops) {s0 s s1 : Master} {tr : MTrace} {rep : ErrReport}
    (h : masterRun cfg s0 (.init .rtu :: ops) = .ok (s, tr)) (hp : masterPoll cfg s = .ok (s1, [.event (.timeoutErr rep)])) (hq : s.txQ.available = true) :
    ∃ r s' i, r ∈ accepted tr ∧
      masterPollCb cfg s [[.poll, .poll]] = .ok (s', [.event (.timeoutErr rep), .event (.timeoutErr rep), .send (reqFrame r)]) ∧
      s'.st = .idle ∧ s'.rxTarget = some i ∧ (∃ free, s'.freeQ.Rep cfg.queueItems free ∧ i ∈ free) ∧
      (∃ waiting, s.txQ.Rep cfg.queueItems (i :: waiting) ∧ s'.txQ.Rep cfg.queueItems waiting ∧
        (waiting = [] → ∀ l : List MOp, (∀ o ∈ l, o = .poll ∨ o = .tick) → ∃ s2 t2, masterRun cfg s' l = .ok (s2, t2) ∧ outs t2 = [])) := by
  obtain ⟨tr', g, s0', rfl, hi, hg, -⟩ := run_from_init hw ho h
  obtain ⟨hv, hacc, done, d1, d2, d3, d4⟩ := hg.transactions (Ghost.fresh_valid cfg)
  have hev : MOut.event (.timeoutErr rep) ∈ [MOut.event (.timeoutErr rep)] := by simp
  -- the poll is in the timeout branch
  have hwait : s.st = .waiting ∧ s.t15 ≠ .set ∧ s.timer = 1 ∧ ∃ i0 r0 c0, g.cur = some (i0, r0, c0) := by
    rcases poll_event_cases hw hi hp hev with ⟨q1, q2, q3, i0, r0, c0, hc, -⟩ | ⟨q1, i0, r0, c0, er, hc, -, -, he⟩ | ⟨q1, -, -, -, i0, r0, c0, evs, hc, hev', he⟩
    · exact ⟨q1, q2, q3, i0, r0, c0, hc⟩
    · simp at he
    · exfalso
      have hcur := hi.cur
      rw [hc] at hcur
      have hmem : MEvent.timeoutErr rep ∈ evs := by
        have : MOut.event (.timeoutErr rep) ∈ evs.map MOut.event := by rw [← he]; simp
        obtain ⟨e, h1, h2⟩ := List.mem_map.1 this
        cases h2; exact h1
      have := respEvents_noerr hcur.2.2.1 hcur.2.2.2.1 hev' _ hmem
      simp [isErrorReport] at this
  obtain ⟨w1, w2, w3, i0, r0, c0, hc⟩ := hwait
  -- the poll spelled out
  have hpw : masterPoll cfg s = (do let e ← masterTimeoutReport s; let s ← masterProcessEnd cfg s; return (s, [.event e])) := by
    unfold masterPoll; rw [w1]; simp only; unfold masterWaiting; rw [if_neg w2, if_pos w3]
  rw [hpw] at hp
  obtain ⟨e, hrep, hp⟩ := bind_ok hp
  obtain ⟨s1', hend, hp⟩ := bind_ok hp
  simp only [pure_eq, Except.ok.injEq, Prod.mk.injEq, List.cons.injEq, and_true] at hp
  obtain ⟨rfl, he⟩ := hp
  have he' : e = .timeoutErr rep := by cases he; rfl
  subst he'
  obtain ⟨s1x, hend', i1, -⟩ := processEnd_inv hw hi hc rfl rfl rfl rfl rfl rfl hi.flags
  rw [hend] at hend'
  cases hend'
  -- the second nested poll starts the queued request
  have hpend : ∃ r rest, g.pend = r :: rest := by
    cases hpe : g.pend with
    | cons r rest => exact ⟨r, rest, rfl⟩
    | nil =>
      exfalso
      have hl := hi.pend.length
      rw [hpe] at hl
      have hnil : g.tl = [] := List.length_eq_zero_iff.1 hl
      have ht := hi.tx
      rw [hnil] at ht
      have hn := ht.available
      rw [hq] at hn
      simp at hn
  obtain ⟨r, rest, hr⟩ := hpend
  have hidle : s1'.st = .idle := processEnd_st hend
  obtain ⟨s2, o2, g2, k1, k2, k3⟩ := poll_idle hw i1 hidle
  obtain ⟨s2x, j, k1x, k4, k5, k6, k7, -⟩ := poll_idle_send hw i1 hidle (r := r) (rest := rest) hr
  rw [k1] at k1x
  cases k1x
  have hg2 : ∃ j' tl, g.tl = j' :: tl ∧ g2 = { fl := g.fl ++ [i0], tl := tl, lost := g.lost, pend := rest, cur := some (j', r, 1) } := by
    generalize ho2 : [MOut.send (reqFrame r)] = o2 at k3
    generalize hop : MOp.poll = op at k3
    cases k3 with
    | start r1 j1 tl1 rest1 a b c =>
      have : (r1 :: rest1) = (r :: rest) := by rw [← c, ← hr]
      cases this
      exact ⟨j1, tl1, b, rfl⟩
    | again _ _ _ a => cases a
    | finish _ _ _ _ a => cases a
    | silent => cases ho2
    | accept => cases hop
    | full => cases hop
    | refuse => cases hop
  obtain ⟨j', tl, htl, rfl⟩ := hg2
  have hcur2 := k2.cur
  have hj : j' = j := by
    have := hcur2.1
    rw [k6] at this
    cases this; rfl
  subst hj
  -- the outer call then ends "its" transaction
  obtain ⟨s', hend2, i2, -⟩ := processEnd_inv hw k2 rfl rfl rfl rfl rfl rfl rfl k2.flags
  refine ⟨r, s', j', ?_, ?_, processEnd_st hend2, ?_, ⟨_, i2.free, by simp⟩, tl, by rw [← htl]; exact hi.tx, i2.tx, ?_⟩
  · have : r ∈ done.map Tx.req ++ (g.tx.map Prod.fst).toList ++ g.pend := by simp [hr]
    rw [← d2] at this
    have := (by simpa [Ghost.fresh, Ghost.tx] using this : r ∈ accepted tr')
    simpa [accepted] using this
  · have hn1 : masterPoll cfg s = .ok (s1', [.event (.timeoutErr rep)]) := by rw [hpw, hrep, ok_bind, hend]; rfl
    unfold masterPollCb
    rw [w1]
    simp only
    unfold masterWaitingCb
    rw [if_neg w2, if_pos w3]
    unfold masterTimeoutCb callback
    simp only [hrep, ok_bind, List.headD_cons, appCalls, hn1, k1, pure_eq, processEndCb, hend2]
    rfl
  · have := hend2
    unfold masterProcessEnd at this
    obtain ⟨⟨fq, mb⟩, -, this⟩ := bind_ok this
    simp only [pure_eq, Except.ok.injEq] at this
    rw [← this]
    exact k7
  · rintro rfl l
    have hrest : rest = [] := by
      have hl := i2.pend.length
      exact List.length_eq_zero_iff.1 hl.symm
    have key : ∀ (l : List MOp) (s : Master) (g : Ghost), MInv cfg s g → s.st = .idle → g.pend = [] → (∀ o ∈ l, o = .poll ∨ o = .tick) →
        ∃ s2 t2, masterRun cfg s l = .ok (s2, t2) ∧ outs t2 = [] := by
      intro l
      induction l with
      | nil => intro s g _ _ _ _; exact ⟨s, [], rfl, rfl⟩
      | cons o l ih =>
        intro s g hi hs hp hl
        rcases hl o (by simp) with rfl | rfl
        · have hn := poll_idle_nop hi hs hp
          obtain ⟨s2, t2, e1, e2⟩ := ih s g hi hs hp (fun o ho => hl o (by simp [ho]))
          refine ⟨s2, (.poll, []) :: t2, by simp only [masterRun, masterStep, hn, ok_bind, e1, pure_eq], ?_⟩
          rw [outs_cons]; simpa using e2
        · have hst : masterStep cfg s .tick = .ok (if s.timer ≠ 0 then { s with timer := s.timer - 1 } else s, []) := rfl
          have hi' : MInv cfg (if s.timer ≠ 0 then { s with timer := s.timer - 1 } else s) g := by
            split
            · exact ⟨hi.drv, hi.data, hi.free, hi.tx, hi.perm, hi.pend, hi.cur.keep rfl rfl (SameReq.rfl' _) rfl rfl, hi.flags⟩
            · exact hi
          have hs' : (if s.timer ≠ 0 then { s with timer := s.timer - 1 } else s).st = .idle := by split <;> exact hs
          obtain ⟨s2, t2, e1, e2⟩ := ih _ g hi' hs' hp (fun o ho => hl o (by simp [ho]))
          refine ⟨s2, (.tick, []) :: t2, by simp only [masterRun, hst, ok_bind, e1, pure_eq], ?_⟩
          rw [outs_cons]; simpa using e2
    exact key l s' _ i2 (processEnd_st hend2) hrest

/-! ### Non-vacuity -/

/-- Two registers are read; inside the first callback the application requests a write, inside the second it makes an invalid call and one more request than there are
buffers. -/
def callbackOps : List MCOp :=
  [.op (.request (.readHoldingReg 7 2 9)), .op .poll, .op .txDone, .op .poll] ++
  (rtuFrame 9 [3, 4, 0x12, 0x34, 0x56, 0x78]).map (fun b => .op (.rxByte b)) ++
  [.op .t15, .pollCb [], .op .t35,
   .pollCb [[.request (.writeSingleReg 2 1 5)], [.request (.readCoils 0 0 1), .request (.readCoils 0 8 1)]], .op .poll]

/-- The outputs of a run of this kind, poll by poll. -/
def cOutsOf (r : C (Master × List (MCOp × List MOut))) : Option (List (List MOut)) :=
  match r with
  | .ok (_, tr) => some ((tr.map Prod.snd).filter (· ≠ []))
  | .error _ => none

theorem callback_demo : COpsOk callbackOps ∧
    cOutsOf (masterCRun smallCfg Master.powerOn (.op (.init .rtu) :: callbackOps)) =
      some [[.ret .sendToQueue], [.send (rtuFrame 9 [3, 0, 7, 0, 2])],
        [.event (.hregRead 9 7 0x1234), .ret .sendToQueue, .event (.hregRead 9 8 0x5678), .ret .freeQueueEmpty, .ret .freeQueueEmpty],
        [.send (rtuFrame 1 [6, 0, 2, 0, 5])]] := by
  refine ⟨⟨?_, ?_⟩, by decide +kernel⟩
  · intro o ho
    simp only [callbackOps, List.mem_append, List.mem_map, List.mem_cons, List.not_mem_nil, or_false, MCOp.op.injEq, reduceCtorEq, false_or] at ho
    rcases ho with (h | ⟨b, -, h⟩) | h
    · rcases h with rfl | rfl | rfl | rfl
      · exact ⟨fun m => nofun, fun r e hq => by cases e; trivial⟩
      all_goals exact ⟨fun m => nofun, fun r e => nomatch e⟩
    · subst h; exact ⟨fun m => nofun, fun r e => nomatch e⟩
    · rcases h with rfl | rfl | rfl <;> exact ⟨fun m => nofun, fun r e => nomatch e⟩
  · intro script hs
    simp only [callbackOps, List.mem_append, List.mem_map, List.mem_cons, List.not_mem_nil, or_false, MCOp.pollCb.injEq, reduceCtorEq, false_or, and_false, exists_false] at hs
    rcases hs with rfl | rfl
    · exact ⟨[], rfl, fun _ h => nomatch h⟩
    · refine ⟨[[.writeSingleReg 2 1 5], [.readCoils 0 0 1, .readCoils 0 8 1]], rfl, ?_⟩
      intro rs hrs r hr _
      simp only [List.mem_cons, List.not_mem_nil, or_false] at hrs
      rcases hrs with rfl | rfl
      · simp only [List.mem_cons, List.not_mem_nil, or_false] at hr; subst hr; trivial
      · simp only [List.mem_cons, List.not_mem_nil, or_false] at hr
        rcases hr with rfl | rfl <;> trivial

/-- The hypotheses of `C80_nested_poll_forgets` are met: two requests, no answer to the first. -/
example : cOutsOf (masterCRun smallCfg Master.powerOn ([.op (.init .rtu), .op (.request (.readCoils 0 8 1)), .op (.request (.writeSingleReg 2 1 5)),
      .op .poll, .op .txDone, .op .poll, .op .tick, .op .tick, .pollCb [[.poll, .poll]], .op .txDone, .op .poll, .op .tick, .op .tick, .op .tick, .op .poll])) =
    some [[.ret .sendToQueue], [.ret .sendToQueue], [.send (rtuFrame 1 [1, 0, 0, 0, 8])],
      [.event (.timeoutErr { slave := 1, fc := 0, adr := 0, qty := 8, err := .timeout }), .event (.timeoutErr { slave := 1, fc := 0, adr := 0, qty := 8, err := .timeout }),
       .send (rtuFrame 1 [6, 0, 2, 0, 5])]] := by decide +kernel

end Modbus
