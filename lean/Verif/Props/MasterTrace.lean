import Verif.Proofs.MasterTrace

/-! C29–C35, C44: what a master puts out, over all executions.

Every theorem is about `masterRun cfg s0 (.init .rtu :: ops)`: any memory contents `s0` before, an RTU initialisation, then any
operations (`OpsOk`: no further initialisation, and arrays handed over for multiple writes are as long as announced). -/

namespace Modbus

open Spec

/-- Only the trace of a run (for the concrete examples). -/
def traceOf (r : C (Master × MTrace)) : Option MTrace :=
  match r with
  | .ok (_, tr) => some tr
  | .error _ => none

theorem traceOf_some {r : C (Master × MTrace)} {tr : MTrace} (h : traceOf r = some tr) : ∃ s, r = .ok (s, tr) := by
  cases r with
  | error e => simp [traceOf] at h
  | ok x => obtain ⟨s, o'⟩ := x; simp [traceOf] at h; exact ⟨s, by rw [h]⟩

theorem masterRun_append {cfg : Config} (ops1 ops2 : List MOp) (s : Master) :
    masterRun cfg s (ops1 ++ ops2) = (do
      let (s1, t1) ← masterRun cfg s ops1
      let (s2, t2) ← masterRun cfg s1 ops2
      return (s2, t1 ++ t2)) := by
  induction ops1 generalizing s with
  | nil =>
    simp only [List.nil_append, masterRun, ok_bind]
    cases masterRun cfg s ops2 <;> rfl
  | cons op ops1 ih =>
    simp only [List.cons_append, masterRun]
    cases masterStep cfg s op with
    | error e => rfl
    | ok x =>
      simp only [ok_bind, ih]
      cases masterRun cfg x.1 ops1 with
      | error e => rfl
      | ok y =>
        simp only [ok_bind, pure_eq]
        cases masterRun cfg y.1 ops2 <;> rfl

theorem masterRun_ops {cfg : Config} {ops : List MOp} {s s' : Master} {tr : MTrace} (h : masterRun cfg s ops = .ok (s', tr)) :
    tr.map Prod.fst = ops := by
  induction ops generalizing s tr with
  | nil => cases h; rfl
  | cons op ops ih =>
    simp only [masterRun] at h
    cases h1 : masterStep cfg s op with
    | error e => rw [h1] at h; cases h
    | ok x =>
      rw [h1, ok_bind] at h
      cases h2 : masterRun cfg x.1 ops with
      | error e => simp only [h2] at h; cases h
      | ok y =>
        simp only [h2, ok_bind] at h
        cases h
        simp [ih h2]

/-- The bookkeeping of a run that starts with an initialisation. -/
theorem run_from_init {cfg : Config} (hw : cfg.MWF) {ops : List MOp} (ho : OpsOk ops) {s0 s : Master} {tr : MTrace}
    (h : masterRun cfg s0 (.init .rtu :: ops) = .ok (s, tr)) :
    ∃ tr' g s1, tr = (.init .rtu, []) :: tr' ∧ MInv cfg s g ∧ GRun cfg (Ghost.fresh cfg) tr' g ∧
      MInv cfg s1 (Ghost.fresh cfg) ∧ masterRun cfg s1 ops = .ok (s, tr') := by
  obtain ⟨s1, h1, h2⟩ := masterInit_inv hw s0
  simp only [masterRun, masterStep, h1, ok_bind, pure_eq] at h
  cases hr : masterRun cfg s1 ops with
  | error e => rw [hr] at h; cases h
  | ok x =>
    obtain ⟨s2, tr'⟩ := x
    rw [hr] at h
    simp only [ok_bind] at h
    cases h
    obtain ⟨g, k1, k2⟩ := masterRun_ok hw ho h2 hr
    exact ⟨tr', g, s1, rfl, k1, k2, h2, hr⟩

/-- Outstanding requests: queued or in flight. -/
def outstanding (cur : Option (MReq × Nat)) (queued : List MReq) : Nat := cur.toList.length + queued.length

/-- **C34, C35, C44 (all at once), C30, C33.** Every execution is a sequence of transactions (see `Transactions`); the state
machine is idle exactly between transactions; and the outcome of the next request call is determined as follows: refused
with "free queue empty" exactly when outstanding requests plus earlier invalid-quantity refusals make up all `N` buffers,
otherwise accepted exactly when its quantity is allowed. -/
theorem master_transactions {cfg : Config} (hw : cfg.MWF) {ops : List MOp} (ho : OpsOk ops) {s0 s : Master} {tr : MTrace}
    (h : masterRun cfg s0 (.init .rtu :: ops) = .ok (s, tr)) :
    ∃ done cur queued, Transactions cfg.repeatMax tr done cur queued ∧ (s.st = .idle ↔ cur = none) ∧
      outstanding cur queued + refused tr ≤ cfg.queueItems ∧
      s.freeQ.items.toNat + outstanding cur queued + refused tr = cfg.queueItems ∧
      ∀ r, (QtyOk r → DataOk r) → ∃ s', masterStep cfg s (.request r) = .ok (s',
        [.ret (if outstanding cur queued + refused tr = cfg.queueItems then .freeQueueEmpty
               else if QtyOk r then .sendToQueue else .pduError)]) := by
  obtain ⟨tr', g, s1, rfl, hi, hg, -⟩ := run_from_init hw ho h
  obtain ⟨hv, hacc, done, d1, d2, d3, d4⟩ := hg.transactions (Ghost.fresh_valid cfg)
  have hlen := hi.lengths
  have hpl := hi.pend.length
  have hout : outstanding g.tx g.pend = g.tl.length + g.curIdx.length := by
    unfold outstanding Ghost.tx Ghost.curIdx
    cases g.cur <;> simp <;> omega
  have hlost : g.lost.length = refused tr' := by rw [d4]; simp [Ghost.fresh]
  have href : refused ((MOp.init .rtu, []) :: tr') = refused tr' := by simp [refused]
  refine ⟨done, g.tx, g.pend, ⟨?_, ?_, d1, ?_, ?_⟩, ?_, ?_, ?_, ?_⟩
  · rw [← d2]; simp [accepted, Ghost.fresh, Ghost.tx]
  · rw [← d3, outs_cons]; simp [Ghost.fresh, Ghost.tx, curOuts]
  · intro r c e
    simp [Ghost.tx] at e
    obtain ⟨i, e⟩ := e
    exact (hv.2 i r c e).2
  · intro r hr; exact hacc r (by simpa [accepted] using hr)
  · rw [hi.idle_iff]; simp [Ghost.tx]
  · rw [hout, href]; omega
  · rw [hout, href, hi.free.items_eq]; omega
  · intro r hd
    obtain ⟨s', o, g', k1, -, k3⟩ := request_inv hw hi r hd
    refine ⟨s', ?_⟩
    rw [k1, hout, href]
    cases k3 with
    | accept _ i fl hf hq =>
      rw [hf] at hlen
      simp at hlen
      rw [if_neg (by omega), if_pos hq]
    | full _ hf =>
      rw [hf] at hlen
      simp at hlen
      rw [if_pos (by omega)]
    | refuse _ i fl hf hq =>
      rw [hf] at hlen
      simp at hlen
      rw [if_neg (by omega), if_neg hq]
    | silent _ hn => exact absurd rfl (hn r)

/-! A concrete execution used below: one request answered, one refused, one repeated after a broken answer. -/

/-- A small configuration: two buffers, timeout of 3 ticks, one repetition. -/
def smallCfg : Config := { Config.default with queueItems := 2, respTimeout := 3, repeatMax := 1 }

theorem smallCfg_wf : smallCfg.MWF := ⟨by decide, by decide, by decide⟩

/-- A driver that transmits, receives `f` and reports the end of the frame, with a poll between the two events. -/
def answerOps (f : List U8) : List MOp :=
  [.poll, .txDone, .poll] ++ f.map .rxByte ++ [.t15, .poll, .t35, .poll]

/-- Request, correct answer; refused request; request, broken answer, repetition without answer until the timeout. -/
def sampleOps : List MOp :=
  .request (.writeSingleReg 2 1 0x1234) :: answerOps (rtuFrame 1 [6, 0, 2, 0x12, 0x34]) ++
  [.request (.readCoils 0 0 1), .request (.readHoldingReg 7 1 9)] ++ answerOps [9, 3, 2, 0, 0, 0, 0] ++
  [.poll, .txDone, .poll, .tick, .poll, .tick, .poll]

theorem sampleOps_ok : OpsOk sampleOps := by
  intro op hop
  refine ⟨?_, ?_⟩
  · rintro m rfl
    revert hop; cases m <;> decide
  · rintro r rfl hq
    simp [sampleOps, answerOps] at hop
    rcases hop with rfl | rfl | rfl <;> simp [DataOk]

theorem sample_run : (traceOf (masterRun smallCfg Master.powerOn (.init .rtu :: sampleOps))).map
      (fun tr => (accepted tr, refused tr, outs tr)) =
    some ([.writeSingleReg 2 1 0x1234, .readHoldingReg 7 1 9], 1,
      [.send (rtuFrame 1 [6, 0, 2, 0x12, 0x34]), .event (.hregWrite 1 2 1),
       .send (rtuFrame 9 [3, 0, 7, 0, 1]), .send (rtuFrame 9 [3, 0, 7, 0, 1]),
       .event (.timeoutErr { slave := 9, fc := 3, adr := 7, qty := 1, err := .timeout })]) := by decide +kernel

/-- **C29.** Whatever happened before: when nothing is queued or in flight and a buffer is free, a request with an allowed
quantity is accepted and the next poll transmits exactly its frame. (For requests that have to queue: C34.) -/
theorem C29_request_frame {cfg : Config} (hw : cfg.MWF) {ops : List MOp} (ho : OpsOk ops) {s0 s : Master} {tr : MTrace}
    (h : masterRun cfg s0 (.init .rtu :: ops) = .ok (s, tr)) (hidle : s.st = .idle) (hq : s.txQ.items = 0)
    (hf : s.freeQ.items ≠ 0) (r : MReq) (hr : QtyOk r) (hd : DataOk r) :
    ∃ s', masterRun cfg s [.request r, .poll] =
      .ok (s', [(.request r, [.ret .sendToQueue]), (.poll, [.send (reqFrame r)])]) := by
  obtain ⟨tr', g, s1, rfl, hi, hg, -⟩ := run_from_init hw ho h
  obtain ⟨s2, o, g2, k1, k2, k3⟩ := request_inv hw hi r (fun _ => hd)
  have htl : g.tl = [] := by
    have := hi.tx.items_eq
    rw [hq] at this
    exact List.length_eq_zero_iff.1 (by simpa using this.symm)
  have hpe : g.pend = [] := by
    have := hi.pend.length
    rw [htl] at this
    exact List.length_eq_zero_iff.1 this.symm
  have hcur := hi.idle_iff.1 hidle
  cases k3 with
  | accept _ i fl hfl hq =>
    have hs2 : s2.st = .idle := by rw [k2.idle_iff]; exact hcur
    obtain ⟨s3, -, j1, -⟩ := poll_idle_send hw k2 hs2 (r := r) (rest := []) (by simp [hpe])
    refine ⟨s3, ?_⟩
    have j2 : masterStep cfg s2 .poll = _ := j1
    simp only [masterRun, k1, ok_bind, j2]
    rfl
  | full _ hfl =>
    exfalso
    apply hf
    have := hi.free.items_eq
    rw [hfl] at this
    exact BitVec.eq_of_toNat_eq (by simpa using this)
  | refuse _ i fl hfl hq => exact absurd hr hq
  | silent _ hn => exact absurd rfl (hn r)

/-- Non-vacuity of C29: after the sample execution the master is idle with a free buffer. -/
example : ((masterRun smallCfg Master.powerOn (.init .rtu :: sampleOps)).toOption.map
    fun x => (x.1.st, x.1.txQ.items, x.1.freeQ.items)) = some (.idle, 0, 1) := by decide +kernel

/-- The frame of a multiple coil write, spelled out. -/
example : reqPdu (.writeMultipleCoils 0x0203 10 17 (some [true, false, true, true, false, false, true, true, true, false])) =
    [0x0F, 0x02, 0x03, 0x00, 0x0A, 0x02, 0xCD, 0x01] := by decide

/-- **C30.** Every request call in every execution returns exactly: "free queue empty", or "accepted" with an allowed
quantity, or "PDU error" with a quantity outside the protocol's limits; and every frame ever transmitted is the frame of an
accepted request (hence never of a refused one). -/
theorem C30_quantity_validation {cfg : Config} (hw : cfg.MWF) {ops : List MOp} (ho : OpsOk ops) {s0 s : Master} {tr : MTrace}
    (h : masterRun cfg s0 (.init .rtu :: ops) = .ok (s, tr)) :
    (∀ r o, (MOp.request r, o) ∈ tr → o = [.ret .freeQueueEmpty] ∨ (o = [.ret .sendToQueue] ∧ QtyOk r) ∨
      (o = [.ret .pduError] ∧ ¬ QtyOk r)) ∧
    (∀ f ∈ sends tr, ∃ r ∈ accepted tr, f = reqFrame r) := by
  have h0 := h
  obtain ⟨done, cur, queued, ht, -⟩ := master_transactions hw ho h0
  obtain ⟨tr', g, s1, rfl, hi, hg, -⟩ := run_from_init hw ho h
  refine ⟨?_, ?_⟩
  · intro r o hm
    simp at hm
    clear ht hi h h0
    revert hg
    generalize Ghost.fresh cfg = g0
    intro hg
    induction hg with
    | nil => simp at hm
    | cons h1 h2 ih =>
      simp at hm
      rcases hm with ⟨rfl, rfl⟩ | hm
      · cases h1 with
        | accept _ i fl hf hq => exact .inr (.inl ⟨rfl, hq⟩)
        | full _ hf => exact .inl rfl
        | refuse _ i fl hf hq => exact .inr (.inr ⟨rfl, hq⟩)
        | silent _ hn => exact absurd rfl (hn r)
      · exact ih hm
  · intro f hf
    have hmem : MOut.send f ∈ outs ((MOp.init .rtu, []) :: tr') := by
      simp only [sends, List.mem_filterMap] at hf
      obtain ⟨x, hx, hx2⟩ := hf
      cases x with
      | send b => simp at hx2; subst hx2; exact List.mem_filter.2 ⟨hx, rfl⟩
      | ret _ => simp at hx2
      | event _ => simp at hx2
    rw [ht.output, List.mem_append, List.mem_flatMap] at hmem
    rw [ht.order]
    rcases hmem with ⟨t, ht1, ht2⟩ | hmem
    · simp only [Tx.outs, List.mem_append, List.mem_replicate, List.mem_map, reduceCtorEq, and_false, exists_false, or_false] at ht2
      refine ⟨t.req, ?_, by simpa using ht2.2⟩
      simp only [List.mem_append, List.mem_map]
      exact .inl (.inl ⟨t, ht1, rfl⟩)
    · cases cur with
      | none => simp [curOuts] at hmem
      | some x =>
        obtain ⟨r, c⟩ := x
        simp [curOuts] at hmem
        exact ⟨r, by simp, hmem.2⟩

/-- **C33.** The exact acceptance rule: see the last clause of `master_transactions`; in particular, in a history without
refused quantities a valid request is accepted while fewer than `N` requests are outstanding, and "free queue empty" is
reported exactly when all `N` are. -/
theorem C33_accepted_while_slots_remain {cfg : Config} (hw : cfg.MWF) {ops : List MOp} (ho : OpsOk ops) {s0 s : Master}
    {tr : MTrace} (h : masterRun cfg s0 (.init .rtu :: ops) = .ok (s, tr)) (hr : refused tr = 0) :
    ∃ done cur queued, Transactions cfg.repeatMax tr done cur queued ∧ (s.st = .idle ↔ cur = none) ∧
      outstanding cur queued ≤ cfg.queueItems ∧
      ∀ r, QtyOk r → DataOk r → ∃ s' o, masterStep cfg s (.request r) = .ok (s', o) ∧
        (o = [.ret .sendToQueue] ↔ outstanding cur queued < cfg.queueItems) ∧
        (o = [.ret .freeQueueEmpty] ↔ outstanding cur queued = cfg.queueItems) := by
  obtain ⟨done, cur, queued, h1, h2, h3, -, h4⟩ := master_transactions hw ho h
  rw [hr] at h3 h4
  refine ⟨done, cur, queued, h1, h2, h3, ?_⟩
  intro r hq hd
  obtain ⟨s', h5⟩ := h4 r (fun _ => hd)
  refine ⟨s', _, h5, ?_⟩
  by_cases e : outstanding cur queued = cfg.queueItems
  · simp [e]
  · have : outstanding cur queued < cfg.queueItems := by omega
    simp [e, hq, this]

/-- **C31 (violated).** Refused requests do consume slots: once there have been as many invalid-quantity calls as there are
buffers, whatever else happens, every later request is rejected with "free queue empty" (until re-initialisation). -/
theorem C31_refused_requests_exhaust_slots_violated {cfg : Config} (hw : cfg.MWF) {ops : List MOp} (ho : OpsOk ops)
    {s0 s : Master} {tr : MTrace} (h : masterRun cfg s0 (.init .rtu :: ops) = .ok (s, tr)) (hr : cfg.queueItems ≤ refused tr)
    (r : MReq) (hd : QtyOk r → DataOk r) : ∃ s', masterStep cfg s (.request r) = .ok (s', [.ret .freeQueueEmpty]) := by
  obtain ⟨done, cur, queued, -, -, h3, -, h4⟩ := master_transactions hw ho h
  obtain ⟨s', h5⟩ := h4 r hd
  rw [if_pos (by omega)] at h5
  exact ⟨s', h5⟩

/-- The same with the configuration shipped in the repository (5 buffers): five calls with quantity 0, and an idle master
accepts nothing any more. -/
theorem C31_default_config_violated :
    (traceOf (masterRun Config.default Master.powerOn (.init .rtu :: List.replicate 5 (.request (.readCoils 0 0 1)) ++
      [.poll, .request (.readCoils 0 1 1), .poll]))).map (fun tr => (refused tr, accepted tr, outs tr, tr.map Prod.snd)) =
    some (5, [], [], [[], [.ret .pduError], [.ret .pduError], [.ret .pduError], [.ret .pduError], [.ret .pduError], [],
      [.ret .freeQueueEmpty], []]) := by decide +kernel

/-- **C31 (what holds).** A call rejected with "free queue empty" changes nothing at all, and a call refused for its quantity
costs exactly one of the buffers: free buffers, outstanding requests and refused calls always add up to `N`. -/
theorem C31_slot_account_partial {cfg : Config} (hw : cfg.MWF) {ops : List MOp} (ho : OpsOk ops) {s0 s : Master} {tr : MTrace}
    (h : masterRun cfg s0 (.init .rtu :: ops) = .ok (s, tr)) (r : MReq) (hd : QtyOk r → DataOk r) :
    ∃ s' o, masterStep cfg s (.request r) = .ok (s', o) ∧
      (o = [.ret .freeQueueEmpty] → s' = s) ∧
      (o = [.ret .pduError] → s'.freeQ.items.toNat + 1 = s.freeQ.items.toNat) := by
  obtain ⟨tr', g, s1, rfl, hi, hg, -⟩ := run_from_init hw ho h
  obtain ⟨s', o, g', k1, k2, k3⟩ := request_inv hw hi r hd
  refine ⟨s', o, k1, ?_, ?_⟩
  · rintro rfl
    cases k3 with
    | full _ hf =>
      have hfree := hi.free
      rw [hf] at hfree
      simp only [masterStep, generateRequest, hfree.pop_nil, ok_bind, pure_eq] at k1
      cases k1; rfl
  · rintro rfl
    cases k3 with
    | refuse _ i fl hf hq =>
      rw [k2.free.items_eq, hi.free.items_eq, hf]; rfl

/-- **C32.** At every point of every execution the message buffers are partitioned: `free` is the content of the free queue,
`waiting` that of the transmit queue, then the buffer of the current transaction, and those lost to refused calls. No buffer
occurs twice, all `N` are accounted for, and every queued buffer holds the frame of its own request. -/
theorem C32_buffers_partitioned {cfg : Config} (hw : cfg.MWF) {ops : List MOp} (ho : OpsOk ops) {s0 s : Master} {tr : MTrace}
    (h : masterRun cfg s0 (.init .rtu :: ops) = .ok (s, tr)) :
    ∃ free waiting lost, s.freeQ.Rep cfg.queueItems free ∧ s.txQ.Rep cfg.queueItems waiting ∧ lost.length = refused tr ∧
      (free ++ waiting ++ (if s.st = .idle then [] else s.msgBuf.toList) ++ lost).Perm (List.range cfg.queueItems) ∧
      (s.st ≠ .idle → ∃ i, s.msgBuf = some i ∧ s.rxTarget = some i) ∧
      ∃ queued, queued <:+ accepted tr ∧ queued.length = waiting.length ∧
        ∀ k (h1 : k < waiting.length) (h2 : k < queued.length), Holds (s.msgs waiting[k]) queued[k] := by
  obtain ⟨tr', g, s1, rfl, hi, hg, -⟩ := run_from_init hw ho h
  obtain ⟨hv, hacc, done, d1, d2, d3, d4⟩ := hg.transactions (Ghost.fresh_valid cfg)
  have hcur := hi.cur
  refine ⟨g.fl, g.tl, g.lost, hi.free, hi.tx, ?_, ?_, ?_, g.pend, ?_, hi.pend.length.symm, ?_⟩
  · rw [d4]; simp [Ghost.fresh, refused]
  · have hp := hi.perm
    have : g.curIdx = (if s.st = .idle then [] else s.msgBuf.toList) := by
      unfold Ghost.curIdx
      cases hc : g.cur with
      | none => rw [if_pos (hi.idle_iff.2 hc)]; rfl
      | some x =>
        obtain ⟨i, r, c⟩ := x
        rw [if_neg (fun e => by rw [hi.idle_iff.1 e] at hc; cases hc)]
        rw [hc] at hcur
        rw [hcur.1]; rfl
    rw [this] at hp
    exact hp
  · intro hn
    cases hc : g.cur with
    | none => exact absurd (hi.idle_iff.2 hc) hn
    | some x =>
      obtain ⟨i, r, c⟩ := x
      rw [hc] at hcur
      exact ⟨i, hcur.1, hcur.2.1⟩
  · have : accepted ((MOp.init .rtu, []) :: tr') = accepted tr' := by simp [accepted]
    rw [this]
    have d2' : accepted tr' = done.map Tx.req ++ (g.tx.map Prod.fst).toList ++ g.pend := by rw [← d2]; simp [Ghost.fresh, Ghost.tx]
    rw [d2']
    exact ⟨done.map Tx.req ++ (g.tx.map Prod.fst).toList, by simp⟩
  · have hpend := hi.pend
    revert hpend
    generalize g.tl = l
    generalize g.pend = p
    intro hpend
    induction l generalizing p with
    | nil => intro k h1; simp at h1
    | cons i l ih =>
      cases p with
      | nil => exact hpend.elim
      | cons r p =>
        intro k h1 h2
        cases k with
        | zero => exact hpend.1.1
        | succ k => exact ih p hpend.2 k (by simpa using h1) (by simpa using h2)

theorem sends_eq_outs (tr : MTrace) :
    sends tr = (outs tr).filterMap fun o => match o with | .send b => some b | _ => none := by
  unfold sends outs
  generalize tr.flatMap Prod.snd = l
  induction l with
  | nil => rfl
  | cons o l ih => cases o <;> simp [isOut, List.filter_cons, ih]

/-- The transmissions of a sequence of transactions. -/
theorem transmissions_of {cfg : Config} {tr : MTrace} {done : List Tx} {cur : Option (MReq × Nat)} {queued : List MReq}
    (ht : Transactions cfg.repeatMax tr done cur queued) :
    ∃ served : List (MReq × Nat), served.map Prod.fst <+: accepted tr ∧
      (∀ x ∈ served, 1 ≤ x.2 ∧ x.2 ≤ 1 + cfg.repeatMax) ∧
      sends tr = served.flatMap fun x => List.replicate x.2 (reqFrame x.1) := by
  refine ⟨done.map (fun t => (t.req, t.count)) ++ cur.toList, ?_, ?_, ?_⟩
  · rw [ht.order]
    refine ⟨queued, ?_⟩
    cases cur <;> simp
  · intro x hx
    simp at hx
    rcases hx with ⟨t, ht', rfl⟩ | hx
    · exact ⟨(ht.done_ok t ht').1, (ht.done_ok t ht').2.1⟩
    · exact ht.cur_ok x.1 x.2 (by simpa using hx)
  · rw [sends_eq_outs, ht.output]
    rw [List.filterMap_append, List.flatMap_append]
    congr 1
    · clear ht
      induction done with
      | nil => rfl
      | cons t done ih =>
        simp only [List.flatMap_cons, List.filterMap_append, List.map_cons, ih]
        congr 1
        simp [Tx.outs, List.filterMap_append, List.filterMap_map]
    · cases cur with
      | none => rfl
      | some x => simp [curOuts]

/-- **C34.** The frames transmitted in an execution are those of a prefix of the accepted requests, in order of acceptance,
each repeated between 1 and `1 + R` times; nothing else is transmitted. -/
theorem C34_transmissions {cfg : Config} (hw : cfg.MWF) {ops : List MOp} (ho : OpsOk ops) {s0 s : Master} {tr : MTrace}
    (h : masterRun cfg s0 (.init .rtu :: ops) = .ok (s, tr)) :
    ∃ served : List (MReq × Nat), served.map Prod.fst <+: accepted tr ∧
      (∀ x ∈ served, 1 ≤ x.2 ∧ x.2 ≤ 1 + cfg.repeatMax) ∧
      sends tr = served.flatMap fun x => List.replicate x.2 (reqFrame x.1) := by
  obtain ⟨done, cur, queued, ht, -⟩ := master_transactions hw ho h
  exact transmissions_of ht

/-- **C35.** At most `1 + R` transmissions per accepted request; and by `Tx.Ok` every finished transaction ends with at most
one error report, a communication error only after exactly `1 + R` transmissions. -/
theorem C35_retries_bounded {cfg : Config} (hw : cfg.MWF) {ops : List MOp} (ho : OpsOk ops) {s0 s : Master} {tr : MTrace}
    (h : masterRun cfg s0 (.init .rtu :: ops) = .ok (s, tr)) :
    (sends tr).length ≤ (1 + cfg.repeatMax) * (accepted tr).length ∧
    ∃ done cur queued, Transactions cfg.repeatMax tr done cur queued := by
  refine ⟨?_, ?_⟩
  · obtain ⟨served, h1, h2, h3⟩ := C34_transmissions hw ho h
    rw [h3]
    have hl := h1.length_le
    rw [List.length_map] at hl
    refine Nat.le_trans ?_ (Nat.mul_le_mul_left _ hl)
    clear h1 h3 hl
    induction served with
    | nil => simp
    | cons x served ih =>
      have h4 := (h2 x (by simp)).2
      have h5 := ih (fun y hy => h2 y (by simp [hy]))
      simp only [List.flatMap_cons, List.length_append, List.length_replicate, List.length_cons, Nat.mul_succ]
      omega
  · obtain ⟨done, cur, queued, ht, -⟩ := master_transactions hw ho h
    exact ⟨done, cur, queued, ht⟩

/-- **C44.** Never more completions than accepted requests; every buffer not lost to a refused call is free, queued or in
flight; and when nothing is outstanding, exactly the lost ones are missing from the free list. -/
theorem C44_completed_once {cfg : Config} (hw : cfg.MWF) {ops : List MOp} (ho : OpsOk ops) {s0 s : Master} {tr : MTrace}
    (h : masterRun cfg s0 (.init .rtu :: ops) = .ok (s, tr)) :
    ∃ done cur queued, Transactions cfg.repeatMax tr done cur queued ∧
      done.length + outstanding cur queued = (accepted tr).length ∧
      s.freeQ.items.toNat + outstanding cur queued + refused tr = cfg.queueItems ∧
      (s.st = .idle → s.txQ.items = 0 → s.freeQ.items.toNat + refused tr = cfg.queueItems ∧
        done.length = (accepted tr).length) := by
  obtain ⟨tr', g, s1, hx, hi, hg, -⟩ := run_from_init hw ho h
  have hx' := hx
  subst hx'
  obtain ⟨hv, hacc, done, d1, d2, d3, d4⟩ := hg.transactions (Ghost.fresh_valid cfg)
  have hlen := hi.lengths
  have hpl := hi.pend.length
  have hout : outstanding g.tx g.pend = g.tl.length + g.curIdx.length := by
    unfold outstanding Ghost.tx Ghost.curIdx
    cases g.cur <;> simp <;> omega
  have hlost : g.lost.length = refused tr' := by rw [d4]; simp [Ghost.fresh]
  have href : refused ((MOp.init .rtu, []) :: tr') = refused tr' := by simp [refused]
  have hord : accepted ((MOp.init .rtu, []) :: tr') = done.map Tx.req ++ (g.tx.map Prod.fst).toList ++ g.pend := by
    rw [← d2]; simp [accepted, Ghost.fresh, Ghost.tx]
  have hcount : done.length + outstanding g.tx g.pend = (accepted ((MOp.init .rtu, []) :: tr')).length := by
    rw [hord]
    unfold outstanding
    cases g.tx <;> simp <;> omega
  refine ⟨done, g.tx, g.pend, ⟨hord, ?_, d1, ?_, ?_⟩, hcount, ?_, ?_⟩
  · rw [← d3, outs_cons]; simp [Ghost.fresh, Ghost.tx, curOuts]
  · intro r c e
    simp [Ghost.tx] at e
    obtain ⟨i, e⟩ := e
    exact (hv.2 i r c e).2
  · intro r hr; exact hacc r (by simpa [accepted] using hr)
  · rw [hout, href, hi.free.items_eq]; omega
  · intro e1 e2
    have htl : g.tl.length = 0 := by rw [← hi.tx.items_eq, e2]; rfl
    have hc : g.curIdx = [] := by unfold Ghost.curIdx; rw [hi.idle_iff.1 e1]; rfl
    rw [← hcount, hout, href, hi.free.items_eq, htl, hc]
    rw [htl, hc] at hlen
    simp at hlen ⊢
    omega

end Modbus
