import Verif.Proofs.RespStepsPoll
import Verif.Proofs.RespStepsDefer
import Verif.Props.PreemptAny

/-! C82: interrupts between any two reads of the response buffer, whatever they are and wherever they occur. -/

namespace Modbus

open Spec

/-- Executions with interrupted polls keep the invariant, whatever the placement of the interrupts. -/
theorem masterFRun_inv {cfg : Config} (hw : cfg.MWF) {pops : List MPOp} (ho : POpsOk pops) {s : Master} {g : Ghost} (h : MInv cfg s g) :
    (∃ s' ptr g', masterFRun cfg s pops = .ok (s', ptr) ∧ ptr.map Prod.fst = pops ∧ MInv cfg s' g' ∧ GRun cfg g (forget ptr) g') ∨
      (masterFRun cfg s pops = .error .oobRead ∧ ∃ pre suf s1 ptr1 g1 s2, pops = pre ++ suf ∧
        masterFRun cfg s pre = .ok (s1, ptr1) ∧ ptr1.map Prod.fst = pre ∧ MInv cfg s1 g1 ∧ GRun cfg g (forget ptr1) g1 ∧ MSim s1 s2 ∧ Mismatch s2 g1) := by
  induction pops generalizing s g with
  | nil => exact .inl ⟨s, [], g, rfl, rfl, h, .nil g⟩
  | cons op pops ih =>
    have ho2 : POpsOk pops := fun o hm => ho o (by simp [hm])
    have step : (∃ s' o g' mop, masterFStep cfg s op = .ok (s', o) ∧ MInv cfg s' g' ∧ forget [(op, o)] = [(mop, o)] ∧ GStep cfg g mop o g') ∨
        (masterFStep cfg s op = .error .oobRead ∧ ∃ s2, MSim s s2 ∧ Mismatch s2 g) := by
      cases op with
      | op o =>
        obtain ⟨h1, h2⟩ := ho o (by simp)
        rcases masterStep_inv hw h o h1 h2 with ⟨s', out, g', k1, k2, k3⟩ | ⟨rfl, k1, k2⟩
        · exact .inl ⟨s', out, g', o, k1, k2, rfl, k3⟩
        · exact .inr ⟨k1, s, MSim.refl h.kn, k2⟩
      | pollWith ints =>
        rcases pollF_with_explained (cfg := cfg) h.drv h.data h.kn ints with ⟨s1, t, s', o, h1, h2, h3, h4⟩ | ⟨s1, e, h1, h2, h3⟩
        · rcases masterStep_inv hw (h.sim h1) .poll (by simp) (by simp) with ⟨s2, o2, g', k1, k2, k3⟩ | ⟨-, k1, -⟩
          · have k1 : masterPoll cfg s1 = .ok (s2, o2) := k1
            rw [h2] at k1
            cases k1
            exact .inl ⟨s', o, g', .poll, h4, k2.sim h3, rfl, k3⟩
          · have k1 : masterPoll cfg s1 = .error .oobRead := k1
            rw [h2] at k1; cases k1
        · rcases masterStep_inv hw (h.sim h1) .poll (by simp) (by simp) with ⟨s2, o2, g', k1, k2, k3⟩ | ⟨-, k1, k2⟩
          · have k1 : masterPoll cfg s1 = .ok (s2, o2) := k1
            rw [h2] at k1; cases k1
          · have k1 : masterPoll cfg s1 = .error .oobRead := k1
            rw [h2] at k1
            cases k1
            exact .inr ⟨h3, s1, h1, k2⟩
    rcases step with ⟨s', o, g', mop, k1, k2, k3, k4⟩ | ⟨k1, s2, k2, k3⟩
    · have hf : ∀ ptr, forget ((op, o) :: ptr) = (mop, o) :: forget ptr := by
        intro ptr
        have : forget ((op, o) :: ptr) = forget [(op, o)] ++ forget ptr := by simp [forget]
        rw [this, k3]; rfl
      rcases ih ho2 k2 with ⟨s2, ptr, g2, j1, j2, j3, j4⟩ | ⟨j1, pre, suf, s1, ptr1, g1, s2, j2, j3, j4, j5, j6, j7, j8⟩
      · exact .inl ⟨s2, (op, o) :: ptr, g2, by simp only [masterFRun, k1, ok_bind, j1]; rfl, by simp [j2], j3, by rw [hf]; exact .cons k4 j4⟩
      · refine .inr ⟨by simp only [masterFRun, k1, ok_bind, j1]; rfl, op :: pre, suf, s1, (op, o) :: ptr1, g1, s2, by rw [j2]; rfl, ?_, by simp [j4], j5, ?_, j7, j8⟩
        · simp only [masterFRun, k1, ok_bind, j3]; rfl
        · rw [hf]; exact .cons k4 j6
    · exact .inr ⟨by simp only [masterFRun, k1]; rfl, [], op :: pops, s, [], g, s2, rfl, rfl, rfl, h, .nil g, k2, k3⟩

/-- **C82.** Whatever interrupts arrive between whatever statements of the polls, whatever reads of the response and whatever callbacks, races included: the outputs
of a history are those of its transactions, one after the other, in order of acceptance, every frame transmitted between 1 and `1 + R`
times unmodified, every transaction ended once, by its own callbacks; buffers are accounted for. -/
theorem C82_transactions_any_schedule {cfg : Config} (hw : cfg.MWF) {pops : List MPOp} (ho : POpsOk pops) {s0 s : Master} {ptr : List (MPOp × List MOut)}
    (h : masterFRun cfg s0 (.op (.init .rtu) :: pops) = .ok (s, ptr)) :
    ∃ done cur queued, Transactions cfg.repeatMax (forget ptr) done cur queued ∧ (s.st = .idle ↔ cur = none) ∧
      s.freeQ.items.toNat + outstanding cur queued + refused (forget ptr) = cfg.queueItems := by
  obtain ⟨s1, h1, h2⟩ := masterInit_inv hw s0
  have hst : masterStep cfg s0 (.init .rtu) = .ok (s1, []) := by simp only [masterStep, h1, okBind, pureOk]
  simp only [masterFRun, masterFStep, hst, okBind] at h
  obtain ⟨⟨s2, t2⟩, h3, h⟩ := bind_ok h
  cases h
  rcases masterFRun_inv hw ho h2 with ⟨s', ptr', g, k1, -, hi, hg⟩ | ⟨k1, -⟩
  · rw [h3] at k1
    cases k1
    obtain ⟨hv, hacc, done, d1, d2, d3, d4⟩ := hg.transactions (Ghost.fresh_valid cfg)
    have hlen := hi.lengths
    have hpl := hi.pend.length
    have hout : outstanding g.tx g.pend = g.tl.length + g.curIdx.length := by
      unfold outstanding Ghost.tx Ghost.curIdx
      cases g.cur <;> simp <;> omega
    have hlost : g.lost.length = refused (forget t2) := by rw [d4]; simp [Ghost.fresh]
    have hfor : forget ((MPOp.op (.init .rtu), []) :: t2) = (MOp.init .rtu, []) :: forget t2 := rfl
    have href : refused ((MOp.init .rtu, []) :: forget t2) = refused (forget t2) := by simp [refused]
    rw [hfor]
    refine ⟨done, g.tx, g.pend, ⟨?_, ?_, d1, ?_, ?_⟩, ?_, ?_⟩
    · rw [← d2]; simp [accepted, Ghost.fresh, Ghost.tx]
    · rw [← d3, outs_cons]; simp [Ghost.fresh, Ghost.tx, curOuts]
    · intro r c e
      simp [Ghost.tx] at e
      obtain ⟨i, e⟩ := e
      exact (hv.2 i r c e).2
    · intro r hr; exact hacc r (by simpa [accepted] using hr)
    · rw [hi.idle_iff]; simp [Ghost.tx]
    · rw [hout, href, hi.free.items_eq]; omega
  · rw [h3] at k1; cases k1

/-- C34 at every such placement of the interrupts. -/
theorem C82_transmissions_any_schedule {cfg : Config} (hw : cfg.MWF) {pops : List MPOp} (ho : POpsOk pops) {s0 s : Master} {ptr : List (MPOp × List MOut)}
    (h : masterFRun cfg s0 (.op (.init .rtu) :: pops) = .ok (s, ptr)) :
    ∃ served : List (MReq × Nat), served.map Prod.fst <+: accepted (forget ptr) ∧
      (∀ x ∈ served, 1 ≤ x.2 ∧ x.2 ≤ 1 + cfg.repeatMax) ∧
      sends (forget ptr) = served.flatMap fun x => List.replicate x.2 (reqFrame x.1) := by
  obtain ⟨done, cur, queued, ht, -⟩ := C82_transactions_any_schedule hw ho h
  exact transmissions_of ht

/-- C43 at every such placement of the interrupts: with bit reads limited to 126 bits no interrupt schedule whatever leads to undefined behaviour. -/
theorem C82_defined_any_schedule {cfg : Config} (hw : cfg.MWF) {pops : List MPOp} (ho : POpsOk pops) (s0 : Master)
    (hbits : ∀ r, MPOp.op (.request r) ∈ pops → IsBitRead r → (reqField r).toNat ≤ 126) :
    ∃ s ptr, masterFRun cfg s0 (.op (.init .rtu) :: pops) = .ok (s, ptr) := by
  obtain ⟨s1, h1, h2⟩ := masterInit_inv hw s0
  have hst : masterStep cfg s0 (.init .rtu) = .ok (s1, []) := by simp only [masterStep, h1, okBind, pureOk]
  rcases masterFRun_inv hw ho h2 with ⟨s', ptr, g, k1, -⟩ | ⟨-, pre, suf, sa, ptr1, g1, sb, e, k1, kp, k2, k3, k4, i, r, c, q1, q2, q3, q4, q5, -⟩
  · refine ⟨s', (.op (.init .rtu), []) :: ptr, ?_⟩
    simp only [masterFRun, masterFStep, hst, okBind, k1, pureOk]
  · exfalso
    obtain ⟨hv, hacc, done, d1, d2, d3, d4⟩ := k3.transactions (Ghost.fresh_valid cfg)
    have hr : r ∈ accepted (forget ptr1) := by
      have : r ∈ done.map Tx.req ++ (g1.tx.map Prod.fst).toList ++ g1.pend := by simp [Ghost.tx, q1]
      rw [← d2] at this
      simpa [Ghost.fresh, Ghost.tx] using this
    have hm := accepted_mem hr
    have hmem : MPOp.op (.request r) ∈ pops := by
      rw [e, ← kp]
      refine List.mem_append_left _ ?_
      obtain ⟨x, hx, hx2⟩ := List.mem_map.1 hm
      obtain ⟨y, hy, rfl⟩ := List.mem_map.1 hx
      obtain ⟨op, out⟩ := y
      cases op with
      | op o => simp only at hx2; subst hx2; exact List.mem_map.2 ⟨_, hy, rfl⟩
      | pollWith ints => cases hx2
    have hqr := hacc r hr
    have := hbits r hmem
    cases r <;> simp only [isRead, IsBitRead, QtyOk, reqField, true_implies, Bool.false_eq_true] at * <;> omega

/-! ### Without interrupts -/

theorem runNil_toProg {cfg : Config} {α : Type} (i : Nat) (k : α → MProg) (s : Master) : ∀ m : RespM α,
    runProg (masterInt cfg) (m.toProg i k) [] s =
      (m.run (s.msgs i).resp >>= fun x => runProg (masterInt cfg) (k x.1) [] s >>= fun y => .ok (y.1, x.2.map MOut.event ++ y.2))
  | .ret a => by
    simp only [RespM.toProg, RespM.run, okBind, List.map_nil, List.nil_append]
    exact (ok_pair _).symm
  | .err u => rfl
  | .rd j f => by
    simp only [RespM.toProg, RespM.run, runProg, runInts, okBind, pureOk, List.headD_nil, List.tail_nil, List.nil_append]
    rw [runNil_toProg i k s (f ((s.msgs i).resp j))]
    exact ok_pair _
  | .emit e m => by
    simp only [RespM.toProg, RespM.run, runProg, runInts, okBind, pureOk, List.headD_nil, List.tail_nil, List.nil_append]
    rw [runNil_toProg i k s m]
    cases m.run (s.msgs i).resp with
    | error u => rfl
    | ok x =>
      simp only [okBind, firstOut]
      cases runProg (masterInt cfg) (k x.1) [] s <;> rfl

theorem runNil_toMProg {cfg : Config} {α : Type} (i : Nat) (k : α → MProg) (s : Master) : ∀ m : ReqM α,
    runProg (masterInt cfg) (m.toMProg i k) [] s = (m.run (s.msgs i).resp >>= fun x => runProg (masterInt cfg) (k x) [] s)
  | .ret a => rfl
  | .err u => rfl
  | .rd j f => by
    simp only [ReqM.toMProg, ReqM.run, runProg, runInts, okBind, pureOk, List.headD_nil, List.tail_nil, List.nil_append]
    rw [runNil_toMProg i k s (f ((s.msgs i).resp j))]
    exact ok_pair _

theorem runNil_step {cfg : Config} {α : Type} (r : Master → MEv → Bool) (f : Master → C (α × Master × List MOut)) (k : α → MProg) (s : Master) :
    runProg (masterInt cfg) (.step r f k) [] s =
      (f s >>= fun x => runProg (masterInt cfg) (k x.1) [] x.2.1 >>= fun y => .ok (y.1, x.2.2 ++ y.2)) := rfl

theorem runNil_cond {cfg : Config} (c : Master → Bool) (p q p' q' : MProg) (s : Master)
    (hp : runProg (masterInt cfg) p [] s = runProg (masterInt cfg) p' [] s) (hq : runProg (masterInt cfg) q [] s = runProg (masterInt cfg) q' [] s) :
    runProg (masterInt cfg) (test c p q) [] s = runProg (masterInt cfg) (test c p' q') [] s := by
  simp only [test, runNil_step, okBind]
  cases c s
  · simp only [Bool.false_eq_true, if_false, hq]
  · simp only [if_true, hp]

theorem unintF_correct (cfg : Config) (s : Master) (hs : s.dataSet = true) :
    runProg (masterInt cfg) (masterCorrectF cfg) [] s = runProg (masterInt cfg) (masterCorrectP cfg) [] s := by
  rw [unint_correct, masterCorrectF, masterCorrect, runNil_step, okBind]
  dsimp only
  cases s.msgBuf with
  | none =>
    simp only [okBind, unint_end]
    cases masterProcessEnd cfg s <;> rfl
  | some i =>
    have hn : ¬ (RET_OK ≠ checkNullPtr s.dataSet) := by rw [hs]; decide
    dsimp only
    rw [if_neg hn, runNil_toProg, rrun_readSlaveResp, hs]
    cases readSlaveResp true (s.msgs i) with
    | error u => rfl
    | ok x =>
      simp only [okBind, unint_end]
      cases masterProcessEnd cfg s <;> simp [okBind, errBind]

theorem unintF_received3 (cfg : Config) (s : Master) (hs : s.dataSet = true) :
    runProg (masterInt cfg) (masterReceived3F cfg) [] s = runProg (masterInt cfg) (masterReceived3P cfg) [] s :=
  runNil_cond _ _ _ _ _ s (runNil_cond _ _ _ _ _ s (runNil_cond _ _ _ _ _ s (unintF_correct cfg s hs) rfl) rfl) rfl

theorem unintF_received (cfg : Config) (s : Master) (hs : s.dataSet = true) :
    runProg (masterInt cfg) (masterReceivedF cfg) [] s = runProg (masterInt cfg) (masterReceivedP cfg) [] s := by
  have h3 := unintF_received3 cfg s hs
  refine runNil_cond _ _ _ _ _ s (runNil_cond _ _ _ _ _ s rfl ?_) (runNil_cond _ _ _ _ _ s (runNil_cond _ _ _ _ _ s rfl h3) h3)
  simp only [runNil_step, okBind]
  by_cases hc : s.crcf = .set
  · by_cases ht : s.t35 = .set
    · simp only [hc, ht, decide_true, if_true, runNil_step, okBind]
    · simp only [hc, ht, decide_true, decide_false, if_true, Bool.false_eq_true, if_false, runNil_step, okBind, h3]
  · simp only [hc, decide_false, Bool.false_eq_true, if_false, h3]

theorem unintF_recv (cfg : Config) (s : Master) (hs : s.dataSet = true) :
    runProg (masterInt cfg) masterRecvF [] s = runProg (masterInt cfg) masterRecvP [] s := by
  cases s with
  | mk st drv fq tq ms ds mb tm rc a b c d e tgt =>
  cases hs
  cases mb with
  | none => rfl
  | some i =>
    simp only [masterRecvF, masterRecvP, runNil_step, assign, okBind, curMsg, rd_zero, pureOk, if_true, runNil_toMProg, run_rtuRecv, List.nil_append,
      Bool.not_true, Bool.true_eq_false, if_false]
    cases rtuRecv (some (ms i).resp) (ms i).respLen ((ms i).req 0) <;> rfl

/-- Without interrupts the fine grained poll is the poll of the base model. -/
theorem C82_uninterrupted (cfg : Config) (s : Master) (hs : s.dataSet = true) : masterFStep cfg s (.pollWith []) = masterPoll cfg s := by
  rw [← master_uninterrupted, masterFStep, masterPollF, masterPollP, runNil_step, runNil_step, okBind, okBind]
  dsimp only
  cases s.st with
  | idle => rfl
  | repeatRequest => rfl
  | transmitting => rfl
  | waiting => exact congrArg (· >>= _) (runNil_cond _ _ _ _ _ s (unintF_recv cfg s hs) rfl)
  | received => exact congrArg (· >>= _) (unintF_received cfg s hs)

/-! ### A value composed of two moments -/

/-- Before the poll that delivers the answer. -/
def tornHead : List MOp :=
  [.init .rtu, .request (.readHoldingReg 7 3 9), .poll, .txDone, .poll] ++ (rtuFrame 9 [3, 2, 0xAA, 0xBB]).map MOp.rxByte ++ [.t15, .poll, .t35]

/-- Three registers were asked for, the slave answers with one. While the values are handed over two more bytes arrive, between the two reads of the
third register. -/
def tornOps : List MPOp := tornHead.map .op ++ [.pollWith (List.replicate 17 [] ++ [[.rxByte 0x12, .rxByte 0x34]])]

/-- What the application is told; the third value is the stale high byte and the new low byte. -/
def tornOuts : List MOut :=
  [.send (rtuFrame 9 [3, 0, 7, 0, 3]), .event (.hregRead 9 7 0xAABB), .event (.hregRead 9 8 0x6756), .event (.hregRead 9 9 0x0034)]

theorem MOpsExpand.split {p : List MPOp} : ∀ {l : List MOp} {a : List MOp}, MOpsExpand (l.map .op ++ p) a → ∃ b, a = l ++ b ∧ MOpsExpand p b
  | [], a, h => ⟨a, rfl, h⟩
  | o :: l, a, h => by
    cases h with
    | op h =>
      obtain ⟨b, rfl, h2⟩ := MOpsExpand.split h
      exact ⟨b, rfl, h2⟩

theorem tornOps_expand {ops : List MOp} (h : MOpsExpand tornOps ops) : ∃ mid ∈ [[MOp.rxByte 0x12, .rxByte 0x34, .poll], [.rxByte 0x12, .poll, .rxByte 0x34],
    [.poll, .rxByte 0x12, .rxByte 0x34], [.rxByte 0x12, .rxByte 0x34]], ops = tornHead ++ mid := by
  unfold tornOps at h
  obtain ⟨b, rfl, h2⟩ := MOpsExpand.split (l := tornHead) h
  cases h2 with
  | @poll _ A B mid _ a hm hp hx h3 =>
    cases h3
    have hp : (A ++ B).Perm [.rxByte 0x12, .rxByte 0x34] := hp
    have hs : A ++ B = [.rxByte 0x12, .rxByte 0x34] := by
      have hl := hp.length_eq
      have hmem : ∀ x ∈ A ++ B, x = .rxByte 0x12 ∨ x = .rxByte 0x34 := fun x hx => by simpa using hp.mem_iff.1 hx
      have hx : mrx (A ++ B) = [0x12, 0x34] := hx
      generalize A ++ B = l at hl hmem hx
      rcases l with _ | ⟨x, _ | ⟨y, _ | ⟨z, l⟩⟩⟩
      · cases hl
      · cases hl
      · rcases hmem x (by simp) with rfl | rfl <;> rcases hmem y (by simp) with rfl | rfl
        · exact absurd hx (by decide)
        · rfl
        · exact absurd hx (by decide)
        · exact absurd hx (by decide)
      · simp at hl
    refine ⟨mid ++ [], ?_, rfl⟩
    rw [List.append_nil]
    rcases A with _ | ⟨x, _ | ⟨y, A⟩⟩
    · simp only [List.nil_append] at hs
      subst hs
      rcases hm with rfl | rfl <;> simp [MEv.op]
    · simp only [List.cons_append, List.nil_append, List.cons.injEq] at hs
      obtain ⟨rfl, rfl⟩ := hs
      rcases hm with rfl | rfl <;> simp [MEv.op]
    · simp only [List.cons_append, List.cons.injEq, List.append_eq_nil_iff] at hs
      obtain ⟨rfl, rfl, rfl, rfl⟩ := hs
      rcases hm with rfl | rfl <;> simp [MEv.op]

/-- **Polls are not atomic with respect to the response buffer.** The third value reported was in the buffer at no moment: no placement of the two bytes before or
after the poll explains the report. The answer is shorter than what was asked for, which the library does not notice (C46). -/
theorem C82_torn_value_violated :
    poutsOf (masterFRun smallCfg Master.powerOn tornOps) = some tornOuts ∧
    ∀ ops, MOpsExpand tornOps ops → moutsOf (masterRun smallCfg Master.powerOn ops) ≠ some tornOuts := by
  refine ⟨by decide +kernel, ?_⟩
  intro ops h
  obtain ⟨mid, hm, rfl⟩ := tornOps_expand h
  have key : ∀ mid ∈ [[MOp.rxByte 0x12, .rxByte 0x34, .poll], [.rxByte 0x12, .poll, .rxByte 0x34], [.poll, .rxByte 0x12, .rxByte 0x34],
      [.rxByte 0x12, .rxByte 0x34]], moutsOf (masterRun smallCfg Master.powerOn (tornHead ++ mid)) ≠ some tornOuts := by
    decide +kernel
  exact key mid hm

/-! ### A complete response -/

/-- **C82, complete responses.** The response received is as long as what the request asks for, and no error is flagged; while the poll examines it and calls the
application, further interrupts arrive, in any number and at any place: bytes (as long as the length counter does not overflow), timer events, ticks. The poll does
what it does without them: they take effect as if they had arrived after it. -/
theorem C82_complete_response_delivered {cfg : Config} {s s1 : Master} {o : List MOut} {i : Nat} {ints : List (List MEv)} (hd : s.drv = true) (hs : s.dataSet = true)
    (hst : s.st = .received) (hf : s.ferr = .cleared) (hc : s.crcf = .cleared) (ht : s.t35 = .set) (hi : s.msgBuf = some i)
    (hfull : respNeed ((s.msgs i).resp 1) (u16of ((s.msgs i).req 4) ((s.msgs i).req 5)) ≤ (s.msgs i).respLen.toNat)
    (hroom : (s.msgs i).respLen.toNat + (mrx ints.flatten).length ≤ 256) (hn : .frameErr ∉ ints.flatten)
    (hp : masterPoll cfg s = .ok (s1, o)) :
    ∃ s', masterFStep cfg s (.pollWith ints) = .ok (s', o) ∧
      masterRun cfg s1 (ints.flatten.map MEv.op) = .ok (s', ints.flatten.map fun e => (e.op, [])) := by
  have hdef : Defers cfg (masterPollF cfg) s ints.flatten := by
    refine defers_pollF hd hs hst (defers_received hd hs hf hc ht hn fun j hj => ?_)
    rw [hi] at hj
    cases hj
    exact ⟨_, mkept_room (.inr ⟨hfull, hroom⟩), rreads_resp _ fun p hp => hp⟩
  have h := hdef ints rfl
  have hu : runProg (masterInt cfg) (masterPollF cfg) [] s = masterPoll cfg s := C82_uninterrupted cfg s hs
  rw [hu, hp] at h
  obtain ⟨h1, h2⟩ := masterStep_keeps (op := .poll) hp (by simp)
  exact ⟨_, h, masterRun_ints cfg s1 (h1.trans hd) (h2.trans hs) _⟩

/-- What `modbus_RTU_recv` decides about the response of message `i` after the interrupts `l`. -/
def verdictAfter (s : Master) (i : Nat) (l : List MEv) : C Ret :=
  rtuRecv (some ((masterAfter s l).msgs i).resp) ((masterAfter s l).msgs i).respLen ((s.msgs i).req 0)

/-- How the master goes on. -/
def GoesOn (s : Master) (r : Ret) (s' : Master) : Prop :=
  if r = RET_ERROR_CRC then s'.st = .received ∧ s'.crcf = .set
  else if r = RET_ERROR_SLAVE_ID then s'.st = .waiting ∧ s'.crcf = s.crcf
  else s'.st = .received ∧ s'.crcf = s.crcf

theorem goesOn_afterRecv (cfg : Config) {s u : Master} {i : Nat} {l : List MEv} (hd : s.drv = true) (hs : s.dataSet = true) (hst : s.st = .waiting)
    (hi : s.msgBuf = some i) (h : Reached s l u) (r : Ret) (ints : List (List MEv)) :
    ∃ s', runProg (masterInt cfg) (masterAfterRecvP r) ints u = .ok (s', []) ∧ GoesOn s r s' := by
  have d := h.drv.trans hd
  have ds := h.dataSet.trans hs
  have gcrc : ∀ s', r = RET_ERROR_CRC → s'.st = .received ∧ s'.crcf = .set → GoesOn s r s' := fun s' h k => by
    unfold GoesOn; rw [if_pos h]; exact k
  have gid : ∀ s', r ≠ RET_ERROR_CRC → r = RET_ERROR_SLAVE_ID → s'.st = .waiting ∧ s'.crcf = s.crcf → GoesOn s r s' := fun s' h h2 k => by
    unfold GoesOn; rw [if_neg h, if_pos h2]; exact k
  have gok : ∀ s', r ≠ RET_ERROR_CRC → r ≠ RET_ERROR_SLAVE_ID → s'.st = .received ∧ s'.crcf = s.crcf → GoesOn s r s' := fun s' h h2 k => by
    unfold GoesOn; rw [if_neg h, if_neg h2]; exact k
  unfold masterAfterRecvP
  by_cases h1 : RET_ERROR_CRC = r
  · rw [if_pos h1]
    simp only [assign]
    rw [mrunProg_head cfg d ds]
    simp only [okBind, addOut_nil]
    rw [mrunProg_head cfg (by exact d) (by exact ds)]
    simp only [okBind, addOut_nil]
    rw [mrunProg_head cfg (by exact d) (by exact ds)]
    simp only [okBind, addOut_nil]
    rw [mrunProg_done cfg (by exact d) (by exact ds)]
    exact ⟨_, rfl, gcrc _ h1.symm ⟨rfl, rfl⟩⟩
  · rw [if_neg h1]
    by_cases h2 : RET_ERROR_SLAVE_ID = r
    · rw [if_pos h2, mrunProg_head cfg d ds]
      have e : clearRespLen (masterAfter u (ints.headD [])) = .ok { masterAfter u (ints.headD []) with
          msgs := setMsg (masterAfter u (ints.headD [])).msgs i { (masterAfter u (ints.headD [])).msgs i with respLen := 0 } } := by
        unfold clearRespLen
        have hb : (masterAfter u (ints.headD [])).msgBuf = some i := h.msgBuf.trans hi
        simp only [hb]
      rw [e]
      simp only [okBind, pureOk, addOut_nil]
      rw [mrunProg_done cfg (by exact d) (by exact ds)]
      exact ⟨_, rfl, gid _ (fun e => h1 e.symm) h2.symm ⟨h.st.trans hst, h.crcf⟩⟩
    · rw [if_neg h2]
      simp only [assign]
      rw [mrunProg_head cfg d ds]
      simp only [okBind, addOut_nil]
      rw [mrunProg_head cfg (by exact d) (by exact ds)]
      simp only [okBind, addOut_nil]
      rw [mrunProg_done cfg (by exact d) (by exact ds)]
      exact ⟨_, rfl, gok _ (fun e => h1 e.symm) (fun e => h2 e.symm) ⟨rfl, h.crcf⟩⟩

/-- The rest `p` of the poll decides about the response as it is at one moment. -/
def Decides (cfg : Config) (s : Master) (i : Nat) (F : List MEv) (p : MProg) (u : Master) (I : List (List MEv)) : Prop :=
  ∃ l r s', l <+: F ∧ verdictAfter s i l = .ok r ∧ runProg (masterInt cfg) p I u = .ok (s', []) ∧ GoesOn s r s'

theorem decides_step {α : Type} {cfg : Config} {s : Master} {i : Nat} {F : List MEv} (hd : s.drv = true) (hs : s.dataSet = true) {u : Master}
    {l : List MEv} {I : List (List MEv)} (rc : Master → MEv → Bool) (f : Master → C (α × Master × List MOut)) (k : α → MProg) (h : Reached s l u)
    (e : l ++ I.flatten = F)
    (hf : Reached s (l ++ I.headD []) (masterAfter u (I.headD [])) → (l ++ I.headD []) ++ I.tail.flatten = F →
      ∃ a u2, f (masterAfter u (I.headD [])) = .ok (a, u2, []) ∧ Decides cfg s i F (k a) u2 I.tail) :
    Decides cfg s i F (.step rc f k) u I := by
  obtain ⟨a, u2, h1, l', r, s', h2, h3, h4, h5⟩ := hf (h.after _) (by rw [List.append_assoc, ← mflatten_split, e])
  refine ⟨l', r, s', h2, h3, ?_, h5⟩
  rw [mrunProg_head cfg (h.drv.trans hd) (h.dataSet.trans hs), h1]
  simp only [okBind, addOut_nil]
  exact h4

theorem verdict_of_one_moment {cfg : Config} {s : Master} {i : Nat} {ints : List (List MEv)} (hd : s.drv = true) (hs : s.dataSet = true)
    (hst : s.st = .waiting) (ht : s.t15 = .set) (hi : s.msgBuf = some i) (hlen : 0 < (s.msgs i).respLen.toNat)
    (hroom : (s.msgs i).respLen.toNat + (mrx ints.flatten).length ≤ 255) : Decides cfg s i ints.flatten (masterPollF cfg) s ints := by
  refine decides_step hd hs _ _ _ (Reached.nil s) rfl fun r1 e1 => ⟨_, _, rfl, ?_⟩
  rw [show (masterAfter s (ints.headD [])).st = .waiting from hst]
  have t1 : (masterAfter s (ints.headD [])).t15 = .set := by
    show mark _ s.t15 = _
    rw [ht]; cases hasEv MEv.t15 (ints.headD []) <;> rfl
  generalize masterAfter s (ints.headD []) = u1 at r1 t1 ⊢
  generalize [] ++ ints.headD [] = l1 at r1 e1
  generalize ints.tail = I1 at e1 ⊢
  refine decides_step hd hs _ _ _ r1 e1 fun r2 e2 => ⟨_, _, rfl, ?_⟩
  have t2 : (masterAfter u1 (I1.headD [])).t15 = .set := by
    show mark _ u1.t15 = _
    rw [t1]; cases hasEv MEv.t15 (I1.headD []) <;> rfl
  generalize masterAfter u1 (I1.headD []) = u2 at r2 t2 ⊢
  generalize l1 ++ I1.headD [] = l2 at r2 e2
  generalize I1.tail = I2 at e2 ⊢
  dsimp only
  rw [if_pos (by simpa using t2)]
  show Decides cfg s i ints.flatten masterRecvF u2 I2
  -- the address of the slave asked
  refine decides_step hd hs _ _ _ r2 e2 fun r3 e3 => ⟨(s.msgs i).req 0, masterAfter u2 (I2.headD []), ?_, ?_⟩
  · have hc : curMsg (masterAfter u2 (I2.headD [])) = .ok ((masterAfter u2 (I2.headD [])).msgs i) := by
      unfold curMsg
      rw [r3.msgBuf.trans hi, r3.dataSet.trans hs]; rfl
    simp only [hc, okBind, rd_zero, pureOk]
    rw [r3.msgs]
    simp only [masterAfter, rxMsgs_req]
  generalize masterAfter u2 (I2.headD []) = u3 at r3 ⊢
  generalize l2 ++ I2.headD [] = l3 at r3 e3
  generalize I2.tail = I3 at e3 ⊢
  refine decides_step hd hs _ _ _ r3 e3 fun r4 e4 => ⟨_, _, rfl, ?_⟩
  have r4 : Reached s (l3 ++ I3.headD []) { masterAfter u3 (I3.headD []) with t15 := .cleared } :=
    ⟨r4.msgs, r4.rxTarget, r4.st, r4.crcf, r4.msgBuf, r4.drv, r4.dataSet⟩
  dsimp only
  generalize ({ masterAfter u3 (I3.headD []) with t15 := .cleared } : Master) = u4 at r4 ⊢
  generalize l3 ++ I3.headD [] = l4 at r4 e4
  generalize I3.tail = I4 at e4 ⊢
  refine decides_step hd hs _ _ _ r4 e4 fun r5 e5 => ⟨_, _, rfl, ?_⟩
  have r5 : Reached s (l4 ++ I4.headD []) { masterAfter u4 (I4.headD []) with t35 := .cleared } :=
    ⟨r5.msgs, r5.rxTarget, r5.st, r5.crcf, r5.msgBuf, r5.drv, r5.dataSet⟩
  dsimp only
  generalize ({ masterAfter u4 (I4.headD []) with t35 := .cleared } : Master) = u5 at r5 ⊢
  generalize l4 ++ I4.headD [] = l5 at r5 e5
  generalize I4.tail = I5 at e5 ⊢
  -- the length
  refine decides_step hd hs _ _ _ r5 e5 fun r6 e6 => ⟨(i, ((masterAfter u5 (I5.headD [])).msgs i).respLen), masterAfter u5 (I5.headD []), ?_, ?_⟩
  · have hc : curMsg (masterAfter u5 (I5.headD [])) = .ok ((masterAfter u5 (I5.headD [])).msgs i) := by
      unfold curMsg
      rw [r6.msgBuf.trans hi, r6.dataSet.trans hs]; rfl
    simp only [hc, okBind, pureOk]
    rw [r6.msgBuf.trans hi]
  generalize masterAfter u5 (I5.headD []) = u6 at r6 ⊢
  generalize l5 ++ I5.headD [] = l6 at r6 e6
  generalize I5.tail = I6 at e6 ⊢
  dsimp only
  -- the check itself
  have hu : u6.msgs i = (masterAfter s l6).msgs i := by rw [r6.msgs]
  have hlen6 : ((masterAfter s l6).msgs i).respLen.toNat + (mrx I6.flatten).length ≤ 255 ∧ 0 < ((masterAfter s l6).msgs i).respLen.toNat := by
    have hm : mrx ints.flatten = mrx l6 ++ mrx I6.flatten := by rw [← e6]; simp [mrx]
    rw [hm, List.length_append] at hroom
    show ((rxMsgs s.rxTarget s.msgs (mrx l6)) i).respLen.toNat + _ ≤ 255 ∧ 0 < ((rxMsgs s.rxTarget s.msgs (mrx l6)) i).respLen.toNat
    cases hr : s.rxTarget with
    | none => simp only [rxMsgs]; omega
    | some j =>
      by_cases hj : i = j
      · subst hj
        simp only [rxMsgs, if_true, rxRun_len, BitVec.toNat_add, BitVec.toNat_ofNat]
        omega
      · simp only [rxMsgs, if_neg hj]; omega
  have hk : MKept (· < (u6.msgs i).respLen.toNat) i u6 I6.flatten :=
    mkept_room (.inr ⟨Nat.le_refl _, by rw [hu]; omega⟩)
  have hrd := reads_rtuRecv (u6.msgs i).respLen ((s.msgs i).req 0) (u6.msgs i).resp (by rw [hu]; exact hlen6.2)
  obtain ⟨l7, I7, e7, x7⟩ := toMProg_kept cfg _ i masterAfterRecvP _ u6 I6 (r6.drv.trans hd) (r6.dataSet.trans hs) hrd hk
  rw [run_rtuRecv, hu] at x7
  obtain ⟨r, hr⟩ : ∃ r, rtuRecv (some ((masterAfter s l6).msgs i).resp) ((masterAfter s l6).msgs i).respLen ((s.msgs i).req 0) = .ok r := ⟨_, rtuRecv_eq _ _ _⟩
  rw [hr] at x7
  obtain ⟨s', h1, h2⟩ := goesOn_afterRecv cfg hd hs hst hi (r6.after l7) r I7
  exact ⟨l6, r, s', ⟨I6.flatten, e6⟩, hr, by rw [hu]; exact x7.trans h1, h2⟩

/-- **C82, the verdict about a response.** While the poll checks the response, byte after byte, more interrupts may occur between any two reads. The verdict is that about
the response `frame` as it was at one moment: when exactly the interrupts `l` had occurred. -/
theorem C82_verdict_of_one_moment {cfg : Config} {s : Master} {i : Nat} {ints : List (List MEv)} (hd : s.drv = true) (hs : s.dataSet = true)
    (hst : s.st = .waiting) (ht : s.t15 = .set) (hi : s.msgBuf = some i) (hlen : 0 < (s.msgs i).respLen.toNat)
    (hroom : (s.msgs i).respLen.toNat + (mrx ints.flatten).length ≤ 255) :
    ∃ l u tr s' frame, l <+: ints.flatten ∧ masterRun cfg s (l.map MEv.op) = .ok (u, tr) ∧ frame = (u.msgs i).resp.bytes 0 (u.msgs i).respLen.toNat ∧
      masterFStep cfg s (.pollWith ints) = .ok (s', []) ∧
      (frame.head? ≠ some ((s.msgs i).req 0) → s'.st = .waiting ∧ s'.crcf = s.crcf) ∧
      (frame.head? = some ((s.msgs i).req 0) → ¬ CrcCorrect frame → s'.st = .received ∧ s'.crcf = .set) ∧
      (frame.head? = some ((s.msgs i).req 0) → CrcCorrect frame → s'.st = .received ∧ s'.crcf = s.crcf) := by
  obtain ⟨l, r, s', h1, h2, h3, h4⟩ := verdict_of_one_moment (cfg := cfg) hd hs hst ht hi hlen hroom
  refine ⟨l, masterAfter s l, _, s', _, h1, masterRun_ints cfg s hd hs l, rfl, h3, ?_⟩
  have hpos : 0 < ((masterAfter s l).msgs i).respLen.toNat := by
    obtain ⟨k, hk⟩ := h1
    have hm : mrx ints.flatten = mrx l ++ mrx k := by rw [← hk]; simp [mrx]
    rw [hm, List.length_append] at hroom
    show 0 < ((rxMsgs s.rxTarget s.msgs (mrx l)) i).respLen.toNat
    cases hr : s.rxTarget with
    | none => simp only [rxMsgs]; omega
    | some j =>
      by_cases hj : i = j
      · subst hj
        simp only [rxMsgs, if_true, rxRun_len, BitVec.toNat_add, BitVec.toNat_ofNat]
        omega
      · simp only [rxMsgs, if_neg hj]; omega
  have hhead : (((masterAfter s l).msgs i).resp.bytes 0 ((masterAfter s l).msgs i).respLen.toNat).head? = some (((masterAfter s l).msgs i).resp 0) := by
    generalize ((masterAfter s l).msgs i).respLen.toNat = n at hpos ⊢
    cases n with
    | zero => omega
    | succ n => simp [Buf.bytes, List.range_succ_eq_map]
  unfold verdictAfter at h2
  rw [rtuRecv_eq] at h2
  have h2 := Except.ok.inj h2
  rw [hhead]
  unfold GoesOn at h4
  by_cases e1 : (s.msgs i).req 0 = ((masterAfter s l).msgs i).resp 0
  · rw [if_neg (by simpa using e1)] at h2
    by_cases e2 : CrcCorrect (((masterAfter s l).msgs i).resp.bytes 0 ((masterAfter s l).msgs i).respLen.toNat)
    · rw [if_neg (by simpa using (crc16_eq_zero_iff _).2 e2)] at h2
      rw [← h2, if_neg (by decide), if_neg (by decide)] at h4
      exact ⟨fun h => absurd (by rw [e1]) h, fun _ h => absurd e2 h, fun _ _ => h4⟩
    · rw [if_pos (fun h => e2 ((crc16_eq_zero_iff _).1 h))] at h2
      rw [← h2, if_pos rfl] at h4
      exact ⟨fun h => absurd (by rw [e1]) h, fun _ _ => h4, fun _ h => absurd h e2⟩
  · rw [if_pos e1] at h2
    rw [← h2, if_neg (by decide), if_pos rfl] at h4
    exact ⟨fun _ => h4, fun h => absurd (Option.some.inj h).symm e1, fun h => absurd (Option.some.inj h).symm e1⟩

/-! ### The hypotheses can be met -/

/-- Two registers asked for, two received; the frame has been checked and its end seen. -/
def fullHead : List MOp :=
  [.init .rtu, .request (.readHoldingReg 7 2 9), .poll, .txDone, .poll] ++ (rtuFrame 9 [3, 4, 0xAA, 0xBB, 0xCC, 0xDD]).map MOp.rxByte ++ [.t15, .poll, .t35]

/-- Interrupts before every step of the poll: bytes, ticks, timer events. -/
def busyInts : List (List MEv) := (List.range 20).map fun n => [.rxByte (BitVec.ofNat 8 n), .tick, .t35, .t15]

/-- Non-vacuity of `C82_complete_response_delivered`, with interrupts before every step. -/
example : ∃ s tr, masterRun smallCfg Master.powerOn fullHead = .ok (s, tr) ∧
    ∃ s', masterFStep smallCfg s (.pollWith busyInts) = .ok (s', [.event (.hregRead 9 7 0xAABB), .event (.hregRead 9 8 0xCCDD)]) := by
  obtain ⟨s, tr, h⟩ : ∃ s tr, masterRun smallCfg Master.powerOn fullHead = .ok (s, tr) := by
    cases h : masterRun smallCfg Master.powerOn fullHead with
    | ok x => exact ⟨x.1, x.2, rfl⟩
    | error e =>
      have : (match masterRun smallCfg Master.powerOn fullHead with | .ok _ => true | .error _ => false) = true := by decide +kernel
      rw [h] at this; cases this
  refine ⟨s, tr, h, ?_⟩
  have key : ∀ (q : Master → Bool), (match masterRun smallCfg Master.powerOn fullHead with | .ok x => q x.1 | .error _ => false) = true → q s = true := by
    intro q hq; rw [h] at hq; exact hq
  have pk : (match masterPoll smallCfg s with
      | .ok x => decide (x.2 = [.event (.hregRead 9 7 0xAABB), .event (.hregRead 9 8 0xCCDD)]) | .error _ => false) = true := key
    (fun s => match masterPoll smallCfg s with
      | .ok x => decide (x.2 = [.event (.hregRead 9 7 0xAABB), .event (.hregRead 9 8 0xCCDD)]) | .error _ => false) (by decide +kernel)
  cases hp : masterPoll smallCfg s with
  | error e => rw [hp] at pk; cases pk
  | ok x =>
    obtain ⟨s1, o⟩ := x
    rw [hp] at pk
    have ho : o = [.event (.hregRead 9 7 0xAABB), .event (.hregRead 9 8 0xCCDD)] := by simpa using pk
    subst ho
    have hb : s.msgBuf = some 0 := by simpa using key (fun s => decide (s.msgBuf = some 0)) (by decide +kernel)
    obtain ⟨s', h1, -⟩ := C82_complete_response_delivered (cfg := smallCfg) (ints := busyInts) (i := 0)
      (by simpa using key (fun s => s.drv) (by decide +kernel)) (by simpa using key (fun s => s.dataSet) (by decide +kernel))
      (by simpa using key (fun s => decide (s.st = .received)) (by decide +kernel)) (by simpa using key (fun s => decide (s.ferr = .cleared)) (by decide +kernel))
      (by simpa using key (fun s => decide (s.crcf = .cleared)) (by decide +kernel)) (by simpa using key (fun s => decide (s.t35 = .set)) (by decide +kernel))
      hb (by simpa using key (fun s => decide (respNeed ((s.msgs 0).resp 1) (u16of ((s.msgs 0).req 4) ((s.msgs 0).req 5)) ≤ (s.msgs 0).respLen.toNat)) (by decide +kernel))
      (by simpa using key (fun s => decide ((s.msgs 0).respLen.toNat + (mrx busyInts.flatten).length ≤ 256)) (by decide +kernel)) (by decide +kernel) hp
    exact ⟨s', h1⟩

/-- Non-vacuity of `C82_verdict_of_one_moment`: a master waiting with seven bytes received. -/
example : ∃ s tr, masterRun smallCfg Master.powerOn ([.init .rtu, .request (.readHoldingReg 7 2 9), .poll, .txDone, .poll] ++
      (rtuFrame 9 [3, 4, 0xAA, 0xBB]).map MOp.rxByte ++ [.t15]) = .ok (s, tr) ∧
    s.drv = true ∧ s.dataSet = true ∧ s.st = .waiting ∧ s.t15 = .set ∧ s.msgBuf = some 0 ∧ (s.msgs 0).respLen.toNat = 7 := by
  cases h : masterRun smallCfg Master.powerOn ([.init .rtu, .request (.readHoldingReg 7 2 9), .poll, .txDone, .poll] ++
      (rtuFrame 9 [3, 4, 0xAA, 0xBB]).map MOp.rxByte ++ [.t15]) with
  | error e =>
    have : (match masterRun smallCfg Master.powerOn ([.init .rtu, .request (.readHoldingReg 7 2 9), .poll, .txDone, .poll] ++
      (rtuFrame 9 [3, 4, 0xAA, 0xBB]).map MOp.rxByte ++ [.t15]) with | .ok _ => true | .error _ => false) = true := by decide +kernel
    rw [h] at this; cases this
  | ok x =>
    have key : ∀ (q : Master → Bool), (match masterRun smallCfg Master.powerOn ([.init .rtu, .request (.readHoldingReg 7 2 9), .poll, .txDone, .poll] ++
      (rtuFrame 9 [3, 4, 0xAA, 0xBB]).map MOp.rxByte ++ [.t15]) with | .ok x => q x.1 | .error _ => false) = true → q x.1 = true := by
      intro q hq; rw [h] at hq; exact hq
    refine ⟨x.1, x.2, rfl, ?_⟩
    simpa using key (fun s => s.drv && (s.dataSet && (decide (s.st = .waiting) && (decide (s.t15 = .set) && (decide (s.msgBuf = some 0) &&
      decide ((s.msgs 0).respLen.toNat = 7)))))) (by decide +kernel)

theorem tornOps_ok : POpsOk tornOps.tail := by
  intro op hop
  have hop : op ∈ tornHead.tail := by
    simp only [tornOps, tornHead, List.cons_append, List.map_cons, List.tail_cons, List.mem_append, List.mem_cons, List.mem_map, MPOp.op.injEq, reduceCtorEq,
      List.not_mem_nil, or_false, exists_eq_right] at hop ⊢
    exact hop
  simp only [tornHead, List.cons_append, List.tail_cons, List.nil_append, List.mem_cons, List.mem_append, List.mem_map, List.not_mem_nil, or_false] at hop
  rcases hop with rfl | rfl | rfl | rfl | ⟨b, -, rfl⟩ | rfl | rfl | rfl
  · exact ⟨by simp, by rintro _ ⟨⟩ _; trivial⟩
  all_goals exact ⟨by simp, by simp⟩

/-- Non-vacuity of `C82_transactions_any_schedule`: the history of `C82_torn_value_violated`. -/
example : ∃ s ptr, masterFRun smallCfg Master.powerOn tornOps = .ok (s, ptr) ∧
    ∃ done cur queued, Transactions smallCfg.repeatMax (forget ptr) done cur queued := by
  have h := C82_torn_value_violated.1
  cases hr : masterFRun smallCfg Master.powerOn tornOps with
  | error e => rw [hr] at h; cases h
  | ok x =>
    obtain ⟨s, ptr⟩ := x
    refine ⟨s, ptr, rfl, ?_⟩
    obtain ⟨done, cur, queued, ht, -⟩ := C82_transactions_any_schedule (cfg := smallCfg) (by constructor <;> decide)
      (pops := tornOps.tail) tornOps_ok hr
    exact ⟨done, cur, queued, ht⟩

end Modbus
