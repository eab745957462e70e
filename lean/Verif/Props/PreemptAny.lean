import Verif.Proofs.PreemptAny
import Verif.Props.Preempt
import Verif.Props.MasterFaults

/-! C56 at every placement of the interrupts, races included: what holds without any condition on the schedule. -/

namespace Modbus

open Spec

/-- Executions with interrupted polls keep the invariant, whatever the placement of the interrupts. -/
theorem masterPRun_inv {cfg : Config} (hw : cfg.MWF) {pops : List MPOp} (ho : POpsOk pops) {s : Master} {g : Ghost} (h : MInv cfg s g) :
    (∃ s' ptr g', masterPRun cfg s pops = .ok (s', ptr) ∧ ptr.map Prod.fst = pops ∧ MInv cfg s' g' ∧ GRun cfg g (forget ptr) g') ∨
      (masterPRun cfg s pops = .error .oobRead ∧ ∃ pre suf s1 ptr1 g1 s2, pops = pre ++ suf ∧
        masterPRun cfg s pre = .ok (s1, ptr1) ∧ ptr1.map Prod.fst = pre ∧ MInv cfg s1 g1 ∧ GRun cfg g (forget ptr1) g1 ∧ MSim s1 s2 ∧ Mismatch s2 g1) := by
  induction pops generalizing s g with
  | nil => exact .inl ⟨s, [], g, rfl, rfl, h, .nil g⟩
  | cons op pops ih =>
    have ho2 : POpsOk pops := fun o hm => ho o (by simp [hm])
    have step : (∃ s' o g' mop, masterPStep cfg s op = .ok (s', o) ∧ MInv cfg s' g' ∧ forget [(op, o)] = [(mop, o)] ∧ GStep cfg g mop o g') ∨
        (masterPStep cfg s op = .error .oobRead ∧ ∃ s2, MSim s s2 ∧ Mismatch s2 g) := by
      cases op with
      | op o =>
        obtain ⟨h1, h2⟩ := ho o (by simp)
        rcases masterStep_inv hw h o h1 h2 with ⟨s', out, g', k1, k2, k3⟩ | ⟨rfl, k1, k2⟩
        · exact .inl ⟨s', out, g', o, k1, k2, rfl, k3⟩
        · exact .inr ⟨k1, s, MSim.refl h.kn, k2⟩
      | pollWith ints =>
        rcases pollWith_explained (cfg := cfg) h.drv h.data h.kn ints with ⟨s1, t, s', o, h1, h2, h3, h4⟩ | ⟨s1, e, h1, h2, h3⟩
        · rcases masterStep_inv hw (h.sim h1) .poll (by simp) (by simp) with ⟨s2, o2, g', k1, k2, k3⟩ | ⟨-, k1, -⟩
          · have k1 : masterPoll cfg s1 = .ok (s2, o2) := k1
            rw [h2] at k1
            cases k1
            exact .inl ⟨s', o, g', .poll, h4, k2.sim h3, rfl, k3⟩
          · have k1 : masterPoll cfg s1 = .error .oobRead := k1
            rw [h2] at k1; cases k1
        · rcases masterStep_inv hw (h.sim h1) .poll (by simp) (by simp) with ⟨s2, o2, g', k1, k2, k3⟩ | ⟨-, k1, k2⟩
          · have k1 : masterPoll cfg s1 = .ok (s2, o2) := k1
            rw [h2] at k1; cases k1
          · have k1 : masterPoll cfg s1 = .error .oobRead := k1
            rw [h2] at k1
            cases k1
            exact .inr ⟨h3, s1, h1, k2⟩
    rcases step with ⟨s', o, g', mop, k1, k2, k3, k4⟩ | ⟨k1, s2, k2, k3⟩
    · have hf : ∀ ptr, forget ((op, o) :: ptr) = (mop, o) :: forget ptr := by
        intro ptr
        have : forget ((op, o) :: ptr) = forget [(op, o)] ++ forget ptr := by simp [forget]
        rw [this, k3]; rfl
      rcases ih ho2 k2 with ⟨s2, ptr, g2, j1, j2, j3, j4⟩ | ⟨j1, pre, suf, s1, ptr1, g1, s2, j2, j3, j4, j5, j6, j7, j8⟩
      · exact .inl ⟨s2, (op, o) :: ptr, g2, by simp only [masterPRun, k1, ok_bind, j1]; rfl, by simp [j2], j3, by rw [hf]; exact .cons k4 j4⟩
      · refine .inr ⟨by simp only [masterPRun, k1, ok_bind, j1]; rfl, op :: pre, suf, s1, (op, o) :: ptr1, g1, s2, by rw [j2]; rfl, ?_, by simp [j4], j5, ?_, j7, j8⟩
        · simp only [masterPRun, k1, ok_bind, j3]; rfl
        · rw [hf]; exact .cons k4 j6
    · exact .inr ⟨by simp only [masterPRun, k1]; rfl, [], op :: pops, s, [], g, s2, rfl, rfl, rfl, h, .nil g, k2, k3⟩

/-- **C56, at every placement of the interrupts.** Whatever interrupts arrive between whatever statements of the polls, races included: the outputs
of a history are those of its transactions, one after the other, in order of acceptance, every frame transmitted between 1 and `1 + R`
times unmodified, every transaction ended once, by its own callbacks; buffers are accounted for. -/
theorem C56_transactions_any_schedule {cfg : Config} (hw : cfg.MWF) {pops : List MPOp} (ho : POpsOk pops) {s0 s : Master} {ptr : List (MPOp × List MOut)}
    (h : masterPRun cfg s0 (.op (.init .rtu) :: pops) = .ok (s, ptr)) :
    ∃ done cur queued, Transactions cfg.repeatMax (forget ptr) done cur queued ∧ (s.st = .idle ↔ cur = none) ∧
      s.freeQ.items.toNat + outstanding cur queued + refused (forget ptr) = cfg.queueItems := by
  obtain ⟨s1, h1, h2⟩ := masterInit_inv hw s0
  have hst : masterStep cfg s0 (.init .rtu) = .ok (s1, []) := by simp only [masterStep, h1, okBind, pureOk]
  simp only [masterPRun, masterPStep, hst, okBind] at h
  obtain ⟨⟨s2, t2⟩, h3, h⟩ := bind_ok h
  cases h
  rcases masterPRun_inv hw ho h2 with ⟨s', ptr', g, k1, -, hi, hg⟩ | ⟨k1, -⟩
  · rw [h3] at k1
    cases k1
    obtain ⟨hv, hacc, done, d1, d2, d3, d4⟩ := hg.transactions (Ghost.fresh_valid cfg)
    have hlen := hi.lengths
    have hpl := hi.pend.length
    have hout : outstanding g.tx g.pend = g.tl.length + g.curIdx.length := by
      unfold outstanding Ghost.tx Ghost.curIdx
      cases g.cur <;> simp <;> omega
    have hlost : g.lost.length = refused (forget t2) := by rw [d4]; simp [Ghost.fresh]
    have hfor : forget ((MPOp.op (.init .rtu), []) :: t2) = (MOp.init .rtu, []) :: forget t2 := rfl
    have href : refused ((MOp.init .rtu, []) :: forget t2) = refused (forget t2) := by simp [refused]
    rw [hfor]
    refine ⟨done, g.tx, g.pend, ⟨?_, ?_, d1, ?_, ?_⟩, ?_, ?_⟩
    · rw [← d2]; simp [accepted, Ghost.fresh, Ghost.tx]
    · rw [← d3, outs_cons]; simp [Ghost.fresh, Ghost.tx, curOuts]
    · intro r c e
      simp [Ghost.tx] at e
      obtain ⟨i, e⟩ := e
      exact (hv.2 i r c e).2
    · intro r hr; exact hacc r (by simpa [accepted] using hr)
    · rw [hi.idle_iff]; simp [Ghost.tx]
    · rw [hout, href, hi.free.items_eq]; omega
  · rw [h3] at k1; cases k1

/-- C34 at every placement of the interrupts. -/
theorem C56_transmissions_any_schedule {cfg : Config} (hw : cfg.MWF) {pops : List MPOp} (ho : POpsOk pops) {s0 s : Master} {ptr : List (MPOp × List MOut)}
    (h : masterPRun cfg s0 (.op (.init .rtu) :: pops) = .ok (s, ptr)) :
    ∃ served : List (MReq × Nat), served.map Prod.fst <+: accepted (forget ptr) ∧
      (∀ x ∈ served, 1 ≤ x.2 ∧ x.2 ≤ 1 + cfg.repeatMax) ∧
      sends (forget ptr) = served.flatMap fun x => List.replicate x.2 (reqFrame x.1) := by
  obtain ⟨done, cur, queued, ht, -⟩ := C56_transactions_any_schedule hw ho h
  exact transmissions_of ht

/-- C43 at every placement of the interrupts: with bit reads limited to 126 bits no interrupt schedule whatever leads to undefined behaviour. -/
theorem C56_defined_any_schedule {cfg : Config} (hw : cfg.MWF) {pops : List MPOp} (ho : POpsOk pops) (s0 : Master)
    (hbits : ∀ r, MPOp.op (.request r) ∈ pops → IsBitRead r → (reqField r).toNat ≤ 126) :
    ∃ s ptr, masterPRun cfg s0 (.op (.init .rtu) :: pops) = .ok (s, ptr) := by
  obtain ⟨s1, h1, h2⟩ := masterInit_inv hw s0
  have hst : masterStep cfg s0 (.init .rtu) = .ok (s1, []) := by simp only [masterStep, h1, okBind, pureOk]
  rcases masterPRun_inv hw ho h2 with ⟨s', ptr, g, k1, -⟩ | ⟨-, pre, suf, sa, ptr1, g1, sb, e, k1, kp, k2, k3, k4, i, r, c, q1, q2, q3, q4, q5, -⟩
  · refine ⟨s', (.op (.init .rtu), []) :: ptr, ?_⟩
    simp only [masterPRun, masterPStep, hst, okBind, k1, pureOk]
  · exfalso
    obtain ⟨hv, hacc, done, d1, d2, d3, d4⟩ := k3.transactions (Ghost.fresh_valid cfg)
    have hr : r ∈ accepted (forget ptr1) := by
      have : r ∈ done.map Tx.req ++ (g1.tx.map Prod.fst).toList ++ g1.pend := by simp [Ghost.tx, q1]
      rw [← d2] at this
      simpa [Ghost.fresh, Ghost.tx] using this
    have hm := accepted_mem hr
    have hmem : MPOp.op (.request r) ∈ pops := by
      rw [e, ← kp]
      refine List.mem_append_left _ ?_
      obtain ⟨x, hx, hx2⟩ := List.mem_map.1 hm
      obtain ⟨y, hy, rfl⟩ := List.mem_map.1 hx
      obtain ⟨op, out⟩ := y
      cases op with
      | op o => simp only at hx2; subst hx2; exact List.mem_map.2 ⟨_, hy, rfl⟩
      | pollWith ints => cases hx2
    have hqr := hacc r hr
    have := hbits r hmem
    cases r <;> simp only [isRead, IsBitRead, QtyOk, reqField, true_implies, Bool.false_eq_true] at * <;> omega

theorem lostByte_ok : POpsOk (lostByteOps lostByteTail).tail := by
  intro op hop
  have hop : op ∈ [MOp.request (.writeSingleReg 2 1 0x1234), .poll, .txDone, .poll, .t15] ∨ op ∈ lostByteTail := by
    simp only [lostByteOps, List.tail_cons, List.mem_cons, List.mem_map, MPOp.op.injEq, reduceCtorEq, false_or, exists_eq_right] at hop
    simp only [List.mem_cons, List.not_mem_nil, or_false]
    rcases hop with h | h | h | h | h | h <;> simp [h]
  rcases hop with h | h
  · simp only [List.mem_cons, List.not_mem_nil, or_false] at h
    rcases h with rfl | rfl | rfl | rfl | rfl <;> refine ⟨by simp, ?_⟩ <;> intro r e <;> cases e
    exact fun _ => trivial
  · simp only [lostByteTail, List.mem_append, List.mem_map, List.mem_cons, List.not_mem_nil, or_false] at h
    rcases h with ⟨b, -, rfl⟩ | rfl | rfl | rfl | rfl | rfl | rfl | rfl <;> exact ⟨by simp, by simp⟩

/-- Non-vacuity: the racy history of `C56_byte_lost_violated` is one of them. -/
example : ∃ s ptr, masterPRun smallCfg Master.powerOn (lostByteOps lostByteTail) = .ok (s, ptr) ∧
    ∃ done cur queued, Transactions smallCfg.repeatMax (forget ptr) done cur queued := by
  have h := C56_byte_lost_violated.1
  cases hr : masterPRun smallCfg Master.powerOn (lostByteOps lostByteTail) with
  | error e => rw [hr] at h; cases h
  | ok x =>
    obtain ⟨s, ptr⟩ := x
    refine ⟨s, ptr, rfl, ?_⟩
    obtain ⟨done, cur, queued, ht, -⟩ := C56_transactions_any_schedule (cfg := smallCfg) (by constructor <;> decide)
      (pops := (lostByteOps lostByteTail).tail) lostByte_ok hr
    exact ⟨done, cur, queued, ht⟩

end Modbus
