import Verif.Proofs.DriverSession
import Verif.Props.DriverEndToEnd

/-! C65: sessions of a master device. -/

namespace Modbus

open Spec

theorem accepted_append (a b : MTrace) : accepted (a ++ b) = accepted a ++ accepted b := by
  unfold accepted
  rw [List.filterMap_append]

/-- Transactions one after the other. -/
theorem transactions_extend {R : Nat} {t1 t2 : MTrace} {d1 d2 : List Tx} {q1 q2 : List MReq} (h : Transactions R t1 d1 none q1)
    (h1 : q1 ++ accepted t2 = d2.map Tx.req ++ q2) (h2 : outs t2 = d2.flatMap Tx.outs) (h3 : ∀ t ∈ d2, t.Ok R) (h4 : ∀ r ∈ accepted t2, QtyOk r) :
    Transactions R (t1 ++ t2) (d1 ++ d2) none q2 := by
  have a := h.order
  have b := h.output
  simp only [Option.map_none, Option.toList_none, List.append_nil, curOuts] at a b
  refine ⟨?_, ?_, ?_, by simp, ?_⟩
  · rw [accepted_append, a]
    simp only [Option.map_none, Option.toList_none, List.append_nil, List.map_append, List.append_assoc]
    rw [h1]
  · rw [outs_append, b, h2]
    simp [curOuts]
  · intro t ht
    rcases List.mem_append.1 ht with k | k
    · exact h.done_ok t k
    · exact h3 t k
  · intro r hr
    rw [accepted_append] at hr
    rcases List.mem_append.1 hr with k | k
    · exact h.valid r k
    · exact h4 r k

/-- A session, with the bookkeeping. -/
theorem session_run {cfg : Config} (hw : cfg.MWF) {l : List (HRound × Told)} {fe ce fe' ce' : Bool}
    (hl : HSession cfg.respTimeout cfg.repeatMax fe ce l fe' ce') : ∀ {s : MasterSys} {g : Ghost} {rest : List MReq}, MInv cfg s.lib g → g.Valid cfg → g.cur = none →
    Standing fe ce s.lib → g.pend = l.map (fun x => x.1.req) ++ rest →
    MainNoise (l.flatMap fun x => x.1.ops) ∧
    ∃ s' htr txs g', masterSysRun cfg s (l.flatMap fun x => x.1.ops) = .ok (s', htr) ∧ SessionTold l txs ∧ outs (mainTrace htr) = txs.flatMap Tx.outs ∧
      Standing fe' ce' s'.lib ∧ MInv cfg s'.lib g' ∧ g'.Valid cfg ∧ g'.cur = none ∧ g'.pend = rest ++ accepted (mainTrace htr) ∧
      (∀ r ∈ accepted (mainTrace htr), QtyOk r) ∧ ∀ t ∈ txs, t.Ok cfg.repeatMax := by
  induction hl with
  | nil fe ce =>
    intro s g rest hi hv hc hs hp
    refine ⟨(fun x hx => by cases hx), s, [], [], g, rfl, .nil, rfl, hs, hi, hv, hc, ?_, (fun r hr => by cases hr), (fun t ht => by cases ht)⟩
    rw [hp]
    exact (List.append_nil _).symm
  | @cons fe ce fe1 ce1 fe2 ce2 d x l hd hl ih =>
    intro s g rest hi hv hc hs hp
    obtain ⟨hn, s1, t1, g1, evs, q⟩ := round_done hw hi hv hc hs hd (rest := l.map (fun x => x.1.req) ++ rest) hp
    obtain ⟨hn2, s2, t2, txs, g2, a1, a2, a3, a4, a5, a6, a7, a8, a9, a10⟩ := ih (rest := rest ++ accepted (mainTrace t1)) q.inv q.valid q.idle q.standing
      (by rw [q.pend, List.append_assoc])
    refine ⟨hn.append hn2, s2, t1 ++ t2, { req := d.req, count := d.fails.length + 1, evs := evs } :: txs, g2, sysM_append _ q.run a1,
      .cons rfl rfl q.says a2, ?_, a4, a5, a6, a7, ?_, ?_, ?_⟩
    · rw [mainTrace_append, outs_append, q.outs, a3]
      rfl
    · rw [a8, mainTrace_append, accepted_append, List.append_assoc]
    · intro r hr
      rw [mainTrace_append, accepted_append] at hr
      rcases List.mem_append.1 hr with k | k
      · exact q.acc r k
      · exact a9 r k
    · intro t ht
      rcases List.mem_cons.1 ht with rfl | k
      · exact q.ok
      · exact a10 t k

/-- The frame an output transmits. -/
def sendOf : MOut → Option (List U8)
  | .send b => some b
  | _ => none

theorem sends_tx (t : Tx) : t.outs.filterMap sendOf = List.replicate t.count (reqFrame t.req) := by
  unfold Tx.outs
  rw [List.filterMap_append]
  have h1 : ∀ n f, (List.replicate n (MOut.send f)).filterMap sendOf = List.replicate n f := by
    intro n f
    induction n with
    | zero => rfl
    | succ n ih => rw [List.replicate_succ, List.replicate_succ, ← ih]; rfl
  have h2 : ∀ evs : List MEvent, (evs.map MOut.event).filterMap sendOf = [] := by
    intro evs
    induction evs with
    | nil => rfl
    | cons e evs ih => exact ih
  rw [h1, h2, List.append_nil]

theorem sends_txs {tr : MTrace} {txs : List Tx} (h : outs tr = txs.flatMap Tx.outs) :
    sends tr = txs.flatMap fun t => List.replicate t.count (reqFrame t.req) := by
  have e : sends tr = (outs tr).filterMap sendOf := by
    rw [sends_outs]
    congr 1
  rw [e, h]
  clear h e
  induction txs with
  | nil => rfl
  | cons t ts ih => rw [List.flatMap_cons, List.flatMap_cons, List.filterMap_append, ih, sends_tx]

/-- **C65.** In any history of an initialised master device that has come to rest with no event pending (but possibly an error left over), read as a
sequence of transactions with `queued` the accepted requests not yet served: let the first `n` of them be attempted one after the other, each attempt
going as the schedules allow (requests, ticks, polls, transmit interrupts, frames of other slaves, gaps, wrong CRCs, silence in any combination; further
requests at any time). Then the device serves exactly these `n` requests, in the order of acceptance: for each it puts the request's frame on the
line, complete and unaltered, once per attempt, and tells the application what the attempts came to (the values of the good response; a
communication error of the right kind after `R + 1` failures; a timeout); nothing else is put on the line or told; and the remaining requests,
followed by those accepted meanwhile, are queued for the next session. -/
theorem C65_session {cfg : Config} (hw : cfg.MWF) {ops : List HMOp} (hl : ∀ op ∈ ops, op.legal) {s : MasterSys} {htr : HMTrace}
    (h : masterSysRun cfg MasterSys.powerOn (.main (.init .rtu) :: ops) = .ok (s, htr)) {fe ce : Bool} (hs : Standing fe ce s.lib) :
    ∃ done queued, Transactions cfg.repeatMax (mainTrace htr) done none queued ∧
      ∀ {l : List (HRound × Told)} {fe' ce' : Bool}, HSession cfg.respTimeout cfg.repeatMax fe ce l fe' ce' →
        (l.map fun x => x.1.req) <+: queued →
        ∃ s' htr' txs, masterSysRun cfg s (l.flatMap fun x => x.1.ops) = .ok (s', htr') ∧ SessionTold l txs ∧
          outs (mainTrace htr') = txs.flatMap Tx.outs ∧
          mwire htr' = (txs.flatMap fun t => List.replicate t.count (reqFrame t.req)).flatten ∧
          Standing fe' ce' s'.lib ∧
          Transactions cfg.repeatMax (mainTrace (htr ++ htr')) (done ++ txs) none (queued.drop l.length ++ accepted (mainTrace htr')) := by
  have h0 := h
  obtain ⟨l0, h1, h2, h3⟩ := sysInit_ok hw MasterSys.powerOn
  simp only [masterSysRun, h1, ok_bind] at h
  obtain ⟨⟨s2, t2⟩, h4, h⟩ := bind_ok h
  cases h
  obtain ⟨g, a1, a2, a3, done, d1, d2, d3⟩ := device_grun (s := { MasterSys.powerOn with lib := l0, gap := false }) hw hl h2 (Ghost.fresh_valid cfg) h4
  have hc := a1.idle_iff.1 hs.st
  have ht : g.tx = none := by simp [Ghost.tx, hc]
  have hT : Transactions cfg.repeatMax (mainTrace ((.main (.init .rtu), []) :: t2)) done none g.pend := by
    rw [ht] at d2 d3
    refine ⟨?_, ?_, d1, by simp, ?_⟩
    · show accepted (mainTrace t2) = _
      simpa [Ghost.fresh, Ghost.tx] using d2
    · show outs (mainTrace t2) = _
      simpa [Ghost.fresh, Ghost.tx, curOuts] using d3
    · exact a3
  refine ⟨done, g.pend, hT, ?_⟩
  intro l fe' ce' hsess ⟨rest, hpre⟩
  obtain ⟨hn, s', htr', txs, g', b1, b2, b3, b4, b5, b6, b7, b8, b9, b10⟩ := session_run hw hsess a1 a2 hc hs hpre.symm
  have hline := line_of_frames hw hl h0 hs.st (legal_of hn) b1 b4.st
  refine ⟨s', htr', txs, b1, b2, b3, ?_, b4, ?_⟩
  · rw [hline]
    exact congrArg List.flatten (sends_txs b3)
  · rw [mainTrace_append]
    have hreq : txs.map Tx.req = l.map fun x => x.1.req := by
      clear hpre b3 b10 hsess hn b1
      induction b2 with
      | nil => rfl
      | cons hr _ _ _ ih => rw [List.map_cons, List.map_cons, hr, ih]
    have hdrop : g.pend.drop l.length = rest := by
      rw [← hpre]
      exact List.drop_left' (by simp)
    rw [hdrop]
    refine transactions_extend hT ?_ b3 b10 b9
    rw [hreq, ← hpre, List.append_assoc]

/-! ### Non-vacuity -/

/-- After initialisation and any calls of the main program other than polls, the session can serve the accepted requests. -/
theorem session_from_init {cfg : Config} (hw : cfg.MWF) {ops : List MOp} (ho : ∀ op ∈ ops, op.quiet) :
    ∃ s htr, masterSysRun cfg MasterSys.powerOn (.main (.init .rtu) :: ops.map .main) = .ok (s, htr) ∧
      ∀ {l : List (HRound × Told)} {fe' ce' : Bool}, HSession cfg.respTimeout cfg.repeatMax false false l fe' ce' →
        (l.map fun x => x.1.req) <+: accepted (mainTrace htr) →
        ∃ s' htr' txs, masterSysRun cfg s (l.flatMap fun x => x.1.ops) = .ok (s', htr') ∧ SessionTold l txs ∧
          outs (mainTrace htr') = txs.flatMap Tx.outs ∧
          mwire htr' = (txs.flatMap fun t => List.replicate t.count (reqFrame t.req)).flatten := by
  obtain ⟨l0, h1, h2, h3⟩ := sysInit_ok hw MasterSys.powerOn
  obtain ⟨sa, k1, k2⟩ := standing_init hw Master.powerOn
  simp only [masterRun, show masterStep cfg Master.powerOn (.init .rtu) = .ok (l0, []) from h3, ok_bind, pure_eq, Except.ok.injEq, Prod.mk.injEq] at k1
  obtain ⟨rfl, -⟩ := k1
  obtain ⟨s1, t1, a1, a2, a3⟩ := before_run (s := { MasterSys.powerOn with lib := l0, gap := false }) hw ops ho h2 k2
  have hrun : masterSysRun cfg MasterSys.powerOn (.main (.init .rtu) :: ops.map .main) = .ok (s1, (.main (.init .rtu), []) :: t1) := by
    simp only [masterSysRun, h1, ok_bind, a1, pure_eq]
  obtain ⟨done, queued, b1, b2⟩ := C65_session hw (legal_of (mainNoise_before ho)) hrun a3
  refine ⟨s1, _, hrun, fun hs hp => ?_⟩
  have hd : done = [] := by
    refine done_nil b1.done_ok ?_
    have := b1.output
    simp only [curOuts, List.append_nil] at this
    rw [← this]
    exact a2
  subst hd
  have hq : accepted (mainTrace ((HMOp.main (.init .rtu), []) :: t1)) = queued := by simpa using b1.order
  obtain ⟨s', htr', txs, c1, c2, c3, c4, -⟩ := b2 hs (hq ▸ hp)
  exact ⟨s', htr', txs, c1, c2, c3, c4⟩

/-- The requests accepted in a run. -/
def acceptedOf (r : C (MasterSys × HMTrace)) : List MReq :=
  match r with
  | .ok x => accepted (mainTrace x.2)
  | .error _ => []

/-- Nobody answers. -/
def silentHA (T : Nat) (r : MReq) : HTimeout :=
  { tx := List.replicate ((reqFrame r).length - 1) (.usart none true), w2 := [], others := [], w3 := List.replicate (T - 2) (.main .tick) ++ [.main .poll], w4 := [] }

theorem silentHA_wf {T : Nat} (hT : 2 ≤ T) (r : MReq) : (silentHA T r).Wf T r := by
  refine { tx := ?_, txIrqs := ?_, w2 := ?_, others := ?_, w3 := ?_, w4 := ?_, room := ?_, time := ?_ }
  · intro op ho
    rw [(List.mem_replicate.mp ho).2]; trivial
  · have := reqFrame_pos r
    show List.count _ (List.replicate _ _) + 1 = _
    rw [List.count_replicate_self]; omega
  · intro op ho; cases ho
  · intro op ho; cases ho
  · intro op ho
    rcases List.mem_append.1 ho with ho | ho
    · rw [(List.mem_replicate.mp ho).2]; trivial
    · rw [List.mem_singleton.1 ho]; trivial
  · intro op ho; cases ho
  · have : ∀ n, hmBytes (List.replicate n (HMOp.main .tick) ++ [.main .poll]) = [] := by
      intro n
      induction n with
      | zero => rfl
      | succ n ih => exact ih
    show (hmBytes (List.replicate (T - 2) (HMOp.main .tick) ++ [.main .poll])).length + 0 ≤ 255
    rw [this]; exact Nat.zero_le _
  · show 0 + hmTicks (List.replicate (T - 2) (HMOp.main .tick) ++ [.main .poll]) + 2 = T
    unfold hmTicks
    rw [List.count_append, List.count_replicate_self]
    show 0 + (T - 2 + 0) + 2 = T
    omega

/-- A request answered after one attempt with a gap. -/
def sampleRound1 : HRound :=
  HRound.mk (.readHoldingReg 7 1 9) [.tick] [gapHA (.readHoldingReg 7 1 9) [9, 3, 2] ((rtuFrame 9 [3, 2, 0xAA, 0xBB]).drop 3)]
    (.answer (simpleHA (.readHoldingReg 7 1 9) (rtuFrame 9 [3, 2, 0xAA, 0xBB])))

/-- A request that nobody answers. -/
def sampleRound2 : HRound := HRound.mk (.writeSingleCoil 5 8 true) [] [] (.silence (silentHA 3 (.writeSingleCoil 5 8 true)))

/-- A request with a wrong CRC in the response of both attempts. -/
def sampleRound3 : HRound :=
  HRound.mk (.readHoldingReg 0 1 7) [] [simpleHA (.readHoldingReg 0 1 7) [7, 3, 2, 0, 0, 0, 0]]
    (.answer (simpleHA (.readHoldingReg 0 1 7) [7, 3, 2, 0, 0, 0, 1]))

/-- A session of three transactions. -/
def sampleSession : List (HRound × Told) :=
  [(sampleRound1, .response (simpleHA (.readHoldingReg 7 1 9) (rtuFrame 9 [3, 2, 0xAA, 0xBB])).resp.frame), (sampleRound2, .nothing),
    (sampleRound3, .failed .crc)]

/-- A configuration with three buffers. -/
def threeCfg : Config := { smallCfg with queueItems := 3 }

theorem threeCfg_wf : threeCfg.MWF := ⟨by decide, by decide, by decide⟩

theorem sampleSession_ok : HSession threeCfg.respTimeout threeCfg.repeatMax false false sampleSession false true := by
  have hT : 2 ≤ threeCfg.respTimeout := by decide
  have hc1 : CrcCorrect (gapHA (.readHoldingReg 7 1 9) [9, 3, 2] ((rtuFrame 9 [3, 2, 0xAA, 0xBB]).drop 3)).resp.frame :=
    (crc16_eq_zero_iff _).1 (by decide +kernel)
  have hc2 : ¬ CrcCorrect [(7 : U8), 3, 2, 0, 0, 0, 0] := fun h => absurd ((crc16_eq_zero_iff _).2 h) (by decide +kernel)
  have hc3 : ¬ CrcCorrect [(7 : U8), 3, 2, 0, 0, 0, 1] := fun h => absurd ((crc16_eq_zero_iff _).2 h) (by decide +kernel)
  refine .cons (fe1 := false) (ce1 := false) (.answered ?_ ?_ (by decide) rfl ?_ (simpleHA_gapped _ _) ?_) (.cons (fe1 := false) (ce1 := false)
    (.timedOut (fe1 := false) (d := sampleRound2) (fun op ho => nomatch ho) (.nil _ _) (Nat.zero_le _) rfl (silentHA_wf (T := 3) (by decide) _) ?_)
    (.cons (.gaveUp (R := threeCfg.repeatMax) (fe := false) (ce := false) (fe2 := false) (ce2 := true) (d := sampleRound3) (fe1 := false) (ce1 := false) (fun op ho => nomatch ho) ?_ (by decide) rfl ?_ ?_ ?_ (.inr rfl)) (.nil _ _)))
  · intro op ho
    rw [List.mem_singleton.1 ho]
    exact ⟨trivial, by simp⟩
  · refine .frame (ce1 := false) (gapHA_wf hT (by simp) (by decide +kernel) (by decide +kernel)) (.inr (by decide +kernel)) ?_ (.nil _ _)
    simp only [Bool.false_eq_true, false_or, false_iff, Classical.not_not]
    exact hc1
  · exact simpleHA_wf hT (by simp [rtuFrame]) (by decide +kernel) (by decide +kernel)
  · rw [simpleHA_frame]
    exact ⟨(crc16_eq_zero_iff _).1 (by decide +kernel), by decide +kernel, .inr (by decide +kernel), by decide +kernel, by decide +kernel⟩
  · simp only [Bool.false_eq_true, false_or, false_iff]
    exact by decide +kernel
  · refine .crc (simpleHA_wf hT (by simp) (by decide) (by decide)) (simpleHA_gapped _ _) (.inr ?_) (.nil _ _)
    rw [simpleHA_frame]
    exact hc2
  · exact simpleHA_wf hT (by simp) (by decide) (by decide)
  · rw [simpleHA_gapped]; simp
  · rw [simpleHA_frame]
    simp only [true_iff]
    exact .inr hc3

/-- The hypotheses of C65 are met: the line carries the first request twice, the second once, the third twice. -/
example : ∃ s htr s' htr', masterSysRun threeCfg MasterSys.powerOn [.main (.init .rtu), .main (.request (.readHoldingReg 7 1 9)),
      .main (.request (.writeSingleCoil 5 8 true)), .main (.request (.readHoldingReg 0 1 7))] = .ok (s, htr) ∧
    masterSysRun threeCfg s (sampleSession.flatMap fun x => x.1.ops) = .ok (s', htr') ∧
    mwire htr' = reqFrame (.readHoldingReg 7 1 9) ++ reqFrame (.readHoldingReg 7 1 9) ++ reqFrame (.writeSingleCoil 5 8 true) ++
      reqFrame (.readHoldingReg 0 1 7) ++ reqFrame (.readHoldingReg 0 1 7) := by
  obtain ⟨s, htr, h1, h2⟩ := session_from_init threeCfg_wf
    (ops := [.request (.readHoldingReg 7 1 9), .request (.writeSingleCoil 5 8 true), .request (.readHoldingReg 0 1 7)]) (by
      intro op ho
      simp only [List.mem_cons, List.not_mem_nil, or_false] at ho
      rcases ho with rfl | rfl | rfl
      · exact ⟨fun _ => trivial, by simp⟩
      · exact ⟨fun _ => trivial, by simp⟩
      · exact ⟨fun _ => trivial, by simp⟩)
  have hacc : accepted (mainTrace htr) = [.readHoldingReg 7 1 9, .writeSingleCoil 5 8 true, .readHoldingReg 0 1 7] := by
    have e : acceptedOf (masterSysRun threeCfg MasterSys.powerOn [.main (.init .rtu), .main (.request (.readHoldingReg 7 1 9)),
      .main (.request (.writeSingleCoil 5 8 true)), .main (.request (.readHoldingReg 0 1 7))]) =
        [.readHoldingReg 7 1 9, .writeSingleCoil 5 8 true, .readHoldingReg 0 1 7] := by decide +kernel
    rw [← e]
    exact (congrArg acceptedOf h1).symm
  obtain ⟨s', htr', txs, k1, k2, k3, k4⟩ := h2 sampleSession_ok (by rw [hacc]; exact List.prefix_refl _)
  refine ⟨s, htr, s', htr', h1, k1, ?_⟩
  rw [k4]
  clear k1 k3 k4
  cases k2 with
  | cons hr1 hc1 he1 k2 =>
    cases k2 with
    | cons hr2 hc2 he2 k2 =>
      cases k2 with
      | cons hr3 hc3 he3 k2 =>
        cases k2
        simp only [List.flatMap_cons, List.flatMap_nil, hr1, hc1, hr2, hc2, hr3, hc3, sampleRound1, sampleRound2, sampleRound3, List.length_cons, List.length_nil, List.append_nil,
          List.replicate_succ, List.replicate_zero, List.flatten_append, List.flatten_cons, List.flatten_nil, List.append_assoc]

end Modbus
