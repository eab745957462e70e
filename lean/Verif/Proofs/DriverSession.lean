import Verif.Props.DriverTransaction

/-! Sessions of a master device: proofs. -/

namespace Modbus

open Spec

/-- The library up to the poll that reports a timeout. -/
theorem silence_run {cfg : Config} (hw : cfg.MWF) {i : Nat} {r : MReq} {c0 : U8} {fe ce : Flag} {s : Master} {g : Ghost}
    (hi : MInv cfg s g) (h : P1 i r c0 fe ce .cleared s) {w1 w2 w3 w4 : List MOp} {others : List Heard}
    (h1 : ∀ op ∈ w1, op.noise) (h2 : ∀ op ∈ w2, op.quiet)
    (hoth : ∀ x ∈ others, x.Wf ∧ x.frame.getD 0 0 ≠ reqSlave r)
    (h3 : ∀ op ∈ w3, op.rxNoise) (h4 : ∀ op ∈ w4, op.rxNoise ∧ op ≠ .poll ∧ op ≠ .tick)
    (hbytes : (mBytes w3).length + (mBytes w4).length ≤ 255)
    (ht : (others.map Heard.ticks).sum + tickCount w3 + 2 = cfg.respTimeout) :
    ∃ s' tr g' k f, masterRun cfg s (sendOps w1 w2 ++ others.flatMap Heard.ops ++ w3 ++ .tick :: w4) = .ok (s', tr) ∧ outs tr = [] ∧
      MInv cfg s' g' ∧ P3 cfg i r c0 (feAfter fe (others.flatMap Heard.ops ++ w3 ++ .tick :: w4)) ce k f s' ∧ k + 1 = cfg.respTimeout := by
  obtain ⟨s2, t2, g2, b1, b2, b3, b4⟩ := run_to_wait hw hi h h1 h2
  obtain ⟨s3, t3, g3, c1, c2, c3, c4⟩ := heard_others hw others b3 b4 hoth (by omega)
  obtain ⟨s4, t4, g4, d1, d2, d3, d4⟩ := phase3 hw c3 c4 w3 h3 (by omega) (by rw [List.nil_append]; omega)
  have hm : mBytes (MOp.tick :: w4) = mBytes w4 := rfl
  obtain ⟨s5, t5, g5, e1, e2, e3, e4⟩ := phase3_nopoll hw d3 d4 (.tick :: w4) (by
    intro op hop
    rcases List.mem_cons.1 hop with rfl | k
    · exact ⟨.inl trivial, by simp⟩
    · exact ⟨(h4 op k).1, (h4 op k).2.1⟩) (by rw [hm, List.nil_append, List.length_append]; omega)
  have hw4 : tickCount w4 = 0 := by
    unfold tickCount
    rw [List.countP_eq_zero]
    intro op hop
    simpa using (h4 op hop).2.2
  have htk : tickCount (MOp.tick :: w4) = 1 := by
    rw [show MOp.tick :: w4 = [MOp.tick] ++ w4 from rfl, tickCount_append, hw4]; rfl
  rw [← feAfter_append, ← feAfter_append, htk, ← List.append_assoc] at e4
  refine ⟨s5, t2 ++ t3 ++ t4 ++ t5, g5, _, _, run_seq (run_seq (run_seq b1 c1) d1) e1, ?_, e3, e4, by omega⟩
  simp only [outs_append, b2, c2, d2, e2]; rfl

/-- Simulation of the transmission and whatever follows it. -/
theorem sim_send {cfg : Config} {n : Nat} {tx rest : List HMOp} (htx : ∀ op ∈ tx, op.noise) (hirq : tx.count (.usart none true) + 1 = n)
    (hplain : ∀ op ∈ rest, op.plain) {s : MasterSys} {l : Master} {tr : MTrace}
    (hc : s.cur = 0) (hl : s.last + 1 = n) (hlt : s.last < 256) (hg : s.gap = false) (hr : s.rtof = false) (hd : s.lib.drv = true)
    (h : masterRun cfg s.lib (libOps false false tx ++ .txDone :: libOps false false rest) = .ok (l, tr)) (hn : NoSend tr) :
    ∃ s' htr, masterSysRun cfg s (tx ++ .usart none true :: rest) = .ok (s', htr) ∧ s'.lib = l ∧ Calm s' ∧
      s'.gap = gapAfter false false rest ∧ s'.rtof = silent false rest ∧ mainTrace htr = tr.filter fun x => x.1.isMain := by
  obtain ⟨l1, t1, t2, q1, q2, rfl, n1, n2⟩ := run_app_inv h hn
  obtain ⟨s1, h1, a1, a2, a3, a4, a5, a6, a7⟩ := sim_tx tx hr hlt (by omega) htx (by rw [hg]; exact q1) n1
  obtain ⟨l2, o2, t3, q3, q4, rfl⟩ := run_cons_inv q2
  rw [← a2] at q3
  obtain ⟨b1, b2, rfl⟩ := sim_txDone a5 a3 (by rw [a2, a6]; exact hd) q3
  obtain ⟨s3, h3, c1, c2, c3, c5, c6, c4⟩ := sim_calm rest b2 hplain (by rw [a4, hg, a5]; exact q4)
    (fun x hx => n2 x (List.mem_cons_of_mem _ hx))
  simp only [a4, hg, a5] at c5 c6
  refine ⟨s3, h1 ++ ([(.usart none true, [])] ++ h3), ?_, c2, c3, c5, c6, ?_⟩
  · have := sysM_append _ a1 (sysM_append _ (sysM_one b1) c1)
    rw [← this]
    rfl
  · rw [mainTrace_append, mainTrace_append, a7, c4, List.filter_append, List.filter_cons_of_neg (by simp [MOp.isMain])]
    rfl

theorem HTimeout.mainNoise {T : Nat} {r : MReq} {t : HTimeout} (h : t.Wf T r) : MainNoise t.init := by
  intro x hx
  simp only [HTimeout.init, HTimeout.line, List.mem_append, List.mem_cons, List.mem_flatMap, reduceCtorEq, false_or, HMOp.main.injEq] at hx
  rcases hx with (k | k) | rfl | (⟨y, k1, k2⟩ | k) | rfl | k
  · exact h.tx _ k
  · exact (h.w2 _ k).1
  · trivial
  · exact HMHeard.mainNoise (h.others y k1).1 x k2
  · exact h.w3 _ k
  · trivial
  · exact (h.w4 _ k).1

theorem mem_libOps_main {ops : List HMOp} {x : MOp} {g p : Bool} (h : x ∈ libOps g p ops) (hx : x.isMain = true) : .main x ∈ ops := by
  rcases mem_libOps h with k | ⟨⟨b, rfl⟩ | rfl, -⟩ | ⟨rfl, -⟩ | ⟨rfl, -⟩
  · exact k
  all_goals cases hx

theorem libOps_rxNoise {l : List HMOp} (h : ∀ op ∈ l, op.rxNoise) (g : Bool) : ∀ op ∈ libOps g false l, op.rxNoise := by
  intro op ho
  rcases mem_libOps ho with k | ⟨k | k, -⟩ | ⟨k, -⟩ | ⟨-, k | k⟩
  · exact .inl (h _ k)
  · exact .inr (.inl k)
  · exact .inr (.inr (.inr k))
  · exact .inr (.inr (.inl k))
  · cases k
  · exact (h _ k).elim

/-- An unanswered attempt of a device up to the last poll. -/
theorem device_silence {cfg : Config} (hw : cfg.MWF) {i : Nat} {r : MReq} {c0 : U8} {fe ce : Flag} {s : MasterSys} {g : Ghost}
    (hi : MInv cfg s.lib g) (h : D1 i r c0 fe ce s) {t : HTimeout} (ht : t.Wf cfg.respTimeout r) :
    ∃ s' htr g' k f, masterSysRun cfg s t.init = .ok (s', htr) ∧ outs (mainTrace htr) = [] ∧ MInv cfg s'.lib g' ∧
      P3 cfg i r c0 (if t.gapped then .set else fe) ce k f s'.lib ∧ k + 1 = cfg.respTimeout := by
  have o1 := libOthers_ops (fun h hh => (ht.others h hh).1) false
  have hs3 := silent_rx ht.w3
  have hn4 : ∀ op ∈ t.w4, op.rxNoise := fun op ho => (ht.w4 op ho).1
  -- the library's view
  obtain ⟨gx, hgx⟩ : ∃ gx, gx = gapAfter false false (t.others.flatMap HMHeard.ops) := ⟨_, rfl⟩
  obtain ⟨gy, hgy⟩ : ∃ gy, gy = gapAfter gx false t.w3 := ⟨_, rfl⟩
  have hline : libOps false false t.line = (libOthers false t.others).flatMap Heard.ops ++ libOps gx false t.w3 ++ .tick :: libOps gy false t.w4 := by
    unfold HTimeout.line
    simp only [libOps_append, silent_append, gapAfter_append, o1.1, o1.2, hs3, libOps, ← hgx, ← hgy]
  have hplain : ∀ op ∈ t.w2 ++ .main .poll :: t.line, op.plain := by
    intro op ho
    simp only [HTimeout.line, List.mem_append, List.mem_cons, List.mem_flatMap] at ho
    rcases ho with k | rfl | (⟨x, k1, k2⟩ | k) | rfl | k
    · exact (ht.w2 op k).noise.rxNoise.plain
    · exact ⟨rfl, by simp⟩
    · exact (ht.others x k1).1.plain op k2
    · exact (ht.w3 op k).plain
    · exact ⟨rfl, by simp⟩
    · exact (ht.w4 op k).1.plain
  have hrest : libOps false false (t.w2 ++ .main .poll :: t.line) = libOps false false t.w2 ++ .poll :: libOps false false t.line := by
    have c1 := gapAfter_noise (fun op ho => (ht.w2 op ho).noise) false
    have c2 := silent_rx fun op ho => (ht.w2 op ho).noise.rxNoise
    simp only [libOps_append, libOps, c1, c2]
  obtain ⟨l, tr, g', k, f, a1, a2, a3, a4, a5⟩ := silence_run hw hi h.lib (w1 := libOps false false t.tx) (w2 := libOps false false t.w2)
    (w3 := libOps gx false t.w3) (w4 := libOps gy false t.w4) (others := libOthers false t.others)
    (libOps_noise ht.tx) (libOps_quiet ht.w2) (libOthers_wf (P := fun f => f.getD 0 0 ≠ reqSlave r) ht.others _)
    (libOps_rxNoise ht.w3 _) (fun op ho => ⟨libOps_rxNoise hn4 _ op ho, fun e => (ht.w4 _ (mem_libOps_main (e ▸ ho) rfl)).2.1 rfl,
      fun e => (ht.w4 _ (mem_libOps_main (e ▸ ho) rfl)).2.2 rfl⟩)
    (by rw [libOps_bytes (mainNoise_rx ht.w3), libOps_bytes (mainNoise_rx hn4)]; exact ht.room)
    (by rw [libOthers_ticks, libOps_ticks]; exact ht.time)
  have a1' : masterRun cfg s.lib (libOps false false t.tx ++ .txDone :: libOps false false (t.w2 ++ .main .poll :: t.line)) = .ok (l, tr) := by
    rw [hrest, hline, ← a1]
    simp [sendOps]
  obtain ⟨s', htr, q1, q2, q3, -, -, q4⟩ := sim_send ht.tx ht.txIrqs hplain h.cur h.last h.lt h.gap h.rtof hi.drv a1' (noSend_of_outs a2)
  refine ⟨s', htr, g', k, f, by rw [← q1]; simp [HTimeout.init], by rw [q4]; exact outs_filter_nil a2, by rw [q2]; exact a3, ?_, a5⟩
  rw [q2]
  have hb : .frameErr ∈ libOps false false t.line ↔ t.gapped = true := by
    refine libOps_frameErr ?_ false false
    intro x hx
    refine HTimeout.mainNoise ht x ?_
    simp only [HTimeout.init, List.mem_append, List.mem_cons]
    exact .inr (.inr hx)
  rw [← hline] at a4
  have e : feAfter fe (libOps false false t.line) = if t.gapped then .set else fe := by
    unfold feAfter
    by_cases hg : t.gapped = true
    · rw [if_pos hg, if_pos (hb.2 hg)]
    · rw [if_neg hg, if_neg fun k => hg (hb.1 k)]
  rw [e] at a4
  exact a4

/-! ### Which request is served -/

/-- The history of the library in a device. -/
theorem device_refines {cfg : Config} {ops : List HMOp} (hl : ∀ op ∈ ops, op.legal) {s s' : MasterSys} {htr : HMTrace}
    (h : masterSysRun cfg s ops = .ok (s', htr)) :
    ∃ mops tr, OpsOk mops ∧ masterRun cfg s.lib mops = .ok (s'.lib, tr) ∧ accepted tr = accepted (mainTrace htr) ∧ outs tr = outs (mainTrace htr) := by
  obtain ⟨m, t, r⟩ := sysRun_refines (fun op ho => (hl op ho).proper) h
  refine ⟨m, t, ?_, r.run, r.accepted, by unfold outs; rw [r.flat]⟩
  intro op ho
  by_cases hm : op.isMain = true
  · have hmem : op ∈ (t.filter fun x => x.1.isMain).map Prod.fst := by
      have := masterRun_ops r.run
      rw [← this] at ho
      obtain ⟨x, hx, rfl⟩ := List.mem_map.1 ho
      exact List.mem_map.2 ⟨x, List.mem_filter.2 ⟨hx, hm⟩, rfl⟩
    rw [r.main] at hmem
    obtain ⟨x, hx, rfl⟩ := List.mem_map.1 hmem
    obtain ⟨y, hy, hxy⟩ := List.mem_filterMap.1 hx
    have hy' : y.1 ∈ ops := by rw [← mainTrace_ops h]; exact List.mem_map.2 ⟨y, hy, rfl⟩
    have hle := hl _ hy'
    revert hxy
    cases hy1 : y.1 with
    | main op' =>
      intro hxy
      obtain rfl := Option.some.inj hxy
      rw [hy1] at hle
      cases op' <;> first | exact hle.elim | exact ⟨by simp, hle.2⟩
    | _ => intro hxy; cases hxy
  · refine ⟨?_, ?_⟩
    · rintro m rfl; exact hm rfl
    · rintro r rfl; exact absurd rfl hm

/-- The bookkeeping of a device. -/
theorem device_grun {cfg : Config} (hw : cfg.MWF) {ops : List HMOp} (hl : ∀ op ∈ ops, op.legal) {s s' : MasterSys} {htr : HMTrace} {g : Ghost}
    (hi : MInv cfg s.lib g) (hv : g.Valid cfg) (h : masterSysRun cfg s ops = .ok (s', htr)) :
    ∃ g', MInv cfg s'.lib g' ∧ g'.Valid cfg ∧ (∀ r ∈ accepted (mainTrace htr), QtyOk r) ∧ ∃ done : List Tx, (∀ t ∈ done, t.Ok cfg.repeatMax) ∧
      (g.tx.map Prod.fst).toList ++ g.pend ++ accepted (mainTrace htr) = done.map Tx.req ++ (g'.tx.map Prod.fst).toList ++ g'.pend ∧
      curOuts g.tx ++ outs (mainTrace htr) = done.flatMap Tx.outs ++ curOuts g'.tx := by
  obtain ⟨m, t, a1, a2, a3, a4⟩ := device_refines hl h
  obtain ⟨g', b1, b2⟩ := masterRun_ok hw a1 hi a2
  obtain ⟨c1, c2, done, d1, d2, d3, -⟩ := b2.transactions hv
  exact ⟨g', b1, c1, by rw [← a3]; exact c2, done, d1, by rw [← a3]; exact d2, by rw [← a4]; exact d3⟩

theorem tx_outs_pos {R : Nat} {t : Tx} (h : t.Ok R) : 1 ≤ t.outs.length := by
  unfold Tx.outs
  rw [List.length_append, List.length_replicate]
  have := h.1
  omega

theorem done_nil {R : Nat} {done : List Tx} (h : ∀ t ∈ done, t.Ok R) (h0 : done.flatMap Tx.outs = []) : done = [] := by
  cases done with
  | nil => rfl
  | cons t ts =>
    have h1 := tx_outs_pos (h t (List.mem_cons_self ..))
    rw [List.flatMap_cons] at h0
    have := congrArg List.length h0
    rw [List.length_append] at this
    simp only [List.length_nil] at this
    omega

/-- A finished transaction. -/
theorem Finish.ok {cfg : Config} {r : MReq} {c : Nat} {evs : List MEvent} (hf : Finish cfg r c evs) (hq : QtyOk r) (h1 : 1 ≤ c) (h2 : c ≤ 1 + cfg.repeatMax) :
    Tx.Ok cfg.repeatMax { req := r, count := c, evs := evs } := by
  refine ⟨h1, h2, ?_⟩
  cases hf with
  | timeout fc => exact .inr ⟨_, rfl, rfl, by simp [isCommReport]⟩
  | comm slave fc e hc he => exact .inr ⟨_, rfl, rfl, fun _ => by show c = _; omega⟩
  | answered m evs hm he => exact .inl (respEvents_noerr hm hq he)

/-- Nothing is put out while idle: the queue only grows. -/
theorem idle_ghost {cfg : Config} (hw : cfg.MWF) {ops : List HMOp} (hl : ∀ op ∈ ops, op.legal) {s s' : MasterSys} {htr : HMTrace} {g : Ghost}
    (hi : MInv cfg s.lib g) (hv : g.Valid cfg) (hc : g.cur = none) (h : masterSysRun cfg s ops = .ok (s', htr)) (ho : outs (mainTrace htr) = [])
    (hs : s'.lib.st = .idle) :
    ∃ g', MInv cfg s'.lib g' ∧ g'.Valid cfg ∧ g'.cur = none ∧ g'.pend = g.pend ++ accepted (mainTrace htr) ∧ (∀ r ∈ accepted (mainTrace htr), QtyOk r) := by
  obtain ⟨g', a1, a2, a3, done, d1, d2, d3⟩ := device_grun hw hl hi hv h
  have hc' := a1.idle_iff.1 hs
  have ht : g.tx = none := by simp [Ghost.tx, hc]
  have ht' : g'.tx = none := by simp [Ghost.tx, hc']
  rw [ht, ht', ho] at d3
  have := done_nil d1 (by simpa [curOuts] using d3.symm)
  subst this
  rw [ht, ht'] at d2
  exact ⟨g', a1, a2, hc', by simpa using d2.symm, a3⟩

/-- A transaction serves the first request of the queue. -/
theorem round_ghost {cfg : Config} (hw : cfg.MWF) {ops : List HMOp} (hl : ∀ op ∈ ops, op.legal) {s s' : MasterSys} {htr : HMTrace} {g : Ghost}
    (hi : MInv cfg s.lib g) (hv : g.Valid cfg) (hc : g.cur = none) {r : MReq} {rest : List MReq} (hp : g.pend = r :: rest)
    (h : masterSysRun cfg s ops = .ok (s', htr)) {k : Nat} {f : List U8} (ho : outs (mainTrace htr) = List.replicate (k + 1) (.send f))
    (hs : s'.lib.st = .waiting ∨ s'.lib.st = .received) (hk : s'.lib.repeatCnt.toNat = k) {l : Master} {evs : List MEvent}
    (hlast : masterStep cfg s'.lib .poll = .ok (l, evs.map .event)) (hidle : l.st = .idle) :
    ∃ g', MInv cfg l g' ∧ g'.Valid cfg ∧ g'.cur = none ∧ g'.pend = rest ++ accepted (mainTrace htr) ∧ (∀ r ∈ accepted (mainTrace htr), QtyOk r) ∧
      Tx.Ok cfg.repeatMax { req := r, count := k + 1, evs := evs } := by
  obtain ⟨g', a1, a2, a3, done, d1, d2, d3⟩ := device_grun hw hl hi hv h
  have ht : g.tx = none := by simp [Ghost.tx, hc]
  cases hcur : g'.cur with
  | none => have := a1.idle_iff.2 hcur; rw [this] at hs; rcases hs with k | k <;> cases k
  | some x =>
    obtain ⟨i, r', c⟩ := x
    have hcu := a1.cur
    rw [hcur] at hcu
    have hcc : c = k + 1 := by
      obtain ⟨-, -, -, -, -, -, q | q⟩ := hcu
      · rw [q.1] at hs; rcases hs with k | k <;> cases k
      · omega
    have ht' : g'.tx = some (r', c) := by simp [Ghost.tx, hcur]
    rw [ht, ht', ho] at d3
    have hd0 : done = [] := by
      refine done_nil d1 (List.eq_nil_of_length_eq_zero ?_)
      have := congrArg List.length d3
      simp only [curOuts, List.nil_append, List.length_append, List.length_replicate] at this
      omega
    subst hd0
    rw [ht, ht', hp] at d2
    simp only [Option.map_none, Option.toList_none, List.nil_append, List.map_nil, Option.map_some, Option.toList_some, List.cons_append,
      List.cons.injEq] at d2
    obtain ⟨rfl, d2⟩ := d2
    rcases masterStep_inv hw a1 .poll (by simp) (by simp) with ⟨l2, o2, g2, j1, j2, j3⟩ | ⟨-, j1, -⟩
    · rw [hlast] at j1
      have hq := a2.2 i r c hcur
      obtain ⟨e1, e2⟩ : l = l2 ∧ evs.map .event = o2 := by simpa using j1
      subst e1
      have hidle' := j2.idle_iff.1 hidle
      cases j3 with
      | start r1 i1 tl rest hc1 _ _ => rw [hcur] at hc1; cases hc1
      | again r1 i1 c1 hc1 hle => cases hidle'
      | finish r1 i1 c1 evs1 hc1 hf =>
        rw [hcur] at hc1
        cases hc1
        have : evs = evs1 := by
          refine (List.map_inj_right ?_).1 e2
          intro a b e; cases e; rfl
        subst this
        refine ⟨_, j2, ⟨a2.1, by simp⟩, rfl, d2.symm, a3, ?_⟩
        rw [← hcc]
        exact hf.ok hq.1 hq.2.1 hq.2.2
      | silent _ _ => rw [hcur] at hidle'; cases hidle'
    · rw [hlast] at j1; cases j1

/-! ### One transaction -/

/-- Calls of the main program other than polls leave an idle device as it stands. -/
theorem before_run {cfg : Config} (hw : cfg.MWF) {fe ce : Bool} (ops : List MOp) : (∀ op ∈ ops, op.quiet) → ∀ {s : MasterSys} {g : Ghost}, MInv cfg s.lib g →
    Standing fe ce s.lib → ∃ s' htr, masterSysRun cfg s (ops.map .main) = .ok (s', htr) ∧ outs (mainTrace htr) = [] ∧ Standing fe ce s'.lib := by
  induction ops with
  | nil => intro _ s g _ hs; exact ⟨s, [], rfl, rfl, hs⟩
  | cons op ops ih =>
    intro hq s g hi hs
    have h1 := hq op (List.mem_cons_self ..)
    obtain ⟨l, o, g', k1, k2, k3⟩ := step_effect hw hi h1.2 h1.1.contract
    obtain ⟨n1, n2, n3, n4, n5⟩ := noise_ne h1.1
    have hst : Standing fe ce l := ⟨k2.st.trans hs.st, by rw [k2.t15', if_neg n2]; exact hs.t15, by rw [k2.ferr', if_neg n1]; exact hs.ferr,
      k2.crcf.trans hs.crcf⟩
    have hno : ∀ f, MOut.send f ∉ o := noSend_of_outs (tr := [(op, o)]) k2.outs (op, o) (List.mem_singleton.2 rfl)
    have hm : op.isMain = true := by
      have := h1.1
      cases op <;> first | rfl | exact this.elim
    have hstep := sys_main (s := s) hm h1.1.contract.1 k1 hno
    obtain ⟨s2, t2, a1, a2, a3⟩ := ih (fun op ho => hq op (List.mem_cons_of_mem _ ho)) (s := { s with lib := l }) k3 hst
    refine ⟨s2, (.main op, o.map .lib) :: t2, ?_, ?_, a3⟩
    · simp only [List.map_cons, masterSysRun, hstep, ok_bind, a1, pure_eq]
    · show outs ((op, libOuts (o.map .lib)) :: mainTrace t2) = []
      rw [libOuts_map]
      have := outs_append [(op, o)] (mainTrace t2)
      rw [k2.outs, a2] at this
      exact this

theorem mainNoise_before {ops : List MOp} (h : ∀ op ∈ ops, op.quiet) : MainNoise (ops.map .main) := by
  intro x hx
  obtain ⟨y, hy, e⟩ := List.mem_map.1 hx
  cases e
  exact (h _ hy).1

/-- The start of a transaction and its failed attempts. -/
theorem round_start {cfg : Config} (hw : cfg.MWF) {s : MasterSys} {g : Ghost} (hi : MInv cfg s.lib g) (hv : g.Valid cfg) (hc : g.cur = none)
    {fe ce : Bool} (hs : Standing fe ce s.lib) {r : MReq} {rest : List MReq} (hp : g.pend = r :: rest) {before : List MOp} (hb : ∀ op ∈ before, op.quiet)
    {as : List HMAttempt} {fe' ce' : Bool} (hf : HFailed cfg.respTimeout r fe ce as fe' ce') (hlen : as.length ≤ cfg.repeatMax) :
    ∃ i s' htr g', masterSysRun cfg s (before.map .main ++ .main .poll :: hretries as) = .ok (s', htr) ∧
      outs (mainTrace htr) = List.replicate (as.length + 1) (.send (reqFrame r)) ∧ MInv cfg s'.lib g' ∧
      D1 i r (BitVec.ofNat 8 as.length) (flagOf fe') (flagOf ce') s' := by
  obtain ⟨s1, t1, a1, a2, a3⟩ := before_run hw before hb hi hs
  obtain ⟨g1, b1, b2, b3, b4, b5⟩ := idle_ghost hw (legal_of (mainNoise_before hb)) hi hv hc a1 a2 a3.st
  rw [hp, List.cons_append] at b4
  have hq : QtyOk r := hv.1 r (by rw [hp]; exact List.mem_cons_self ..)
  obtain ⟨l, i0, j1, j2, -⟩ := poll_idle_send hw b1 a3.st b4
  have j : masterStep cfg s1.lib .poll = .ok (l, [.send (reqFrame r)]) := j1
  obtain ⟨i, g2, c1, c2⟩ := start_P1 hw b1 a3 j hq
  obtain ⟨s2, o, d1, d2, d3, d4⟩ := sys_send j c2
  obtain ⟨s3, t3, g3, e1, e2, e3, e4⟩ := device_failed hw hf (by rw [d2]; exact c1) d3 (by simpa using hlen)
  rw [show (0 : U8) + BitVec.ofNat 8 as.length = BitVec.ofNat 8 as.length by simp] at e4
  refine ⟨i, s3, t1 ++ ([(HMOp.main .poll, o)] ++ t3), g3, sysM_append _ a1 (sysM_append _ (sysM_one d1) e1), ?_, e3, e4⟩
  rw [mainTrace_append, mainTrace_append, outs_append, outs_append, a2, e2]
  show [] ++ (outs [(MOp.poll, libOuts o)] ++ _) = _
  rw [d4, List.replicate_succ]
  rfl

/-- What a transaction does: the run, its outputs, the errors it leaves, and the queue. -/
structure RoundDone (cfg : Config) (s : MasterSys) (g : Ghost) (r : MReq) (rest : List MReq) (ops : List HMOp) (n : Nat) (says : List MEvent → Prop) (fe ce : Bool)
    (s' : MasterSys) (htr : HMTrace) (g' : Ghost) (evs : List MEvent) : Prop where
  run : masterSysRun cfg s ops = .ok (s', htr)
  outs : outs (mainTrace htr) = Tx.outs { req := r, count := n, evs := evs }
  says : says evs
  standing : Standing fe ce s'.lib
  inv : MInv cfg s'.lib g'
  valid : g'.Valid cfg
  idle : g'.cur = none
  pend : g'.pend = rest ++ accepted (mainTrace htr)
  acc : ∀ r ∈ accepted (mainTrace htr), QtyOk r
  ok : Tx.Ok cfg.repeatMax { req := r, count := n, evs := evs }

theorem round_finish {cfg : Config} (hw : cfg.MWF) {s : MasterSys} {g : Ghost} (hi : MInv cfg s.lib g) (hv : g.Valid cfg) (hc : g.cur = none)
    {r : MReq} {rest : List MReq} (hp : g.pend = r :: rest) {init : List HMOp} (hn : MainNoise init) {s3 : MasterSys} {t3 : HMTrace}
    (h3 : masterSysRun cfg s init = .ok (s3, t3)) {k : Nat} (ho : outs (mainTrace t3) = List.replicate (k + 1) (.send (reqFrame r))) {l4 : Master} {evs : List MEvent}
    (hs : s3.lib.st = .waiting ∨ s3.lib.st = .received) (hk : s3.lib.repeatCnt.toNat = k)
    (h4 : masterStep cfg s3.lib .poll = .ok (l4, evs.map .event)) {says : List MEvent → Prop} (hsays : says evs) {fe ce : Bool} (hst : Standing fe ce l4) :
    ∃ s' htr g', RoundDone cfg s g r rest (init ++ [.main .poll]) (k + 1) says fe ce s' htr g' evs := by
  obtain ⟨g', a1, a2, a3, a4, a5, a6⟩ := round_ghost hw (legal_of hn) hi hv hc hp h3 ho hs hk h4 hst.st
  have hnos : ∀ f, MOut.send f ∉ evs.map MOut.event := by
    intro f hfm
    obtain ⟨e, -, he⟩ := List.mem_map.1 hfm
    cases he
  have hlast := sys_main (s := s3) (op := .poll) rfl (by simp) h4 hnos
  have hmt : mainTrace (t3 ++ [(HMOp.main .poll, (evs.map MOut.event).map .lib)]) = mainTrace t3 ++ [(MOp.poll, evs.map MOut.event)] := by
    rw [mainTrace_append]
    congr 1
    show [(MOp.poll, libOuts _)] = _
    rw [libOuts_map]
  have hacc : accepted (mainTrace t3 ++ [(MOp.poll, evs.map MOut.event)]) = accepted (mainTrace t3) := by
    unfold accepted
    rw [List.filterMap_append]
    exact List.append_nil _
  refine ⟨{ s3 with lib := l4 }, _, g', ⟨sysM_append _ h3 (sysM_one hlast), ?_, hsays, hst, a1, a2, a3, by rw [hmt, hacc]; exact a4, by rw [hmt, hacc]; exact a5, a6⟩⟩
  rw [hmt, outs_append, ho, outs_cons_events]
  show _ = List.replicate _ _ ++ _
  congr 1
  exact List.append_nil _

/-- **One transaction.** -/
theorem round_done {cfg : Config} (hw : cfg.MWF) {s : MasterSys} {g : Ghost} (hi : MInv cfg s.lib g) (hv : g.Valid cfg) (hc : g.cur = none)
    {fe ce fe' ce' : Bool} (hs : Standing fe ce s.lib) {d : HRound} {x : Told} (hd : HRound.Ok cfg.respTimeout cfg.repeatMax fe ce d x fe' ce')
    {rest : List MReq} (hp : g.pend = d.req :: rest) :
    MainNoise d.ops ∧ ∃ s' htr g' evs, RoundDone cfg s g d.req rest d.ops (d.fails.length + 1) (x.says d.req) fe' ce' s' htr g' evs := by
  have hcnt : ∀ {n : Nat}, n ≤ cfg.repeatMax → (BitVec.ofNat 8 n).toNat = n := by
    intro n hn
    have := hw.rle
    rw [BitVec.toNat_ofNat]
    exact Nat.mod_eq_of_lt (by omega)
  cases hd with
  | answered hb hf hR hl ha hg hr =>
    rename_i a
    have hn : MainNoise d.init := by
      unfold HRound.init
      rw [hl]
      exact ((mainNoise_before hb).append (mainNoise_poll.append hf.mainNoise)).append (HMAttempt.mainNoise ha)
    obtain ⟨i, s2, t2, g2, b1, b2, b3, b4⟩ := round_start hw hi hv hc hs hp hb hf hR
    obtain ⟨s3, t3, g3, c1, c2, c3, c4⟩ := device_attempt hw b3 b4 ha
    rw [hg] at c4
    rcases c4 with ⟨hcr, c4⟩ | ⟨hcr, c4⟩
    · obtain ⟨l4, g4, d1, d2, d3⟩ := final_ok hw c3 c4 hr
      refine ⟨hn.append mainNoise_poll, ?_⟩
      obtain ⟨s', htr, g', q⟩ := round_finish hw hi hv hc hp hn (by unfold HRound.init; rw [hl]; exact sysM_append _ b1 c1)
        (by rw [mainTrace_append, outs_append, b2, c2, List.append_nil]) (.inr c4.st_eq) (by rw [c4.cnt]; exact hcnt hR) d1
        (says := (Told.response a.resp.frame).says d.req) rfl (fe := false) (ce := false) ⟨d3.st, d3.t15, d3.ferr, d3.crcf⟩
      exact ⟨s', htr, g', _, q⟩
    · exact absurd hr.crc hcr
  | gaveUp hb hf hR hl ha h1 h2 h3 =>
    rename_i fe1 ce1 a
    have hn : MainNoise d.init := by
      unfold HRound.init
      rw [hl]
      exact ((mainNoise_before hb).append (mainNoise_poll.append hf.mainNoise)).append (HMAttempt.mainNoise ha)
    obtain ⟨i, s2, t2, g2, b1, b2, b3, b4⟩ := round_start hw hi hv hc hs hp hb hf (Nat.le_of_eq hR)
    obtain ⟨s3, t3, g3, c1, c2, c3, c4⟩ := device_attempt hw b3 b4 ha
    have hfe : (if a.gapped then Flag.set else flagOf fe1) = flagOf fe' := by
      by_cases hb : a.gapped = true
      · rw [if_pos hb, h1.2 (.inr hb)]; rfl
      · rw [if_neg hb]
        have : fe' = fe1 := bool_eq (h1.trans ⟨fun e => e.resolve_right hb, .inl⟩)
        rw [this]
    have hP : P6 i d.req (BitVec.ofNat 8 d.fails.length) (flagOf fe') (flagOf ce') a.resp.frame s3.lib := by
      rw [hfe] at c4
      rcases c4 with ⟨hc, c4⟩ | ⟨hc, c4⟩
      · have : ce' = ce1 := bool_eq (h2.trans ⟨fun e => e.resolve_right (fun k => k hc), .inl⟩)
        rw [this]; exact c4
      · rw [h2.2 (.inr hc)]; exact c4
    obtain ⟨l4, g4, fc, d1, -, d2, d3, d4, d5, d6⟩ := final_fail hw c3 hP (by rw [flagOf_set, flagOf_set]; exact h3)
      (by rw [hcnt (Nat.le_of_eq hR)]; exact hR) ha.resp.1.some
    refine ⟨hn.append mainNoise_poll, ?_⟩
    obtain ⟨s', htr, g', q⟩ := round_finish hw hi hv hc hp hn (by unfold HRound.init; rw [hl]; exact sysM_append _ b1 c1)
      (by rw [mainTrace_append, outs_append, b2, c2, List.append_nil]) (.inr hP.st_eq) (by rw [hP.cnt]; exact hcnt (Nat.le_of_eq hR))
      (evs := [.commErr { slave := a.resp.frame.getD 0 0, fc := fc &&& 0x7F, adr := 0, qty := 0, err := if flagOf fe' = .set then .frame else .crc }]) d1
      (says := (Told.failed (if fe' = true then .frame else .crc)).says d.req) ⟨_, rfl, ha.resp.2, by simp only [flagOf_set]⟩ ⟨d3, d4, d5, d6⟩
    exact ⟨s', htr, g', _, q⟩
  | timedOut hb hf hR hl ht h1 =>
    rename_i fe1 t
    have hn : MainNoise d.init := by
      unfold HRound.init
      rw [hl]
      exact ((mainNoise_before hb).append (mainNoise_poll.append hf.mainNoise)).append (HTimeout.mainNoise ht)
    obtain ⟨i, s2, t2, g2, b1, b2, b3, b4⟩ := round_start hw hi hv hc hs hp hb hf hR
    obtain ⟨s3, t3, g3, k, f, c1, c2, c3, c4, c5⟩ := device_silence hw b3 b4 ht
    have hfe : (if t.gapped then Flag.set else flagOf fe1) = flagOf fe' := by
      by_cases hb : t.gapped = true
      · rw [if_pos hb, h1.2 (.inr hb)]; rfl
      · rw [if_neg hb]
        have : fe' = fe1 := bool_eq (h1.trans ⟨fun e => e.resolve_right hb, .inl⟩)
        rw [this]
    rw [hfe] at c4
    obtain ⟨l4, g4, rep, d1, d2, d3, d4, d5, d6, d7, d8, d9, d10⟩ := poll_timeout hw c3 c4 c5
    refine ⟨hn.append mainNoise_poll, ?_⟩
    obtain ⟨s', htr, g', q⟩ := round_finish hw hi hv hc hp hn (by unfold HRound.init; rw [hl]; exact sysM_append _ b1 c1)
      (by rw [mainTrace_append, outs_append, b2, c2, List.append_nil]) (.inl c4.st_eq) (by rw [c4.cnt]; exact hcnt hR)
      (evs := [.timeoutErr rep]) d1
      (says := Told.nothing.says d.req) ⟨_, rfl, d3, d4, d5, d6⟩ ⟨d7, d8, d9, d10⟩
    exact ⟨s', htr, g', _, q⟩

end Modbus
