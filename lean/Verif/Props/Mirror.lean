import Verif.Proofs.Mirror

/-! C93: the two example programs on one bus: the slave's coil 0 and holding register 0 follow its coil 1 and holding register 1. -/

namespace Modbus

open Spec

/-- A round of the example master, served one request after the other by the example slave. -/
theorem example_round {cfg : Config} (hf : XFits cfg) {m : AppMem} (hl : XLayout m) (c : Bool) (v : U16) :
    seqEvs cfg.limits m (exampleRound c v) =
        [.coilRead 1 1 (bitAt m.coils m.bools 1), .hregRead 1 1 (regAt m.hregs m.regs 1), .coilWrite 1 0 1, .hregWrite 1 0 1] ∧
      Mirrored c v m (seqMem cfg.limits m (exampleRound c v)) := by
  have f1 : ¬ cfg.limits.coils < 2 := by have := hf.coils; show ¬ cfg.coilsQty < 2; omega
  have f2 : ¬ cfg.limits.hregs < 2 := by have := hf.hregs; show ¬ cfg.hregQty < 2; omega
  have f3 : ¬ cfg.limits.coils ≤ 0 := by omega
  have f4 : ¬ cfg.limits.hregs ≤ 0 := by omega
  have t1 : m.coils 1 = some (xCoil 1) := by rw [hl.coils]; rfl
  have t0 : m.coils 0 = some (xCoil 0) := by rw [hl.coils]; rfl
  have u1 : m.hregs 1 = some (xHreg 1) := by rw [hl.hregs]; rfl
  have u0 : m.hregs 0 = some (xHreg 0) := by rw [hl.hregs]; rfl
  have x1 : exceptionFor cfg.limits m (asRequest (.readCoils 1 1 1)) = none := by
    simp [exceptionFor, asRequest, BitTab.table, BitTab.limit, f1, t1, allRegistered]
  have x2 : exceptionFor cfg.limits m (asRequest (.readHoldingReg 1 1 1)) = none := by
    simp [exceptionFor, asRequest, RegTab.table, RegTab.limit, f2, u1, allRegistered]
  have x3 : exceptionFor cfg.limits m (asRequest (.writeSingleCoil 0 1 c)) = none := by
    cases c <;> simp [exceptionFor, asRequest, f3, t0]
  have e3 : effect cfg.limits m (asRequest (.writeSingleCoil 0 1 c)) =
      { m with bools := storeAll m.coils 0 (fun _ => decide ((if c then 0xFF00 else 0x0000) ≠ 0)) m.bools 1 } := if_pos x3
  generalize hm3 : effect cfg.limits m (asRequest (.writeSingleCoil 0 1 c)) = m3 at e3
  have g1 : m3.coils = m.coils := by rw [e3]
  have g2 : m3.dins = m.dins := by rw [e3]
  have g3 : m3.hregs = m.hregs := by rw [e3]
  have g4 : m3.inregs = m.inregs := by rw [e3]
  have g5 : m3.regs = m.regs := by rw [e3]
  have g6 : m3.bools = fun p => if p = xCoil 0 then c else m.bools p := by
    rw [e3]
    funext p
    simp only [storeAll, Nat.add_zero, t0]
    cases c <;> rfl
  have x4 : exceptionFor cfg.limits m3 (asRequest (.writeSingleReg 0 1 v)) = none := by
    simp [exceptionFor, asRequest, f4, u0, g3]
  have e4 : effect cfg.limits m3 (asRequest (.writeSingleReg 0 1 v)) =
      { m3 with regs := storeAll m3.hregs 0 (fun _ => BitVec.ofNat 16 v.toNat) m3.regs 1 } := if_pos x4
  have hmem : seqMem cfg.limits m (exampleRound c v) = effect cfg.limits m3 (asRequest (.writeSingleReg 0 1 v)) := by rw [← hm3]; rfl
  refine ⟨?_, ?_⟩
  · have o1 : outcome cfg.limits m (.readCoils 1 1 1) = [.coilRead 1 1 (bitAt m.coils m.bools 1)] := by
      unfold outcome; rw [x1]; rfl
    have o2 : outcome cfg.limits m (.readHoldingReg 1 1 1) = [.hregRead 1 1 (regAt m.hregs m.regs 1)] := by
      unfold outcome; rw [x2]; rfl
    have o3 : outcome cfg.limits m (.writeSingleCoil 0 1 c) = [.coilWrite 1 0 1] := by
      unfold outcome; rw [x3]
    have o4 : outcome cfg.limits m3 (.writeSingleReg 0 1 v) = [.hregWrite 1 0 1] := by
      unfold outcome; rw [x4]
    have : seqEvs cfg.limits m (exampleRound c v) = outcome cfg.limits m (.readCoils 1 1 1) ++ (outcome cfg.limits m (.readHoldingReg 1 1 1) ++
      (outcome cfg.limits m (.writeSingleCoil 0 1 c) ++ (outcome cfg.limits m3 (.writeSingleReg 0 1 v) ++ []))) := by rw [← hm3]; rfl
    rw [this, o1, o2, o3, o4]
    rfl
  · rw [hmem, e4]
    have hregs : ∀ p, storeAll m3.hregs 0 (fun _ => BitVec.ofNat 16 v.toNat) m3.regs 1 p = if p = xHreg 0 then v else m.regs p := by
      intro p
      simp only [storeAll, Nat.add_zero, g3, u0, g5, BitVec.ofNat_toNat, BitVec.setWidth_eq]
    generalize storeAll m3.hregs 0 (fun _ => BitVec.ofNat 16 v.toNat) m3.regs 1 = R at hregs
    refine ⟨?_, ?_, ?_, ?_, ?_, ?_⟩
    · show bitAt m3.coils m3.bools 0 = c
      rw [g1, g6]
      simp only [bitAt, t0, if_true]
    · show regAt m3.hregs R 0 = v
      rw [g3]
      simp only [regAt, u0, hregs, if_true]
    · intro a ha
      show bitAt m3.coils m3.bools a = _
      rw [g1, g6]
      simp only [bitAt, hl.coils]
      by_cases h20 : a < 20
      · simp only [if_pos h20]
        exact if_neg ha
      · rw [if_neg h20]
        by_cases h21 : a = 21
        · rw [if_pos h21]
          exact if_neg (by decide)
        · rw [if_neg h21]
    · intro a ha
      show regAt m3.hregs R a = _
      rw [g3]
      simp only [regAt, hl.hregs]
      by_cases h20 : a < 20
      · simp only [if_pos h20, hregs]
        exact if_neg ha
      · rw [if_neg h20]
    · intro a
      show bitAt m3.dins m3.bools a = _
      rw [g2, g6]
      simp only [bitAt, hl.dins]
      by_cases h20 : a < 20
      · simp only [if_pos h20]
        refine if_neg ?_
        show 20 + a ≠ 0
        omega
      · rw [if_neg h20]
    · intro a
      show regAt m3.inregs R a = _
      rw [g4]
      simp only [regAt, hl.inregs]
      by_cases h20 : a < 20
      · simp only [if_pos h20, hregs]
        refine if_neg ?_
        show 20 + a ≠ 0
        omega
      · rw [if_neg h20]

theorem exampleRound_ok (c : Bool) (v : U16) : ∀ r ∈ exampleRound c v, QtyOk r ∧ DataOk r := by
  intro r hr
  simp only [exampleRound, List.mem_cons, List.not_mem_nil, or_false] at hr
  rcases hr with rfl | rfl | rfl | rfl <;> simp [QtyOk, DataOk]

/-- **C93.** The two example programs on one bus, each with any history since power-on. The example master is at rest, nothing is queued and a round is due;
the example slave is in its loop, synchronised. Now the round comes, and its four requests are served, with as many retries as there may be, and with
everything on the line that sessions allow (damaged frames, gaps, requests heard several times). Then the master's variables have the values of the slave's coil 1 and
holding register 1; the slave's coil 0 and holding register 0 have the values the master's variables had before the round; nothing else that the slave exposes has
changed. -/
theorem C93_examples_mirror {cfgM cfgS : Config} (hw : cfgM.MWF) (h4 : 4 ≤ cfgM.queueItems) (hc : cfgS.WF) (hf : XFits cfgS)
    {ops : List EOp} {e : ExMaster} {htr : HMTrace} (hM : exMain cfgM ops = .ok (e, htr)) {fe ce : Bool} (hst : Standing fe ce e.sys.lib)
    (hdue : e.app.timer = 0)
    {xops : List XOp} {x : XSlave} {xtr : XTrace} (hS : xMain cfgS xops = .ok (x, xtr)) (ht : x.todo = []) (hs : HSync x.sys) :
    ∃ done queued, Transactions cfgM.repeatMax (mainTrace htr) done none queued ∧ (queued = [] →
      ∀ {mops : List EOp} {e' : ExMaster} {t : HMTrace} {xops' : List XOp} {x' : XSlave} {xt : XTrace} {bs : List (BusRound Unit)} {sl' : Unit → SlaveSys}
        {fe' ce' : Bool},
        exRun cfgM e (.update :: mops) = .ok (e', t) → xRun cfgS x xops' = .ok (x', xt) →
        t.map Prod.fst = (exampleRound (lastCoil htr) (lastReg htr)).map (fun r => .main (.request r)) ++ bs.flatMap (fun b => b.round.ops) →
        xt.1 = bs.flatMap (heardIn ()) →
        (bs.map fun b => b.round.req) = exampleRound (lastCoil htr) (lastReg htr) →
        HSessionWith (fun _ _ => True) cfgM.respTimeout cfgM.repeatMax fe ce (bs.map fun b => (b.round, b.told)) fe' ce' →
        BusSession (fun _ => cfgS) (fun _ => 1) (fun _ => x.sys) bs sl' → (∀ b ∈ bs, ∃ f, b.told = .response f) →
        lastCoil (htr ++ t) = bitAt x.sys.lib.mem.coils x.sys.lib.mem.bools 1 ∧ lastReg (htr ++ t) = regAt x.sys.lib.mem.hregs x.sys.lib.mem.regs 1 ∧
          Mirrored (lastCoil htr) (lastReg htr) x.sys.lib.mem x'.sys.lib.mem ∧ HSync x'.sys ∧ x'.todo = [] ∧ Standing fe' ce' e'.sys.lib ∧
          ∃ txs, Transactions cfgM.repeatMax (mainTrace (htr ++ t)) (done ++ txs) none ((accepted (mainTrace t)).drop 4)) := by
  obtain ⟨ea, ta, n, k1, i⟩ := exMain_inv hw ops
  rw [hM] at k1
  cases k1
  obtain ⟨hops, j1, j2⟩ := i.run
  obtain ⟨g, done, a1, a2, a3, a4, a5⟩ := ex_ghost hw (fun op ho => (j1 op ho).1) j2 hst.st
  refine ⟨done, g.pend, a5, ?_⟩
  intro hq mops e' t xops' x' xt bs sl' fe' ce' hE hX hops' hheard hreqs hsess hbus hans
  -- the master, the round's calls
  simp only [exRun] at hE
  obtain ⟨⟨e1, t1⟩, q1, hE⟩ := bind_ok hE
  obtain ⟨⟨e2, t2⟩, q2, hE⟩ := bind_ok hE
  cases hE
  have hround : exRequests e.app = exampleRound (lastCoil htr) (lastReg htr) := by rw [← i.coil, ← i.hreg]; rfl
  simp only [exStep, hdue, if_true] at q1
  obtain ⟨⟨s1, t1'⟩, q3, q1⟩ := bind_ok q1
  obtain ⟨rfl, rfl⟩ := Prod.mk.inj (Except.ok.inj q1)
  rw [hround] at q3
  have hpend : g.pend = [] := hq
  have hfl : 4 ≤ g.fl.length := by
    have b1 := a1.perm.length_eq
    have b2 := a1.pend.length
    have b3 : g.curIdx = [] := by unfold Ghost.curIdx; rw [a3]; rfl
    have b4 : g.lost.length = 0 := by rw [a4]; exact exHistory_refused i.hist
    rw [hpend] at b2
    simp only [List.length_append, List.length_range, b3, List.length_nil] at b1 b2
    omega
  obtain ⟨g1, c1, c2, c3, c4, c5, c6⟩ := ghost_requests hw _ (exampleRound_ok _ _) a1 a2 hst (by exact hfl) q3
  rw [hpend, List.nil_append] at c4
  have hlen : t1'.map Prod.fst = (exampleRound (lastCoil htr) (lastReg htr)).map fun r => HMOp.main (.request r) := mainTrace_ops q3
  rw [List.map_append, hlen] at hops'
  have hops2 := List.append_cancel_left hops'
  have q4 := exRun_sys mops q2
  rw [hops2] at q4
  -- the slave's session
  obtain ⟨xa, xta, r1, ix⟩ := xMain_inv hc hf xops
  rw [hS] at r1
  cases r1
  obtain ⟨xb, xtb, r2, -, r3⟩ := ix.runs hc xops'
  rw [hX] at r2
  cases r2
  obtain ⟨r4, r5⟩ := xRun_polls xops' ht hX
  obtain ⟨o, r6⟩ := busSession_heard hbus
  rw [hheard, r6] at r3
  obtain ⟨rx, ro⟩ := Prod.mk.inj (Except.ok.inj r3)
  have hready : BusReady (fun _ : Unit => (1 : U8)) (fun _ => x.sys) := ⟨fun _ => hs, fun _ => ix.id⟩
  have hval : ∀ b ∈ bs, QtyOk b.round.req ∧ DataOk b.round.req := by
    intro b hb
    exact exampleRound_ok (lastCoil htr) (lastReg htr) _ (by rw [← hreqs]; exact List.mem_map.2 ⟨b, hb, rfl⟩)
  obtain ⟨u1, u2, u3⟩ := busSession_told (fun _ => hc) hbus hready hval
  have hgood : HSession cfgM.respTimeout cfgM.repeatMax fe ce (bs.map fun b => (b.round, b.told)) fe' ce' := by
    refine session_good hsess ?_
    intro y hy f hef
    obtain ⟨b, hm, rfl⟩ := List.mem_map.1 hy
    exact u2 b hm f hef
  obtain ⟨hn, s', htr', txs, g', v1, v2, v3, v4, v5, v6, v7, v8, v9, v10⟩ := session_run hw hgood (rest := []) c1 c2 (c3.trans a3) c5 (by
    rw [c4, List.append_nil, ← hreqs, List.map_map]; rfl)
  rw [List.flatMap_map] at v1
  have v1' : masterSysRun cfgM s1 (bs.flatMap fun b => b.round.ops) = .ok (s', htr') := v1
  have q4' : masterSysRun cfgM s1 (bs.flatMap fun b => b.round.ops) = .ok (e2.sys, t2) := q4
  rw [v1'] at q4'
  obtain ⟨rfl, rfl⟩ := Prod.mk.inj (Except.ok.inj q4')
  have hpolls : ∀ b ∈ bs, ∀ op ∈ mainOps (heardIn () b), op = .poll := by
    intro b hb op hop
    refine r5 op ?_
    rw [hheard, mainOps_flatMap]
    exact List.mem_flatMap.2 ⟨b, hb, hop⟩
  obtain ⟨w1, w2⟩ := told_seq (u3 _ v2) hpolls hans
  rw [hreqs] at w1 w2
  have hlay : XLayout x.sys.lib.mem := by have := ix.lay; rw [ht] at this; exact this
  obtain ⟨y1, y2⟩ := example_round hf hlay (lastCoil htr) (lastReg htr)
  replace w1 : txs.flatMap Tx.evs = _ := w1.trans y1
  have ho1 : outs (mainTrace t1') = [] := by rw [c6]; rfl
  have hcall : callbacks (t1' ++ htr') = [.coilRead 1 1 (bitAt x.sys.lib.mem.coils x.sys.lib.mem.bools 1),
      .hregRead 1 1 (regAt x.sys.lib.mem.hregs x.sys.lib.mem.regs 1), .coilWrite 1 0 1, .hregWrite 1 0 1] := by
    have hall := sysM_append _ q3 v1'
    rw [callbacks_outs (irq_silent hall), mainTrace_append, outs_append, ho1, v3, List.nil_append, evs_outs, w1]
  have hacc1 : accepted (mainTrace t1') = exampleRound (lastCoil htr) (lastReg htr) := by rw [c6]; rfl
  refine ⟨?_, ?_, ?_, ?_, r4, v4, txs, ?_⟩
  · rw [lastCoil_append, hcall]; rfl
  · rw [lastReg_append, hcall]; rfl
  · have : x'.sys.lib.mem = (sl' ()).lib.mem := by rw [rx]
    rw [this, w2]
    exact y2
  · rw [← rx]; exact u1.sync ()
  · rw [mainTrace_append]
    have hreq : txs.map Tx.req = bs.map fun b => b.round.req := by
      have : ∀ {l : List (HRound × Told)} {txs : List Tx}, SessionTold l txs → txs.map Tx.req = l.map fun x => x.1.req := by
        intro l txs h
        induction h with
        | nil => rfl
        | cons hr _ _ _ ih => rw [List.map_cons, List.map_cons, hr, ih]
      rw [this v2, List.map_map]; rfl
    refine transactions_extend a5 ?_ ?_ v10 ?_
    · rw [hpend, List.nil_append, hreq, hreqs, mainTrace_append, accepted_append, hacc1]
      rfl
    · rw [mainTrace_append, outs_append, ho1, v3, List.nil_append]
    · intro r hr
      rw [mainTrace_append, accepted_append, hacc1] at hr
      rcases List.mem_append.1 hr with hr | hr
      · exact (exampleRound_ok _ _ r hr).1
      · exact v9 r hr

/-- After a second round, with the slave's coil 1 and holding register 1 as before: coil 0 equals coil 1, holding register 0 equals holding register 1. -/
theorem C93_examples_converge {c : Bool} {v : U16} {m m' : AppMem} (h : Mirrored c v m m') (hc : c = bitAt m.coils m.bools 1)
    (hv : v = regAt m.hregs m.regs 1) : bitAt m'.coils m'.bools 0 = bitAt m'.coils m'.bools 1 ∧ regAt m'.hregs m'.regs 0 = regAt m'.hregs m'.regs 1 := by
  rw [h.coil0, h.hreg0, h.coils 1 (by omega), h.hregs 1 (by omega)]
  exact ⟨hc, hv⟩

/-! ### Non-vacuity -/

/-- Events of the master device as events of its program. -/
def toE : HMOp → EOp
  | .main .tick => .systick
  | .main _ => .poll
  | .rto => .rto
  | .usart rx txe => .usart rx txe
  | .timer => .timer

theorem ex_lift {cfg : Config} (ops : List HMOp) : (∀ op ∈ ops, ∀ m, op = .main m → m = .poll ∨ m = .tick) → ∀ {s s' : ExMaster} {t : HMTrace},
    exRun cfg s (ops.map toE) = .ok (s', t) → t.map Prod.fst = ops := by
  induction ops with
  | nil => intro _ s s' t h; cases h; rfl
  | cons op ops ih =>
    intro hp s s' t h
    simp only [List.map_cons, exRun] at h
    obtain ⟨⟨s1, t1⟩, k1, h⟩ := bind_ok h
    obtain ⟨⟨s2, t2⟩, k2, h⟩ := bind_ok h
    cases h
    have dev : ∀ {x : ExMaster} {hop : HMOp}, exDevice cfg x hop = .ok (s1, t1) → t1.map Prod.fst = [hop] := by
      intro x hop hd
      simp only [exDevice] at hd
      obtain ⟨⟨m, o⟩, -, hd⟩ := bind_ok hd
      cases hd
      rfl
    have e : t1.map Prod.fst = [op] := by
      cases op with
      | main m =>
        rcases hp _ (List.mem_cons_self ..) m rfl with rfl | rfl
        · exact dev k1
        · exact dev (x := { s with app := { s.app with timer := if s.app.timer = 0 then 0 else s.app.timer - 1 } }) k1
      | rto => exact dev k1
      | usart rx txe => exact dev k1
      | timer => exact dev k1
    rw [List.map_append, e, ih (fun y hy => hp y (List.mem_cons_of_mem _ hy)) k2]
    rfl

/-- RTOF is never set when the main program polls; nothing else in the main program. -/
def clearPolls : Bool → List HOp → Bool
  | _, [] => true
  | b, .main .poll :: ops => !b && clearPolls b ops
  | _, .main _ :: _ => false
  | _, .rto :: ops => clearPolls true ops
  | b, .usart _ _ :: ops => clearPolls b ops
  | _, .timer :: ops => clearPolls false ops

theorem xsys_rtof {cfg : Config} {s s' : SlaveSys} {op : HOp} {o : List HOut} (h : slaveSysStep cfg s op = .ok (s', o)) :
    s'.rtof = match op with | .rto => true | .timer => false | _ => s.rtof := by
  have rx : ∀ {s s' : SlaveSys} {x : Option U8}, slaveIrqRx cfg s x = .ok s' → s'.rtof = s.rtof := by
    intro s s' x h
    unfold slaveIrqRx at h
    cases x with
    | none => cases h; rfl
    | some b =>
      obtain ⟨⟨l, o1⟩, -, h⟩ := bind_ok h
      dsimp only at h
      split at h
      · obtain ⟨⟨l2, o2⟩, -, h⟩ := bind_ok h
        cases h; rfl
      · cases h; rfl
  have tx : ∀ {s s' : SlaveSys} {x : Bool} {o : List HOut}, slaveIrqTx cfg s x = .ok (s', o) → s'.rtof = s.rtof := by
    intro s s' x o h
    unfold slaveIrqTx at h
    split at h
    · split at h
      · obtain ⟨b, -, h⟩ := bind_ok h
        cases h; rfl
      · obtain ⟨⟨l2, o2⟩, -, h⟩ := bind_ok h
        cases h; rfl
    · cases h; rfl
  have rt : ∀ {s s' : SlaveSys}, slaveIrqRto cfg s = .ok s' → s'.rtof = s.rtof := by
    intro s s' h
    unfold slaveIrqRto at h
    split at h
    · obtain ⟨⟨l2, o2⟩, -, h⟩ := bind_ok h
      cases h; rfl
    · cases h; rfl
  have sends : ∀ (l : List SOut) {s s' : SlaveSys} {o : List HOut}, slaveSends s l = .ok (s', o) → s'.rtof = s.rtof := by
    intro l
    induction l with
    | nil => intro s s' o h; cases h; rfl
    | cons x l ih =>
      intro s s' o h
      cases x with
      | send f =>
        simp only [slaveSends] at h
        obtain ⟨⟨s1, o1⟩, k1, h⟩ := bind_ok h
        obtain ⟨⟨s2, o2⟩, k2, h⟩ := bind_ok h
        cases h
        rw [ih k2]
        unfold slaveUsartSend at k1
        split at k1
        · obtain ⟨b, -, k1⟩ := bind_ok k1
          cases k1; rfl
        · cases k1; rfl
  cases op with
  | main m =>
    simp only [slaveSysStep] at h
    split at h
    · cases h; rfl
    · obtain ⟨⟨l, o1⟩, -, h⟩ := bind_ok h
      have e := sends _ h
      exact e
  | rto => cases h; rfl
  | timer =>
    simp only [slaveSysStep] at h
    obtain ⟨⟨l, o1⟩, -, h⟩ := bind_ok h
    cases h; rfl
  | usart a b =>
    simp only [slaveSysStep] at h
    obtain ⟨s1, k1, h⟩ := bind_ok h
    obtain ⟨⟨s2, o2⟩, k2, h⟩ := bind_ok h
    obtain ⟨s3, k3, h⟩ := bind_ok h
    cases h
    rw [rt k3, tx k2, rx k1]

/-- Events of the slave device can be had from its program. -/
theorem x_lift {cfg : Config} (hops : List HOp) : ∀ {x : XSlave} {sys' : SlaveSys} {o : List HOut}, x.todo = [] → clearPolls x.sys.rtof hops = true →
    slaveSysRun cfg x.sys hops = .ok (sys', o) → ∃ xops x', xRun cfg x xops = .ok (x', (hops, o)) := by
  induction hops with
  | nil => intro x sys' o _ _ h; cases h; exact ⟨[], x, rfl⟩
  | cons op hops ih =>
    intro x sys' o ht hp h
    simp only [slaveSysRun] at h
    obtain ⟨⟨s1, o1⟩, k1, h⟩ := bind_ok h
    obtain ⟨⟨s2, o2⟩, k2, h⟩ := bind_ok h
    cases h
    have hr := xsys_rtof k1
    have fin : ∀ (x0 x1 : XSlave) (pre : List XOp), xRun cfg x pre = .ok (x0, ([], [])) → ∀ xop, xStep cfg x0 xop = .ok (x1, ([op], o1)) → x1.sys = s1 → x1.todo = [] →
        clearPolls s1.rtof hops = true → ∃ xops x', xRun cfg x xops = .ok (x', (op :: hops, o1 ++ o2)) := by
      intro x0 x1 pre e0 xop e1 e2 e3 e4
      subst e2
      obtain ⟨xops, x', h5⟩ := ih e3 e4 k2
      refine ⟨pre ++ xop :: xops, x', ?_⟩
      have app : ∀ (a : List XOp) {s s1 s2 : XSlave} {t1 t2 : XTrace} {b : List XOp}, xRun cfg s a = .ok (s1, t1) → xRun cfg s1 b = .ok (s2, t2) →
          xRun cfg s (a ++ b) = .ok (s2, (t1.1 ++ t2.1, t1.2 ++ t2.2)) := by
        intro a
        induction a with
        | nil => intro s s1 s2 t1 t2 b h1 h2; cases h1; exact h2
        | cons y a ih =>
          intro s s1 s2 t1 t2 b h1 h2
          simp only [xRun] at h1
          obtain ⟨⟨s3, t3⟩, q1, h1⟩ := bind_ok h1
          obtain ⟨⟨s4, t4⟩, q2, h1⟩ := bind_ok h1
          cases h1
          simp only [List.cons_append, xRun, q1, ok_bind, ih q2 h2, pure_eq, List.append_assoc]
      have h6 : xRun cfg x0 (xop :: xops) = .ok (x', ([op] ++ hops, o1 ++ o2)) := by
        simp only [xRun, e1, h5, ok_bind, pure_eq]
      exact app pre e0 h6
    have dev : ∀ (x0 : XSlave), x0.sys = x.sys → xDevice cfg x0 op = .ok ({ x0 with sys := s1 }, ([op], o1)) := by
      intro x0 e
      simp only [xDevice, e, k1, ok_bind, pure_eq]
    cases op with
    | main m =>
      cases m with
      | poll =>
        simp only [clearPolls, Bool.and_eq_true, Bool.not_eq_true'] at hp
        replace hr : s1.rtof = x.sys.rtof := hr
        have hc : clearPolls s1.rtof hops = true := by rw [hr]; exact hp.2
        obtain ⟨sys, led, todo, turn⟩ := x
        obtain rfl : todo = [] := ht
        have hrt : sys.rtof = false := hp.1
        have main : ∀ led, xStep cfg (XSlave.mk sys led [] false) .main = .ok (XSlave.mk s1 led [] true, ([.main .poll], o1)) := by
          intro led
          have := dev (XSlave.mk sys led [] true) rfl
          simp only [xStep, hrt]
          exact this
        cases turn with
        | false => exact fin _ _ [] rfl .main (main led) rfl rfl hc
        | true =>
          refine fin (XSlave.mk sys (sys.lib.mem.bools xLed) [] false) _ [.main] ?_ .main (main _) rfl rfl hc
          simp only [xRun, xStep, hrt]
          rfl
      | _ => cases hp
    | rto => exact fin x _ [] rfl .rto (dev x rfl) rfl ht (by rw [hr]; exact hp)
    | usart a b => exact fin x _ [] rfl (.usart a b) (dev x rfl) rfl ht (by rw [hr]; exact hp)
    | timer => exact fin x _ [] rfl .timer (dev x rfl) rfl ht (by rw [hr]; exact hp)

theorem clearPolls_simple (f : List U8) (rest : List HOp) (h : clearPolls false rest = true) : clearPolls false ((simpleHX f).ops ++ rest) = true := by
  have us : ∀ (l : List HOp), (∀ op ∈ l, ∃ a b, op = .usart a b) → ∀ b r, clearPolls b (l ++ r) = clearPolls b r := by
    intro l
    induction l with
    | nil => intro _ b r; rfl
    | cons op l ih =>
      intro hl b r
      obtain ⟨a, c, rfl⟩ := hl _ (List.mem_cons_self ..)
      exact ih (fun y hy => hl y (List.mem_cons_of_mem _ hy)) b r
  have e : (simpleHX f).ops ++ rest = hrx f ++ (.rto :: .usart none true :: .timer :: .main .poll :: .main .poll ::
      (List.replicate 256 (.usart none true) ++ (.main .poll :: rest))) := by
    simp only [HExchange.ops, HExchange.recv, simpleHX]
    simp only [List.append_assoc, List.cons_append, List.nil_append]
  have hl : ∀ op ∈ List.replicate 256 (HOp.usart none true), ∃ a b, op = .usart a b := fun op ho => ⟨_, _, List.eq_of_mem_replicate ho⟩
  generalize List.replicate 256 (HOp.usart none true) = l at e hl
  rw [e, us _ (by
    intro op ho
    obtain ⟨b, -, rfl⟩ := List.mem_map.1 ho
    exact ⟨_, _, rfl⟩)]
  show clearPolls false (l ++ (.main .poll :: rest)) = true
  rw [us _ hl]
  exact h

theorem simpleRound_plain (i : Unit) (r : MReq) (f : List U8) : ∀ op ∈ (simpleRound i r f).round.ops, ∀ m, op = .main m → m = .poll ∨ m = .tick := by
  rintro op ho m rfl
  left
  simp only [simpleRound, HRound.ops, HRound.init, hretries, HEnd.init, HMAttempt.init, HMAttempt.line, HMHeard.ops, simpleHA, hmrx, List.mem_append, List.mem_cons,
    List.mem_map, List.mem_replicate, List.not_mem_nil, List.map_nil, List.flatMap_nil, or_false, false_or, reduceCtorEq, and_false, exists_const, HMOp.main.injEq] at ho
  simpa using ho

/-- Non-vacuity of C93: for all configurations there are histories in which the hypotheses hold: the first round after power-on, with a quiet line
before, answered at the first attempt. -/
theorem C93_happens {cfgM cfgS : Config} (hw : cfgM.MWF) (hT : 2 ≤ cfgM.respTimeout) (h4 : 4 ≤ cfgM.queueItems) (hc : cfgS.WF) (hf : XFits cfgS) :
    ∃ e htr x xtr, exMain cfgM (List.replicate 300 .systick) = .ok (e, htr) ∧ xMain cfgS (List.replicate 81 .main) = .ok (x, xtr) ∧
      ∃ mops e' t xops' x' xt, exRun cfgM e (.update :: mops) = .ok (e', t) ∧ xRun cfgS x xops' = .ok (x', xt) ∧
        lastCoil (htr ++ t) = bitAt x.sys.lib.mem.coils x.sys.lib.mem.bools 1 ∧ lastReg (htr ++ t) = regAt x.sys.lib.mem.hregs x.sys.lib.mem.regs 1 ∧
        Mirrored false 0 x.sys.lib.mem x'.sys.lib.mem ∧ lastReg (htr ++ t) = 2002 := by
  obtain ⟨e0, h0, i0⟩ := ex_init hw
  obtain ⟨e, th, h1, i1⟩ := i0.runs hw (List.replicate 300 .systick)
  have hM : exMain cfgM (List.replicate 300 .systick) = .ok (e, [(.main (.init .rtu), [])] ++ th) := by
    simp only [exMain, h0, h1, ok_bind, pure_eq]
  have hn : exSince 0 (List.replicate 300 .systick) = 300 := by decide +kernel
  rw [hn] at i1
  have hdue : e.app.timer = 0 := BitVec.eq_of_toNat_eq (by rw [i1.timer]; rfl)
  obtain ⟨x, xtr, hX, ht, hs, hb, hg, -⟩ := x_startup hc hf
  -- the master stands
  have hst : Standing false false e.sys.lib ∧ outs (mainTrace th) = [] ∧ th.map Prod.fst = (List.replicate 300 (MOp.tick)).map .main := by
    have hmap : th.map Prod.fst = List.replicate 300 (HMOp.main .tick) := by
      refine ex_lift (cfg := cfgM) _ ?_ (s := e0) (s' := e) ?_
      · intro op ho m hm
        rw [List.eq_of_mem_replicate ho] at hm
        cases hm
        exact .inr rfl
      · rw [List.map_replicate]; exact h1
    obtain ⟨l0, g1, g2, g3⟩ := sysInit_ok hw MasterSys.powerOn
    obtain ⟨sa, k1, k2⟩ := standing_init hw Master.powerOn
    simp only [masterRun, show masterStep cfgM Master.powerOn (.init .rtu) = .ok (l0, []) from g3, ok_bind, pure_eq, Except.ok.injEq, Prod.mk.injEq] at k1
    obtain ⟨rfl, -⟩ := k1
    have he0 : e0.sys = { MasterSys.powerOn with lib := l0, gap := false } := by
      have q : exDevice cfgM ⟨MasterSys.powerOn, ExMaster.powerOn.app⟩ (.main (.init .rtu)) = .ok (e0, [(.main (.init .rtu), [])]) := h0
      simp only [exDevice, g1, ok_bind, pure_eq] at q
      rw [← (Prod.mk.inj (Except.ok.inj q)).1]
    obtain ⟨s', htr, a1, a2, a3⟩ := before_run (s := { MasterSys.powerOn with lib := l0, gap := false }) hw (List.replicate 300 .tick)
      (fun op ho => by rw [List.eq_of_mem_replicate ho]; exact ⟨trivial, by simp⟩) g2 k2
    have q := exRun_sys _ h1
    rw [hmap, he0, ← List.map_replicate (f := HMOp.main), a1] at q
    obtain ⟨q1, q2⟩ := Prod.mk.inj (Except.ok.inj q)
    rw [← q1, ← q2]
    exact ⟨a3, a2, by rw [q2, hmap, List.map_replicate]⟩
  obtain ⟨hst, hout, hmap⟩ := hst
  obtain ⟨done, queued, hT1, hmain⟩ := C93_examples_mirror hw h4 hc hf hM hst hdue hX ht hs
  have hlast : lastCoil ([(.main (.init .rtu), [])] ++ th) = false ∧ lastReg ([(.main (.init .rtu), [])] ++ th) = 0 := by
    have : callbacks th = [] := by rw [callbacks_outs (irq_silent (exRun_sys _ h1)), hout]; rfl
    rw [lastCoil_append, lastReg_append, this]
    exact ⟨rfl, rfl⟩
  have hq : queued = [] := by
    have h := hT1.order
    have hacc : accepted (mainTrace ([(HMOp.main (.init .rtu), [])] ++ th)) = [] := by
      unfold accepted
      rw [List.filterMap_eq_nil_iff]
      rintro ⟨op, o⟩ hx
      rw [mainTrace_append] at hx
      have : op = .init .rtu ∨ op = .tick := by
        rcases List.mem_append.1 hx with hx | hx
        · left
          exact (Prod.mk.inj (List.mem_singleton.1 (show (op, o) ∈ [(MOp.init .rtu, [])] from hx))).1
        · right
          unfold mainTrace at hx
          obtain ⟨⟨y, p⟩, m1, m2⟩ := List.mem_filterMap.1 hx
          have : y ∈ (List.replicate 300 (MOp.tick)).map HMOp.main := by rw [← hmap]; exact List.mem_map.2 ⟨_, m1, rfl⟩
          obtain ⟨z, z1, rfl⟩ := List.mem_map.1 this
          simp only [Option.some.injEq, Prod.mk.injEq] at m2
          rw [← m2.1]
          exact List.eq_of_mem_replicate z1
      rcases this with rfl | rfl <;> rfl
    rw [hacc] at h
    have h := h.symm
    simp only [List.append_eq_nil_iff] at h
    exact h.2
  -- the session
  have hid : x.sys.lib.id = 1 := by
    obtain ⟨xa, xta, r1, ix⟩ := xMain_inv hc hf (List.replicate 81 .main)
    rw [hX] at r1
    cases r1
    exact ix.id
  obtain ⟨bs, sl', b1, b2, b3, -, b5⟩ := simple_session_shape (cfg := fun _ : Unit => cfgS) (fun _ => hc) (id := fun _ => 1) (fun _ _ _ => rfl) (R := cfgM.repeatMax) hT
    ((exampleRound false 0).map fun r => ((), r)) (by
      intro y hy
      obtain ⟨r, hr, rfl⟩ := List.mem_map.1 hy
      refine ⟨?_, exampleRound_ok _ _ r hr⟩
      simp only [exampleRound, List.mem_cons, List.not_mem_nil, or_false] at hr
      rcases hr with rfl | rfl | rfl | rfl <;> rfl) (sl := fun _ => x.sys) ⟨fun _ => hs, fun _ => hid⟩
  have b3' : (bs.map fun b => b.round.req) = exampleRound false 0 := by rw [b3, List.map_map]; exact List.map_id _
  -- the slave's program
  obtain ⟨o, r6⟩ := busSession_heard b1
  have hclear : clearPolls x.sys.rtof (bs.flatMap (heardIn ())) = true := by
    rw [hs.rtof]
    have : ∀ l : List (BusRound Unit), (∀ b ∈ l, ∃ i r f, b = simpleRound i r f) → clearPolls false (l.flatMap (heardIn ())) = true := by
      intro l
      induction l with
      | nil => intro _; rfl
      | cons b l ih =>
        intro hl
        obtain ⟨i, r, f, rfl⟩ := hl _ (List.mem_cons_self ..)
        rw [List.flatMap_cons]
        exact clearPolls_simple (reqFrame r) _ (ih fun y hy => hl y (List.mem_cons_of_mem _ hy))
    exact this bs b5
  obtain ⟨xops', x', hX'⟩ := x_lift _ ht hclear r6
  -- the master's program
  obtain ⟨e1, t1, k1, i2, -⟩ := i1.step hw .update
  obtain ⟨e', t2, k2, -⟩ := i2.runs hw ((bs.flatMap fun b => b.round.ops).map toE)
  have hplain : ∀ op ∈ bs.flatMap (fun b => b.round.ops), ∀ m, op = .main m → m = .poll ∨ m = .tick := by
    intro op ho
    obtain ⟨b, hb', ho⟩ := List.mem_flatMap.1 ho
    obtain ⟨i, r, f, rfl⟩ := b5 b hb'
    exact simpleRound_plain i r f op ho
  have ht2 := ex_lift _ hplain k2
  have ht1 : t1.map Prod.fst = (exampleRound false 0).map fun r => HMOp.main (.request r) := by
    simp only [exStep, hdue, if_true] at k1
    obtain ⟨⟨m, t⟩, q, k1⟩ := bind_ok k1
    obtain ⟨-, rfl⟩ := Prod.mk.inj (Except.ok.inj k1)
    rw [mainTrace_ops q, ← hlast.1, ← hlast.2, ← i1.coil, ← i1.hreg]
    rfl
  have hE : exRun cfgM e (.update :: (bs.flatMap fun b => b.round.ops).map toE) = .ok (e', t1 ++ t2) := by
    simp only [exRun, k1, k2, ok_bind, pure_eq]
  have fin := hmain hq (bs := bs) hE hX' (by rw [List.map_append, ht1, ht2, hlast.1, hlast.2]) rfl (by rw [b3', hlast.1, hlast.2]) b2 b1 (by
    intro b hb'
    obtain ⟨i, r, f, rfl⟩ := b5 b hb'
    exact ⟨_, rfl⟩)
  rw [hlast.1, hlast.2] at fin
  refine ⟨e, _, x, xtr, hM, hX, _, e', _, xops', x', _, hE, hX', fin.1, fin.2.1, fin.2.2.1, fin.2.1.trans ?_⟩
  obtain ⟨xa, xta, r1, ix⟩ := xMain_inv hc hf (List.replicate 81 .main)
  rw [hX] at r1
  cases r1
  have hlay : XLayout x.sys.lib.mem := by have := ix.lay; rw [ht] at this; exact this
  simp only [regAt, hlay.hregs, hg]
  rfl

end Modbus
