import Verif.Proofs.DriverMaster

/-! A transaction of a master device, simulated by a transaction of its library. -/

namespace Modbus

open Spec

/-! ### Library facts -/

/-- A poll keeps the driver, and without a transmission it keeps the transmission flag. -/
theorem poll_keeps {cfg : Config} {s s' : Master} {o : List MOut} (h : masterPoll cfg s = .ok (s', o)) :
    s'.drv = s.drv ∧ ((∀ f, MOut.send f ∉ o) → s'.txf = s.txf) := by
  have crl : ∀ {a b : Master}, clearRespLen a = .ok b → b.drv = a.drv ∧ b.txf = a.txf := by
    intro a b hb
    unfold clearRespLen at hb
    split at hb <;> cases hb
    exact ⟨rfl, rfl⟩
  have pe : ∀ {a b : Master}, masterProcessEnd cfg a = .ok b → b.drv = a.drv ∧ b.txf = a.txf := by
    intro a b hb
    unfold masterProcessEnd at hb
    obtain ⟨⟨x, y⟩, -, hb⟩ := bind_ok hb
    cases hb
    exact ⟨rfl, rfl⟩
  have sd : ∀ {a b : Master} {o : List MOut}, masterSend a = .ok (b, o) → b.drv = a.drv ∧ ((∀ f, MOut.send f ∉ o) → b.txf = a.txf) := by
    intro a b o hb
    obtain ⟨i, -, e2, e3⟩ := masterSend_inv hb
    subst e2 e3
    exact ⟨rfl, fun hf => absurd (List.mem_singleton.2 rfl) (hf _)⟩
  unfold masterPoll at h
  cases hs : s.st with
  | idle =>
    simp only [hs] at h
    unfold masterIdle at h
    split at h
    · obtain ⟨⟨x, tq⟩, -, h⟩ := bind_ok h
      exact sd (a := { s with msgBuf := x, txQ := tq }) h
    · cases h; exact ⟨rfl, fun _ => rfl⟩
  | repeatRequest =>
    simp only [hs] at h
    exact sd h
  | transmitting =>
    simp only [hs] at h
    unfold masterTransmitting at h
    split at h
    · obtain ⟨a, ha, h⟩ := bind_ok h
      cases h; exact ⟨(crl ha).1, fun _ => (crl ha).2⟩
    · cases h; exact ⟨rfl, fun _ => rfl⟩
  | waiting =>
    simp only [hs] at h
    unfold masterWaiting at h
    split at h
    · unfold masterRecv at h
      obtain ⟨a1, -, h⟩ := bind_ok h
      obtain ⟨a2, -, h⟩ := bind_ok h
      obtain ⟨a3, -, h⟩ := bind_ok h
      split at h
      · cases h; exact ⟨rfl, fun _ => rfl⟩
      · split at h
        · obtain ⟨a4, ha, h⟩ := bind_ok h
          cases h; exact ⟨(crl ha).1, fun _ => (crl ha).2⟩
        · cases h; exact ⟨rfl, fun _ => rfl⟩
    · split at h
      · obtain ⟨a1, -, h⟩ := bind_ok h
        obtain ⟨a2, ha, h⟩ := bind_ok h
        cases h; exact ⟨(pe ha).1, fun _ => (pe ha).2⟩
      · cases h; exact ⟨rfl, fun _ => rfl⟩
  | received =>
    simp only [hs] at h
    unfold masterReceived at h
    split at h
    · unfold masterFrameError at h
      simp only at h
      split at h
      · obtain ⟨a1, ha, h⟩ := bind_ok h
        cases h; exact ⟨(crl ha).1, fun _ => (crl ha).2⟩
      · obtain ⟨a1, -, h⟩ := bind_ok h
        obtain ⟨a2, ha, h⟩ := bind_ok h
        cases h; exact ⟨(pe ha).1, fun _ => (pe ha).2⟩
    · split at h
      · unfold masterCrcError at h
        simp only at h
        split at h
        · obtain ⟨a1, ha, h⟩ := bind_ok h
          cases h; exact ⟨(crl ha).1, fun _ => (crl ha).2⟩
        · obtain ⟨a1, -, h⟩ := bind_ok h
          obtain ⟨a2, ha, h⟩ := bind_ok h
          cases h; exact ⟨(pe ha).1, fun _ => (pe ha).2⟩
      · split at h
        · unfold masterCorrect at h
          obtain ⟨a1, -, h⟩ := bind_ok h
          obtain ⟨a2, ha, h⟩ := bind_ok h
          cases h; exact ⟨(pe ha).1, fun _ => (pe ha).2⟩
        · cases h; exact ⟨rfl, fun _ => rfl⟩

/-- Any step other than an initialisation, without a transmission and other than the completion, keeps driver and transmission flag. -/
theorem step_keeps {cfg : Config} {s s' : Master} {op : MOp} {o : List MOut} (hi : ∀ m, op ≠ .init m) (hx : op ≠ .txDone)
    (h : masterStep cfg s op = .ok (s', o)) (hf : ∀ f, MOut.send f ∉ o) : s'.drv = s.drv ∧ s'.txf = s.txf := by
  cases op with
  | init m => exact absurd rfl (hi m)
  | poll => exact ⟨(poll_keeps h).1, (poll_keeps h).2 hf⟩
  | txDone => exact absurd rfl hx
  | request r =>
    simp only [masterStep] at h
    obtain ⟨⟨c, s2⟩, h1, h2⟩ := bind_ok h
    cases h2
    obtain ⟨e1, -⟩ := generateRequest_frame h1
    exact ⟨by rw [e1], by rw [e1]⟩
  | tick => simp only [masterStep] at h; cases h; split <;> exact ⟨rfl, rfl⟩
  | t15 => simp only [masterStep] at h; cases h; split <;> exact ⟨rfl, rfl⟩
  | t35 => simp only [masterStep] at h; cases h; split <;> exact ⟨rfl, rfl⟩
  | frameErr => simp only [masterStep] at h; cases h; split <;> exact ⟨rfl, rfl⟩
  | rxByte b =>
    simp only [masterStep] at h
    obtain ⟨s2, h1, h2⟩ := bind_ok h
    cases h2
    unfold masterRx at h1
    split at h1
    · cases h1; exact ⟨rfl, rfl⟩
    · split at h1
      · obtain ⟨b', -, h1⟩ := bind_ok h1
        cases h1; exact ⟨rfl, rfl⟩
      · cases h1

theorem txDone_nop {cfg : Config} {s : Master} (hd : s.drv = true) (ht : s.txf = .cleared) : masterStep cfg s .txDone = .ok (s, []) := by
  cases s
  simp only at ht hd
  subst ht hd
  rfl

theorem run_split {cfg : Config} {a b : List MOp} {s s2 : Master} {t : MTrace} (h : masterRun cfg s (a ++ b) = .ok (s2, t)) :
    ∃ s1 t1 t2, masterRun cfg s a = .ok (s1, t1) ∧ masterRun cfg s1 b = .ok (s2, t2) ∧ t = t1 ++ t2 := by
  rw [masterRun_append] at h
  obtain ⟨⟨s1, t1⟩, h1, h⟩ := bind_ok h
  obtain ⟨⟨s2', t2⟩, h2, h⟩ := bind_ok h
  cases h
  exact ⟨s1, t1, t2, h1, h2, rfl⟩

theorem run_cons_inv {cfg : Config} {op : MOp} {b : List MOp} {s s2 : Master} {t : MTrace} (h : masterRun cfg s (op :: b) = .ok (s2, t)) :
    ∃ s1 o t2, masterStep cfg s op = .ok (s1, o) ∧ masterRun cfg s1 b = .ok (s2, t2) ∧ t = (op, o) :: t2 := by
  simp only [masterRun] at h
  obtain ⟨⟨s1, o⟩, h1, h⟩ := bind_ok h
  obtain ⟨⟨s2', t2⟩, h2, h⟩ := bind_ok h
  cases h
  exact ⟨s1, o, t2, h1, h2, rfl⟩

/-! ### Simulation -/

/-- What the library experiences of events of the device while the transmitter is at rest (`g`, `p`: the driver's gap flag and the UART's
receive timeout flag). -/
def libOps (g p : Bool) : List HMOp → List MOp
  | [] => []
  | .main op :: ops => op :: libOps g p ops
  | .rto :: ops => libOps g true ops
  | .usart b _ :: ops =>
    (b.toList.flatMap fun b => .rxByte b :: if g then [.frameErr] else []) ++ (if p then [.t15] else []) ++ libOps (g || p) false ops
  | .timer :: ops => .t35 :: libOps false p ops

/-- The gap flag after some events. -/
def gapAfter (g p : Bool) : List HMOp → Bool
  | [] => g
  | .main _ :: ops => gapAfter g p ops
  | .rto :: ops => gapAfter g true ops
  | .usart _ _ :: ops => gapAfter (g || p) false ops
  | .timer :: ops => gapAfter false p ops

theorem libOps_append (a b : List HMOp) : ∀ (g p : Bool), libOps g p (a ++ b) = libOps g p a ++ libOps (gapAfter g p a) (silent p a) b := by
  induction a with
  | nil => intro g p; rfl
  | cons op a ih => intro g p; cases op <;> simp [libOps, gapAfter, silent, ih]

theorem gapAfter_append (a b : List HMOp) : ∀ (g p : Bool), gapAfter g p (a ++ b) = gapAfter (gapAfter g p a) (silent p a) b := by
  induction a with
  | nil => intro g p; rfl
  | cons op a ih => intro g p; cases op <;> simp [gapAfter, silent, ih]

theorem silent_append (a b : List HMOp) : ∀ (p : Bool), silent p (a ++ b) = silent (silent p a) b := by
  induction a with
  | nil => intro p; rfl
  | cons op a ih => intro p; cases op <;> simp [silent, ih]

theorem sysM_append {cfg : Config} {b : List HMOp} (a : List HMOp) : ∀ {s s1 s2 : MasterSys} {t1 t2 : HMTrace},
    masterSysRun cfg s a = .ok (s1, t1) → masterSysRun cfg s1 b = .ok (s2, t2) → masterSysRun cfg s (a ++ b) = .ok (s2, t1 ++ t2) := by
  induction a with
  | nil => intro s s1 s2 t1 t2 h1 h2; cases h1; exact h2
  | cons op a ih =>
    intro s s1 s2 t1 t2 h1 h2
    simp only [masterSysRun] at h1
    obtain ⟨⟨s3, o⟩, h3, h1⟩ := bind_ok h1
    obtain ⟨⟨s4, t4⟩, h4, h1⟩ := bind_ok h1
    cases h1
    simp only [List.cons_append, masterSysRun, h3, ok_bind, ih h4 h2, pure_eq]

theorem sysM_one {cfg : Config} {s s1 : MasterSys} {op : HMOp} {o : List HMOut} (h : masterSysStep cfg s op = .ok (s1, o)) :
    masterSysRun cfg s [op] = .ok (s1, [(op, o)]) := by
  simp only [masterSysRun, h, ok_bind, pure_eq]

theorem sysM_split {cfg : Config} {b : List HMOp} (a : List HMOp) : ∀ {s s2 : MasterSys} {t : HMTrace}, masterSysRun cfg s (a ++ b) = .ok (s2, t) →
    ∃ s1 t1 t2, masterSysRun cfg s a = .ok (s1, t1) ∧ masterSysRun cfg s1 b = .ok (s2, t2) ∧ t = t1 ++ t2 := by
  induction a with
  | nil => intro s s2 t h; exact ⟨s, [], t, rfl, h, rfl⟩
  | cons op a ih =>
    intro s s2 t h
    simp only [List.cons_append, masterSysRun] at h
    obtain ⟨⟨s3, o⟩, h3, h⟩ := bind_ok h
    obtain ⟨⟨s4, t4⟩, h4, h⟩ := bind_ok h
    cases h
    obtain ⟨s1, t1, t2, k1, k2, rfl⟩ := ih h4
    exact ⟨s1, (op, o) :: t1, t2, by simp only [masterSysRun, h3, ok_bind, k1, pure_eq], k2, rfl⟩

/-- The transmitter's invariant after a run without undefined behaviour. -/
theorem MWInv.run_ok {cfg : Config} (hw : cfg.MWF) {ops : List HMOp} {s s' : MasterSys} {fs : List (List U8)} {w : List U8} {tr : HMTrace}
    (h : MWInv cfg s fs w) (hl : ∀ op ∈ ops, op.legal) (hr : masterSysRun cfg s ops = .ok (s', tr)) :
    MWInv cfg s' (fs ++ mframes tr) (w ++ mwire tr) := by
  rcases h.run hw ops hl with ⟨sa, ta, q1, q2⟩ | ⟨pre, post, sa, ta, rfl, q1, -, q3⟩
  · rw [hr] at q1
    cases q1
    exact q2
  · obtain ⟨s1, t1, t2, k1, k2, -⟩ := sysM_split pre hr
    rw [q1] at k1
    cases k1
    simp only [masterSysRun] at k2
    obtain ⟨⟨s3, o⟩, h3, -⟩ := bind_ok k2
    simp only [masterSysStep, show ¬ (MOp.isMain .poll = false) by decide, q3] at h3
    cases h3

/-- No transmission in a trace. -/
def NoSend (tr : MTrace) : Prop := ∀ x ∈ tr, ∀ f, MOut.send f ∉ x.2

theorem noSend_of_outs {tr : MTrace} (h : outs tr = []) : NoSend tr := by
  intro x hx f hf
  have : MOut.send f ∈ outs tr := List.mem_filter.2 ⟨List.mem_flatMap.2 ⟨x, hx, hf⟩, rfl⟩
  rw [h] at this
  cases this

/-- The transmitter at rest. -/
structure Calm (s : MasterSys) : Prop where
  cur : s.cur = s.last
  txf : s.lib.txf = .cleared
  drv : s.lib.drv = true

/-- An event other than an initialisation. -/
def HMOp.plain : HMOp → Prop
  | .main op => op.isMain = true ∧ ∀ m, op ≠ .init m
  | _ => True

theorem mainTrace_append (a b : HMTrace) : mainTrace (a ++ b) = mainTrace a ++ mainTrace b := by simp [mainTrace]

/-- A call of the main program without a transmission. -/
theorem sys_main {cfg : Config} {s : MasterSys} {op : MOp} {l : Master} {o : List MOut} (hm : op.isMain = true) (hi : ∀ m, op ≠ .init m)
    (h : masterStep cfg s.lib op = .ok (l, o)) (hf : ∀ f, MOut.send f ∉ o) :
    masterSysStep cfg s (.main op) = .ok ({ s with lib := l }, o.map .lib) := by
  simp only [masterSysStep, hm, h, ok_bind]
  cases op <;> first | exact absurd rfl (hi _) | exact masterSends_none _ _ hf

/-- The transmit part of the handler when the transmitter is at rest. -/
theorem irqTx_calm {cfg : Config} {s : MasterSys} (hc : s.cur = s.last) (ht : s.lib.txf = .cleared) (hd : s.lib.drv = true) (t : Bool) :
    masterIrqTx cfg s t = .ok (s, []) := by
  cases t with
  | false => rfl
  | true =>
    unfold masterIrqTx
    rw [if_pos rfl, if_neg (by omega), txDone_nop hd ht]
    rfl

theorem run_app_inv {cfg : Config} {a b : List MOp} {s s2 : Master} {t : MTrace} (h : masterRun cfg s (a ++ b) = .ok (s2, t)) (hn : NoSend t) :
    ∃ s1 t1 t2, masterRun cfg s a = .ok (s1, t1) ∧ masterRun cfg s1 b = .ok (s2, t2) ∧ t = t1 ++ t2 ∧ NoSend t1 ∧ NoSend t2 := by
  obtain ⟨s1, t1, t2, h1, h2, rfl⟩ := run_split h
  exact ⟨s1, t1, t2, h1, h2, rfl, fun x hx => hn x (List.mem_append_left _ hx), fun x hx => hn x (List.mem_append_right _ hx)⟩

/-- An interrupt event of the library keeps what matters to the transmitter, and puts out nothing. -/
theorem irq_keeps {cfg : Config} {l l' : Master} {op : MOp} {t : MTrace} (hm : op.isMain = false) (hx : op ≠ .txDone)
    (h : masterRun cfg l [op] = .ok (l', t)) : masterStep cfg l op = .ok (l', []) ∧ l'.drv = l.drv ∧ l'.txf = l.txf ∧ t = [(op, [])] := by
  obtain ⟨l1, o, t2, h1, h2, rfl⟩ := run_cons_inv h
  cases h2
  have ho := masterStep_irq hm h1
  subst ho
  have hk := step_keeps (by rintro m rfl; cases hm) hx h1 (by simp)
  exact ⟨h1, hk.1, hk.2, rfl⟩

/-- The receive part of the handler. -/
theorem sim_rx {cfg : Config} {s : MasterSys} {b : Option U8} {l : Master} {t : MTrace}
    (h : masterRun cfg s.lib (b.toList.flatMap fun b => .rxByte b :: if s.gap then [.frameErr] else []) = .ok (l, t)) :
    masterIrqRx cfg s b = .ok { s with lib := l } ∧ l.drv = s.lib.drv ∧ l.txf = s.lib.txf ∧ t.filter (fun x => x.1.isMain) = [] := by
  cases b with
  | none => cases h; exact ⟨rfl, rfl, rfl, rfl⟩
  | some b =>
    simp only [Option.toList_some, List.flatMap_cons, List.flatMap_nil, List.append_nil] at h
    by_cases hg : s.gap = true
    · rw [if_pos hg] at h
      obtain ⟨l1, t1, t2, h1, h2, rfl⟩ := run_split (a := [.rxByte b]) (b := [.frameErr]) h
      obtain ⟨a1, a2, a3, rfl⟩ := irq_keeps rfl (by simp) h1
      obtain ⟨b1, b2, b3, rfl⟩ := irq_keeps rfl (by simp) h2
      refine ⟨?_, b2.trans a2, b3.trans a3, rfl⟩
      unfold masterIrqRx
      simp only [a1, ok_bind]
      refine (if_pos hg).trans ?_
      simp only [b1, ok_bind, pure_eq]
    · rw [if_neg hg] at h
      obtain ⟨a1, a2, a3, rfl⟩ := irq_keeps rfl (by simp) h
      refine ⟨?_, a2, a3, rfl⟩
      unfold masterIrqRx
      simp only [a1, ok_bind]
      exact if_neg hg

/-- The receive timeout part of the handler. -/
theorem sim_rto {cfg : Config} {s : MasterSys} {l : Master} {t : MTrace}
    (h : masterRun cfg s.lib (if s.rtof then [.t15] else []) = .ok (l, t)) :
    masterIrqRto cfg s = .ok { s with lib := l, gap := s.gap || s.rtof, rtof := false } ∧ l.drv = s.lib.drv ∧ l.txf = s.lib.txf ∧
      t.filter (fun x => x.1.isMain) = [] := by
  by_cases hr : s.rtof = true
  · rw [if_pos hr] at h
    obtain ⟨a1, a2, a3, rfl⟩ := irq_keeps rfl (by simp) h
    refine ⟨?_, a2, a3, rfl⟩
    unfold masterIrqRto
    rw [if_pos hr]
    simp only [a1, ok_bind, pure_eq, hr, Bool.or_true]
  · rw [if_neg hr] at h
    cases h
    refine ⟨?_, rfl, rfl, rfl⟩
    unfold masterIrqRto
    rw [if_neg hr]
    have : s.rtof = false := by simpa using hr
    rw [this, Bool.or_false]
    cases s
    simp_all

/-- **Simulation.** While the transmitter is at rest, the device does what its library does with the translated events. -/
theorem sim_calm {cfg : Config} (ops : List HMOp) : ∀ {s : MasterSys} {l : Master} {tr : MTrace}, Calm s → (∀ op ∈ ops, op.plain) →
    masterRun cfg s.lib (libOps s.gap s.rtof ops) = .ok (l, tr) → NoSend tr →
    ∃ s' htr, masterSysRun cfg s ops = .ok (s', htr) ∧ s'.lib = l ∧ Calm s' ∧ s'.gap = gapAfter s.gap s.rtof ops ∧ s'.rtof = silent s.rtof ops ∧
      mainTrace htr = tr.filter fun x => x.1.isMain := by
  induction ops with
  | nil => intro s l tr hc _ hr _; cases hr; exact ⟨s, [], rfl, rfl, hc, rfl, rfl, rfl⟩
  | cons op ops ih =>
    intro s l tr hc hp hr hn
    have hp1 := hp op (List.mem_cons_self ..)
    have hp2 : ∀ op ∈ ops, op.plain := fun op ho => hp op (List.mem_cons_of_mem _ ho)
    cases op with
    | rto =>
      obtain ⟨s2, t3, a1, a2, a3, a4, a5, a6⟩ := ih (s := { s with rtof := true }) ⟨hc.cur, hc.txf, hc.drv⟩ hp2 hr hn
      exact ⟨s2, (.rto, []) :: t3, by simp only [masterSysRun, masterSysStep, ok_bind, a1, pure_eq], a2, a3, a4, a5, a6⟩
    | main op =>
      obtain ⟨l1, o, t2, k1, k2, rfl⟩ := run_cons_inv (show masterRun cfg s.lib (op :: libOps s.gap s.rtof ops) = _ from hr)
      have hf : ∀ f, MOut.send f ∉ o := hn _ (List.mem_cons_self ..)
      have hk := step_keeps hp1.2 (by rintro rfl; exact absurd hp1.1 (by decide)) k1 hf
      have hstep := sys_main hp1.1 hp1.2 k1 hf
      obtain ⟨s2, t3, a1, a2, a3, a4, a5, a6⟩ := ih (s := { s with lib := l1 }) ⟨hc.cur, hk.2.trans hc.txf, hk.1.trans hc.drv⟩ hp2
        k2 (fun x hx => hn x (List.mem_cons_of_mem _ hx))
      refine ⟨s2, (.main op, o.map .lib) :: t3, by simp only [masterSysRun, hstep, ok_bind, a1, pure_eq], a2, a3, a4, a5, ?_⟩
      rw [List.filter_cons_of_pos (by simpa using hp1.1), ← a6]
      simp [mainTrace, libOuts_map]
    | timer =>
      obtain ⟨l1, o, t2, k1, k2, rfl⟩ := run_cons_inv (show masterRun cfg s.lib (.t35 :: libOps false s.rtof ops) = _ from hr)
      have ho := masterStep_irq rfl k1
      subst ho
      have hk := step_keeps (by simp) (by simp) k1 (by simp)
      obtain ⟨s2, t3, a1, a2, a3, a4, a5, a6⟩ := ih (s := { s with lib := l1, gap := false }) ⟨hc.cur, hk.2.trans hc.txf, hk.1.trans hc.drv⟩ hp2
        k2 (fun x hx => hn x (List.mem_cons_of_mem _ hx))
      refine ⟨s2, (.timer, []) :: t3, by simp only [masterSysRun, masterSysStep, k1, ok_bind, a1, pure_eq], a2, a3, a4, a5, ?_⟩
      rw [List.filter_cons_of_neg (by simp [MOp.isMain]), ← a6]
      simp [mainTrace]
    | usart b t =>
      rw [libOps] at hr
      obtain ⟨l2, t12, t3, q1, q2, rfl, n1, n2⟩ := run_app_inv hr hn
      obtain ⟨l1, t1, t2, q3, q4, rfl, n3, n4⟩ := run_app_inv q1 n1
      obtain ⟨r1, r2, r3, r4⟩ := sim_rx q3
      obtain ⟨u1, u2, u3, u4⟩ := sim_rto (s := { s with lib := l1 }) q4
      have hstep : masterSysStep cfg s (.usart b t) = .ok ({ s with lib := l2, gap := s.gap || s.rtof, rtof := false }, []) := by
        simp only [masterSysStep, r1, ok_bind]
        rw [irqTx_calm (s := { s with lib := l1 }) hc.cur (r3.trans hc.txf) (r2.trans hc.drv)]
        simp only [ok_bind, u1, pure_eq]
      obtain ⟨s2, t4, a1, a2, a3, a4, a5, a6⟩ := ih (s := { s with lib := l2, gap := s.gap || s.rtof, rtof := false })
        ⟨hc.cur, u3.trans (r3.trans hc.txf), u2.trans (r2.trans hc.drv)⟩ hp2 q2 n2
      refine ⟨s2, (.usart b t, []) :: t4, by simp only [masterSysRun, hstep, ok_bind, a1, pure_eq], a2, a3, a4, a5, ?_⟩
      rw [List.filter_append, List.filter_append, r4, u4, List.nil_append, List.nil_append, ← a6]
      simp [mainTrace]

end Modbus
