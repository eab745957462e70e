import Verif.Proofs.BootMaster

/-! The master device from power-on, on a line that leaves it alone until its first request. -/

namespace Modbus

open Spec

variable {cfg : Config}

/-- Between initialisation and power-off: no pending interrupt can reach a null pointer. -/
structure MBPost (cfg : Config) (d : MasterBoot) : Prop where
  todo : d.todo = []
  cbTx : d.cbTx = true
  cbT15 : d.cbT15 = true
  cbT35 : d.cbT35 = true
  cbErr : d.cbErr = true
  inv : ∃ g, MInv cfg d.lib g
  last : d.last < 256
  hot : d.hw.rxneie = true ∨ d.hw.txeie = true ∨ d.hw.rtof = true ∨ d.hw.cen = true ∨ d.hw.uif = true → d.lib.rxTarget ≠ none

/-- What the library does while the device goes from `d` to `d'`: it puts out `os`, the bytes `new` arrive and the main program makes `calls`. -/
def MBAdv (cfg : Config) (d : MasterBoot) (os : List MOut) (new : List U8) (calls : List MOp) (d' : MasterBoot) : Prop :=
  MBPost cfg d' ∧ ∃ mops tr, OpsOk mops ∧ masterRun cfg d.lib mops = .ok (d'.lib, tr) ∧ tr.flatMap Prod.snd = os ∧
    (mBytes mops ++ d'.hw.rdr.toList).Sublist (d.hw.rdr.toList ++ new) ∧ mops.filter MOp.isCall = calls

theorem MBAdv.refl {d d' : MasterBoot} {new : List U8} (p : MBPost cfg d') (hl : d'.lib = d.lib)
    (h : d'.hw.rdr.toList.Sublist (d.hw.rdr.toList ++ new)) : MBAdv cfg d [] new [] d' :=
  ⟨p, [], [], (fun _ h => nomatch h), by rw [hl]; rfl, rfl, h, rfl⟩

theorem MBAdv.trans {d d1 d2 : MasterBoot} {os1 os2 : List MOut} {n1 n2 : List U8} {c1 c2 : List MOp} (a : MBAdv cfg d os1 n1 c1 d1)
    (b : MBAdv cfg d1 os2 n2 c2 d2) : MBAdv cfg d (os1 ++ os2) (n1 ++ n2) (c1 ++ c2) d2 := by
  obtain ⟨-, m1, t1, a1, a2, a3, a4, a5⟩ := a
  obtain ⟨p, m2, t2, b1, b2, b3, b4, b5⟩ := b
  refine ⟨p, m1 ++ m2, t1 ++ t2, ?_, run_append_ok a2 b2, ?_, ?_, ?_⟩
  · intro op ho
    rcases List.mem_append.1 ho with ho | ho
    · exact a1 op ho
    · exact b1 op ho
  · rw [List.flatMap_append, a3, b3]
  · rw [mBytes_append, ← List.append_assoc d.hw.rdr.toList, List.append_assoc (mBytes m1)]
    refine (List.Sublist.append (List.Sublist.refl (mBytes m1)) b4).trans ?_
    rw [← List.append_assoc]
    exact List.Sublist.append a4 (List.Sublist.refl _)
  · rw [List.filter_append, a5, b5]

/-- One step of the library inside a handler. -/
theorem MBAdv.irq {d d' : MasterBoot} {op : MOp} {new : List U8} (hw : cfg.MWF) (p : MBPost cfg d) (hi : op.isCall = false) (hn : ∀ m, op ≠ .init m)
    (h : masterStep cfg d.lib op = .ok (d'.lib, [])) (hb : (mBytes [op] ++ d'.hw.rdr.toList).Sublist (d.hw.rdr.toList ++ new))
    (ht : d'.lib.rxTarget = d.lib.rxTarget) (htodo : d'.todo = d.todo) (hcs : d'.consts = d.consts) (hl : d'.last < 256)
    (hot : d'.hw.rxneie = true ∨ d'.hw.txeie = true ∨ d'.hw.rtof = true ∨ d'.hw.cen = true ∨ d'.hw.uif = true → d'.lib.rxTarget ≠ none) :
    MBAdv cfg d [] new [] d' := by
  have ho : OpsOk [op] := by
    intro x hx
    rw [List.mem_singleton.1 hx]
    exact ⟨hn, fun r hr => by subst hr; cases hi⟩
  have hr : masterRun cfg d.lib [op] = .ok (d'.lib, [(op, [])]) := run_one h
  obtain ⟨g, hg⟩ := p.inv
  obtain ⟨g', hg', -⟩ := masterRun_ok hw ho hg hr
  simp only [MasterBoot.consts, Prod.mk.injEq] at hcs
  refine ⟨⟨htodo.trans p.todo, hcs.1.trans p.cbTx, hcs.2.1.trans p.cbT15, hcs.2.2.1.trans p.cbT35, hcs.2.2.2.1.trans p.cbErr, ⟨g', hg'⟩, hl, hot⟩,
    [op], _, ho, hr, rfl, hb, ?_⟩
  show List.filter _ [op] = _
  rw [List.filter_cons_of_neg (by rw [hi]; exact Bool.false_ne_true)]; rfl

theorem mboot_rx (hw : cfg.MWF) {d : MasterBoot} (p : MBPost cfg d) (ht : d.lib.rxTarget ≠ none) :
    ∃ d', mbootIrqRx d = .ok d' ∧ d'.lib.rxTarget ≠ none ∧ MBAdv cfg d [] [] [] d' := by
  unfold mbootIrqRx
  cases hr : d.hw.rdr with
  | none => exact ⟨d, rfl, ht, .refl p rfl (List.sublist_append_left _ _)⟩
  | some b =>
    obtain ⟨i, hi⟩ := Option.ne_none_iff_exists'.1 ht
    obtain ⟨g, hg⟩ := p.inv
    obtain ⟨l, k1, -⟩ := rx_inv hg b
    have ht' := masterRx_target k1
    dsimp only
    rw [hi]
    dsimp only
    rw [k1, ok_bind]
    have s1 : masterStep cfg d.lib (.rxByte b) = .ok (l, []) := by simp only [masterStep, k1, ok_bind, pure_eq]
    have a : MBAdv cfg d [] [] [] { d with lib := l, hw := { d.hw with rdr := none, cen := true } } :=
      .irq (op := .rxByte b) hw p rfl (fun _ h => nomatch h) s1 (by rw [hr]; exact List.Sublist.refl _) ht' rfl rfl p.last
        (fun _ => by show l.rxTarget ≠ none; rw [ht']; exact ht)
    by_cases hgap : d.gap = true
    · rw [if_pos hgap, if_pos p.cbErr]
      refine ⟨_, rfl, ?_, ?_⟩
      · show l.rxTarget ≠ none
        rw [ht']; exact ht
      · have q := a.1
        obtain ⟨g2, hg2⟩ := q.inv
        have hd : l.drv = true := hg2.drv
        have s2 : masterStep cfg l .frameErr = .ok ({ l with ferr := .set }, []) := by
          show Except.ok (if l.drv = true then _ else _, _) = _
          rw [if_pos hd]
        exact a.trans (.irq (op := .frameErr) (new := []) hw q rfl (fun _ h => nomatch h) s2 (List.sublist_append_left _ _) rfl rfl rfl p.last
          (fun _ => by show l.rxTarget ≠ none; rw [ht']; exact ht))
    · rw [if_neg hgap]
      exact ⟨_, rfl, by show l.rxTarget ≠ none; rw [ht']; exact ht, a⟩

theorem mboot_tx (hw : cfg.MWF) {d : MasterBoot} (p : MBPost cfg d) (ht : d.lib.rxTarget ≠ none) :
    ∃ d' o, mbootIrqTx d = .ok (d', o) ∧ libOuts o = [] ∧ d'.lib.rxTarget ≠ none ∧ MBAdv cfg d [] [] [] d' := by
  unfold mbootIrqTx
  by_cases hx : d.hw.txe = true
  · rw [if_pos hx]
    by_cases hc : d.cur < d.last
    · have hl := p.last
      rw [if_pos hc, rd_ok _ (by omega), ok_bind]
      exact ⟨_, _, rfl, rfl, ht, .refl ⟨p.todo, p.cbTx, p.cbT15, p.cbT35, p.cbErr, p.inv, p.last, fun _ => ht⟩ rfl (List.sublist_append_left _ _)⟩
    · rw [if_neg hc, if_pos p.cbTx]
      obtain ⟨g, hg⟩ := p.inv
      refine ⟨_, _, rfl, rfl, ht, .irq (op := .txDone) hw p rfl (fun _ h => nomatch h) ?_ (List.sublist_append_left _ _) rfl rfl rfl p.last (fun _ => ht)⟩
      show Except.ok (if d.lib.drv = true then _ else _, _) = _
      rw [if_pos hg.drv]
  · rw [if_neg hx]
    exact ⟨d, _, rfl, rfl, ht, .refl p rfl (List.sublist_append_left _ _)⟩

theorem mboot_rto (hw : cfg.MWF) {d : MasterBoot} (p : MBPost cfg d) (ht : d.lib.rxTarget ≠ none) : MBAdv cfg d [] [] [] (mbootIrqRto d) := by
  unfold mbootIrqRto
  by_cases hr : d.hw.rtof = true
  · obtain ⟨g, hg⟩ := p.inv
    rw [if_pos hr, if_pos p.cbT15]
    refine .irq (op := .t15) hw p rfl (fun _ h => nomatch h) ?_ (List.sublist_append_left _ _) rfl rfl rfl p.last (fun _ => ht)
    show Except.ok (if d.lib.drv = true then _ else _, _) = _
    rw [if_pos hg.drv]
  · rw [if_neg hr]
    exact .refl p rfl (List.sublist_append_left _ _)

theorem mboot_usart (hw : cfg.MWF) {d : MasterBoot} (p : MBPost cfg d) (h : d.hw.irqU = true) :
    ∃ d' o, mbootIrqUsart d = .ok (d', o) ∧ libOuts o = [] ∧ MBAdv cfg d [] [] [] d' := by
  have ht : d.lib.rxTarget ≠ none := by
    apply p.hot
    unfold UartHw.irqU at h
    cases h1 : d.hw.rxneie with
    | true => exact .inl rfl
    | false =>
      cases h2 : d.hw.txeie with
      | true => exact .inr (.inl rfl)
      | false =>
        rw [h1, h2] at h
        simp only [Bool.and_false, Bool.false_or, Bool.and_eq_true] at h
        exact .inr (.inr (.inl h.2))
  obtain ⟨d1, e1, t1, a1⟩ := mboot_rx hw p ht
  obtain ⟨d2, o2, e2, f2, t2, a2⟩ := mboot_tx hw a1.1 t1
  have a3 := mboot_rto hw a2.1 t2
  refine ⟨mbootIrqRto d2, o2, ?_, f2, (a1.trans a2).trans a3⟩
  unfold mbootIrqUsart; rw [e1, ok_bind, e2]; rfl

theorem mboot_timer (hw : cfg.MWF) {d : MasterBoot} (p : MBPost cfg d) (h : d.hw.uif = true) :
    ∃ d', mbootIrqTimer d = .ok d' ∧ MBAdv cfg d [] [] [] d' := by
  have ht : d.lib.rxTarget ≠ none := p.hot (.inr (.inr (.inr (.inr h))))
  obtain ⟨g, hg⟩ := p.inv
  unfold mbootIrqTimer
  rw [if_pos p.cbT35]
  refine ⟨_, rfl, .irq (op := .t35) hw p rfl (fun _ h => nomatch h) ?_ (List.sublist_append_left _ _) rfl rfl rfl p.last (fun _ => ht)⟩
  show Except.ok (if d.lib.drv = true then _ else _, _) = _
  rw [if_pos hg.drv]

theorem mbootSends_none (d : MasterBoot) (o : List MOut) (h : ∀ f, MOut.send f ∉ o) : mbootSends d o = .ok (d, o.map .lib) := by
  induction o with
  | nil => rfl
  | cons x o ih =>
    have ih := ih fun f hf => h f (List.mem_cons_of_mem _ hf)
    cases x with
    | send f => exact absurd (List.mem_cons_self ..) (h f)
    | ret c => simp only [mbootSends, ih, ok_bind, pure_eq, List.map_cons]
    | event e => simp only [mbootSends, ih, ok_bind, pure_eq, List.map_cons]

theorem mbootSend_ok (d : MasterBoot) {i : Nat} (h : d.lib.msgBuf = some i) : ∃ d' o, mbootSend d = .ok (d', o) := by
  unfold mbootSend
  rw [h]
  dsimp only
  split
  · rw [rd_ok _ (show 0 < 256 by decide), ok_bind]
    exact ⟨_, _, rfl⟩
  · exact ⟨_, _, rfl⟩

/-- A call of the main program, or a tick. -/
theorem mboot_main (hw : cfg.MWF) {d : MasterBoot} (p : MBPost cfg d) {op : MOp} (hc : op.isCall = true) (hl : MBootLegal (.main op)) :
    (∃ d' o, mbootStep cfg d (.main op) = .ok (d', o) ∧ MBAdv cfg d (libOuts o) [] [op] d') ∨
      (op = .poll ∧ masterStep cfg d.lib .poll = .error .oobRead) := by
  have hop : (∀ m, op ≠ .init m) ∧ ∀ r, op = .request r → QtyOk r → DataOk r := by
    refine ⟨?_, ?_⟩
    · rintro m rfl; cases hc
    · rintro r rfl; exact hl
  obtain ⟨g, hg⟩ := p.inv
  rcases masterStep_inv hw hg op hop.1 hop.2 with ⟨l, o, g', k1, k2, -⟩ | ⟨rfl, k, -⟩
  · left
    have hstep : mbootStep cfg d (.main op) = mbootSends { d with lib := l } o := by
      show (if op.isCall = true ∧ (d.todo = [] ∨ op = .tick) then _ else _) = _
      rw [if_pos ⟨hc, .inl p.todo⟩, k1, ok_bind]
    have ho : OpsOk [op] := by
      intro x hx
      rw [List.mem_singleton.1 hx]
      exact hop
    have hb : mBytes [op] = [] := by cases op <;> first | rfl | cases hc
    have hf : [op].filter MOp.isCall = [op] := by rw [List.filter_cons_of_pos hc]; rfl
    have fin : ∀ d' o', mbootSends { d with lib := l } o = .ok (d', o') → (l.rxTarget ≠ none ∨ d' = { d with lib := l } ∧ l.rxTarget = d.lib.rxTarget) →
        ∃ d' o, mbootStep cfg d (.main op) = .ok (d', o) ∧ MBAdv cfg d (libOuts o) [] [op] d' := by
      intro d' o' h2 h3
      obtain ⟨a1, a2, a3, a4, a5, a6, a7, a8⟩ := mbootSends_inv h2
      simp only [MasterBoot.consts, Prod.mk.injEq] at a3
      have a1 : d'.lib = l := a1
      refine ⟨d', o', hstep.trans h2, ⟨a2.trans p.todo, a3.1.trans p.cbTx, a3.2.1.trans p.cbT15, a3.2.2.1.trans p.cbT35, a3.2.2.2.1.trans p.cbErr,
        ⟨g', a1 ▸ k2⟩, a8 p.last, ?_⟩, [op], [(op, o)], ho, a1 ▸ run_one k1, ?_, ?_, hf⟩
      · rw [a1]
        rcases h3 with h3 | ⟨h3, h4⟩
        · exact fun _ => h3
        · rw [h4, h3]; exact p.hot
      · rw [a4]; simp
      · rw [hb, a5]
        exact List.sublist_append_left _ _
    rcases masterStep_target hc k1 with ⟨t1, t2⟩ | ⟨-, t1, i, t2, t3⟩
    · exact fin _ _ (mbootSends_none _ _ t2) (.inr ⟨rfl, t1⟩)
    · obtain ⟨d', o', h2⟩ := mbootSend_ok { d with lib := l } t2
      refine fin d' (.lib (.send ((l.msgs i).req.bytes 0 (l.msgs i).reqLen.toNat)) :: o' ++ []) ?_ (.inl t1)
      rw [t3]
      simp only [mbootSends, h2, ok_bind, pure_eq]
  · exact .inr ⟨rfl, k⟩

theorem mboot_hw {d : MasterBoot} (p : MBPost cfg d) {e : HwEv} (ht : MBootTimely d (.hw e)) :
    MBAdv cfg d [] (MBootArrived (.hw e)) [] { d with hw := hwStep d.hw e } := by
  have p' : ∀ h : UartHw, (h.rxneie = true ∨ h.txeie = true ∨ h.rtof = true ∨ h.cen = true ∨ h.uif = true → d.lib.rxTarget ≠ none) →
      MBPost cfg { d with hw := h } := fun _ hh => ⟨p.todo, p.cbTx, p.cbT15, p.cbT35, p.cbErr, p.inv, p.last, hh⟩
  cases e with
  | char b =>
    show MBAdv cfg d [] _ [] { d with hw := if _ then _ else _ }
    by_cases h : d.hw.ue = true
    · rw [if_pos h]
      exact .refl (p' _ p.hot) rfl (List.sublist_append_right _ _)
    · rw [if_neg h]
      exact .refl p rfl (List.sublist_append_left _ _)
  | quiet =>
    show MBAdv cfg d [] _ [] { d with hw := if _ then _ else _ }
    by_cases h : d.hw.heard = true
    · rw [if_pos h]
      exact .refl (p' _ (fun _ => ht h)) rfl (List.sublist_append_left _ _)
    · rw [if_neg h]
      exact .refl p rfl (List.sublist_append_left _ _)
  | shift => exact .refl (p' _ p.hot) rfl (List.sublist_append_left _ _)
  | expire =>
    show MBAdv cfg d [] _ [] { d with hw := if _ then _ else _ }
    by_cases h : d.hw.cen = true
    · rw [if_pos h]
      exact .refl (p' _ (fun _ => p.hot (.inr (.inr (.inr (.inl h)))))) rfl (List.sublist_append_left _ _)
    · rw [if_neg h]
      exact .refl p rfl (List.sublist_append_left _ _)

/-- One event after the initialisation. -/
theorem mboot_step (hw : cfg.MWF) {d : MasterBoot} (p : MBPost cfg d) {op : MBOp} (hl : MBootLegal op) (ht : MBootTimely d op) :
    (∃ d' o, mbootStep cfg d op = .ok (d', o) ∧ MBAdv cfg d (libOuts o) (MBootArrived op) ((MBootCalled op).filter MOp.isCall) d') ∨
      (op = .main .poll ∧ masterStep cfg d.lib .poll = .error .oobRead) := by
  have keep : ∀ new, MBAdv cfg d [] new [] d := fun _ => .refl p rfl (List.sublist_append_left _ _)
  cases op with
  | next =>
    refine .inl ⟨d, [], ?_, keep _⟩
    show (match d.todo with | [] => _ | s :: t => _) = _
    rw [p.todo]
  | main op =>
    by_cases h : op.isCall = true
    · rcases mboot_main hw p h hl with ⟨d', o, h1, h2⟩ | ⟨rfl, h1⟩
      · refine .inl ⟨d', o, h1, ?_⟩
        rw [show (MBootCalled (.main op)).filter MOp.isCall = [op] by show List.filter _ [op] = _; rw [List.filter_cons_of_pos h]; rfl]
        exact h2
      · exact .inr ⟨rfl, h1⟩
    · refine .inl ⟨d, [], ?_, ?_⟩
      · show (if op.isCall = true ∧ (d.todo = [] ∨ op = .tick) then _ else _) = _
        rw [if_neg (fun hh => h hh.1)]
      · rw [show (MBootCalled (.main op)).filter MOp.isCall = [] by show List.filter _ [op] = _; rw [List.filter_cons_of_neg h]; rfl]
        exact keep _
  | hw e => exact .inl ⟨_, [], rfl, mboot_hw p ht⟩
  | usart =>
    left
    by_cases h : d.hw.irqU = true
    · obtain ⟨d', o, h1, h2, h3⟩ := mboot_usart hw p h
      refine ⟨d', o, ?_, h2 ▸ h3⟩
      show (if _ then _ else _) = _
      rw [if_pos h, h1]
    · refine ⟨d, [], ?_, keep _⟩
      show (if _ then _ else _) = _
      rw [if_neg h]
  | timer =>
    left
    by_cases h : (d.hw.nvicT && d.hw.uif) = true
    · obtain ⟨d', h1, h3⟩ := mboot_timer hw p (Bool.and_eq_true_iff.1 h).2
      refine ⟨d', [], ?_, h3⟩
      show (if _ then _ else _) = _
      rw [if_pos h, h1]; rfl
    · refine ⟨d, [], ?_, keep _⟩
      show (if _ then _ else _) = _
      rw [if_neg h]

/-- Two histories, one after the other. -/
theorem mbootRun_cons {d d1 d2 : MasterBoot} {op : MBOp} {ops : List MBOp} {o1 o2 : List HMOut} (h1 : mbootStep cfg d op = .ok (d1, o1))
    (h2 : mbootRun cfg d1 ops = .ok (d2, o2)) : mbootRun cfg d (op :: ops) = .ok (d2, o1 ++ o2) := by
  simp only [mbootRun, h1, ok_bind, h2, pure_eq]

/-- A history after the initialisation. -/
theorem mboot_run (hw : cfg.MWF) (ops : List MBOp) : ∀ d : MasterBoot, MBPost cfg d → (∀ op ∈ ops, MBootLegal op) → MBootInTime cfg d ops →
    (∃ d' o, mbootRun cfg d ops = .ok (d', o) ∧
      MBAdv cfg d (libOuts o) (ops.flatMap MBootArrived) ((ops.flatMap MBootCalled).filter MOp.isCall) d') ∨
      (∃ pre post d' o, ops = pre ++ .main .poll :: post ∧ mbootRun cfg d pre = .ok (d', o) ∧ d'.todo = [] ∧
        masterStep cfg d'.lib .poll = .error .oobRead) := by
  induction ops with
  | nil => intro d p _ _; exact .inl ⟨d, [], rfl, .refl p rfl (List.sublist_append_left _ _)⟩
  | cons op ops ih =>
    intro d p hl ht
    rcases mboot_step hw p (hl op (List.mem_cons_self ..)) ht.1 with ⟨d1, o1, h1, a1⟩ | ⟨rfl, h1⟩
    · rcases ih d1 a1.1 (fun x hx => hl x (List.mem_cons_of_mem _ hx)) (ht.2 d1 o1 h1) with
        ⟨d2, o2, h2, a2⟩ | ⟨pre, post, d2, o2, e, h2, t2, h3⟩
      · refine .inl ⟨d2, o1 ++ o2, mbootRun_cons h1 h2, ?_⟩
        rw [libOuts_append, List.flatMap_cons, List.flatMap_cons, List.filter_append]; exact a1.trans a2
      · exact .inr ⟨op :: pre, post, d2, o1 ++ o2, by rw [e]; rfl, mbootRun_cons h1 h2, t2, h3⟩
    · exact .inr ⟨[], ops, d, [], rfl, rfl, p.todo, h1⟩

/-! ### During the initialisation -/

/-- The statements do what `modbus_master_init` does. -/
theorem masterInit_stmts (cfg : Config) : masterInitStmts.foldlM (fun l x => MInitStmt.lib cfg l x) Master.powerOn = masterInit cfg Master.powerOn .rtu := by
  unfold masterInit
  by_cases h : 256 ≤ cfg.queueItems
  · rw [if_pos h]
    simp only [masterInitStmts, List.foldlM_cons, MInitStmt.lib, if_pos h]
    rfl
  · rw [if_neg h]
    simp only [masterInitStmts, List.foldlM_cons, List.foldlM_nil, MInitStmt.lib, if_neg h, ok_bind]
    cases pushAllLoop cfg.queueItems cfg.queueItems 0 Master.powerOn.freeQ.init with
    | error e => rfl
    | ok q => rfl

/-- During the initialisation, `n` statements have been executed. -/
structure MBMid (cfg : Config) (d : MasterBoot) (n : Nat) : Prop where
  lt : n < 21
  after : MBAfter d n
  fold : (masterInitStmts.take n).foldlM (fun l x => MInitStmt.lib cfg l x) Master.powerOn = .ok d.lib
  target : d.lib.rxTarget = none
  timer : d.lib.timer = 0
  drv0 : d.txMsg = 0 ∧ d.cur = 0 ∧ d.last = 0 ∧ d.gap = false
  rxneie : d.hw.rxneie = false
  txeie : d.hw.txeie = false
  rtof : d.hw.rtof = false
  cen : d.hw.cen = false
  uif : d.hw.uif = false

theorem mstmt_timer {l l' : Master} {x : MInitStmt} (h : x.lib cfg l = .ok l') (h0 : l.timer = 0) : l'.timer = 0 := by
  cases x <;> simp only [MInitStmt.lib] at h
  case buffers => split at h <;> cases h <;> exact h0
  case pushAll =>
    split at h
    · cases h
    · obtain ⟨q, -, h⟩ := bind_ok h
      cases h; exact h0
  case clrTimer => cases h; rfl
  all_goals cases h; exact h0

/-- What a statement of the initialisation leaves alone. -/
theorem mstmt_drv (d : MasterBoot) (x : MInitStmt) : ((x.drv d).txMsg = d.txMsg ∧ (x.drv d).cur = d.cur ∧ (x.drv d).last = d.last ∧
    (d.gap = false → (x.drv d).gap = false)) ∧ (x.drv d).hw.rxneie = d.hw.rxneie ∧ (x.drv d).hw.txeie = d.hw.txeie ∧
    (x.drv d).hw.rtof = d.hw.rtof ∧ (x.drv d).hw.cen = d.hw.cen ∧ (x.drv d).hw.uif = d.hw.uif ∧ (x.drv d).hw.rdr = d.hw.rdr := by
  cases x <;> exact ⟨⟨rfl, rfl, rfl, fun h => by first | exact h | rfl⟩, rfl, rfl, rfl, rfl, rfl, rfl⟩

theorem mstmts_split {n : Nat} (h : n < 21) : ∃ x, masterInitStmts.drop n = x :: masterInitStmts.drop (n + 1) ∧
    masterInitStmts.take (n + 1) = masterInitStmts.take n ++ [x] := by
  have hcase : n = 0 ∨ n = 1 ∨ n = 2 ∨ n = 3 ∨ n = 4 ∨ n = 5 ∨ n = 6 ∨ n = 7 ∨ n = 8 ∨ n = 9 ∨ n = 10 ∨ n = 11 ∨ n = 12 ∨ n = 13 ∨ n = 14 ∨
    n = 15 ∨ n = 16 ∨ n = 17 ∨ n = 18 ∨ n = 19 ∨ n = 20 := by omega
  rcases hcase with rfl | rfl | rfl | rfl | rfl | rfl | rfl | rfl | rfl | rfl | rfl | rfl | rfl | rfl | rfl | rfl | rfl | rfl | rfl | rfl | rfl
  all_goals exact ⟨_, rfl, rfl⟩

/-- One event during the initialisation: nothing happens that the library could notice; or it is the last statement. -/
theorem mboot_mid (hw : cfg.MWF) {d : MasterBoot} {n : Nat} {l0 : Master} (p : MBMid cfg d n) (h0 : masterInit cfg Master.powerOn .rtu = .ok l0)
    {op : MBOp} (ht : MBootTimely d op) :
    ∃ d', mbootStep cfg d op = .ok (d', []) ∧ d'.hw.rdr.toList.Sublist (d.hw.rdr.toList ++ MBootArrived op) ∧
      (op ≠ .next ∧ MBMid cfg d' n ∨ op = .next ∧ (MBMid cfg d' (n + 1) ∨ n + 1 = 21 ∧ MBPost cfg d' ∧ d'.lib = l0 ∧
        d'.txMsg = 0 ∧ d'.cur = 0 ∧ d'.last = 0 ∧ d'.gap = false ∧ d'.hw.rtof = false)) := by
  have p' : ∀ h : UartHw, (MasterBoot.consts { d with hw := h }) = d.consts → h.rxneie = d.hw.rxneie → h.txeie = d.hw.txeie → h.rtof = d.hw.rtof →
      h.cen = d.hw.cen → h.uif = d.hw.uif → MBMid cfg { d with hw := h } n := fun _ e0 e1 e2 e3 e4 e5 =>
    ⟨p.lt, p.after.keep rfl e0, p.fold, p.target, p.timer, p.drv0, e1.trans p.rxneie, e2.trans p.txeie, e3.trans p.rtof, e4.trans p.cen, e5.trans p.uif⟩
  cases op with
  | next =>
    have hlt := p.lt
    obtain ⟨x, hx1, hx2⟩ := mstmts_split hlt
    have htodo : d.todo = x :: masterInitStmts.drop (n + 1) := p.after.todo.trans hx1
    have hall : masterInitStmts = masterInitStmts.take n ++ (x :: masterInitStmts.drop (n + 1)) := by
      rw [← hx1, List.take_append_drop]
    have hfull := masterInit_stmts cfg
    rw [h0, hall, List.foldlM_append, p.fold] at hfull
    have hfull : (x :: masterInitStmts.drop (n + 1)).foldlM (fun l x => MInitStmt.lib cfg l x) d.lib = .ok l0 := hfull
    rw [List.foldlM_cons] at hfull
    obtain ⟨l1, k1, k2⟩ := bind_ok hfull
    have hstep : mbootStep cfg d .next = .ok ({ x.drv d with lib := l1, todo := masterInitStmts.drop (n + 1) }, []) := by
      show (match d.todo with | [] => _ | s :: t => _) = _
      rw [htodo]
      dsimp only
      rw [k1, ok_bind]; rfl
    obtain ⟨e1, e2, e3, e4, e5, e6, e7⟩ := mstmt_drv d x
    have ha := p.after.step hstep
    rw [if_pos rfl] at ha
    refine ⟨_, hstep, ?_, .inr ⟨rfl, ?_⟩⟩
    · show ((x.drv d).hw.rdr.toList).Sublist _
      rw [e7]; exact List.sublist_append_left _ _
    rcases Nat.lt_or_ge (n + 1) 21 with hn | hn
    · left
      refine ⟨hn, ha, ?_, (mstmt_target k1).trans p.target, mstmt_timer k1 p.timer, ?_, e2.trans p.rxneie, e3.trans p.txeie, e4.trans p.rtof, e5.trans p.cen,
        e6.trans p.uif⟩
      · rw [hx2, List.foldlM_append, p.fold, ok_bind, List.foldlM_cons, k1]; rfl
      · exact ⟨e1.1.trans p.drv0.1, e1.2.1.trans p.drv0.2.1, e1.2.2.1.trans p.drv0.2.2.1, e1.2.2.2 p.drv0.2.2.2⟩
    · right
      have hn : n + 1 = 21 := by omega
      have hl : l1 = l0 := by
        rw [hn] at k2
        exact Except.ok.inj k2
      subst hl
      obtain ⟨l', i1, i2⟩ := masterInit_inv hw Master.powerOn
      rw [h0] at i1
      cases i1
      refine ⟨hn, ⟨?_, ha.tx (by omega), ha.t15 (by omega), ha.t35 (by omega), ha.err (by omega), ⟨_, i2⟩, ?_, ?_⟩, rfl,
        e1.1.trans p.drv0.1, e1.2.1.trans p.drv0.2.1, e1.2.2.1.trans p.drv0.2.2.1, e1.2.2.2 p.drv0.2.2.2, e4.trans p.rtof⟩
      · show masterInitStmts.drop (n + 1) = []
        rw [hn]; rfl
      · show (x.drv d).last < 256
        rw [e1.2.2.1, p.drv0.2.2.1]; decide
      · show (x.drv d).hw.rxneie = true ∨ (x.drv d).hw.txeie = true ∨ (x.drv d).hw.rtof = true ∨
          (x.drv d).hw.cen = true ∨ (x.drv d).hw.uif = true → _
        rw [e2, e3, e4, e5, e6, p.rxneie, p.txeie, p.rtof, p.cen, p.uif]
        simp
  | main op =>
    refine ⟨d, ?_, List.sublist_append_left _ _, .inl ⟨(fun h => nomatch h), p⟩⟩
    show (if op.isCall = true ∧ (d.todo = [] ∨ op = .tick) then _ else _) = _
    by_cases hc : op = .tick
    · subst hc
      rw [if_pos ⟨rfl, .inr rfl⟩]
      have : masterStep cfg d.lib .tick = .ok (d.lib, []) := by
        show Except.ok (if d.lib.timer ≠ 0 then _ else _, _) = _
        rw [if_neg (by rw [p.timer]; simp)]
      rw [this, ok_bind]; rfl
    · rw [if_neg]
      rintro ⟨-, h | h⟩
      · rw [p.after.todo] at h
        have := congrArg List.length h
        rw [List.length_drop] at this
        have hlen : masterInitStmts.length = 21 := rfl
        simp only [List.length_nil] at this
        have := p.lt
        omega
      · exact hc h
  | hw e =>
    refine ⟨_, rfl, ?_, .inl ⟨(fun h => nomatch h), ?_⟩⟩
    · cases e with
      | char b =>
        show ((if d.hw.ue = true then _ else _ : UartHw).rdr.toList).Sublist _
        split
        · exact List.sublist_append_right _ _
        · exact List.sublist_append_left _ _
      | quiet =>
        show ((if d.hw.heard = true then _ else _ : UartHw).rdr.toList).Sublist _
        split <;> exact List.sublist_append_left _ _
      | shift => exact List.sublist_append_left _ _
      | expire =>
        show ((if d.hw.cen = true then _ else _ : UartHw).rdr.toList).Sublist _
        split <;> exact List.sublist_append_left _ _
    · cases e with
      | char b =>
        show MBMid cfg { d with hw := if _ then _ else _ } n
        split
        · exact p' _ rfl rfl rfl rfl rfl rfl
        · exact p
      | quiet =>
        show MBMid cfg { d with hw := if _ then _ else _ } n
        split
        · rename_i h
          exact absurd p.target (ht h)
        · exact p
      | shift => exact p' _ rfl rfl rfl rfl rfl rfl
      | expire =>
        show MBMid cfg { d with hw := if _ then _ else _ } n
        split
        · rename_i h
          rw [p.cen] at h; cases h
        · exact p
  | usart =>
    refine ⟨d, ?_, List.sublist_append_left _ _, .inl ⟨(fun h => nomatch h), p⟩⟩
    show (if _ then _ else _) = _
    rw [if_neg]
    unfold UartHw.irqU
    rw [p.rxneie, p.txeie, p.rtof]
    simp
  | timer =>
    refine ⟨d, ?_, List.sublist_append_left _ _, .inl ⟨(fun h => nomatch h), p⟩⟩
    show (if _ then _ else _) = _
    rw [if_neg]
    rw [p.uif]
    simp

theorem afterNext_zero (ops : List MBOp) : afterNext 0 ops = ops := by cases ops <;> rfl

/-- A history from some point of the initialisation on. -/
theorem mboot_mid_run (hw : cfg.MWF) {l0 : Master} (h0 : masterInit cfg Master.powerOn .rtu = .ok l0) (ops : List MBOp) :
    ∀ (d : MasterBoot) (n : Nat), MBMid cfg d n → (∀ op ∈ ops, MBootLegal op) → MBootInTime cfg d ops →
      (∃ d' o mops l tr, mbootRun cfg d ops = .ok (d', o) ∧ OpsOk mops ∧ masterRun cfg l0 mops = .ok (l, tr) ∧ (d'.todo = [] → d'.lib = l) ∧
        tr.flatMap Prod.snd = libOuts o ∧ (mBytes mops ++ d'.hw.rdr.toList).Sublist (d.hw.rdr.toList ++ ops.flatMap MBootArrived) ∧
        mops.filter MOp.isCall = ((afterNext (21 - n) ops).flatMap MBootCalled).filter MOp.isCall) ∨
      (∃ pre post d' o, ops = pre ++ .main .poll :: post ∧ mbootRun cfg d pre = .ok (d', o) ∧ d'.todo = [] ∧
        masterStep cfg d'.lib .poll = .error .oobRead) := by
  induction ops with
  | nil =>
    intro d n p _ _
    have hlt := p.lt
    refine .inl ⟨d, [], [], l0, [], rfl, (fun _ h => nomatch h), rfl, ?_, rfl, List.sublist_append_left _ _, ?_⟩
    · intro h
      rw [p.after.todo] at h
      have := congrArg List.length h
      rw [List.length_drop] at this
      have hlen : masterInitStmts.length = 21 := rfl
      simp only [List.length_nil] at this
      omega
    · obtain ⟨k, hk⟩ : ∃ k, 21 - n = k + 1 := ⟨20 - n, by omega⟩
      rw [hk]; rfl
  | cons op ops ih =>
    intro d n p hl ht
    have hlt := p.lt
    obtain ⟨k, hk⟩ : ∃ k, 21 - n = k + 1 := ⟨20 - n, by omega⟩
    obtain ⟨d1, h1, r1, hcase⟩ := mboot_mid hw p h0 ht.1
    have hl' := fun x (hx : x ∈ ops) => hl x (List.mem_cons_of_mem _ hx)
    have ht' := ht.2 d1 [] h1
    have sub : ∀ {a b : List U8}, a.Sublist (d1.hw.rdr.toList ++ b) → a.Sublist (d.hw.rdr.toList ++ (MBootArrived op ++ b)) := by
      intro a b h
      refine h.trans ?_
      rw [← List.append_assoc]
      exact r1.append (List.Sublist.refl _)
    have hcase' : (∃ m, MBMid cfg d1 m ∧ afterNext (21 - n) (op :: ops) = afterNext (21 - m) ops) ∨
        (op = .next ∧ n + 1 = 21 ∧ MBPost cfg d1 ∧ d1.lib = l0) := by
      rcases hcase with ⟨hne, q⟩ | ⟨rfl, q | ⟨q1, q2, q3, -⟩⟩
      · refine .inl ⟨n, q, ?_⟩
        rw [hk]; show (if op = .next then _ else _) = _; rw [if_neg hne]
      · refine .inl ⟨n + 1, q, ?_⟩
        rw [hk]
        show afterNext k ops = _
        rw [show 21 - (n + 1) = k by omega]
      · exact .inr ⟨rfl, q1, q2, q3⟩
    rcases hcase' with ⟨m, q, hm⟩ | ⟨rfl, hn, q, hlib⟩
    · rcases ih d1 m q hl' ht' with ⟨d2, o2, mops, l, tr, a1, a2, a3, a4, a5, a6, a7⟩ | ⟨pre, post, d2, o2, a1, a2, a3, a4⟩
      · exact .inl ⟨d2, o2, mops, l, tr, mbootRun_cons h1 a1, a2, a3, a4, a5, sub a6, by rw [hm]; exact a7⟩
      · exact .inr ⟨op :: pre, post, d2, o2, by rw [a1]; rfl, mbootRun_cons h1 a2, a3, a4⟩
    · rcases mboot_run hw ops d1 q hl' ht' with ⟨d2, o2, a1, a2, mops, tr, a3, a4, a5, a6, a7⟩ | ⟨pre, post, d2, o2, a1, a2, a3, a4⟩
      · rw [hlib] at a4
        refine .inl ⟨d2, o2, mops, d2.lib, tr, mbootRun_cons h1 a1, a3, a4, fun _ => rfl, a5, sub a6, ?_⟩
        rw [a7, hk, show k = 0 by omega]
        show _ = ((if MBOp.next = MBOp.next then afterNext 0 ops else _).flatMap MBootCalled).filter MOp.isCall
        rw [if_pos rfl, afterNext_zero]
      · exact .inr ⟨.next :: pre, post, d2, o2, by rw [a1]; rfl, mbootRun_cons h1 a2, a3, a4⟩

theorem MBMid.powerOn (cfg : Config) : MBMid cfg MasterBoot.powerOn 0 :=
  ⟨by decide, .powerOn, rfl, rfl, rfl, ⟨rfl, rfl, rfl, rfl⟩, rfl, rfl, rfl, rfl, rfl⟩

end Modbus
