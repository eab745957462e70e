import Verif.Proofs.BootMasterRun
import Verif.Props.DriverMaster

/-! The master device from power-on is the device of `Model/Driver.lean`. -/

namespace Modbus

open Spec

variable {cfg : Config}

/-- The device as in `Model/Driver.lean`. Proof device, no C counterpart. -/
def MasterBoot.sys (d : MasterBoot) : MasterSys := ⟨d.lib, d.txMsg, d.cur, d.last, d.gap, d.hw.rtof⟩

/-- What an event is there. Proof device, no C counterpart. -/
def MasterBoot.asOps (d : MasterBoot) : MBOp → List HMOp
  | .next => []
  | .main op => if op.isCall then [.main op] else []
  | .hw .quiet => if d.hw.heard then [.rto] else []
  | .hw _ => []
  | .usart => if d.hw.irqU then [.usart d.hw.rdr d.hw.txe] else []
  | .timer => if d.hw.nvicT && d.hw.uif then [.timer] else []

theorem mbootSend_sys {d d' : MasterBoot} {o : List HMOut} (h : mbootSend d = .ok (d', o)) : masterUsartSend d.sys = .ok (d'.sys, o) := by
  unfold mbootSend at h
  unfold masterUsartSend
  show (match d.lib.msgBuf with | none => _ | some i => _) = _
  split at h
  · cases h
  · rename_i i hi
    rw [hi]
    dsimp only
    split at h
    · rename_i h0
      obtain ⟨b, e, h⟩ := bind_ok h
      cases h
      have e : rd (d.sys.lib.msgs i).req 0 = .ok b := e
      rw [if_pos (show 0 < (d.sys.lib.msgs i).reqLen.toNat from h0), e]; rfl
    · rename_i h0
      cases h
      rw [if_neg (show ¬ 0 < (d.sys.lib.msgs i).reqLen.toNat from h0)]; rfl

theorem mbootSends_sys {os : List MOut} : ∀ {d d' : MasterBoot} {o : List HMOut}, mbootSends d os = .ok (d', o) → masterSends d.sys os = .ok (d'.sys, o) := by
  induction os with
  | nil => intro d d' o h; cases h; rfl
  | cons x os ih =>
    intro d d' o h
    cases x with
    | send f =>
      simp only [mbootSends] at h
      obtain ⟨⟨d1, o1⟩, h1, h⟩ := bind_ok h
      obtain ⟨⟨d2, o2⟩, h2, h⟩ := bind_ok h
      cases h
      simp only [masterSends, mbootSend_sys h1, ok_bind, ih h2, pure_eq]
    | ret c =>
      simp only [mbootSends] at h
      obtain ⟨⟨d2, o2⟩, h2, h⟩ := bind_ok h
      cases h
      simp only [masterSends, ih h2, ok_bind, pure_eq]
    | event c =>
      simp only [mbootSends] at h
      obtain ⟨⟨d2, o2⟩, h2, h⟩ := bind_ok h
      cases h
      simp only [masterSends, ih h2, ok_bind, pure_eq]

/-- An event of the device is an event there (or none), with the same outputs. -/
theorem mboot_sim {d d' : MasterBoot} {op : MBOp} {o : List HMOut} (p : MBPost cfg d) (h : mbootStep cfg d op = .ok (d', o)) :
    ∃ tr, masterSysRun cfg d.sys (d.asOps op) = .ok (d'.sys, tr) ∧ tr.flatMap Prod.snd = o := by
  obtain ⟨g, hg⟩ := p.inv
  have hdrv := hg.drv
  have one : ∀ {s s' : MasterSys} {x : HMOp} {u : List HMOut}, masterSysStep cfg s x = .ok (s', u) →
      ∃ tr, masterSysRun cfg s [x] = .ok (s', tr) ∧ tr.flatMap Prod.snd = u := by
    intro s s' x u h
    refine ⟨[(x, u)], ?_, by simp⟩
    simp only [masterSysRun, h, ok_bind, pure_eq]
  cases op with
  | next =>
    have h : (match d.todo with | [] => Except.ok (d, []) | s :: t => do
      let l ← s.lib cfg d.lib
      return ({ s.drv d with lib := l, todo := t }, ([] : List HMOut))) = .ok (d', o) := h
    rw [p.todo] at h
    cases h
    exact ⟨[], rfl, rfl⟩
  | main op =>
    have h : (if op.isCall = true ∧ (d.todo = [] ∨ op = .tick) then (do
      let (l, o) ← masterStep cfg d.lib op
      mbootSends { d with lib := l } o) else Except.ok (d, [])) = .ok (d', o) := h
    show ∃ tr, masterSysRun cfg d.sys (if op.isCall = true then [HMOp.main op] else []) = _ ∧ _
    split at h
    · rename_i hc
      obtain ⟨⟨l, o1⟩, h1, h⟩ := bind_ok h
      replace h := mbootSends_sys h
      rw [if_pos hc.1]
      refine one ?_
      have hm : op.isMain = true := by cases op <;> first | rfl | exact absurd hc.1 Bool.false_ne_true
      show (if op.isMain = false then _ else _) = _
      have h1 : masterStep cfg d.sys.lib op = .ok (l, o1) := h1
      rw [if_neg (by rw [hm]; simp), h1, ok_bind]
      have hs : masterSends (⟨l, d.txMsg, d.cur, d.last, d.gap, d.hw.rtof⟩ : MasterSys) o1 = .ok (d'.sys, o) := h
      cases op with
      | request r => exact hs
      | poll => exact hs
      | tick => exact hs
      | init _ => exact absurd hc.1 Bool.false_ne_true
      | t15 => exact absurd hc.1 Bool.false_ne_true
      | t35 => exact absurd hc.1 Bool.false_ne_true
      | frameErr => exact absurd hc.1 Bool.false_ne_true
      | txDone => exact absurd hc.1 Bool.false_ne_true
      | rxByte _ => exact absurd hc.1 Bool.false_ne_true
    · rename_i hc
      cases h
      rw [if_neg (fun h => hc ⟨h, .inl p.todo⟩)]
      exact ⟨[], rfl, rfl⟩
  | hw e =>
    cases h
    cases e with
    | char b =>
      refine ⟨[], ?_, rfl⟩
      show Except.ok (d.sys, _) = .ok (MasterBoot.sys { d with hw := if _ then _ else _ }, _)
      split <;> rfl
    | quiet =>
      by_cases hq : d.hw.heard = true
      · have e1 : d.asOps (.hw .quiet) = [.rto] := if_pos hq
        have e2 : hwStep d.hw .quiet = ({ d.hw with rtof := true, heard := false } : UartHw) := if_pos hq
        rw [e1, e2]
        exact one rfl
      · have e1 : d.asOps (.hw .quiet) = [] := if_neg hq
        have e2 : hwStep d.hw .quiet = d.hw := if_neg hq
        rw [e1, e2]
        exact ⟨[], rfl, rfl⟩
    | shift => exact ⟨[], rfl, rfl⟩
    | expire =>
      refine ⟨[], ?_, rfl⟩
      show Except.ok (d.sys, _) = .ok (MasterBoot.sys { d with hw := if _ then _ else _ }, _)
      split <;> rfl
  | usart =>
    have h : (if d.hw.irqU = true then mbootIrqUsart d else Except.ok (d, [])) = .ok (d', o) := h
    show ∃ tr, masterSysRun cfg d.sys (if d.hw.irqU = true then [.usart d.hw.rdr d.hw.txe] else []) = _ ∧ _
    split at h
    · rename_i hi
      rw [if_pos hi]
      refine one ?_
      unfold mbootIrqUsart at h
      obtain ⟨d1, h1, h⟩ := bind_ok h
      obtain ⟨⟨d2, o2⟩, h2, h⟩ := bind_ok h
      obtain ⟨rfl, rfl⟩ := Prod.mk.inj (Except.ok.inj h)
      have a : masterIrqRx cfg d.sys d.hw.rdr = .ok d1.sys ∧ d1.hw.txe = d.hw.txe ∧ d1.lib.drv = true ∧ d1.cbT15 = true := by
        unfold mbootIrqRx at h1
        cases hr : d.hw.rdr with
        | none => rw [hr] at h1; cases h1; exact ⟨rfl, rfl, hdrv, p.cbT15⟩
        | some b =>
          rw [hr] at h1
          dsimp only at h1
          cases ht : d.lib.rxTarget with
          | none => rw [ht] at h1; cases h1
          | some i =>
            rw [ht] at h1
            obtain ⟨l, e, h1⟩ := bind_ok h1
            have hl : l.drv = true := by
              obtain ⟨l', k1, k2⟩ := rx_inv hg b
              rw [e] at k1; cases k1; exact k2.drv
            have e1 : masterStep cfg d.sys.lib (.rxByte b) = .ok (l, []) := by
              show (masterRx d.lib b >>= fun s => pure (s, ([] : List MOut))) = _
              rw [e]; rfl
            unfold masterIrqRx
            dsimp only
            rw [e1, ok_bind]
            dsimp only at h1 ⊢
            split at h1
            · rename_i hgap
              split at h1
              · cases h1
                have e2 : masterStep cfg l .frameErr = .ok ({ l with ferr := .set }, []) := by
                  show Except.ok (if l.drv = true then _ else _, _) = _
                  rw [if_pos hl]
                rw [if_pos (show d.sys.gap = true from hgap), e2]
                exact ⟨rfl, rfl, hl, p.cbT15⟩
              · cases h1
            · rename_i hgap
              cases h1
              rw [if_neg (show ¬ d.sys.gap = true from hgap)]
              exact ⟨rfl, rfl, hl, p.cbT15⟩
      have b : masterIrqTx cfg d1.sys d.hw.txe = .ok (d2.sys, o2) ∧ d2.lib.drv = true ∧ d2.cbT15 = true := by
        rw [← a.2.1]
        unfold mbootIrqTx at h2
        unfold masterIrqTx
        split at h2
        · rename_i hx
          rw [if_pos hx]
          split at h2
          · rename_i hc
            obtain ⟨b, e, h2⟩ := bind_ok h2
            cases h2
            have e : rd (d1.sys.lib.msgs d1.sys.txMsg).req (d1.sys.cur + 1) = .ok b := e
            rw [if_pos (show d1.sys.cur < d1.sys.last from hc), e]
            exact ⟨rfl, a.2.2⟩
          · rename_i hc
            split at h2
            · cases h2
              have e : masterStep cfg d1.sys.lib .txDone = .ok ({ d1.lib with txf := .cleared }, []) := by
                show Except.ok (if d1.lib.drv = true then _ else _, _) = _
                rw [if_pos a.2.2.1]; rfl
              rw [if_neg (show ¬ d1.sys.cur < d1.sys.last from hc), e]
              exact ⟨by simp only [ok_bind]; rfl, a.2.2⟩
            · cases h2
        · rename_i hx
          cases h2
          rw [if_neg hx]
          exact ⟨rfl, a.2.2⟩
      have c : masterIrqRto cfg d2.sys = .ok (mbootIrqRto d2).sys := by
        unfold masterIrqRto mbootIrqRto
        by_cases hr : d2.hw.rtof = true
        · have e : masterStep cfg d2.sys.lib .t15 = .ok ({ d2.lib with t15 := .set }, []) := by
            show Except.ok (if d2.lib.drv = true then _ else _, _) = _
            rw [if_pos b.2.1]; rfl
          rw [if_pos hr, if_pos (show d2.sys.rtof = true from hr), e, if_pos b.2.2]
          rfl
        · rw [if_neg hr, if_neg (show ¬ d2.sys.rtof = true from hr)]
      simp only [masterSysStep, a.1, ok_bind, b.1, c, pure_eq]
    · rename_i hi
      cases h
      rw [if_neg hi]
      exact ⟨[], rfl, rfl⟩
  | timer =>
    have h : (if (d.hw.nvicT && d.hw.uif) = true then (do let d ← mbootIrqTimer d; return (d, ([] : List HMOut))) else Except.ok (d, [])) = .ok (d', o) := h
    show ∃ tr, masterSysRun cfg d.sys (if (d.hw.nvicT && d.hw.uif) = true then [.timer] else []) = _ ∧ _
    split at h
    · rename_i hi
      rw [if_pos hi]
      obtain ⟨d1, h1, h⟩ := bind_ok h
      cases h
      unfold mbootIrqTimer at h1
      rw [if_pos p.cbT35] at h1
      cases h1
      have e : masterStep cfg d.sys.lib .t35 = .ok ({ d.lib with t35 := .set }, []) := by
        show Except.ok (if d.lib.drv = true then _ else _, _) = _
        rw [if_pos hdrv]; rfl
      refine one ?_
      simp only [masterSysStep, e, ok_bind, pure_eq]
      rfl
    · rename_i hi
      cases h
      rw [if_neg hi]
      exact ⟨[], rfl, rfl⟩

/-- Bytes handed to the handler arrived; calls are calls. -/
theorem asOps_facts {d d' : MasterBoot} {op : MBOp} {o : List HMOut} (p : MBPost cfg d) (hl : MBootLegal op) (h : mbootStep cfg d op = .ok (d', o)) :
    (∀ x ∈ d.asOps op, x.legal) ∧ (hmBytes (d.asOps op) ++ d'.hw.rdr.toList).Sublist (d.hw.rdr.toList ++ MBootArrived op) ∧
      (d.asOps op).filterMap (fun x => match x with | .main y => some y | _ => none) = (MBootCalled op).filter MOp.isCall := by
  cases op with
  | next =>
    have h : (match d.todo with | [] => Except.ok (d, []) | s :: t => do
      let l ← s.lib cfg d.lib
      return ({ s.drv d with lib := l, todo := t }, ([] : List HMOut))) = .ok (d', o) := h
    rw [p.todo] at h
    cases h
    exact ⟨(fun _ h => nomatch h), List.sublist_append_left _ _, rfl⟩
  | main op =>
    have h : (if op.isCall = true ∧ (d.todo = [] ∨ op = .tick) then (do
      let (l, o) ← masterStep cfg d.lib op
      mbootSends { d with lib := l } o) else Except.ok (d, [])) = .ok (d', o) := h
    show (∀ x ∈ (if op.isCall = true then [HMOp.main op] else []), x.legal) ∧ (hmBytes (if op.isCall = true then [HMOp.main op] else []) ++ _).Sublist _ ∧
      (if op.isCall = true then [HMOp.main op] else []).filterMap _ = List.filter _ [op]
    split at h
    · rename_i hc
      obtain ⟨⟨l, o1⟩, h1, h⟩ := bind_ok h
      have e := (mbootSends_inv h).2.2.2.2.1
      have e : d'.hw.rdr = d.hw.rdr := e
      rw [if_pos hc.1, List.filter_cons_of_pos hc.1]
      refine ⟨?_, ?_, rfl⟩
      · intro x hx
        rw [List.mem_singleton.1 hx]
        cases op with
        | request r => exact ⟨rfl, fun r' e => by cases e; exact hl⟩
        | poll => exact ⟨rfl, (fun _ e => nomatch e)⟩
        | tick => exact ⟨rfl, (fun _ e => nomatch e)⟩
        | init _ => exact absurd hc.1 Bool.false_ne_true
        | t15 => exact absurd hc.1 Bool.false_ne_true
        | t35 => exact absurd hc.1 Bool.false_ne_true
        | frameErr => exact absurd hc.1 Bool.false_ne_true
        | txDone => exact absurd hc.1 Bool.false_ne_true
        | rxByte _ => exact absurd hc.1 Bool.false_ne_true
      · rw [e]; exact List.sublist_append_left _ _
    · rename_i hc
      cases h
      have hn : ¬ op.isCall = true := fun h => hc ⟨h, .inl p.todo⟩
      rw [if_neg hn, List.filter_cons_of_neg hn]
      exact ⟨(fun _ h => nomatch h), List.sublist_append_left _ _, rfl⟩
  | hw e =>
    cases h
    cases e with
    | char b =>
      refine ⟨(fun _ h => nomatch h), ?_, rfl⟩
      show ((if d.hw.ue = true then _ else _ : UartHw).rdr.toList).Sublist _
      split
      · exact List.sublist_append_right _ _
      · exact List.sublist_append_left _ _
    | quiet =>
      show (∀ x ∈ (if d.hw.heard = true then [HMOp.rto] else []), x.legal) ∧ (hmBytes (if d.hw.heard = true then [.rto] else []) ++
        (if d.hw.heard = true then _ else _ : UartHw).rdr.toList).Sublist _ ∧ (if d.hw.heard = true then [HMOp.rto] else []).filterMap _ = []
      split
      · exact ⟨fun x hx => by rw [List.mem_singleton.1 hx]; trivial, List.sublist_append_left _ _, rfl⟩
      · exact ⟨(fun _ h => nomatch h), List.sublist_append_left _ _, rfl⟩
    | shift => exact ⟨(fun _ h => nomatch h), List.sublist_append_left _ _, rfl⟩
    | expire =>
      refine ⟨(fun _ h => nomatch h), ?_, rfl⟩
      show ((if d.hw.cen = true then _ else _ : UartHw).rdr.toList).Sublist _
      split <;> exact List.sublist_append_left _ _
  | usart =>
    have h : (if d.hw.irqU = true then mbootIrqUsart d else Except.ok (d, [])) = .ok (d', o) := h
    show (∀ x ∈ (if d.hw.irqU = true then [HMOp.usart d.hw.rdr d.hw.txe] else []), x.legal) ∧
      (hmBytes (if d.hw.irqU = true then [.usart d.hw.rdr d.hw.txe] else []) ++ _).Sublist _ ∧
      (if d.hw.irqU = true then [HMOp.usart d.hw.rdr d.hw.txe] else []).filterMap _ = []
    split at h
    · rename_i hi
      rw [if_pos hi]
      refine ⟨fun x hx => by rw [List.mem_singleton.1 hx]; trivial, ?_, rfl⟩
      unfold mbootIrqUsart at h
      obtain ⟨d1, h1, h⟩ := bind_ok h
      obtain ⟨⟨d2, o2⟩, h2, h⟩ := bind_ok h
      obtain ⟨rfl, rfl⟩ := Prod.mk.inj (Except.ok.inj h)
      have a : hmBytes [.usart d.hw.rdr d.hw.txe] ++ d1.hw.rdr.toList = d.hw.rdr.toList := by
        unfold mbootIrqRx at h1
        cases hr : d.hw.rdr with
        | none => rw [hr] at h1; cases h1; rw [hr]; rfl
        | some b =>
          rw [hr] at h1
          dsimp only at h1
          split at h1
          · cases h1
          · obtain ⟨l, -, h1⟩ := bind_ok h1
            split at h1
            · split at h1
              · cases h1; rfl
              · cases h1
            · cases h1; rfl
      have b : d2.hw.rdr = d1.hw.rdr := by
        unfold mbootIrqTx at h2
        split at h2
        · split at h2
          · obtain ⟨b, -, h2⟩ := bind_ok h2
            cases h2; rfl
          · split at h2
            · cases h2; rfl
            · cases h2
        · cases h2; rfl
      have c : (mbootIrqRto d2).hw.rdr = d2.hw.rdr := by unfold mbootIrqRto; split <;> rfl
      rw [c, b, a]
      exact List.sublist_append_left _ _
    · rename_i hi
      cases h
      rw [if_neg hi]
      exact ⟨(fun _ h => nomatch h), List.sublist_append_left _ _, rfl⟩
  | timer =>
    have h : (if (d.hw.nvicT && d.hw.uif) = true then (do let d ← mbootIrqTimer d; return (d, ([] : List HMOut))) else Except.ok (d, [])) = .ok (d', o) := h
    show (∀ x ∈ (if (d.hw.nvicT && d.hw.uif) = true then [HMOp.timer] else []), x.legal) ∧
      (hmBytes (if (d.hw.nvicT && d.hw.uif) = true then [.timer] else []) ++ _).Sublist _ ∧
      (if (d.hw.nvicT && d.hw.uif) = true then [HMOp.timer] else []).filterMap _ = []
    split at h
    · rename_i hi
      rw [if_pos hi]
      obtain ⟨d1, h1, h⟩ := bind_ok h
      cases h
      refine ⟨fun x hx => by rw [List.mem_singleton.1 hx]; trivial, ?_, rfl⟩
      unfold mbootIrqTimer at h1
      split at h1
      · cases h1; exact List.sublist_append_left _ _
      · cases h1
    · rename_i hi
      cases h
      rw [if_neg hi]
      exact ⟨(fun _ h => nomatch h), List.sublist_append_left _ _, rfl⟩

theorem masterSysRun_append {ops1 ops2 : List HMOp} : ∀ {s s1 s2 : MasterSys} {t1 t2 : HMTrace}, masterSysRun cfg s ops1 = .ok (s1, t1) →
    masterSysRun cfg s1 ops2 = .ok (s2, t2) → masterSysRun cfg s (ops1 ++ ops2) = .ok (s2, t1 ++ t2) := by
  induction ops1 with
  | nil => intro s s1 s2 t1 t2 h1 h2; cases h1; exact h2
  | cons op ops ih =>
    intro s s1 s2 t1 t2 h1 h2
    simp only [masterSysRun] at h1
    obtain ⟨⟨s', o⟩, k1, h1⟩ := bind_ok h1
    obtain ⟨⟨s'', t⟩, k2, h1⟩ := bind_ok h1
    cases h1
    have k3 := ih k2 h2
    simp only [List.cons_append, masterSysRun, k1, ok_bind, k3, pure_eq]

/-- A history after the initialisation. -/
theorem mboot_sim_run (hw : cfg.MWF) (ops : List MBOp) : ∀ (d d' : MasterBoot) (o : List HMOut), MBPost cfg d → (∀ op ∈ ops, MBootLegal op) →
    MBootInTime cfg d ops → mbootRun cfg d ops = .ok (d', o) →
    ∃ hops tr, (∀ x ∈ hops, x.legal) ∧ masterSysRun cfg d.sys hops = .ok (d'.sys, tr) ∧ tr.flatMap Prod.snd = o ∧
      (hmBytes hops ++ d'.hw.rdr.toList).Sublist (d.hw.rdr.toList ++ ops.flatMap MBootArrived) ∧
      hmCalls hops = (ops.flatMap MBootCalled).filter MOp.isCall := by
  induction ops with
  | nil => intro d d' o p _ _ h; cases h; exact ⟨[], [], (fun _ h => nomatch h), rfl, rfl, List.sublist_append_left _ _, rfl⟩
  | cons op ops ih =>
    intro d d' o p hl ht h
    simp only [mbootRun] at h
    obtain ⟨⟨d1, o1⟩, h1, h⟩ := bind_ok h
    obtain ⟨⟨d2, o2⟩, h2, h⟩ := bind_ok h
    cases h
    have h1 : mbootStep cfg d op = .ok (d1, o1) := h1
    have p1 : MBPost cfg d1 := by
      rcases mboot_step hw p (hl op (List.mem_cons_self ..)) ht.1 with ⟨d3, o3, k1, k2⟩ | ⟨rfl, k⟩
      · rw [h1] at k1; cases k1; exact k2.1
      · have h1 : (if MOp.poll.isCall = true ∧ (d.todo = [] ∨ MOp.poll = .tick) then (do
          let (l, o) ← masterStep cfg d.lib .poll
          mbootSends { d with lib := l } o) else Except.ok (d, [])) = .ok (d1, o1) := h1
        rw [if_pos ⟨rfl, .inl p.todo⟩, k] at h1
        cases h1
    obtain ⟨t1, a1, a2⟩ := mboot_sim p h1
    obtain ⟨b1, b2, b3⟩ := asOps_facts p (hl op (List.mem_cons_self ..)) h1
    obtain ⟨hops, t2, c1, c2, c3, c4, c5⟩ := ih d1 d2 o2 p1 (fun x hx => hl x (List.mem_cons_of_mem _ hx)) (ht.2 d1 o1 h1) h2
    refine ⟨d.asOps op ++ hops, t1 ++ t2, ?_, masterSysRun_append a1 c2, ?_, ?_, ?_⟩
    · intro x hx
      rcases List.mem_append.1 hx with hx | hx
      · exact b1 x hx
      · exact c1 x hx
    · rw [List.flatMap_append, a2, c3]
    · have e : hmBytes (d.asOps op ++ hops) = hmBytes (d.asOps op) ++ hmBytes hops := by unfold hmBytes; rw [List.filterMap_append]
      rw [e, List.flatMap_cons, ← List.append_assoc d.hw.rdr.toList, List.append_assoc (hmBytes (d.asOps op))]
      refine (List.Sublist.append (List.Sublist.refl _) c4).trans ?_
      rw [← List.append_assoc]
      exact List.Sublist.append b2 (List.Sublist.refl _)
    · have e : hmCalls (d.asOps op ++ hops) = hmCalls (d.asOps op) ++ hmCalls hops := by unfold hmCalls; rw [List.filterMap_append]
      have b3 : hmCalls (d.asOps op) = (MBootCalled op).filter MOp.isCall := b3
      rw [e, b3, c5, List.flatMap_cons, List.filter_append]

theorem masterSysRun_fst (ops : List HMOp) : ∀ {s s' : MasterSys} {t : HMTrace}, masterSysRun cfg s ops = .ok (s', t) → t.map Prod.fst = ops := by
  induction ops with
  | nil => intro s s' t h; cases h; rfl
  | cons op ops ih =>
    intro s s' t h
    simp only [masterSysRun] at h
    obtain ⟨⟨s1, o1⟩, b1, h⟩ := bind_ok h
    obtain ⟨⟨s2, o2⟩, b2, h⟩ := bind_ok h
    cases h
    have := ih b2
    rw [List.map_cons, this]

/-- An execution that ends early ends there for every longer history. -/
theorem masterSysRun_error {pre : List HMOp} {op : HMOp} {post : List HMOp} {e : UB} : ∀ {s s1 : MasterSys} {t : HMTrace},
    masterSysRun cfg s pre = .ok (s1, t) → masterSysStep cfg s1 op = .error e → masterSysRun cfg s (pre ++ op :: post) = .error e := by
  induction pre with
  | nil =>
    intro s s1 t h1 h2
    cases h1
    simp only [List.nil_append, masterSysRun, h2, bind, Except.bind]
  | cons x pre ih =>
    intro s s1 t h1 h2
    simp only [masterSysRun] at h1
    obtain ⟨⟨s', o⟩, k1, h1⟩ := bind_ok h1
    obtain ⟨⟨s'', t⟩, k2, h1⟩ := bind_ok h1
    cases h1
    have k3 := ih k2 h2
    simp only [List.cons_append, masterSysRun, k1, ok_bind, k3]
    rfl

/-- The device of `Model/Driver.lean` after its initialisation. -/
theorem sysInit_step {l0 : Master} (h0 : masterInit cfg Master.powerOn .rtu = .ok l0) :
    masterSysStep cfg MasterSys.powerOn (.main (.init .rtu)) = .ok (⟨l0, 0, 0, 0, false, false⟩, []) := by
  have h0 : masterInit cfg MasterSys.powerOn.lib .rtu = .ok l0 := h0
  show (masterInit cfg MasterSys.powerOn.lib .rtu >>= _) >>= _ = _
  rw [h0]; rfl

/-- A history from some point of the initialisation on. -/
theorem mboot_mid_sim (hw : cfg.MWF) {l0 : Master} (h0 : masterInit cfg Master.powerOn .rtu = .ok l0) (ops : List MBOp) :
    ∀ (d d' : MasterBoot) (o : List HMOut) (n : Nat), MBMid cfg d n → (∀ op ∈ ops, MBootLegal op) → MBootInTime cfg d ops →
      mbootRun cfg d ops = .ok (d', o) →
      ∃ hops s tr, (∀ x ∈ hops, x.legal) ∧ masterSysRun cfg ⟨l0, 0, 0, 0, false, false⟩ hops = .ok (s, tr) ∧ (d'.todo = [] → d'.sys = s) ∧
        tr.flatMap Prod.snd = o ∧ (hmBytes hops ++ d'.hw.rdr.toList).Sublist (d.hw.rdr.toList ++ ops.flatMap MBootArrived) ∧
        hmCalls hops = ((afterNext (21 - n) ops).flatMap MBootCalled).filter MOp.isCall := by
  induction ops with
  | nil =>
    intro d d' o n p _ _ h
    cases h
    have hlt := p.lt
    refine ⟨[], _, [], (fun _ h => nomatch h), rfl, ?_, rfl, List.sublist_append_left _ _, ?_⟩
    · intro h
      rw [p.after.todo] at h
      have := congrArg List.length h
      rw [List.length_drop] at this
      have hlen : masterInitStmts.length = 21 := rfl
      simp only [List.length_nil] at this
      omega
    · obtain ⟨k, hk⟩ : ∃ k, 21 - n = k + 1 := ⟨20 - n, by omega⟩
      rw [hk]; rfl
  | cons op ops ih =>
    intro d d' o n p hl ht h
    have hlt := p.lt
    obtain ⟨k, hk⟩ : ∃ k, 21 - n = k + 1 := ⟨20 - n, by omega⟩
    obtain ⟨d1, h1, r1, hcase⟩ := mboot_mid hw p h0 ht.1
    have hl' := fun x (hx : x ∈ ops) => hl x (List.mem_cons_of_mem _ hx)
    have ht' := ht.2 d1 [] h1
    rw [mbootRun, h1, ok_bind] at h
    dsimp only at h
    obtain ⟨⟨d2, o2⟩, h2, h⟩ := bind_ok h
    cases h
    have h2 : mbootRun cfg d1 ops = .ok (d2, o2) := h2
    have sub : ∀ {a b : List U8}, a.Sublist (d1.hw.rdr.toList ++ b) → a.Sublist (d.hw.rdr.toList ++ (MBootArrived op ++ b)) := by
      intro a b h
      refine h.trans ?_
      rw [← List.append_assoc]
      exact r1.append (List.Sublist.refl _)
    have hcase' : (∃ m, MBMid cfg d1 m ∧ afterNext (21 - n) (op :: ops) = afterNext (21 - m) ops) ∨
        (op = .next ∧ n + 1 = 21 ∧ MBPost cfg d1 ∧ d1.sys = ⟨l0, 0, 0, 0, false, false⟩) := by
      rcases hcase with ⟨hne, q⟩ | ⟨rfl, q | ⟨q1, q2, q3, q4, q5, q6, q7, q8⟩⟩
      · refine .inl ⟨n, q, ?_⟩
        rw [hk]; show (if op = .next then _ else _) = _; rw [if_neg hne]
      · refine .inl ⟨n + 1, q, ?_⟩
        rw [hk]
        show afterNext k ops = _
        rw [show 21 - (n + 1) = k by omega]
      · refine .inr ⟨rfl, q1, q2, ?_⟩
        unfold MasterBoot.sys
        rw [q3, q4, q5, q6, q7, q8]
    rcases hcase' with ⟨m, q, hm⟩ | ⟨rfl, hn, q, hsys⟩
    · obtain ⟨hops, s, tr, a1, a2, a3, a4, a5, a6⟩ := ih d1 d2 o2 m q hl' ht' h2
      exact ⟨hops, s, tr, a1, a2, a3, a4, sub a5, by rw [hm]; exact a6⟩
    · obtain ⟨hops, tr, a1, a2, a3, a4, a5⟩ := mboot_sim_run hw ops d1 d2 o2 q hl' ht' h2
      rw [hsys] at a2
      refine ⟨hops, _, tr, a1, a2, fun _ => rfl, a3, sub a4, ?_⟩
      rw [a5, hk, show k = 0 by omega]
      show _ = ((if MBOp.next = MBOp.next then afterNext 0 ops else _).flatMap MBootCalled).filter MOp.isCall
      rw [if_pos rfl, afterNext_zero]

end Modbus
