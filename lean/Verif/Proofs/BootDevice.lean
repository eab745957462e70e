import Verif.Proofs.BootSteps
import Verif.Proofs.DriverExchange
import Verif.Spec.BootDevice

/-! The slave device after its initialisation is the device of `Model/Driver.lean`. -/

namespace Modbus

open Spec

variable {cfg : Config} {Q E : Prop}

/-- What the initialisation has switched on, as far as it has come. -/
structure BOn (d : SlaveBoot) : Prop where
  ue : .uartOn ∈ d.todo ∨ d.hw.ue = true
  nvicU : .nvicUsart ∈ d.todo ∨ d.hw.nvicU = true
  nvicT : .nvicTimer ∈ d.todo ∨ d.hw.nvicT = true
  rxneie : .rxEnable ∈ d.todo ∨ d.hw.rxneie = true

theorem BOn.same {d d' : SlaveBoot} (h : BOn d) (h0 : d'.todo = d.todo) (h1 : d'.hw.ue = d.hw.ue) (h2 : d'.hw.nvicU = d.hw.nvicU)
    (h3 : d'.hw.nvicT = d.hw.nvicT) (h4 : d'.hw.rxneie = d.hw.rxneie) : BOn d' := by
  constructor
  · rw [h0, h1]; exact h.ue
  · rw [h0, h2]; exact h.nvicU
  · rw [h0, h3]; exact h.nvicT
  · rw [h0, h4]; exact h.rxneie

/-- Nothing but the initialisation touches these bits. -/
def SameOn (d d' : SlaveBoot) : Prop :=
  d'.todo = d.todo ∧ d'.hw.ue = d.hw.ue ∧ d'.hw.nvicU = d.hw.nvicU ∧ d'.hw.nvicT = d.hw.nvicT ∧ d'.hw.rxneie = d.hw.rxneie

theorem SameOn.refl (d : SlaveBoot) : SameOn d d := ⟨rfl, rfl, rfl, rfl, rfl⟩

theorem SameOn.trans {a b c : SlaveBoot} (h : SameOn a b) (k : SameOn b c) : SameOn a c :=
  ⟨k.1.trans h.1, k.2.1.trans h.2.1, k.2.2.1.trans h.2.2.1, k.2.2.2.1.trans h.2.2.2.1, k.2.2.2.2.trans h.2.2.2.2⟩

theorem SameOn.on {d d' : SlaveBoot} (k : SameOn d d') (h : BOn d) : BOn d' := h.same k.1 k.2.1 k.2.2.1 k.2.2.2.1 k.2.2.2.2

theorem bd_on_rx {d d' : SlaveBoot} (h : bootIrqRx d = .ok d') : SameOn d d' := by
  unfold bootIrqRx at h
  cases hr : d.hw.rdr with
  | none => rw [hr] at h; cases h; exact .refl d
  | some b =>
    rw [hr] at h
    dsimp only at h
    split at h
    · cases h
    · obtain ⟨r, -, h⟩ := bind_ok h
      split at h
      · split at h
        · cases h; exact ⟨rfl, rfl, rfl, rfl, rfl⟩
        · cases h
      · cases h; exact ⟨rfl, rfl, rfl, rfl, rfl⟩

theorem bd_on_tx {d d' : SlaveBoot} {o : List HOut} (h : bootIrqTx d = .ok (d', o)) : SameOn d d' := by
  unfold bootIrqTx at h
  split at h
  · split at h
    · obtain ⟨r, -, h⟩ := bind_ok h
      cases h; exact ⟨rfl, rfl, rfl, rfl, rfl⟩
    · split at h
      · cases h; exact ⟨rfl, rfl, rfl, rfl, rfl⟩
      · cases h
  · cases h; exact .refl d

theorem bd_on_rto (d : SlaveBoot) : SameOn d (bootIrqRto d) := by
  unfold bootIrqRto
  split
  · exact ⟨rfl, rfl, rfl, rfl, rfl⟩
  · exact .refl d

theorem bd_on_usart {d d' : SlaveBoot} {o : List HOut} (h : bootIrqUsart d = .ok (d', o)) : SameOn d d' := by
  unfold bootIrqUsart at h
  obtain ⟨d1, h1, h⟩ := bind_ok h
  obtain ⟨⟨d2, o2⟩, h2, h⟩ := bind_ok h
  cases h
  exact ((bd_on_rx h1).trans (bd_on_tx h2)).trans (bd_on_rto d2)

theorem bd_on_sends (os : List SOut) : ∀ {d d' : SlaveBoot} {o : List HOut}, bootSends d os = .ok (d', o) → SameOn d d' := by
  induction os with
  | nil => intro d d' o h; cases h; exact .refl d
  | cons x os ih =>
    intro d d' o h
    cases x with
    | send f =>
      obtain ⟨⟨d1, o1⟩, h1, h⟩ := bind_ok h
      obtain ⟨⟨d2, o2⟩, h2, h⟩ := bind_ok h
      cases h
      refine SameOn.trans ?_ (ih h2)
      unfold bootUsartSend at h1
      split at h1
      · obtain ⟨r, -, h1⟩ := bind_ok h1
        cases h1; exact ⟨rfl, rfl, rfl, rfl, rfl⟩
      · cases h1; exact .refl d

theorem bd_on_step {d d' : SlaveBoot} {o : List HOut} {op : BOp} (h : bootStep cfg d op = .ok (d', o)) (b : BOn d) : BOn d' := by
  cases op with
  | init id =>
    cases h
    by_cases ht : d.todo = []
    · rw [if_pos ht]
      constructor <;> exact .inl (by simp [slaveInitStmts])
    · rw [if_neg ht]; exact b
  | next =>
    rw [bootStep] at h
    cases ht : d.todo with
    | nil => rw [ht] at h; cases h; exact b
    | cons x t =>
      rw [ht] at h
      cases h
      obtain ⟨b1, b2, b3, b4⟩ := b
      rw [ht] at b1 b2 b3 b4
      rw [List.mem_cons] at b1 b2 b3 b4
      cases x
      case uartOn => exact ⟨.inr rfl, b2.imp_left fun h => h.resolve_left (fun h => nomatch h), b3.imp_left fun h => h.resolve_left (fun h => nomatch h),
        b4.imp_left fun h => h.resolve_left (fun h => nomatch h)⟩
      case nvicUsart => exact ⟨b1.imp_left fun h => h.resolve_left (fun h => nomatch h), .inr rfl, b3.imp_left fun h => h.resolve_left (fun h => nomatch h),
        b4.imp_left fun h => h.resolve_left (fun h => nomatch h)⟩
      case nvicTimer => exact ⟨b1.imp_left fun h => h.resolve_left (fun h => nomatch h), b2.imp_left fun h => h.resolve_left (fun h => nomatch h), .inr rfl,
        b4.imp_left fun h => h.resolve_left (fun h => nomatch h)⟩
      case rxEnable => exact ⟨b1.imp_left fun h => h.resolve_left (fun h => nomatch h), b2.imp_left fun h => h.resolve_left (fun h => nomatch h),
        b3.imp_left fun h => h.resolve_left (fun h => nomatch h), .inr rfl⟩
      all_goals exact ⟨b1.imp_left fun h => h.resolve_left (fun h => nomatch h), b2.imp_left fun h => h.resolve_left (fun h => nomatch h),
        b3.imp_left fun h => h.resolve_left (fun h => nomatch h), b4.imp_left fun h => h.resolve_left (fun h => nomatch h)⟩
  | main op =>
    rw [bootStep] at h
    split at h
    · obtain ⟨⟨l, o1⟩, -, h⟩ := bind_ok h
      exact SameOn.on (bd_on_sends _ h) (b.same rfl rfl rfl rfl rfl)
    · cases h; exact b
  | hw e =>
    cases h
    refine b.same rfl ?_ ?_ ?_ ?_ <;> (cases e <;> dsimp only [hwStep] <;> first | rfl | (split <;> rfl))
  | usart =>
    rw [bootStep] at h
    split at h
    · exact (bd_on_usart h).on b
    · cases h; exact b
  | timer =>
    rw [bootStep] at h
    split at h
    · obtain ⟨d1, h1, h⟩ := bind_ok h
      unfold bootIrqTimer at h1
      split at h1
      · cases h1; cases h; exact b.same rfl rfl rfl rfl rfl
      · cases h1
    · cases h; exact b

theorem bd_on_run (ops : List BOp) : ∀ {d d' : SlaveBoot} {o : List HOut}, bootRun cfg d ops = .ok (d', o) → BOn d → BOn d' := by
  induction ops with
  | nil => intro d d' o h b; cases h; exact b
  | cons op ops ih =>
    intro d d' o h b
    rw [bootRun] at h
    obtain ⟨⟨d1, o1⟩, h1, h⟩ := bind_ok h
    obtain ⟨⟨d2, o2⟩, h2, h⟩ := bind_ok h
    cases h
    exact ih h2 (bd_on_step h1 b)

/-! ### The handlers are those of the device -/

theorem bd_sim_rx {d d' : SlaveBoot} (hs : d.lib.subscribed = true) (h : bootIrqRx d = .ok d') :
    slaveIrqRx cfg d.sys d.hw.rdr = .ok d'.sys ∧ d'.hw.txe = d.hw.txe ∧ d'.lib.subscribed = true := by
  unfold bootIrqRx at h
  cases hr : d.hw.rdr with
  | none => rw [hr] at h; cases h; exact ⟨rfl, rfl, hs⟩
  | some b =>
    rw [hr] at h
    dsimp only at h
    split at h
    · cases h
    · obtain ⟨r, hw, h⟩ := bind_ok h
      have hstep : slaveStep cfg d.lib (.rxByte b) = .ok ({ d.lib with req := r, reqLen := d.lib.reqLen + 1 }, []) := by
        show (if d.lib.subscribed = true then _ else _) = _
        rw [if_pos hs, hw]; rfl
      unfold slaveIrqRx
      dsimp only
      show (slaveStep cfg d.lib (.rxByte b) >>= _) = _ ∧ _
      rw [hstep, ok_bind]
      dsimp only
      show (if d.gap = true then _ else _) = _ ∧ _
      by_cases hg : d.gap = true
      · rw [if_pos hg] at h ⊢
        split at h
        · cases h
          refine ⟨?_, rfl, hs⟩
          show (Except.ok (if d.lib.subscribed = true then _ else _, _) >>= _) = _
          rw [if_pos hs, ok_bind]
          rfl
        · cases h
      · rw [if_neg hg] at h ⊢
        cases h
        exact ⟨rfl, rfl, hs⟩

theorem bd_sim_tx {d d' : SlaveBoot} {o : List HOut} (hs : d.lib.subscribed = true) (h : bootIrqTx d = .ok (d', o)) :
    slaveIrqTx cfg d.sys d.hw.txe = .ok (d'.sys, o) ∧ d'.lib.subscribed = true := by
  unfold bootIrqTx at h
  unfold slaveIrqTx
  split at h
  · rename_i ht
    rw [if_pos ht]
    show (if d.cur < d.last then _ else _) = _ ∧ _
    by_cases hc : d.cur < d.last
    · rw [if_pos hc] at h ⊢
      obtain ⟨b, hb, h⟩ := bind_ok h
      cases h
      refine ⟨?_, hs⟩
      show (rd d.lib.resp (d.cur + 1) >>= _) = _
      rw [hb]; rfl
    · rw [if_neg hc] at h ⊢
      split at h
      · cases h
        refine ⟨?_, hs⟩
        show (Except.ok (if d.lib.subscribed = true then _ else _, _) >>= _) = _
        rw [if_pos hs]; rfl
      · cases h
  · rename_i ht
    rw [if_neg ht]
    cases h; exact ⟨rfl, hs⟩

theorem bd_sim_rto {d : SlaveBoot} (hs : d.lib.subscribed = true) (ht : d.hw.rtof = true → d.cbT15 = true) :
    slaveIrqRto cfg d.sys = .ok (bootIrqRto d).sys := by
  unfold slaveIrqRto bootIrqRto
  show (if d.hw.rtof = true then _ else _) = _
  by_cases hr : d.hw.rtof = true
  · rw [if_pos hr, if_pos hr, if_pos (ht hr)]
    show (Except.ok (if d.lib.subscribed = true then _ else _, _) >>= _) = _
    rw [if_pos hs]; rfl
  · rw [if_neg hr, if_neg hr]

theorem bd_sim_sends (os : List SOut) : ∀ {d d' : SlaveBoot} {o : List HOut}, bootSends d os = .ok (d', o) → slaveSends d.sys os = .ok (d'.sys, o) := by
  induction os with
  | nil => intro d d' o h; cases h; rfl
  | cons x os ih =>
    intro d d' o h
    cases x with
    | send f =>
      obtain ⟨⟨d1, o1⟩, h1, h⟩ := bind_ok h
      obtain ⟨⟨d2, o2⟩, h2, h⟩ := bind_ok h
      cases h
      have hu : slaveUsartSend d.sys = .ok (d1.sys, o1) := by
        unfold bootUsartSend at h1
        unfold slaveUsartSend
        show (if 0 < d.lib.respLen.toNat then _ else _) = _
        by_cases h0 : 0 < d.lib.respLen.toNat
        · rw [if_pos h0] at h1 ⊢
          obtain ⟨b, hb, h1⟩ := bind_ok h1
          cases h1
          show (rd d.lib.resp 0 >>= _) = _
          rw [hb]; rfl
        · rw [if_neg h0] at h1 ⊢
          cases h1; rfl
      show (slaveUsartSend d.sys >>= _) = _
      rw [hu, ok_bind]
      dsimp only
      rw [ih h2]; rfl

theorem bootSys_one {s s' : SlaveSys} {op : HOp} {o : List HOut} (h : slaveSysStep cfg s op = .ok (s', o)) : slaveSysRun cfg s [op] = .ok (s', o) := by
  rw [slaveSysRun, h, ok_bind]
  show Except.ok (s', o ++ []) = _
  rw [List.append_nil]

/-- One event after the initialisation. -/
theorem bd_sim_step {d d' : SlaveBoot} {o : List HOut} {op : BOp} (hs : d.lib.subscribed = true) (hd : d.todo = []) (b : BOn d) (hc : d.cbT15 = true)
    (hi : ∀ i, op ≠ .init i) (hw : (∃ x, op = .main x) → d.hw.irqU = false) (h : bootStep cfg d op = .ok (d', o)) :
    slaveSysRun cfg d.sys (BootSeen d op) = .ok (d'.sys, o) := by
  cases op with
  | init i => exact absurd rfl (hi i)
  | next =>
    rw [bootStep] at h
    rw [hd] at h
    cases h; rfl
  | main op =>
    have hq := hw ⟨op, rfl⟩
    have hr : d.hw.rtof = false := by
      unfold UartHw.irqU at hq
      rcases b.nvicU with k | k
      · rw [hd] at k; cases k
      · rw [k, Bool.true_and, Bool.or_eq_false_iff] at hq
        exact hq.2
    rw [bootStep] at h
    rw [BootSeen]
    by_cases hcall : op.isCall = true
    · rw [if_pos ⟨hd, hcall⟩] at h
      rw [if_pos hcall]
      obtain ⟨⟨l, o1⟩, h1, h⟩ := bind_ok h
      refine bootSys_one ?_
      have hm : op.isMain = true := by cases op <;> first | rfl | cases hcall
      have h2 := bd_sim_sends _ h
      show (if d.hw.rtof = true ∨ op.isMain = false then _ else _) = _
      rw [if_neg (by rw [hr, hm]; simp)]
      show (slaveStep cfg d.lib op >>= _) = _
      rw [h1, ok_bind]
      cases op with
      | init m i => cases hcall
      | _ => exact h2
    · rw [if_neg (fun k => hcall k.2)] at h
      rw [if_neg hcall]
      cases h; rfl
  | hw e =>
    cases h
    cases e with
    | quiet =>
      rw [BootSeen, hwStep]
      by_cases hh : d.hw.heard = true
      · rw [if_pos hh, if_pos hh]; exact bootSys_one rfl
      · rw [if_neg hh, if_neg hh]; rfl
    | char c =>
      show Except.ok (d.sys, []) = _
      rw [hwStep]
      split <;> rfl
    | shift => rfl
    | expire =>
      show Except.ok (d.sys, []) = _
      rw [hwStep]
      split <;> rfl
  | usart =>
    rw [bootStep] at h
    rw [BootSeen]
    by_cases hq : d.hw.irqU = true
    · rw [if_pos hq] at h ⊢
      unfold bootIrqUsart at h
      obtain ⟨d1, h1, h⟩ := bind_ok h
      obtain ⟨⟨d2, o2⟩, h2, h⟩ := bind_ok h
      cases h
      obtain ⟨k1, k2, k3⟩ := bd_sim_rx (cfg := cfg) hs h1
      obtain ⟨k4, k5⟩ := bd_sim_tx (cfg := cfg) k3 h2
      have hc2 : d2.cbT15 = true := by
        have e1 : d1.cbT15 = d.cbT15 := by
          unfold bootIrqRx at h1
          split at h1
          · cases h1; rfl
          · split at h1
            · cases h1
            · obtain ⟨r, -, h1⟩ := bind_ok h1
              dsimp only at h1
              split at h1
              · split at h1
                · cases h1; rfl
                · cases h1
              · cases h1; rfl
        have e2 : d2.cbT15 = d1.cbT15 := by
          unfold bootIrqTx at h2
          split at h2
          · split at h2
            · obtain ⟨r, -, h2⟩ := bind_ok h2
              cases h2; rfl
            · split at h2
              · cases h2; rfl
              · cases h2
          · cases h2; rfl
        rw [e2, e1, hc]
      refine bootSys_one ?_
      show (slaveIrqRx cfg d.sys d.hw.rdr >>= _) = _
      rw [k1, ok_bind, ← k2, k4, ok_bind]
      dsimp only
      rw [bd_sim_rto k5 (fun _ => hc2)]; rfl
    · rw [if_neg hq] at h ⊢
      cases h; rfl
  | timer =>
    rw [bootStep] at h
    rw [BootSeen]
    by_cases hq : (d.hw.nvicT && d.hw.uif) = true
    · rw [if_pos hq] at h ⊢
      obtain ⟨d1, h1, h⟩ := bind_ok h
      cases h
      unfold bootIrqTimer at h1
      split at h1
      · cases h1
        refine bootSys_one ?_
        show (Except.ok (if d.lib.subscribed = true then _ else _, _) >>= _) = _
        rw [if_pos hs]; rfl
      · cases h1
    · rw [if_neg hq] at h ⊢
      cases h; rfl

/-- An event after the initialisation does not come too early. -/
theorem timely_after {d : SlaveBoot} {k : Nat} {id : U8} (p : BPhase Q E d k id) (hk : 12 < k) (op : BOp) : BootTimely d op := by
  cases op with
  | hw e =>
    cases e with
    | char b => exact fun _ => p.tx (by omega)
    | quiet => exact fun _ => (p.err hk).1
    | expire => exact fun _ => (p.err hk).1
    | shift => trivial
  | _ => trivial

theorem todo_phase {d : SlaveBoot} {k : Nat} {id : U8} (p : BPhase Q E d k id) (h : d.todo = []) : k = 19 := by
  have := p.todo
  rw [h] at this
  have := congrArg List.length this
  rw [List.length_drop] at this
  have e : (slaveInitStmts id).length = 19 := rfl
  have h19 := p.le
  rw [e, List.length_nil] at this
  omega

theorem todo_step {d d' : SlaveBoot} {o : List HOut} {op : BOp} (hd : d.todo = []) (hi : ∀ i, op ≠ .init i) (h : bootStep cfg d op = .ok (d', o)) :
    d'.todo = [] := by
  cases op with
  | init i => exact absurd rfl (hi i)
  | next => rw [bootStep] at h; rw [hd] at h; cases h; exact hd
  | main op =>
    rw [bootStep] at h
    split at h
    · obtain ⟨⟨l, o1⟩, -, h⟩ := bind_ok h
      exact (bd_on_sends _ h).1.trans hd
    · cases h; exact hd
  | hw e => cases h; exact hd
  | usart =>
    rw [bootStep] at h
    split at h
    · exact (bd_on_usart h).1.trans hd
    · cases h; exact hd
  | timer =>
    rw [bootStep] at h
    split at h
    · obtain ⟨d1, h1, h⟩ := bind_ok h
      unfold bootIrqTimer at h1
      split at h1
      · cases h1; cases h; exact hd
      · cases h1
    · cases h; exact hd

/-- A history after the initialisation. -/
theorem bd_sim_run (hc : cfg.WF) (ops : List BOp) : ∀ (d : SlaveBoot) (l : Slave) (id : U8), Follows d l → BPhase True True d 19 id → BSafe True True d → BOn d →
    d.todo = [] → (∀ op ∈ ops, BootLegal (SOp.legal cfg) op) → (∀ op ∈ ops, ∀ i, op ≠ .init i) → BootWaits cfg d ops →
    ∃ d' o l' id', bootRun cfg d ops = .ok (d', o) ∧ slaveSysRun cfg d.sys (bootSeen cfg d ops) = .ok (d'.sys, o) ∧ d'.todo = [] ∧ Follows d' l' ∧
      BPhase True True d' 19 id' ∧ BSafe True True d' ∧ BOn d' := by
  induction ops with
  | nil => intro d l id f p s b hd _ _ _; exact ⟨d, [], l, id, rfl, rfl, hd, f, p, s, b⟩
  | cons op ops ih =>
    intro d l id f p s b hd hl hi hw
    obtain ⟨d1, o1, os1, c1, h1, -, -, -, l1, k1, id1, -, -, -, -, f1, p1, i1⟩ :=
      boot_step hc f p s (hl op (List.mem_cons_self ..)) (timely_after p (by omega) op) (fun _ => trivial) (fun _ => trivial)
    have hi1 := hi op (List.mem_cons_self ..)
    have hd1 := todo_step hd hi1 h1
    have hk := todo_phase p1 hd1
    subst hk
    obtain ⟨d2, o2, l2, id2, h2, g2, e2, f2, p2, i2, b2⟩ := ih d1 l1 id1 f1 p1 i1 (bd_on_step h1 b) hd1 (fun x hx => hl x (List.mem_cons_of_mem _ hx))
      (fun x hx => hi x (List.mem_cons_of_mem _ hx)) (hw.2 d1 o1 h1)
    have g1 := bd_sim_step (cfg := cfg) (p.err (by omega)).2 hd b (p.t15 (by omega)) hi1 hw.1 h1
    refine ⟨d2, o1 ++ o2, l2, id2, ?_, ?_, e2, f2, p2, i2, b2⟩
    · rw [bootRun, h1, ok_bind]
      dsimp only
      rw [h2]; rfl
    · rw [bootSeen, h1]
      exact sysRun_append _ g1 g2

/-! ### From power-on -/

theorem boot_reach (hc : cfg.WF) {mem : AppMem} {id : U8} {pre : List BOp} (hl : ∀ op ∈ pre, BootLegal (SOp.legal cfg) op)
    (ht : BootInTime cfg (SlaveBoot.powerOn mem) (.init id :: pre)) {d : SlaveBoot} {o : List HOut}
    (h : bootRun cfg (SlaveBoot.powerOn mem) (.init id :: pre) = .ok (d, o)) :
    ∃ l k id', Follows d l ∧ BPhase True True d k id' ∧ BSafe True True d ∧ BOn d := by
  have f : Follows { SlaveBoot.powerOn mem with todo := slaveInitStmts id } (slaveInit (Slave.powerOn mem) .rtu id) :=
    ⟨⟨rfl, rfl, rfl, rfl⟩, rfl, rfl, rfl, rfl, rfl, (fun h => nomatch h)⟩
  have p : BPhase True True { SlaveBoot.powerOn mem with todo := slaveInitStmts id } 0 id := by
    constructor
    · rfl
    all_goals omega
  have s : BSafe True True { SlaveBoot.powerOn mem with todo := slaveInitStmts id } := by
    constructor
    case last => exact Nat.succ_pos _
    case rdr => exact fun h => absurd rfl h
    all_goals exact fun h => nomatch h
  have b : BOn { SlaveBoot.powerOn mem with todo := slaveInitStmts id } := by
    constructor <;> exact .inl (by simp [slaveInitStmts])
  obtain ⟨d1, o1, os, calls, h1, -, -, sops, l, k, id', -, -, -, -, g5, g6, g7⟩ :=
    boot_run hc pre _ _ _ _ f p s hl (ht.2 _ _ rfl) (fun _ => trivial) (fun _ => trivial)
  have h2 : bootRun cfg (SlaveBoot.powerOn mem) (.init id :: pre) = .ok (d1, [] ++ o1) := by
    rw [bootRun]
    show (bootRun cfg { SlaveBoot.powerOn mem with todo := slaveInitStmts id } pre >>= _) = _
    rw [h1]; rfl
  rw [h] at h2
  obtain ⟨rfl, -⟩ := Prod.mk.inj (Except.ok.inj h2)
  exact ⟨l, k, id', g5, g6, g7, bd_on_run pre h1 b⟩

/-! ### What the handlers do with a byte and with silences -/

theorem bd_val_rx {d d' : SlaveBoot} {b : U8} (hr : d.hw.rdr = some b) (h : bootIrqRx d = .ok d') :
    d'.lib.req = d.lib.req.set d.lib.reqLen.toNat b ∧ d'.lib.reqLen = d.lib.reqLen + 1 ∧ d'.hw.rdr = none ∧ d'.hw.cen = true ∧ d'.hw.heard = d.hw.heard ∧
      d'.hw.rtof = d.hw.rtof ∧ d'.cbT15 = d.cbT15 := by
  unfold bootIrqRx at h
  rw [hr] at h
  dsimp only at h
  split at h
  · cases h
  · rw [wr_ok _ _ d.lib.reqLen.isLt, ok_bind] at h
    split at h
    · split at h
      · cases h; exact ⟨rfl, rfl, rfl, rfl, rfl, rfl, rfl⟩
      · cases h
    · cases h; exact ⟨rfl, rfl, rfl, rfl, rfl, rfl, rfl⟩

theorem bd_val_tx {d d' : SlaveBoot} {o : List HOut} (h : bootIrqTx d = .ok (d', o)) :
    d'.lib.req = d.lib.req ∧ d'.lib.reqLen = d.lib.reqLen ∧ d'.hw.rdr = d.hw.rdr ∧ d'.hw.cen = d.hw.cen ∧ d'.hw.heard = d.hw.heard ∧
      d'.hw.rtof = d.hw.rtof ∧ d'.cbT15 = d.cbT15 := by
  unfold bootIrqTx at h
  split at h
  · split at h
    · obtain ⟨r, -, h⟩ := bind_ok h
      cases h; exact ⟨rfl, rfl, rfl, rfl, rfl, rfl, rfl⟩
    · split at h
      · cases h; exact ⟨rfl, rfl, rfl, rfl, rfl, rfl, rfl⟩
      · cases h
  · cases h; exact ⟨rfl, rfl, rfl, rfl, rfl, rfl, rfl⟩

theorem bd_val_rto (d : SlaveBoot) : (bootIrqRto d).lib.req = d.lib.req ∧ (bootIrqRto d).lib.reqLen = d.lib.reqLen ∧ (bootIrqRto d).hw = d.hw ∧
    (d.hw.rtof = true → d.cbT15 = true → (bootIrqRto d).lib.t15 = .set) := by
  unfold bootIrqRto
  by_cases hr : d.hw.rtof = true
  · rw [if_pos hr]
    by_cases hc : d.cbT15 = true
    · rw [if_pos hc]; exact ⟨rfl, rfl, rfl, fun _ _ => rfl⟩
    · rw [if_neg hc]; exact ⟨rfl, rfl, rfl, fun _ h => absurd h hc⟩
  · rw [if_neg hr]; exact ⟨rfl, rfl, rfl, fun h => absurd h hr⟩

end Modbus
