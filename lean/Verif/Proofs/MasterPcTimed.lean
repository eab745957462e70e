import Verif.Proofs.MasterPcHist

/-! The master statement by statement: what holds throughout an execution, and that answers come when the master waits for them. -/

set_option linter.unusedSimpArgs false

namespace Modbus

open Spec

section
variable {cfg : Config} {x : MStmtTimed} {t15 t35 lat P D X : Nat}

theorem ci_init (hx : x.Exec cfg) : CI cfg x 0 := by
  obtain ⟨s, h1, h2⟩ := hx.init
  have hs : s.lib.drv = true ∧ s.rtof = false ∧ s.lib.t15 ≠ .set ∧ s.lib.txf ≠ .set ∧ s.lib.ferr = .cleared ∧ s.txMsg = 0 ∧ s.lib.st ≠ .waiting := by
    simp only [masterSysStep, MOp.isMain, Bool.true_eq_false, if_false, masterStep, MasterSys.powerOn] at h1
    obtain ⟨⟨l, o⟩, k1, k2⟩ := bind_ok h1
    obtain ⟨l1, k3, k4⟩ := bind_ok k1
    simp only [pure_eq, Except.ok.injEq, Prod.mk.injEq] at k4
    obtain ⟨rfl, rfl⟩ := k4
    simp only [masterSends, Except.ok.injEq, Prod.mk.injEq, and_true] at k2
    subst k2
    simp only [masterInit] at k3
    split at k3
    · cases k3
    · obtain ⟨q, -, k3⟩ := bind_ok k3
      simp only [pure_eq, Except.ok.injEq] at k3
      subst k3
      exact ⟨rfl, rfl, by simp, by simp, rfl, rfl, by simp⟩
  obtain ⟨a1, a2, a3, a4, a5, a6, a7⟩ := hs
  have hpc : (x.st 0).pc = .out := by rw [h2]
  constructor
  · rw [h2]
    exact ⟨a1, trivial, fun h => (by rw [a2] at h; cases h), fun h => absurd h a3, fun h => absurd h a4, (fun h => nomatch h), a5, a6.symm, (fun h => nomatch h)⟩
  · rw [h2]
    rintro (h | h | h)
    · exact absurd h a3
    · rw [a2] at h; cases h
    · exact h.elim
  · rw [h2]
    intro h
    exact absurd h.pc a7
  · rw [hpc]; intro h; simp [MPc.expiring] at h
  · rw [hpc]; trivial
  · rw [hpc]; intro h; simp [MPc.sent, MPc.starting] at h
  · rw [hpc]; intro h; simp at h
  · rw [hpc]; intro h; cases h

/-- What the step to the next event needs: the environment at event `n`. -/
structure MEnv (cfg : Config) (x : MStmtTimed) (t15 t35 lat P D X : Nat) : Prop where
  ex : x.Exec cfg
  hw : x.Hardware t15 t35 lat
  pu : x.Punctual P D X
  tmo : 2 ≤ cfg.respTimeout

theorem ci_call {n : Nat} (he : MEnv cfg x t15 t35 lat P D X) (h : CI cfg x n) (hev : x.ev n = .call) : CI cfg x (n + 1) := by
  have hp := out_of_not (he.ex.outside n (.inl hev))
  have hs := he.ex.step n
  rw [hev] at hs
  obtain ⟨hd, -⟩ := mpc_call hp hs
  have hnp : ¬ x.InPoll n := he.ex.outside n (.inl hev)
  have hnt : x.ev n ≠ .irq (.main .tick) := by rw [hev]; simp
  have hsi := si_call h.si hp hs
  constructor
  · exact hsi
  · intro ha
    have ha' : Answered (x.st n) := by
      rw [hd] at ha
      rcases ha with ha | ha | ha
      · exact .inl ha
      · exact .inr (.inl ha)
      · exact ha.elim
    obtain ⟨r, h1, h2, h3, h4, h5⟩ := h.tm ha'
    refine ⟨r, by omega, h2, ?_, h4.succ fun h => absurd h hnp, ?_⟩
    · rw [mticks_succ (by omega), if_neg hnt, hd]; exact h3
    · intro hw; rw [hd] at hw; cases hw
  · intro hE
    have hE' : Expired (x.st n) := by
      rw [hd] at hE
      exact ⟨hE.timer, hE.t15, hE.rtof, by rw [hp]; exact hE.pc⟩
    obtain ⟨q, h1, h2, h3, h5⟩ := h.one hE'
    refine ⟨q, by omega, h2, h3.succ fun h => absurd h hnp, ?_⟩
    intro hw; rw [hd] at hw; cases hw
  · rw [hd]; intro h; simp [MPc.expiring] at h
  · rw [hd]; trivial
  · rw [hd]; intro h; simp [MPc.sent, MPc.starting] at h
  · intro _; simp only [mflag, hev]
  · rw [hd]; intro h; cases h

theorem ci_app {n : Nat} {op : MOp} (he : MEnv cfg x t15 t35 lat P D X) (h : CI cfg x n) (hev : x.ev n = .app op) : CI cfg x (n + 1) := by
  obtain ⟨hp, r, rfl, -⟩ := app_of he.ex hev
  have hs := he.ex.step n
  rw [hev] at hs
  have hsi := si_app h.si hp hs
  obtain ⟨-, ⟨fq, tq, M, hd⟩, -⟩ := mpc_app hp hs
  have hnp : ¬ x.InPoll n := fun h => h hp
  have hnt : x.ev n ≠ .irq (.main .tick) := by rw [hev]; simp
  have hpc : (x.st (n + 1)).pc = .out := by rw [hd]; exact hp
  constructor
  · exact hsi
  · intro ha
    have ha' : Answered (x.st n) := by rw [hd] at ha; exact ha
    obtain ⟨r, h1, h2, h3, h4, h5⟩ := h.tm ha'
    refine ⟨r, by omega, h2, ?_, h4.succ fun h => absurd h hnp, ?_⟩
    · rw [mticks_succ (by omega), if_neg hnt, hd]; exact h3
    · intro hw; rw [hpc] at hw; cases hw
  · intro hE
    have hE' : Expired (x.st n) := by
      rw [hd] at hE
      exact ⟨hE.timer, hE.t15, hE.rtof, hE.pc⟩
    obtain ⟨q, h1, h2, h3, h5⟩ := h.one hE'
    refine ⟨q, by omega, h2, h3.succ fun h => absurd h hnp, ?_⟩
    intro hw; rw [hpc] at hw; cases hw
  · rw [hpc]; intro h; simp [MPc.expiring] at h
  · rw [hpc]; trivial
  · rw [hpc]; intro h; simp [MPc.sent, MPc.starting] at h
  · rw [hpc]; intro h; simp at h
  · rw [hpc]; intro h; cases h

theorem mflag_stmt {n : Nat} (hev : x.ev n = .stmt) :
    mflag cfg x (n + 1) = (mflag cfg x n || mlinStep cfg (x.st n) (x.st (n + 1)) (mflag cfg x n)) := by
  simp only [mflag, hev]

theorem mflag_irq {n : Nat} {h : HMOp} (hev : x.ev n = .irq h) : mflag cfg x (n + 1) = mflag cfg x n := by simp only [mflag, hev]

theorem CI.wt15 {n : Nat} (h : CI cfg x n) : (x.st n).pc = .wtTimer → (x.st n).dev.sys.lib.timer = 1 → (x.st n).dev.sys.lib.t15 ≠ .set := by
  intro hp ht
  have := h.wt hp
  split at this
  · omega
  · exact this.1

theorem ci_stmt {n : Nat} (he : MEnv cfg x t15 t35 lat P D X) (h : CI cfg x n) (hev : x.ev n = .stmt) : CI cfg x (n + 1) := by
  have hin : x.InPoll n := he.ex.inside n hev
  have hp : (x.st n).pc ≠ .out := hin
  have hr : (x.st n).dev.sys.rtof = false := rtof_main he.hw fun h' e => by rw [hev] at e; cases e
  have hs : masterStmt cfg (x.st n) = .ok (x.st (n + 1), x.out n) := by have := he.ex.step n; rw [hev] at this; exact this
  have hnt : x.ev n ≠ .irq (.main .tick) := by rw [hev]; simp
  have hntx : x.ev n ≠ .irq (.usart none true) := by rw [hev]; simp
  obtain ⟨hsi, hr'⟩ := si_stmt h.si hr hp h.wt15 hs
  constructor
  · exact hsi
  · intro ha
    obtain ⟨ha', hti, hw, ho⟩ := mstmt_answered h.si hr hp h.wt15 hs ha
    obtain ⟨r, h1, h2, h3, h4, h5⟩ := h.tm ha'
    refine ⟨r, by omega, h2, ?_, ?_, fun h => absurd h hw⟩
    · rw [mticks_succ (by omega), if_neg hnt, hti]; exact h3
    · by_cases hq : (x.st (n + 1)).pc = .out
      · intro k m k1 k2 k3
        exact he.ex.outside k (.inl k2.call) (h5 (ho hq) k (by omega) (by have := k2.lt; omega))
      · exact h4.succ fun _ => hq
  · intro hE
    obtain ⟨hE', hw, ho⟩ := mstmt_expired h.si hr hp (by have := he.tmo; omega)
      (fun hk => by have := h.timer he.ex he.pu (.inr (.inr (by rw [hk]; trivial))); omega) hs hE
    obtain ⟨q, h1, h2, h3, h5⟩ := h.one hE'
    refine ⟨q, by omega, h2, ?_, fun h => absurd h hw⟩
    by_cases hq : (x.st (n + 1)).pc = .out
    · intro k m k1 k2 k3
      exact he.ex.outside k (.inl k2.call) (h5 (ho hq) k (by omega) (by have := k2.lt; omega))
    · exact h3.succ fun _ => hq
  · intro h1 h2
    obtain ⟨e1, e2⟩ := mstmt_exp hs hp h1 h2
    have key : (x.st n).dev.sys.lib.timer = 1 ∧ (x.st n).dev.sys.lib.t15 ≠ .set := by
      rcases e2 with ⟨e2, e3⟩ | ⟨e2, e3⟩
      · exact ⟨e3, h.wt15 e2 e3⟩
      · have := h.exp e2 e3; exact ⟨this.timer, this.t15⟩
    refine ⟨by rw [e1]; exact key.1, by rw [e1]; exact key.2, hr', ?_⟩
    generalize (x.st (n + 1)).pc = pc at h1 h2
    cases pc <;> first | trivial | cases h1
  · have h1 := mstmt_sc hs hp
    have h2 := h.sc
    generalize (x.st (n + 1)).pc = pc at h1
    cases pc
    case snLast => exact h1
    case snTdr i k =>
      obtain ⟨e1, e2, e3⟩ := h1
      rw [e3] at h2
      dsimp only at h2 ⊢
      exact ⟨e1.trans h2.1, by omega⟩
    all_goals trivial
  · intro hsent
    rcases mstmt_sent hs hp hsent with ⟨s1, s2, s3⟩ | ⟨s1, s2⟩ | ⟨i, k, f, b, s1, s2, s3, s4, s5⟩
    · obtain ⟨a, f, h1, h2, h3, h4, h5⟩ := h.sn s1
      refine ⟨a, f, by omega, h2, ?_, ?_, by omega⟩
      · intro j j1 j2
        rcases Nat.lt_or_ge j (n + 1) with j3 | j3
        · exact h3 j j1 (by omega)
        · rw [show j = n + 1 by omega]
          intro hq; rw [hq] at hsent; simp [MPc.sent, MPc.starting] at hsent
      · rw [mtxCount_succ (by omega), if_neg hntx, s2]; exact h4
    · exfalso
      have := he.pu.slow n [] (n + 1) (by rw [s2]; simp) (by omega) (by
        intro j j1 j2
        rw [show j = n + 1 by omega]
        intro hq; rw [hq] at hsent; simp [MPc.sent, MPc.starting] at hsent)
      simp at this
    · refine ⟨n, f, by omega, by rw [s2]; simp, ?_, ?_, ?_⟩
      · intro j j1 j2
        rw [show j = n + 1 by omega]
        intro hq; rw [hq] at s5; cases s5
      · have := h.sc; rw [s1] at this
        rw [s4, mtxCount_self]; exact this.1
      · have := h.sc; rw [s1] at this
        rw [s4, s3]; exact this.2
  · intro hpc
    obtain ⟨e1, -, e3, -⟩ := stmt_into hp hs
    rcases hpc with hpc | hpc
    · exact absurd hpc e1
    · obtain ⟨e4, -, -⟩ := e3 hpc
      have := h.fl (.inl e4)
      rw [mflag_stmt hev, this]
      simp [mlinStep, mlinPt, e4, hpc]
  · intro hpc
    obtain ⟨e1, e2, e3⟩ := mstmt_wt hs hp hpc
    have hf := h.fl (.inr e1)
    rw [mflag_stmt hev, hf]
    simp only [mlinStep, mlinPt, e1, hpc, Bool.not_false, Bool.true_and, Bool.false_or, reduceCtorEq, decide_false, Bool.or_false]
    rw [e3]
    dsimp only
    split
    · rename_i hl
      have hl := of_decide_eq_true hl
      omega
    · rename_i hl
      refine ⟨e2, hr, ?_⟩
      rcases Nat.lt_or_ge 2 (x.st n).dev.sys.lib.timer with h3 | h3
      · exact absurd (decide_eq_true ⟨e2, by omega, by omega⟩) hl
      · exact h3

theorem sent_late {pc : MPc} (h : pc.sent) : pc.waits = false ∧ pc ≠ .trTest := by
  cases pc <;> simp_all [MPc.sent, MPc.starting, MPc.waits]

theorem ci_irq {n : Nat} {h : HMOp} (he : MEnv cfg x t15 t35 lat P D X) (hc : CI cfg x n) (hA : MAns x n → AtAnswer (x.st n))
    (hev : x.ev n = .irq h) : CI cfg x (n + 1) := by
  have hs := he.ex.step n
  rw [hev] at hs
  have hm : ∀ op, h = .main op → op = .tick := fun op e => he.ex.irq n op (by rw [hev, e])
  have hA' : h.isAnswer = true → AtAnswer (x.st n) := fun ha => hA ((ans_iff hev).1 ha)
  have hX : ∀ t, h = .usart none t → (x.st n).dev.sys.rtof = true ∨ (x.st n).txeie = true := fun t e => he.hw.txeOnly n t (by rw [hev, e])
  have hM : (x.st n).pc.starting = true ∨ (x.st n).pc = .snSt → h = .usart none true → (x.st n).dev.more = true := fun h1 h2 =>
    hc.moreLeft he.pu (.inr h1) (by rw [hev, h2])
  have hpc := pc_of_irq he.ex hev
  have hip : x.InPoll n → x.InPoll (n + 1) := fun h1 h2 => h1 (hpc ▸ h2)
  have hsi := si_irq hc.si hm hA' hs
  have hall : ∀ q, (∀ j, q ≤ j → j ≤ n → x.InPoll j) → x.InPoll n → ∀ j, q ≤ j → j ≤ n + 1 → x.InPoll j := by
    intro q h1 h2 j j1 j2
    rcases Nat.lt_or_ge j (n + 1) with j3 | j3
    · exact h1 j j1 (by omega)
    · rw [show j = n + 1 by omega]; exact hip h2
  -- what the interrupt changes
  have htick : (x.ev n = .irq (.main .tick)) = (h = .main .tick) := by rw [hev]; simp
  have htx : (x.ev n = .irq (.usart none true)) = (h = .usart none true) := by rw [hev]; simp
  have htimer : (x.st (n + 1)).dev.sys.lib.timer = if h = .main .tick then (x.st n).dev.sys.lib.timer - 1 else (x.st n).dev.sys.lib.timer := by
    obtain ⟨v, h1, e⟩ := mpc_irq hs
    rw [e]
    cases h with
    | main op => cases hm op rfl; obtain ⟨rfl, -⟩ := mint_tick h1; rfl
    | rto => obtain ⟨rfl, -⟩ := mint_rto h1; rfl
    | timer => obtain ⟨rfl, -⟩ := mint_timer hc.si.drv h1; rfl
    | usart rx t => obtain ⟨⟨M, -, rfl⟩, -⟩ := mint_usart hc.si.drv h1; rfl
  have hst : (x.st (n + 1)).dev.sys.lib.st = (x.st n).dev.sys.lib.st := by
    obtain ⟨v, h1, e⟩ := mpc_irq hs
    rw [e]
    cases h with
    | main op => cases hm op rfl; obtain ⟨rfl, -⟩ := mint_tick h1; rfl
    | rto => obtain ⟨rfl, -⟩ := mint_rto h1; rfl
    | timer => obtain ⟨rfl, -⟩ := mint_timer hc.si.drv h1; rfl
    | usart rx t => obtain ⟨⟨M, -, rfl⟩, -⟩ := mint_usart hc.si.drv h1; rfl
  have hflag : h ≠ .rto → (x.st (n + 1)).dev.sys.lib.t15 = .set ∨ (x.st (n + 1)).dev.sys.rtof = true →
      (x.st n).dev.sys.lib.t15 = .set ∨ (x.st n).dev.sys.rtof = true := by
    intro hn h2
    obtain ⟨v, h1, e⟩ := mpc_irq hs
    rw [e] at h2
    cases h with
    | main op => cases hm op rfl; obtain ⟨rfl, -⟩ := mint_tick h1; exact h2
    | rto => exact absurd rfl hn
    | timer => obtain ⟨rfl, -⟩ := mint_timer hc.si.drv h1; exact h2
    | usart rx t =>
      obtain ⟨⟨M, -, rfl⟩, -⟩ := mint_usart hc.si.drv h1
      dsimp only at h2
      rcases h2 with h2 | h2
      · split at h2
        · rename_i h3; exact .inr h3
        · exact .inl h2
      · cases h2
  have hflag' : (x.st n).dev.sys.lib.t15 = .set ∨ (x.st n).dev.sys.rtof = true →
      (x.st (n + 1)).dev.sys.lib.t15 = .set ∨ (x.st (n + 1)).dev.sys.rtof = true := by
    intro h2
    obtain ⟨v, h1, e⟩ := mpc_irq hs
    rw [e]
    cases h with
    | main op => cases hm op rfl; obtain ⟨rfl, -⟩ := mint_tick h1; exact h2
    | rto => obtain ⟨rfl, -⟩ := mint_rto h1; exact .inr rfl
    | timer => obtain ⟨rfl, -⟩ := mint_timer hc.si.drv h1; exact h2
    | usart rx t =>
      obtain ⟨⟨M, -, rfl⟩, -⟩ := mint_usart hc.si.drv h1
      dsimp only
      rcases h2 with h2 | h2
      · rw [h2]; left; split <;> rfl
      · rw [h2]; exact .inl rfl
  have hrto : h = .rto → (x.st (n + 1)).dev.sys.rtof = true := by
    intro h2
    obtain ⟨v, h1, e⟩ := mpc_irq hs
    rw [e]
    subst h2
    obtain ⟨rfl, -⟩ := mint_rto h1; rfl
  -- the invariant
  constructor
  · exact hsi
  · intro ha
    by_cases hr : h = .rto
    · subst hr
      have := hA (.inr hev)
      refine ⟨n, by omega, hev, ?_, .self x n, ?_⟩
      · rw [htimer, if_neg (by simp)]; have := this.timer; omega
      · intro hw j j1 j2
        have hin : x.InPoll n := by intro h2; rw [hpc, h2] at hw; cases hw
        exact hall n (fun j k1 k2 => by rw [show j = n by omega]; exact hin) hin j j1 j2
    · have ha' : Answered (x.st n) := by
        have hsp : ∀ {p q : Prop}, p ∨ q → (p ∨ q ∨ match (x.st n).pc with
            | .rcId | .rcT15 _ | .rcT35 _ | .rcRecv _ | .rcSkip => True
            | _ => False) := fun h => h.elim .inl fun h => .inr (.inl h)
        rcases ha with ha | ha | ha
        · exact hsp (hflag hr (.inl ha))
        · exact hsp (hflag hr (.inr ha))
        · rw [hpc] at ha; exact .inr (.inr ha)
      obtain ⟨r, h1, h2, h3, h4, h5⟩ := hc.tm ha'
      refine ⟨r, by omega, h2, ?_, h4.succ hip, ?_⟩
      · rw [mticks_succ (by omega), htimer]
        simp only [htick]
        split <;> omega
      · intro hw
        rw [hpc] at hw
        exact hall r (h5 hw) (by intro h2; rw [h2] at hw; cases hw)
  · intro hE
    have hno : ¬ ((x.st n).dev.sys.lib.t15 = .set ∨ (x.st n).dev.sys.rtof = true) := by
      intro h2
      rcases hflag' h2 with h3 | h3
      · exact hE.t15 h3
      · rw [hE.rtof] at h3; cases h3
    by_cases ht : h = .main .tick
    · refine ⟨n, by omega, by rw [hev, ht], .self x n, ?_⟩
      intro hw
      have hin : x.InPoll n := by intro h2; rw [hpc, h2] at hw; cases hw
      exact hall n (fun j k1 k2 => by rw [show j = n by omega]; exact hin) hin
    · have hE' : Expired (x.st n) := by
        refine ⟨?_, fun h => hno (.inl h), by simpa using fun h => hno (.inr h), ?_⟩
        · have := hE.timer; rw [htimer, if_neg ht] at this; exact this
        · have := hE.pc; rw [hpc, hst] at this; exact this
      obtain ⟨q, h1, h2, h3, h5⟩ := hc.one hE'
      refine ⟨q, by omega, h2, h3.succ hip, ?_⟩
      intro hw
      rw [hpc] at hw
      exact hall q (h5 hw) (by intro h2; rw [h2] at hw; cases hw)
  · intro h1 h2
    rw [hpc] at h1 h2
    have hE := hc.exp h1 h2
    have hnt : h ≠ .main .tick := fun e => hc.noTick he.ex he.pu hE (by rw [hev, e])
    have hwl : (x.st n).pc.waits = false ∧ (x.st n).pc ≠ .trTest ∧ (x.st n).pc.late = false := by
      generalize (x.st n).pc = pc at h1 h2
      cases pc <;> simp_all [MPc.expiring, MPc.waits, MPc.late]
    have hmild := (irq_mild hc.si hm hA' hX hM hwl.1 hwl.2.1 hs).2 (.inl hwl.2.2)
    rcases hmild with rfl | rfl
    · obtain ⟨v, k1, e⟩ := mpc_irq hs
      obtain ⟨rfl, -⟩ := mint_timer hc.si.drv k1
      rw [e]
      exact ⟨hE.timer, hE.t15, hE.rtof, hE.pc⟩
    · exact absurd rfl hnt
  · have h1 := hc.sc
    rw [hpc]
    by_cases hpos : (∃ i k, (x.st n).pc = .snLast i k) ∨ ∃ i k, (x.st n).pc = .snTdr i k
    · have hwl : (x.st n).pc.waits = false ∧ (x.st n).pc ≠ .trTest ∧ (x.st n).pc.late = false := by
        rcases hpos with ⟨i, k, e⟩ | ⟨i, k, e⟩ <;> (rw [e]; exact ⟨rfl, by simp, rfl⟩)
      have hmild := (irq_mild hc.si hm hA' hX hM hwl.1 hwl.2.1 hs).2 (.inl hwl.2.2)
      have hcl : (x.st (n + 1)).dev.sys.cur = (x.st n).dev.sys.cur ∧ (x.st (n + 1)).dev.sys.last = (x.st n).dev.sys.last := by
        obtain ⟨v, k1, e⟩ := mpc_irq hs
        rw [e]
        rcases hmild with rfl | rfl
        · obtain ⟨rfl, -⟩ := mint_timer hc.si.drv k1; exact ⟨rfl, rfl⟩
        · obtain ⟨rfl, -⟩ := mint_tick k1; exact ⟨rfl, rfl⟩
      rw [hcl.1, hcl.2]
      exact h1
    · generalize (x.st n).pc = pc at hpos
      cases pc <;> first | trivial | exact absurd (.inl ⟨_, _, rfl⟩) hpos | exact absurd (.inr ⟨_, _, rfl⟩) hpos
  · intro hsent
    rw [hpc] at hsent
    obtain ⟨hw1, hw2⟩ := sent_late hsent
    obtain ⟨hmild, -⟩ := irq_mild hc.si hm hA' hX hM hw1 hw2 hs
    rw [mild_step hc.si.drv hmild] at hs
    obtain ⟨e, -⟩ := Prod.mk.inj (Except.ok.inj hs)
    obtain ⟨a, f, h1, h2, h3, h4, h5⟩ := hc.sn hsent
    have hin : x.InPoll n := by intro h2; rw [h2] at hsent; simp [MPc.sent, MPc.starting] at hsent
    refine ⟨a, f, by omega, h2, ?_, ?_, ?_⟩
    · intro j j1 j2
      rcases Nat.lt_or_ge j (n + 1) with j3 | j3
      · exact h3 j j1 (by omega)
      · rw [show j = n + 1 by omega]; exact hip hin
    · rw [mtxCount_succ (by omega), ← h4, ← e]
      simp only [htx]
      cases hmild <;> simp [meff]
    · rw [← h5, ← e]
      cases hmild <;> rfl
  · intro h1
    rw [hpc] at h1
    rw [mflag_irq hev]; exact hc.fl h1
  · intro hw
    rw [hpc] at hw
    have hin : x.InPoll n := by intro h2; rw [h2] at hw; cases hw
    have h1 := hc.wt hw
    rw [mflag_irq hev, htimer]
    split
    · rename_i hf
      rw [if_pos hf] at h1
      by_cases ht : h = .main .tick
      · rw [if_pos ht]
        rcases h1 with h1 | h1 | ⟨h1, q, q1, q2, q3⟩
        · omega
        · have hq : ∃ q, q < n + 1 ∧ x.ev q = .irq (.main .tick) ∧ ∀ j, q ≤ j → j ≤ n + 1 → x.InPoll j :=
            ⟨n, by omega, by rw [hev, ht], hall n (fun j k1 k2 => by rw [show j = n by omega]; exact hin) hin⟩
          rcases Nat.lt_or_ge 3 (x.st n).dev.sys.lib.timer with h2 | h2
          · exact .inr (.inl (by omega))
          · exact .inr (.inr ⟨by omega, hq⟩)
        · exfalso
          have := inpoll_time he.ex he.pu q3
          have := he.pu.apart q n q1 q2 (by rw [hev, ht])
          omega
      · rw [if_neg ht]
        rcases h1 with h1 | h1 | ⟨h1, q, q1, q2, q3⟩
        · exact .inl h1
        · exact .inr (.inl h1)
        · exact .inr (.inr ⟨h1, q, by omega, q2, hall q q3 hin⟩)
    · rename_i hf
      rw [if_neg hf] at h1
      obtain ⟨k1, k2, k3⟩ := h1
      have hnr : h ≠ .rto := fun e => by have := (hA' (by rw [e]; rfl)).timer; omega
      have hk : ¬ ((x.st (n + 1)).dev.sys.lib.t15 = .set ∨ (x.st (n + 1)).dev.sys.rtof = true) := fun h2 =>
        (hflag hnr h2).elim k1 fun h => by rw [k2] at h; cases h
      refine ⟨fun h => hk (.inl h), by simpa using fun h => hk (.inr h), ?_⟩
      split <;> omega

theorem ci_step {n : Nat} (he : MEnv cfg x t15 t35 lat P D X) (hc : CI cfg x n) (hA : MAns x n → AtAnswer (x.st n)) : CI cfg x (n + 1) := by
  cases hev : x.ev n with
  | call => exact ci_call he hc hev
  | stmt => exact ci_stmt he hc hev
  | app op => exact ci_app he hc hev
  | irq h => exact ci_irq he hc hA hev

/-! ### Answers come when the master waits for them -/

/-- Who hands a frame to the driver. -/
theorem mstmt_sends {d d' : MasterPcDev} {o : List HMOut} {f : List U8} (h : masterStmt cfg d = .ok (d', o)) (hf : .lib (.send f) ∈ o) :
    (d.pc = .snCur ∧ f = [] ∧ d'.pc = .snGap) ∨ d'.pc = .snTxeie := by
  obtain ⟨⟨⟨l, tm, cu, la, g, r⟩, lm⟩, pc, e⟩ := d
  cases pc <;> simp only [masterStmt] at h
  all_goals try (obtain ⟨x1, hb, h⟩ := bind_ok h)
  all_goals try (obtain ⟨x2, hb2, h⟩ := bind_ok h)
  all_goals repeat' split at h
  all_goals
    simp only [Except.ok.injEq, Prod.mk.injEq, reduceCtorEq] at h
    obtain ⟨rfl, rfl⟩ := h
    simp_all

theorem irq_out {d d' : MasterPcDev} {h : HMOp} {o : List HMOut} (hd : d.dev.sys.lib.drv = true) (hm : ∀ op, h = .main op → op = .tick)
    (hs : masterPcStep cfg d (.irq h) = .ok (d', o)) : o = [] ∨ ∃ b, o = [.tdr b] := by
  obtain ⟨v, h1, rfl⟩ := mpc_irq hs
  cases h with
  | main op => cases hm op rfl; exact .inl (mint_tick h1).2
  | rto => exact .inl (mint_rto h1).2
  | timer => exact .inl (mint_timer hd h1).2
  | usart rx t =>
    obtain ⟨-, ho⟩ := mint_usart hd h1
    split at ho
    · exact .inr ho
    · exact .inl ho

theorem sends_at {n : Nat} (he : MEnv cfg x t15 t35 lat P D X) (hd : (x.st n).dev.sys.lib.drv = true) (hs : x.Sends n) :
    x.ev n = .stmt ∧ (x.st (n + 1)).pc = .snTxeie := by
  obtain ⟨f, hf⟩ := hs
  have h := he.ex.step n
  cases hev : x.ev n with
  | call =>
    rw [hev] at h
    rw [(mpc_call (out_of_not (he.ex.outside n (.inl hev))) h).2] at hf
    cases hf
  | app op =>
    obtain ⟨hp, r, rfl, -⟩ := app_of he.ex hev
    rw [hev] at h
    obtain ⟨-, -, c, ho⟩ := mpc_app hp h
    rw [ho] at hf
    simp at hf
  | irq h' =>
    rw [hev] at h
    rcases irq_out hd (fun op e => he.ex.irq n op (by rw [hev, e])) h with ho | ⟨b, ho⟩ <;> (rw [ho] at hf; simp at hf)
  | stmt =>
    rw [hev] at h
    refine ⟨rfl, ?_⟩
    rcases mstmt_sends h hf with ⟨h1, rfl, h3⟩ | h1
    · have := he.pu.slow n [] (n + 1) hf (by omega) (by
        intro j j1 j2
        rw [show j = n + 1 by omega]
        intro hq; rw [hq] at h3; cases h3)
      simp at this
    · exact h1

/-- Where the master is after it has handed a frame to the driver (event `a`), whose transmission ends at event `b`. -/
structure MStage (cfg : Config) (x : MStmtTimed) (b j : Nat) : Prop where
  gap : (x.st j).pc ≠ .snTxeie → (x.st j).pc ≠ .snGap → (x.st j).dev.sys.gap = false
  rtof : (x.st j).dev.sys.rtof = false
  ph : ((x.st j).pc.sent ∧ j ≤ b ∧ ((x.st j).pc = .snSt → (x.st j).dev.sys.lib.txf = .set)) ∨
    ((x.st j).pc.sending = true ∧ (x.st j).dev.sys.lib.st = .transmitting ∧ (x.st j).dev.sys.lib.txf = .set ∧ j ≤ b) ∨
    (b < j ∧ ((x.st j).pc.sending = true ∨ (x.st j).pc = .trLen ∨ (x.st j).pc = .trTimer ∨ (x.st j).pc = .trSt) ∧
      (x.st j).dev.sys.lib.st = .transmitting ∧ (x.st j).dev.sys.lib.txf = .cleared ∧ NoPoll x b j ∧
      ((x.st j).pc = .trSt → cfg.respTimeout ≤ (x.st j).dev.sys.lib.timer + x.ticks b j)) ∨
    (b < j ∧ (x.st j).pc.waits = true ∧ (x.st j).dev.sys.lib.st = .waiting ∧ (x.st j).dev.sys.lib.t15 ≠ .set ∧
      cfg.respTimeout ≤ (x.st j).dev.sys.lib.timer + x.ticks b j)

theorem mstage_step {b j n : Nat} (he : MEnv cfg x t15 t35 lat P D X) (hc : CI cfg x j) (hA : MAns x j → AtAnswer (x.st j)) (hjn : j < n)
    (hcb : x.Completes b) (hnc : j < b → ¬ x.Completes j) (hnr : x.ev j ≠ .irq .rto) (htk : x.ticks b n + 3 ≤ cfg.respTimeout)
    (h : MStage cfg x b j) : MStage cfg x b (j + 1) := by
  have hs := he.ex.step j
  cases hev : x.ev j with
  | call =>
    have hp := out_of_not (he.ex.outside j (.inl hev))
    rw [hev] at hs
    obtain ⟨hd, -⟩ := mpc_call hp hs
    have hnt : x.ev j ≠ .irq (.main .tick) := by rw [hev]; simp
    have hjb : j ≠ b := by rintro rfl; obtain ⟨⟨r, h1⟩, -⟩ := hcb; rw [hev] at h1; cases h1
    refine ⟨fun _ _ => ?_, ?_, ?_⟩
    · rw [hd]; exact h.gap (by rw [hp]; simp) (by rw [hp]; simp)
    · rw [hd]; exact h.rtof
    · rw [hd]
      rcases h.ph with ⟨h1, -⟩ | ⟨h1, h2, h3, h4⟩ | ⟨h1, h2, h3, h4, h5, h6⟩ | ⟨h1, h2, h3, h4, h5⟩
      · rw [hp] at h1; simp [MPc.sent, MPc.starting] at h1
      · exact .inr (.inl ⟨rfl, h2, h3, by omega⟩)
      · exact .inr (.inr (.inl ⟨by omega, .inl rfl, h3, h4, h5.succ fun h => absurd hp h, fun h => nomatch h⟩))
      · exact .inr (.inr (.inr ⟨by omega, rfl, h3, h4, by rw [mticks_succ (by omega), if_neg hnt]; exact h5⟩))
  | app op =>
    obtain ⟨hp, r, rfl, -⟩ := app_of he.ex hev
    rw [hev] at hs
    obtain ⟨-, ⟨fq, tq, M, hd⟩, -⟩ := mpc_app hp hs
    have hnt : x.ev j ≠ .irq (.main .tick) := by rw [hev]; simp
    have hjb : j ≠ b := by rintro rfl; obtain ⟨⟨r, h1⟩, -⟩ := hcb; rw [hev] at h1; cases h1
    refine ⟨?_, ?_, ?_⟩
    · rw [hd]; exact h.gap
    · rw [hd]; exact h.rtof
    · rw [hd]
      rcases h.ph with ⟨h1, -⟩ | ⟨h1, h2, h3, h4⟩ | ⟨h1, h2, h3, h4, h5, h6⟩ | ⟨h1, h2, h3, h4, h5⟩
      · rw [hp] at h1; simp [MPc.sent, MPc.starting] at h1
      · exact .inr (.inl ⟨h1, h2, h3, by omega⟩)
      · refine .inr (.inr (.inl ⟨by omega, h2, h3, h4, h5.succ fun h => absurd hp h, fun h => ?_⟩))
        rw [show (x.st j).pc = .trSt from h] at hp; cases hp
      · exact .inr (.inr (.inr ⟨by omega, h2, h3, h4, by rw [mticks_succ (by omega), if_neg hnt]; exact h5⟩))
  | irq h' =>
    rw [hev] at hs
    have hm : ∀ op, h' = .main op → op = .tick := fun op e => he.ex.irq j op (by rw [hev, e])
    have hN := irq_norm hc.si.drv hm h.rtof (fun e => hnr (by rw [hev, e])) hs
    have hcomp : x.Completes j → (x.st (j + 1)).dev.sys.lib.txf = .cleared := by
      rintro ⟨⟨r, h1⟩, h2⟩
      rw [hev] at h1
      exact hN.done ⟨r, by injection h1⟩ h2
    have hkeep : ¬ x.Completes j → (x.st (j + 1)).dev.sys.lib.txf = (x.st j).dev.sys.lib.txf := by
      intro h1
      rcases hN.txf with h2 | ⟨-, ⟨r, h2⟩, h3⟩
      · exact h2
      · exact absurd ⟨⟨r, by rw [hev, h2]⟩, h3⟩ h1
    have htick : (x.ev j = .irq (.main .tick)) = (h' = .main .tick) := by rw [hev]; simp
    refine ⟨?_, hN.rtof, ?_⟩
    · rw [hN.pc]; exact fun h1 h2 => hN.gap (h.gap h1 h2)
    · rw [hN.pc, hN.st]
      rcases h.ph with ⟨h1, h2, h3⟩ | ⟨h1, h2, h3, h4⟩ | ⟨h1, h2, h3, h4, h5, h6⟩ | ⟨h1, h2, h3, h4, h5⟩
      · have hncj : ¬ x.Completes j := by
          rintro ⟨⟨r, h5⟩, h6⟩
          cases r with
          | some c =>
            have := (hA (.inl ⟨c, true, h5⟩)).pc
            rw [(sent_late h1).1] at this; cases this
          | none =>
            have hmo := hc.moreLeft he.pu h1 h5
            rw [hev] at h5; cases h5
            obtain ⟨v, k1, -⟩ := mpc_irq hs
            have := (mint_usart hc.si.drv k1).out
            rw [hmo] at this
            obtain ⟨b, hb⟩ := this
            rw [hb] at h6; cases h6
        have hjb : j ≠ b := by rintro rfl; exact hncj hcb
        exact .inl ⟨h1, by omega, fun h => (hkeep hncj).trans (h3 h)⟩
      · by_cases hjb : j = b
        · subst hjb
          refine .inr (.inr (.inl ⟨by omega, .inl h1, h2, hcomp hcb, .self x j, fun h => ?_⟩))
          rw [h] at h1; cases h1
        · exact .inr (.inl ⟨h1, h2, (hkeep (hnc (by omega))).trans h3, by omega⟩)
      · refine .inr (.inr (.inl ⟨by omega, h2, h3, ?_, h5.succ fun h => ?_, fun h => ?_⟩))
        · rcases hN.txf with k | ⟨k, -⟩
          · rw [k]; exact h4
          · exact k
        · show (x.st (j + 1)).pc ≠ _
          rw [hN.pc]; exact h
        · rw [mticks_succ (by omega), hN.timer]
          simp only [htick]
          have := h6 h
          split <;> omega
      · refine .inr (.inr (.inr ⟨by omega, h2, h3, by rw [hN.t15]; exact h4, ?_⟩))
        rw [mticks_succ (by omega), hN.timer]
        simp only [htick]
        split <;> omega
  | stmt =>
    have hin : (x.st j).pc ≠ .out := he.ex.inside j hev
    have hnt : x.ev j ≠ .irq (.main .tick) := by rw [hev]; simp
    have hjb : j ≠ b := by rintro rfl; obtain ⟨⟨r, h1⟩, -⟩ := hcb; rw [hev] at h1; cases h1
    have hs : masterStmt cfg (x.st j) = .ok (x.st (j + 1), x.out j) := by rw [hev] at hs; exact hs
    have hmono := mticks_mono (x := x) (a := b) (m := j) (n := n)
    have hsucc := mticks_succ (x := x) (a := b) (n := j)
    rw [if_neg hnt] at hsucc
    obtain ⟨hg, hr, hph⟩ := h
    have hNP : ((x.st j).pc ≠ .out → (x.st (j + 1)).pc ≠ .out) → NoPoll x b j → NoPoll x b (j + 1) := fun h1 h2 => h2.succ h1
    generalize hq : x.st (j + 1) = d' at hs
    rw [hq] at hNP
    suffices hkey : (d'.pc ≠ .snTxeie → d'.pc ≠ .snGap → d'.dev.sys.gap = false) ∧ d'.dev.sys.rtof = false ∧
        ((d'.pc.sent ∧ j + 1 ≤ b ∧ (d'.pc = .snSt → d'.dev.sys.lib.txf = .set)) ∨
        (d'.pc.sending = true ∧ d'.dev.sys.lib.st = .transmitting ∧ d'.dev.sys.lib.txf = .set ∧ j + 1 ≤ b) ∨
        (b < j + 1 ∧ (d'.pc.sending = true ∨ d'.pc = .trLen ∨ d'.pc = .trTimer ∨ d'.pc = .trSt) ∧
          d'.dev.sys.lib.st = .transmitting ∧ d'.dev.sys.lib.txf = .cleared ∧ NoPoll x b (j + 1) ∧
          (d'.pc = .trSt → cfg.respTimeout ≤ d'.dev.sys.lib.timer + x.ticks b (j + 1))) ∨
        (b < j + 1 ∧ d'.pc.waits = true ∧ d'.dev.sys.lib.st = .waiting ∧ d'.dev.sys.lib.t15 ≠ .set ∧
          cfg.respTimeout ≤ d'.dev.sys.lib.timer + x.ticks b (j + 1))) by
      exact ⟨by rw [hq]; exact hkey.1, by rw [hq]; exact hkey.2.1, by rw [hq]; exact hkey.2.2⟩
    have h15 := hc.si.t15
    generalize x.st j = d at *
    obtain ⟨⟨⟨l, tm, cu, la, g, r⟩, lm⟩, pc, e⟩ := d
    dsimp only at hg hr hph hin h15 hNP
    rcases hph with ⟨h1, h2, h3⟩ | ⟨h1, h2, h3, h4⟩ | ⟨h1, h2, h3, h4, h5, h6⟩ | ⟨h1, h2, h3, h4, h5⟩
    · cases pc <;> first | (simp [MPc.sent, MPc.starting] at h1; done) | skip
      all_goals simp only [masterStmt] at hs
      case snRx =>
        obtain ⟨l', hl, hs⟩ := bind_ok hs
        obtain ⟨i, -, rfl⟩ := masterEnableRx_eq hl
        simp only [Except.ok.injEq, Prod.mk.injEq] at hs
        obtain ⟨rfl, -⟩ := hs
        exact ⟨fun _ _ => hg (by simp) (by simp), hr, .inl ⟨.inr (.inl rfl), by omega, by simp⟩⟩
      all_goals
        simp only [Except.ok.injEq, Prod.mk.injEq] at hs
        obtain ⟨rfl, -⟩ := hs
      case snSt =>
        exact ⟨fun _ _ => hg (by simp) (by simp), hr, .inr (.inl ⟨rfl, rfl, h3 rfl, by omega⟩)⟩
      all_goals
        refine ⟨?_, ?_, .inl ⟨?_, by omega, ?_⟩⟩ <;> simp_all [MPc.sent, MPc.starting]
    · cases pc <;> first | (simp [MPc.sending] at h1; done) | (exact absurd rfl hin) | skip
      all_goals
        simp only [masterStmt, h2, h3, reduceCtorEq, if_false, Except.ok.injEq, Prod.mk.injEq] at hs
        obtain ⟨rfl, -⟩ := hs
        exact ⟨fun _ _ => hg (by simp) (by simp), hr, .inr (.inl ⟨rfl, h2, h3, by omega⟩)⟩
    · cases pc <;> first | (simp [MPc.sending] at h2; done) | (exact absurd rfl hin) | skip
      all_goals simp only [masterStmt, h3, h4, if_true] at hs
      case trLen =>
        obtain ⟨l', hl, hs⟩ := bind_ok hs
        obtain ⟨i, -, rfl⟩ := clearRespLen_eq hl
        simp only [Except.ok.injEq, Prod.mk.injEq] at hs
        obtain ⟨rfl, -⟩ := hs
        exact ⟨fun _ _ => hg (by simp) (by simp), hr, .inr (.inr (.inl ⟨by omega, by simp, h3, h4, hNP (by simp) h5, by simp⟩))⟩
      all_goals
        simp only [Except.ok.injEq, Prod.mk.injEq] at hs
        obtain ⟨rfl, -⟩ := hs
      case trSt =>
        refine ⟨fun _ _ => hg (by simp) (by simp), hr, .inr (.inr (.inr ⟨by omega, rfl, rfl, ?_, ?_⟩))⟩
        · intro h; have := (h15 h).1; cases this
        · have := h6 rfl; have := hsucc (by omega); dsimp only; omega
      case trTimer =>
        exact ⟨fun _ _ => hg (by simp) (by simp), hr, .inr (.inr (.inl ⟨by omega, by simp, rfl, rfl, hNP (by simp) h5, fun _ => by dsimp only; omega⟩))⟩
      all_goals
        exact ⟨fun _ _ => hg (by simp) (by simp), hr, .inr (.inr (.inl ⟨by omega, by simp [MPc.sending], h3, h4, hNP (by simp) h5, by simp⟩))⟩
    · have hm1 := hmono (by omega) (by omega)
      have hm2 := hsucc (by omega)
      have ht : l.timer ≠ 1 := by have : cfg.respTimeout ≤ l.timer + x.ticks b j := h5; omega
      have h5 : cfg.respTimeout ≤ l.timer + x.ticks b j := h5
      cases pc <;> first | (simp [MPc.waits] at h2; done) | (exact absurd rfl hin) | skip
      all_goals
        simp only [masterStmt, h3, if_neg h4, if_neg ht, Except.ok.injEq, Prod.mk.injEq] at hs
        obtain ⟨rfl, -⟩ := hs
        exact ⟨fun _ _ => hg (by simp) (by simp), hr, .inr (.inr (.inr ⟨by omega, rfl, h3, h4, by dsimp only; omega⟩))⟩

theorem at_answer {n : Nat} (he : MEnv cfg x t15 t35 lat P D X) (ho : x.OneAnswer P cfg.respTimeout) (hc : ∀ j, j ≤ n → CI cfg x j)
    (hA : ∀ j, j < n → MAns x j → AtAnswer (x.st j)) (hn : MAns x n) : AtAnswer (x.st n) := by
  obtain ⟨a, b, hab, hbn, hsa, hcb, hnc, htime, htk, hbet⟩ := ho.answer n hn
  have hstage : ∀ j, a < j → j ≤ n → MStage cfg x b j := by
    intro j
    induction j with
    | zero => intro h; omega
    | succ j ih =>
      intro h1 h2
      by_cases hj : j = a
      · subst hj
        obtain ⟨hev, hpc⟩ := sends_at he (hc j (by omega)).si.drv hsa
        refine ⟨fun h => absurd hpc h, ?_, .inl ⟨.inl hpc, by omega, fun h => ?_⟩⟩
        · cases hr : (x.st (j + 1)).dev.sys.rtof with
          | false => rfl
          | true => have := ((hc (j + 1) h2).si.rtof hr).1; rw [hpc] at this; cases this
        · rw [h] at hpc; cases hpc
      · exact mstage_step he (hc j (by omega)) (hA j (by omega)) (show j < n by omega) hcb (fun h => hnc j (by omega) h)
          (hbet j (by omega) (by omega)).2 htk (ih (by omega) (by omega))
  have hfin := hstage n (by omega) (Nat.le_refl _)
  rcases hfin.ph with ⟨-, h2, -⟩ | ⟨-, -, -, h4⟩ | ⟨h1, h2, h3, h4, h5, h6⟩ | ⟨h1, h2, h3, h4, h5⟩
  · omega
  · omega
  · have := h5.time he.ex he.pu; omega
  · refine ⟨h2, h3, h4, by omega, hfin.rtof, hfin.gap ?_ ?_⟩
    · intro h; rw [h] at h2; cases h2
    · intro h; rw [h] at h2; cases h2

/-- What holds throughout. -/
theorem ci_all (he : MEnv cfg x t15 t35 lat P D X) (ho : x.OneAnswer P cfg.respTimeout) : ∀ n, CI cfg x n ∧ (MAns x n → AtAnswer (x.st n)) := by
  have key : ∀ n, (∀ j, j ≤ n → CI cfg x j) ∧ (∀ j, j < n → MAns x j → AtAnswer (x.st j)) := by
    intro n
    induction n with
    | zero => exact ⟨fun j hj => by rw [Nat.le_zero.1 hj]; exact ci_init he.ex, fun j hj => absurd hj (by omega)⟩
    | succ n ih =>
      obtain ⟨h1, h2⟩ := ih
      have hn : MAns x n → AtAnswer (x.st n) := at_answer he ho h1 h2
      refine ⟨fun j hj => ?_, fun j hj => ?_⟩
      · rcases Nat.lt_or_ge j (n + 1) with h3 | h3
        · exact h1 j (by omega)
        · rw [show j = n + 1 by omega]
          exact ci_step he (h1 n (Nat.le_refl _)) hn
      · rcases Nat.lt_or_ge j n with h3 | h3
        · exact h2 j h3
        · rw [show j = n by omega]; exact hn
  intro n
  exact ⟨(key n).1 n (Nat.le_refl _), (key (n + 1)).2 n (by omega)⟩

end

end Modbus
