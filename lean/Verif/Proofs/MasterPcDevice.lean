import Verif.Proofs.MasterPcTimed

/-! The master statement by statement: the execution with uninterrupted polls. -/

set_option linter.unusedSimpArgs false

namespace Modbus

open Spec

section
variable {cfg : Config} {x : MStmtTimed} {t15 t35 lat P D X : Nat}

/-! ### The execution with uninterrupted polls -/

/-- An event at which nothing happens. -/
def mskip : HMOp := .usart none false

theorem mskip_step {a : MasterSys} (h : a.rtof = false) : masterSysStep cfg a mskip = .ok (a, []) := by
  simp only [mskip, masterSysStep, masterIrqRx, masterIrqTx, masterIrqRto, Bool.false_eq_true, if_false, ok_bind, pure_eq, h]

def matomOp (ev : MSEv) (lin : Bool) : HMOp :=
  match ev with
  | .irq h => h
  | .app op => .main op
  | .call => mskip
  | .stmt => if lin then .main .poll else mskip

def matomOpAt (cfg : Config) (x : MStmtTimed) (n : Nat) : HMOp := matomOp (x.ev n) (mlinStep cfg (x.st n) (x.st (n + 1)) (mflag cfg x n))

def matomSt (cfg : Config) (x : MStmtTimed) : Nat → MasterSys
  | 0 => (x.st 0).dev.sys
  | n + 1 => match masterSysStep cfg (matomSt cfg x n) (matomOpAt cfg x n) with
    | .ok r => r.1
    | .error _ => matomSt cfg x n

/-- The execution with uninterrupted polls. -/
def matom (cfg : Config) (x : MStmtTimed) : MDeviceTimed :=
  { op := matomOpAt cfg x, time := x.time, st := matomSt cfg x, out := x.out }

theorem mstmt_rtof {d d' : MasterPcDev} {o : List HMOut} (h : masterStmt cfg d = .ok (d', o)) :
    d'.dev.sys.rtof = d.dev.sys.rtof ∨ d.pc = .snRtof ∧ d'.dev.sys.rtof = false := by
  obtain ⟨⟨⟨l, tm, cu, la, g, r⟩, lm⟩, pc, e⟩ := d
  cases pc <;> simp only [masterStmt] at h
  all_goals try (obtain ⟨x1, hb, h⟩ := bind_ok h)
  all_goals try (obtain ⟨x2, hb2, h⟩ := bind_ok h)
  all_goals repeat' split at h
  all_goals
    simp only [Except.ok.injEq, Prod.mk.injEq, reduceCtorEq] at h
    obtain ⟨rfl, -⟩ := h
    simp_all

theorem mstmt_out {d d' : MasterPcDev} {o : List HMOut} (h : masterStmt cfg d = .ok (d', o)) (hn : mlinPt cfg d = false) :
    o = [] ∨ (o = [.lib (.send [])] ∧ d'.pc = .snGap) := by
  obtain ⟨⟨⟨l, tm, cu, la, g, r⟩, lm⟩, pc, e⟩ := d
  cases pc <;> simp only [masterStmt] at h
  all_goals try (cases hn; done)
  all_goals try (obtain ⟨x1, hb, h⟩ := bind_ok h)
  all_goals try (obtain ⟨x2, hb2, h⟩ := bind_ok h)
  all_goals repeat' split at h
  all_goals
    simp only [Except.ok.injEq, Prod.mk.injEq, reduceCtorEq] at h
    obtain ⟨rfl, rfl⟩ := h
    simp_all

theorem miter_rtof {a : MasterPcDev} : ∀ {n : Nat} {d : MasterPcDev} {o : List HMOut}, miter cfg n d = .ok (a, o) → d.dev.sys.rtof = false →
    a.dev.sys.rtof = false
  | 0, d, o, h, hr => by
    simp only [miter, Except.ok.injEq, Prod.mk.injEq] at h
    rw [← h.1]; exact hr
  | n + 1, d, o, h, hr => by
    simp only [miter] at h
    obtain ⟨⟨d1, o1⟩, h1, h⟩ := bind_ok h
    obtain ⟨⟨d2, o2⟩, h2, h⟩ := bind_ok h
    simp only [pure_eq, Except.ok.injEq, Prod.mk.injEq] at h
    rw [← h.1]
    refine miter_rtof h2 ?_
    rcases mstmt_rtof h1 with e | ⟨-, e⟩
    · rw [e]; exact hr
    · exact e

theorem MSimPc.rtof {fl : Bool} {d : MasterPcDev} {a : MasterSys} (h : MSimPc cfg fl d a) (hr : d.dev.sys.rtof = false) : a.rtof = false := by
  cases h with
  | out => exact hr
  | wt => exact hr
  | rv => exact hr
  | pre hpre =>
    rename_i e
    have key : ∀ {d : MasterPcDev}, MPre cfg (mat a a.txMsg .enter e) d → d.dev.sys.rtof = a.rtof := by
      intro d h
      induction h with
      | refl => rfl
      | @step d d1 k h1 h2 h3 ih =>
        rcases mstmt_rtof h2 with e | ⟨e, -⟩
        · rw [e]; exact ih
        · have := k.late rfl; rw [e] at this; cases this
    rw [← key hpre]; exact hr
  | post _ _ hit => exact miter_rtof hit hr

theorem matom_legal (hx : x.Exec cfg) (n : Nat) : (matomOpAt cfg x n).legal := by
  unfold matomOpAt
  cases hev : x.ev n with
  | irq h =>
    cases h with
    | main op => cases hx.irq n op hev; exact ⟨rfl, fun r h => nomatch h⟩
    | _ => trivial
  | app op =>
    obtain ⟨r, rfl, h⟩ := hx.app n op hev
    exact ⟨rfl, fun r' e => by cases e; exact h⟩
  | call => trivial
  | stmt =>
    show (if _ then HMOp.main .poll else mskip : HMOp).legal
    split
    · exact ⟨rfl, fun r h => nomatch h⟩
    · trivial

/-- One event in both executions. -/
theorem matom_step (hw : cfg.MWF) (he : MEnv cfg x t15 t35 lat P D X) (ho : x.OneAnswer P cfg.respTimeout) (n : Nat) {a : MasterSys}
    {fs : List (List U8)} {w : List U8} (hsim : MSimPc cfg (mflag cfg x n) (x.st n) a) (hi : MWInv cfg a fs w) :
    ∃ a', masterSysStep cfg a (matomOpAt cfg x n) = .ok (a', x.out n) ∧ MSimPc cfg (mflag cfg x (n + 1)) (x.st (n + 1)) a' := by
  obtain ⟨hc, hA⟩ := ci_all he ho n
  have hs := he.ex.step n
  unfold matomOpAt
  cases hev : x.ev n with
  | call =>
    rw [hev] at hs
    have hp := out_of_not (he.ex.outside n (.inl hev))
    obtain ⟨e1, e2⟩ := mpc_call hp hs
    have hr : (x.st n).dev.sys.rtof = false := rtof_main he.hw fun h' e => by rw [hev] at e; cases e
    refine ⟨a, ?_, ?_⟩
    · rw [e2]; exact mskip_step (hsim.rtof hr)
    · rw [show mflag cfg x (n + 1) = false by simp only [mflag, hev], e1]
      exact hsim.call hp
  | app op =>
    obtain ⟨hp, r, rfl, -⟩ := app_of he.ex hev
    rw [hev] at hs
    obtain ⟨h1, ⟨fq, tq, M, h2⟩, -⟩ := mpc_app hp hs
    obtain ⟨e, h3⟩ := hsim.at_out hp
    rw [h3] at h1 h2
    refine ⟨(x.st (n + 1)).dev.sys, h1, ?_⟩
    rw [h2]
    exact .out
  | irq h =>
    rw [hev] at hs
    have hm : ∀ op, h = .main op → op = .tick := fun op e => he.ex.irq n op (by rw [hev, e])
    have hA' : h.isAnswer = true → AtAnswer (x.st n) := fun ha => hA ((ans_iff hev).1 ha)
    have hX : ∀ t, h = .usart none t → (x.st n).dev.sys.rtof = true ∨ (x.st n).txeie = true := fun t e => he.hw.txeOnly n t (by rw [hev, e])
    have hM : (x.st n).pc.starting = true ∨ (x.st n).pc = .snSt → h = .usart none true → (x.st n).dev.more = true := fun h1 h2 =>
      hc.moreLeft he.pu (.inr h1) (by rw [hev, h2])
    rw [mflag_irq hev]
    have hnt : Expired (x.st n) → h ≠ .main .tick := fun hE e => hc.noTick he.ex he.pu hE (by rw [hev, e])
    have hwt : mflag cfg x n = false → (x.st n).pc = .wtTimer →
        (x.st n).dev.sys.lib.t15 ≠ .set ∧ (x.st n).dev.sys.rtof = false ∧ (x.st n).dev.sys.lib.timer ≤ 2 := by
      intro h1 h2
      have := hc.wt h2
      rwa [h1, if_neg (by simp)] at this
    refine hsim.irq hc.si hm hA' hX hM ?_ (fun h1 h2 => ⟨(hwt h1 h2).2.2, (hwt h1 h2).2.1⟩) hs
    intro h1 h2 h3
    by_cases h4 : (x.st n).pc = .wtTimer
    · refine ⟨h4, ?_⟩
      obtain ⟨k1, k2, k3⟩ := hwt h1 h4
      have h12 : (x.st n).dev.sys.lib.timer = 1 ∨ (x.st n).dev.sys.lib.timer = 2 := by
        rw [h1] at hsim
        generalize x.st n = d at hsim h4
        cases hsim with
        | out => cases h4
        | pre hpre =>
          obtain ⟨e1, -, -, e2⟩ := hpre.same.2.2.2.1 h4
          rw [e1]; exact e2
      rcases h12 with h5 | h5
      · exact absurd h2 (hnt ⟨h5, k1, k2, by rw [h4]; trivial⟩)
      · exact h5
    · exact absurd h2 (hnt (hc.exp h3 h4))
  | stmt =>
    have hin : (x.st n).pc ≠ .out := he.ex.inside n hev
    have hs : masterStmt cfg (x.st n) = .ok (x.st (n + 1), x.out n) := by rw [hev] at hs; exact hs
    have hr : (x.st n).dev.sys.rtof = false := rtof_main he.hw fun h' e => by rw [hev] at e; cases e
    rw [mflag_stmt hev]
    cases hf : mflag cfg x n with
    | true =>
      rw [hf] at hsim
      have hwt : (x.st n).pc = .wtTimer → (x.st n).dev.sys.lib.timer ≠ 1 := by
        intro h1
        have := hc.wt h1
        rw [hf, if_pos rfl] at this
        omega
      obtain ⟨e1, e2⟩ := hsim.after hc.si hin hwt hs
      rw [e1]
      exact ⟨a, mskip_step (hsim.rtof hr), e2⟩
    | false =>
      rw [hf] at hsim
      cases hl : mlinStep cfg (x.st n) (x.st (n + 1)) false with
      | true =>
        have hl' : mlinPt cfg (x.st n) = true ∨ (x.st (n + 1)).pc = .out := by simpa [mlinStep] using hl
        obtain ⟨a', oy, h1⟩ := hsim.poll_ok hw hin hi hs hl'
        obtain ⟨e1, e2⟩ := hsim.lin hc.si hin hs hl' h1
        rw [e1] at h1
        exact ⟨a', h1, e2⟩
      | false =>
        have hl' : mlinPt cfg (x.st n) = false ∧ (x.st (n + 1)).pc ≠ .out := by simpa [mlinStep] using hl
        have hnil : x.out n = [] := by
          rcases mstmt_out hs hl'.1 with h | ⟨h1, h2⟩
          · exact h
          · have := he.pu.slow n [] (n + 1) (by rw [h1]; simp) (by omega) (by
              intro j j1 j2
              rw [show j = n + 1 by omega]
              intro hq; rw [hq] at h2; cases h2)
            simp at this
        rw [hnil] at hs ⊢
        exact ⟨a, mskip_step (hsim.rtof hr), hsim.before hin hs hl'.1 hl'.2⟩

theorem matom_run (hw : cfg.MWF) (he : MEnv cfg x t15 t35 lat P D X) (ho : x.OneAnswer P cfg.respTimeout) (n : Nat) :
    MSimPc cfg (mflag cfg x n) (x.st n) (matomSt cfg x n) ∧ (∃ fs w, MWInv cfg (matomSt cfg x n) fs w) ∧
      masterSysStep cfg (matomSt cfg x n) (matomOpAt cfg x n) = .ok (matomSt cfg x (n + 1), x.out n) := by
  have step : ∀ n, MSimPc cfg (mflag cfg x n) (x.st n) (matomSt cfg x n) → (∃ fs w, MWInv cfg (matomSt cfg x n) fs w) →
      masterSysStep cfg (matomSt cfg x n) (matomOpAt cfg x n) = .ok (matomSt cfg x (n + 1), x.out n) ∧
      MSimPc cfg (mflag cfg x (n + 1)) (x.st (n + 1)) (matomSt cfg x (n + 1)) ∧ ∃ fs w, MWInv cfg (matomSt cfg x (n + 1)) fs w := by
    rintro n hsim ⟨fs, w, hi⟩
    obtain ⟨a', h1, h2⟩ := matom_step hw he ho n hsim hi
    have e1 : matomSt cfg x (n + 1) = a' := by simp only [matomSt, h1]
    rw [e1]
    refine ⟨h1, h2, ?_⟩
    rcases hi.step hw _ (matom_legal he.ex n) with ⟨s', o, k1, k2⟩ | ⟨k1, k2⟩
    · rw [h1] at k1
      obtain ⟨rfl, rfl⟩ := Prod.mk.inj (Except.ok.inj k1)
      exact ⟨_, _, k2⟩
    · rw [k1] at h1
      simp only [masterSysStep, show ¬ (MOp.isMain .poll = false) by decide, k2, error_bind] at h1
      cases h1
  induction n with
  | zero =>
    obtain ⟨s, h1, h2⟩ := he.ex.init
    have h0 : matomSt cfg x 0 = s := by show (x.st 0).dev.sys = s; rw [h2]
    obtain ⟨l, g1, g2, g3⟩ := sysInit_ok hw MasterSys.powerOn
    have hmw : MWInv cfg (matomSt cfg x 0) [] [] := by
      rw [h0]
      rw [g1] at h1
      simp only [Except.ok.injEq, Prod.mk.injEq] at h1
      rw [← h1.1]
      exact ⟨⟨_, g2⟩, Nat.le_refl _, fun h => absurd h (Nat.lt_irrefl _), .inl ⟨rfl, rfl, rfl⟩⟩
    have hsim : MSimPc cfg (mflag cfg x 0) (x.st 0) (matomSt cfg x 0) := by
      have htx : s.txMsg = 0 := by
        rw [g1] at h1
        simp only [Except.ok.injEq, Prod.mk.injEq] at h1
        rw [← h1.1]; rfl
      rw [h0, h2]
      have := MSimPc.out (cfg := cfg) (fl := mflag cfg x 0) (a := s) (e := false)
      rw [mat, htx] at this
      exact this
    exact ⟨hsim, ⟨_, _, hmw⟩, (step 0 hsim ⟨_, _, hmw⟩).1⟩
  | succ n ih =>
    obtain ⟨i1, i2, i3⟩ := ih
    obtain ⟨-, j2, j3⟩ := step n i1 i2
    exact ⟨j2, j3, (step (n + 1) j2 j3).1⟩

/-! ### It satisfies the same conditions -/

theorem matomOp_rto {ev : MSEv} {l : Bool} : matomOp ev l = .rto ↔ ev = .irq .rto := by
  cases ev with
  | irq h => simp [matomOp]
  | app op => simp [matomOp]
  | call => simp [matomOp, mskip]
  | stmt => cases l <;> simp [matomOp, mskip]

theorem matomOp_timer {ev : MSEv} {l : Bool} : matomOp ev l = .timer ↔ ev = .irq .timer := by
  cases ev with
  | irq h => simp [matomOp]
  | app op => simp [matomOp]
  | call => simp [matomOp, mskip]
  | stmt => cases l <;> simp [matomOp, mskip]

theorem matomOp_byte {ev : MSEv} {l : Bool} {b : U8} {t : Bool} : matomOp ev l = .usart (some b) t ↔ ev = .irq (.usart (some b) t) := by
  cases ev with
  | irq h => simp [matomOp]
  | app op => simp [matomOp]
  | call => simp [matomOp, mskip]
  | stmt => cases l <;> simp [matomOp, mskip]

theorem matomOp_txe {ev : MSEv} {l : Bool} {r : Option U8} : matomOp ev l = .usart r true ↔ ev = .irq (.usart r true) := by
  cases ev with
  | irq h => simp [matomOp]
  | app op => simp [matomOp]
  | call => simp [matomOp, mskip]
  | stmt => cases l <;> simp [matomOp, mskip]

theorem matomOp_tick (hx : x.Exec cfg) {n : Nat} {l : Bool} : matomOp (x.ev n) l = .main .tick ↔ x.ev n = .irq (.main .tick) := by
  cases hev : x.ev n with
  | irq h => simp [matomOp]
  | app op =>
    obtain ⟨r, rfl, -⟩ := hx.app n op hev
    simp [matomOp]
  | call => simp [matomOp, mskip]
  | stmt => cases l <;> simp [matomOp, mskip]

theorem matomOp_poll (hx : x.Exec cfg) {n : Nat} {l : Bool} : matomOp (x.ev n) l = .main .poll ↔ x.ev n = .stmt ∧ l = true := by
  cases hev : x.ev n with
  | irq h =>
    constructor
    · intro e
      have e : h = .main .poll := e
      rw [e] at hev
      cases hx.irq n _ hev
    · rintro ⟨e, -⟩; cases e
  | app op =>
    obtain ⟨r, rfl, -⟩ := hx.app n op hev
    simp [matomOp]
  | call => simp [matomOp, mskip]
  | stmt => cases l <;> simp [matomOp, mskip]

theorem matom_byte {n : Nat} : (matom cfg x).Byte n ↔ x.Byte n := by
  constructor
  · rintro ⟨b, t, h⟩; exact ⟨b, t, matomOp_byte.1 h⟩
  · rintro ⟨b, t, h⟩; exact ⟨b, t, matomOp_byte.2 h⟩

theorem matom_rto {n : Nat} : (matom cfg x).op n = .rto ↔ x.ev n = .irq .rto := matomOp_rto

theorem matom_timer {n : Nat} : (matom cfg x).op n = .timer ↔ x.ev n = .irq .timer := matomOp_timer

theorem matom_completes {n : Nat} : (matom cfg x).Completes n ↔ x.Completes n := by
  constructor
  · rintro ⟨⟨r, h⟩, ho⟩; exact ⟨⟨r, matomOp_txe.1 h⟩, ho⟩
  · rintro ⟨⟨r, h⟩, ho⟩; exact ⟨⟨r, matomOp_txe.2 h⟩, ho⟩

theorem matom_exec (hw : cfg.MWF) (he : MEnv cfg x t15 t35 lat P D X) (ho : x.OneAnswer P cfg.respTimeout) : (matom cfg x).Exec cfg := by
  refine ⟨?_, fun n => (matom_run hw he ho n).2.2, fun n op h => ?_, he.ex.mono⟩
  · obtain ⟨s, h1, h2⟩ := he.ex.init
    show _ = Except.ok ((x.st 0).dev.sys, [])
    rw [h2]; exact h1
  · have h : matomOpAt cfg x n = .main op := h
    have := matom_legal he.ex (cfg := cfg) n
    rw [h] at this
    cases op with
    | request r => exact this.2 r rfl
    | poll => trivial
    | tick => trivial
    | init m => exact this
    | _ => exact nomatch this.1

theorem matom_main_rtof (hw : cfg.MWF) (he : MEnv cfg x t15 t35 lat P D X) (ho : x.OneAnswer P cfg.respTimeout) {n : Nat} {op : MOp}
    (h : (matom cfg x).op n = .main op) : (matomSt cfg x n).rtof = false := by
  refine (matom_run hw he ho n).1.rtof (rtof_main he.hw fun h' e => ?_)
  have h : matomOp (x.ev n) _ = .main op := h
  rw [e] at h
  have h : h' = .main op := h
  rw [h] at e
  rw [he.ex.irq n op e] at h
  exact h

theorem matom_hardware (hw : cfg.MWF) (he : MEnv cfg x t15 t35 lat P D X) (ho : x.OneAnswer P cfg.respTimeout) :
    (matom cfg x).Hardware t15 t35 lat := by
  refine ⟨?_, ?_, ?_, ?_, ?_, ?_⟩
  · intro k hk
    obtain ⟨n, h1, h2, h3⟩ := he.hw.rtoMust k (matom_byte.1 hk)
    exact ⟨n, h1, h2.imp matom_byte.2 matom_rto.2, h3⟩
  · intro n hn
    obtain ⟨k, h1, h2, h3, h4⟩ := he.hw.rtoOnly n (matom_rto.1 hn)
    exact ⟨k, h1, matom_byte.2 h2, h3, fun j j1 j2 => ⟨fun h => (h4 j j1 j2).1 (matom_byte.1 h), fun h => (h4 j j1 j2).2 (matom_rto.1 h)⟩⟩
  · intro k hk
    obtain ⟨n, h1, h2, h3⟩ := he.hw.timerMust k (matom_byte.1 hk)
    exact ⟨n, h1, h2.imp matom_byte.2 matom_timer.2, h3⟩
  · intro n hn
    obtain ⟨k, h1, h2, h3, h4⟩ := he.hw.timerOnly n (matom_timer.1 hn)
    exact ⟨k, h1, matom_byte.2 h2, h3, fun j j1 j2 => ⟨fun h => (h4 j j1 j2).1 (matom_byte.1 h), fun h => (h4 j j1 j2).2 (matom_timer.1 h)⟩⟩
  · intro n hn
    obtain ⟨m, rx, t, h1, h2, h3⟩ := he.hw.irq n (matom_rto.1 hn)
    exact ⟨m, rx, t, h1, by show matomOp (x.ev m) _ = _; rw [h2]; rfl, h3⟩
  · intro n op hr hop
    have := matom_main_rtof hw he ho hop
    rw [show (matomSt cfg x n).rtof = true from hr] at this
    cases this

theorem matom_answer (ho : x.OneAnswer P cfg.respTimeout) : (matom cfg x).OneAnswer P := by
  refine ⟨fun n hn => ?_, fun n k h1 h2 h3 => ?_⟩
  · obtain ⟨a, b, h1, h2, h3, h4, -, h5, -, h6⟩ := ho.answer n (.inr (matom_rto.1 hn))
    exact ⟨a, b, h1, h2, h3, matom_completes.2 h4, h5, fun k k1 k2 => ⟨(h6 k k1 k2).1, fun h => (h6 k k1 k2).2 (matom_rto.1 h)⟩⟩
  · obtain ⟨m, m1, m2, m3⟩ := ho.noGap n k h1 (matom_rto.1 h2) (matom_byte.1 h3)
    exact ⟨m, m1, m2, matom_timer.2 m3⟩

theorem matom_count (a b : Nat) : ((matom cfg x).seg a b).count (.usart none true) = x.txCount a b := by
  unfold MDeviceTimed.seg MStmtTimed.txCount
  generalize List.range' a (b - a) = l
  induction l with
  | nil => rfl
  | cons n l ih =>
    simp only [List.map_cons, List.count_cons, ih]
    congr 1
    have : ((matom cfg x).op n == HMOp.usart none true) = (x.ev n == MSEv.irq (.usart none true)) := by
      rw [Bool.eq_iff_iff, beq_iff_eq, beq_iff_eq]
      exact matomOp_txe
    rw [this]

/-! ### Every poll has its effect once -/

theorem mflag_keep {k n : Nat} (hx : x.Exec cfg) (hin : ∀ j, k < j → j ≤ n → x.InPoll j) (hk : k < n) (h : mflag cfg x (k + 1) = true) :
    mflag cfg x (n + 1) = true := by
  induction n with
  | zero => omega
  | succ n ih =>
    have hn : mflag cfg x (n + 1) = true := by
      by_cases hkn : k = n
      · rw [← hkn]; exact h
      · exact ih (fun j j1 j2 => hin j j1 (by omega)) (by omega)
    cases hev : x.ev (n + 1) with
    | call => exact absurd (hin (n + 1) (by omega) (Nat.le_refl _)) (hx.outside _ (.inl hev))
    | app op => exact absurd (hin (n + 1) (by omega) (Nat.le_refl _)) (hx.outside _ (.inr ⟨op, hev⟩))
    | irq h' => rw [mflag_irq hev]; exact hn
    | stmt => rw [mflag_stmt hev, hn]; rfl

theorem mpoll_once (he : MEnv cfg x t15 t35 lat P D X) {k m : Nat} (hp : x.Poll k m) :
    ∃ n, k < n ∧ n ≤ m ∧ x.ev n = .stmt ∧ (matom cfg x).op n = .main .poll ∧
      ∀ n', k < n' → n' ≤ m → (matom cfg x).op n' = .main .poll → n' = n := by
  have hlin : ∀ n, (matom cfg x).op n = .main .poll ↔ x.ev n = .stmt ∧ mlinStep cfg (x.st n) (x.st (n + 1)) (mflag cfg x n) = true :=
    fun n => matomOp_poll he.ex
  have hm : x.ev m = .stmt := by
    have hin := hp.inside m hp.lt (Nat.le_refl _)
    cases hev : x.ev m with
    | call => exact absurd hin (he.ex.outside _ (.inl hev))
    | app op => exact absurd hin (he.ex.outside _ (.inr ⟨op, hev⟩))
    | irq h' =>
      exfalso
      apply hp.over
      show (x.st (m + 1)).pc ≠ _
      rw [pc_of_irq he.ex hev]; exact hin
    | stmt => rfl
  have hf0 : mflag cfg x (k + 1) = false := by simp only [mflag, hp.call]
  have hex : ∃ n, k < n ∧ n ≤ m ∧ (matom cfg x).op n = .main .poll := by
    apply Classical.byContradiction
    intro hno
    have hall : ∀ n, k < n → n ≤ m → mflag cfg x n = false := by
      intro n
      induction n with
      | zero => intro h; omega
      | succ n ih =>
        intro h1 h2
        by_cases hkn : k = n
        · rw [← hkn]; exact hf0
        · have hn := ih (by omega) (by omega)
          cases hev : x.ev n with
          | call => simp only [mflag, hev]
          | app op => simp only [mflag, hev]; exact hn
          | irq h' => rw [mflag_irq hev]; exact hn
          | stmt =>
            rw [mflag_stmt hev, hn]
            cases hl : mlinStep cfg (x.st n) (x.st (n + 1)) false with
            | false => rfl
            | true => exact absurd ⟨n, by omega, by omega, (hlin n).2 ⟨hev, by rw [hn]; exact hl⟩⟩ hno
    refine hno ⟨m, hp.lt, Nat.le_refl _, (hlin m).2 ⟨hm, ?_⟩⟩
    rw [hall m hp.lt (Nat.le_refl _)]
    simp [mlinStep, out_of_not hp.over]
  obtain ⟨n, n1, n2, n3⟩ := hex
  obtain ⟨n4, n5⟩ := (hlin n).1 n3
  have huniq : ∀ a b, k < a → a < b → b ≤ m → (matom cfg x).op a = .main .poll → (matom cfg x).op b = .main .poll → False := by
    intro a b h1 h2 h3 h4 h5
    obtain ⟨a1, a2⟩ := (hlin a).1 h4
    obtain ⟨b1, b2⟩ := (hlin b).1 h5
    have hfa : mflag cfg x (a + 1) = true := by rw [mflag_stmt a1, a2]; simp
    have hfb : mflag cfg x b = true := by
      by_cases hab : b = a + 1
      · rw [hab]; exact hfa
      · have := mflag_keep (k := a) (n := b - 1) he.ex (fun j j1 j2 => hp.inside j (by omega) (by omega)) (by omega) hfa
        rwa [show b - 1 + 1 = b by omega] at this
    rw [hfb] at b2
    simp [mlinStep] at b2
  refine ⟨n, n1, n2, n4, n3, fun n' h1 h2 h3 => ?_⟩
  rcases Nat.lt_trichotomy n' n with h | h | h
  · exact (huniq n' n h1 h n2 h3 n3).elim
  · exact h
  · exact (huniq n n' n1 h h2 n3 h3).elim

theorem matom_punctual (he : MEnv cfg x t15 t35 lat P D X) : (matom cfg x).Punctual P D X := by
  refine ⟨fun n => ?_, fun n => ?_, fun m n h1 h2 h3 => ?_, fun n f hf => ?_⟩
  · obtain ⟨k, m, h1, h2, h3⟩ := he.pu.poll n
    obtain ⟨p, p1, p2, p3, p4, -⟩ := mpoll_once he h2
    exact ⟨p, by omega, p4, Nat.le_trans (he.ex.time_le p2) h3⟩
  · obtain ⟨m, h1, h2, h3⟩ := he.pu.tick n
    exact ⟨m, h1, (matomOp_tick he.ex).2 h2, h3⟩
  · exact he.pu.apart m n h1 ((matomOp_tick he.ex).1 h2) ((matomOp_tick he.ex).1 h3)
  · obtain ⟨w, h1, h2, h3⟩ := he.pu.tx n f hf
    exact ⟨w, h1, h2, by rw [matom_count]; exact h3⟩

theorem matom_like (hw : cfg.MWF) (he : MEnv cfg x t15 t35 lat P D X) (ho : x.OneAnswer P cfg.respTimeout) : x.Like (matom cfg x) := by
  refine ⟨fun _ => rfl, fun _ => rfl, ?_, ?_, ?_, ?_, ?_, ?_⟩
  · intro n h e
    show matomOp _ _ = _
    rw [e]; rfl
  · intro n op e
    show matomOp _ _ = _
    rw [e]; rfl
  · intro n e hno
    have hop : (matom cfg x).op n = mskip := by
      show matomOp _ _ = _
      rcases e with e | e
      · rw [e]; rfl
      · cases hl : mlinStep cfg (x.st n) (x.st (n + 1)) (mflag cfg x n) with
        | true => exact absurd ((matomOp_poll he.ex).2 ⟨e, hl⟩) hno
        | false => rw [e]; rfl
    have hs := (matom_exec hw he ho).step n
    have hr : (matomSt cfg x n).rtof = false := (matom_run hw he ho n).1.rtof (rtof_main he.hw fun h' e' => by
      rcases e with e | e <;> (rw [e] at e'; cases e'))
    rw [hop, mskip_step (show ((matom cfg x).st n).rtof = false from hr)] at hs
    exact ⟨(Prod.mk.inj (Except.ok.inj hs)).1.symm, hop⟩
  · intro k m h
    exact mpoll_once he h
  · intro n h
    exact ((matomOp_poll he.ex).1 h).1
  · intro n hn
    obtain ⟨e, h⟩ := (matom_run hw he ho n).1.at_out (out_of_not hn)
    rw [h]
    rfl

end

end Modbus
