import Verif.Proofs.MasterPcSim
import Verif.Proofs.CallbacksPoll

/-! The master statement by statement: statements. -/

set_option linter.unusedSimpArgs false

namespace Modbus

open Spec

section
variable {cfg : Config}

set_option maxHeartbeats 4000000 in
theorem lin_next {d d' : MasterPcDev} {o : List HMOut} (hn : mlinPt cfg d = true) (hv : d.pc ≠ .rvT1) (h : masterStmt cfg d = .ok (d', o)) :
    d'.pc.late = true ∨ (d' = { d with pc := .wtTimer } ∧ o = [] ∧ d.dev.sys.lib.timer ≠ 1 ∧ d.pc = .wtT15) ∨
      (d' = { d with pc := .rvF3 } ∧ o = [] ∧ d.pc = .rvT2) := by
  obtain ⟨⟨⟨l, tm, cu, la, g, r⟩, lm⟩, pc, e⟩ := d
  cases pc <;> simp only [masterStmt] at h
  all_goals try (cases hn; done)
  all_goals try (obtain ⟨x1, hb, h⟩ := bind_ok h)
  all_goals
    simp only [Except.ok.injEq, Prod.mk.injEq] at h
    obtain ⟨rfl, rfl⟩ := h
    simp_all [mlinPt, MPc.late]

theorem miter_pos {n : Nat} {d d1 : MasterPcDev} {o : List HMOut} (h : miter cfg n d = .ok (d1, o)) (hp : d1.pc = .out) (hq : d.pc ≠ .out) :
    ∃ k d2 o1 o2, n = k + 1 ∧ masterStmt cfg d = .ok (d2, o1) ∧ miter cfg k d2 = .ok (d1, o2) ∧ o = o1 ++ o2 := by
  cases n with
  | zero =>
    simp only [miter, Except.ok.injEq, Prod.mk.injEq] at h
    rw [h.1] at hq; exact absurd hp hq
  | succ k =>
    simp only [miter] at h
    obtain ⟨⟨d2, o2⟩, h1, h⟩ := bind_ok h
    obtain ⟨⟨d3, o3⟩, h2, h⟩ := bind_ok h
    simp only [pure_eq, Except.ok.injEq, Prod.mk.injEq] at h
    obtain ⟨rfl, rfl⟩ := h
    exact ⟨k, d2, o2, o3, rfl, h1, h2, rfl⟩

/-- The statement at which a poll has its effect. -/
theorem MSimPc.lin {d d' : MasterPcDev} {a a' : MasterSys} {o oy : List HMOut} (hsim : MSimPc cfg false d a) (hS : SI d) (hp : d.pc ≠ .out)
    (h : masterStmt cfg d = .ok (d', o)) (hl : mlinPt cfg d = true ∨ d'.pc = .out) (hy : masterSysStep cfg a (.main .poll) = .ok (a', oy)) :
    oy = o ∧ MSimPc cfg true d' a' := by
  cases hsim with
  | out => exact absurd rfl hp
  | pre hpre =>
    rename_i e
    obtain ⟨n0, hit⟩ := hpre.iter
    obtain ⟨n, e', hfull⟩ := miter_poll hy e
    have hfull := miter_more hfull rfl (n0 + 1)
    rw [show n + (n0 + 1) = n0 + (n + 1) by omega] at hfull
    obtain ⟨d1, o1, o2, k1, k2, rfl⟩ := miter_split hfull
    rw [hit] at k1
    obtain ⟨rfl, rfl⟩ := Prod.mk.inj (Except.ok.inj k1)
    obtain ⟨k, d2, o1, o3, e1, k3, k4, rfl⟩ := miter_pos k2 rfl hp
    rw [h] at k3
    obtain ⟨rfl, rfl⟩ := Prod.mk.inj (Except.ok.inj k3)
    by_cases hout : d'.pc = .out
    · rw [miter_out hout] at k4
      obtain ⟨rfl, rfl⟩ := Prod.mk.inj (Except.ok.inj k4)
      exact ⟨by simp, .out⟩
    · have hl : mlinPt cfg d = true := hl.resolve_right hout
      rcases lin_next hl hS.rvt h with hl | ⟨rfl, rfl, h1, -⟩ | ⟨rfl, rfl, hrv⟩
      · have := late_iter_nil hl k4
        subst this
        exact ⟨by simp, .post hl hout k4⟩
      · obtain ⟨j, d3, o4, o5, -, k5, k6, rfl⟩ := miter_pos k4 rfl hout
        simp only [masterStmt, if_neg h1, Except.ok.injEq, Prod.mk.injEq] at k5
        obtain ⟨rfl, rfl⟩ := k5
        rw [miter_out rfl] at k6
        obtain ⟨k6, rfl⟩ := Prod.mk.inj (Except.ok.inj k6)
        refine ⟨rfl, ?_⟩
        obtain ⟨⟨s, lm⟩, pc, e0⟩ := d
        simp only [MasterPcDev.mk.injEq, MasterDev.mk.injEq] at k6
        obtain ⟨⟨rfl, rfl⟩, -, rfl⟩ := k6
        exact .wt
      · have hc : d.dev.sys.lib.crcf = .set := hpre.same.2.2.2.2 hrv
        have hf : d.dev.sys.lib.ferr = .cleared := hS.ferr
        obtain ⟨j, d3, o4, o5, -, k5, k6, rfl⟩ := miter_pos k4 rfl hout
        simp only [masterStmt, if_pos hf, Except.ok.injEq, Prod.mk.injEq] at k5
        obtain ⟨rfl, rfl⟩ := k5
        obtain ⟨j2, d4, o6, o7, -, k7, k8, rfl⟩ := miter_pos k6 rfl (by simp)
        simp only [masterStmt, hc, reduceCtorEq, if_false, Except.ok.injEq, Prod.mk.injEq] at k7
        obtain ⟨rfl, rfl⟩ := k7
        rw [miter_out rfl] at k8
        obtain ⟨k9, rfl⟩ := Prod.mk.inj (Except.ok.inj k8)
        refine ⟨rfl, ?_⟩
        obtain ⟨⟨s, lm⟩, pc, e0⟩ := d
        simp only [MasterPcDev.mk.injEq, MasterDev.mk.injEq] at k9
        obtain ⟨⟨rfl, rfl⟩, -, rfl⟩ := k9
        exact .rv (.inl rfl) hc

/-- A statement before the effect. -/
theorem MSimPc.before {d d' : MasterPcDev} {a : MasterSys} (hsim : MSimPc cfg false d a) (hp : d.pc ≠ .out)
    (h : masterStmt cfg d = .ok (d', [])) (hn : mlinPt cfg d = false) (hq : d'.pc ≠ .out) : MSimPc cfg false d' a := by
  cases hsim with
  | out => exact absurd rfl hp
  | pre hpre => exact .pre (.step hpre hn h hq)

/-- A statement after the effect. -/
theorem MSimPc.after {d d' : MasterPcDev} {a : MasterSys} {o : List HMOut} (hsim : MSimPc cfg true d a) (hS : SI d) (hp : d.pc ≠ .out)
    (hw : d.pc = .wtTimer → d.dev.sys.lib.timer ≠ 1) (h : masterStmt cfg d = .ok (d', o)) : o = [] ∧ MSimPc cfg true d' a := by
  cases hsim with
  | out => exact absurd rfl hp
  | wt =>
    have h1 : a.lib.timer ≠ 1 := hw rfl
    simp only [masterStmt, if_neg h1, Except.ok.injEq, Prod.mk.injEq] at h
    obtain ⟨rfl, rfl⟩ := h
    exact ⟨rfl, .out⟩
  | rv hpc hc =>
    have hf : a.lib.ferr = .cleared := hS.ferr
    rcases hpc with rfl | rfl
    · simp only [masterStmt, if_pos hf, Except.ok.injEq, Prod.mk.injEq] at h
      obtain ⟨rfl, rfl⟩ := h
      exact ⟨rfl, .rv (.inr rfl) hc⟩
    · simp only [masterStmt, hc, reduceCtorEq, if_false, Except.ok.injEq, Prod.mk.injEq] at h
      obtain ⟨rfl, rfl⟩ := h
      exact ⟨rfl, .out⟩
  | post hl _ hit =>
    obtain ⟨hl2, rfl⟩ := late_stmt hl h
    obtain ⟨k, d2, o1, o2, rfl, k1, k2, k3⟩ := miter_pos hit rfl hp
    rw [h] at k1
    obtain ⟨rfl, rfl⟩ := Prod.mk.inj (Except.ok.inj k1)
    refine ⟨rfl, ?_⟩
    have k3 : o2 = [] := k3.symm
    subst k3
    by_cases hout : d'.pc = .out
    · rw [miter_out hout] at k2
      obtain ⟨rfl, -⟩ := Prod.mk.inj (Except.ok.inj k2)
      exact .out
    · exact .post hl2 hout k2

/-- The poll of the device with uninterrupted polls succeeds: where it would read a response beyond its buffer, the interrupted poll would as well. -/
theorem MSimPc.poll_ok (hw : cfg.MWF) {d d' : MasterPcDev} {a : MasterSys} {o : List HMOut} {fs : List (List U8)} {w : List U8}
    (hsim : MSimPc cfg false d a) (hp : d.pc ≠ .out) (hi : MWInv cfg a fs w)
    (h : masterStmt cfg d = .ok (d', o)) (hl : mlinPt cfg d = true ∨ d'.pc = .out) : ∃ a' oy, masterSysStep cfg a (.main .poll) = .ok (a', oy) := by
  rcases hi.poll hw with ⟨a', oy, h1, -⟩ | herr
  · exact ⟨a', oy, h1⟩
  · exfalso
    obtain ⟨g, hI⟩ := hi.inv
    rcases masterStep_inv hw hI .poll (by simp) (by simp) with ⟨s', o', g', k1, -⟩ | ⟨-, -, i, r, c, hg, hst, -, -, -, hf, hc, ht⟩
    · rw [k1] at herr; cases herr
    · cases hsim with
      | out => exact hp rfl
      | pre hpre =>
        rename_i e
        have key : ∀ {d : MasterPcDev}, MPre cfg (mat a a.txMsg .enter e) d → d.dev.sys = a ∧
            (d.pc = .enter ∨ d.pc = .rvF1 ∨ d.pc = .rvC2 ∨ d.pc = .rvF3 ∨ d.pc = .rvC3 ∨ d.pc = .rvT3 ∨ d.pc = .coProc) := by
          intro d h
          induction h with
          | refl => exact ⟨rfl, .inl rfl⟩
          | @step d d1 k h1 h2 h3 ih =>
            obtain ⟨⟨s, lm⟩, pc, e⟩ := d
            obtain ⟨i1, i2⟩ := ih
            dsimp only at i1
            subst i1
            rcases i2 with i2 | i2 | i2 | i2 | i2 | i2 | i2 <;>
              (dsimp only at i2; subst i2; simp only [masterStmt, hst, hf, hc, ht, reduceCtorEq, if_false, if_true, Except.ok.injEq, Prod.mk.injEq, and_true] at h2)
            · subst h2; simp
            · subst h2; simp
            · subst h2; simp
            · subst h2; simp
            · subst h2; simp
            · subst h2; simp
            · cases h1
        obtain ⟨i1, i2⟩ := key hpre
        obtain ⟨⟨s, lm⟩, pc, e⟩ := d
        dsimp only at i1
        subst i1
        rcases i2 with i2 | i2 | i2 | i2 | i2 | i2 | i2 <;>
          (dsimp only at i2; subst i2; simp only [masterStmt, hst, hf, hc, ht, reduceCtorEq, if_false, if_true, Except.ok.injEq, Prod.mk.injEq, and_true] at h)
        case inr.inr.inr.inr.inr.inr =>
          obtain ⟨evs, h1, -⟩ := bind_ok h
          obtain ⟨l', h2⟩ := end_ok hw hI hg
          simp only [masterStep, masterPoll, hst, masterReceived, hf, hc, ht, reduceCtorEq, false_and, and_self, if_false, if_true, masterCorrect] at herr
          cases hmb : s.lib.msgBuf with
          | none =>
            simp only [hmb, ok_bind, h2, pure_eq] at herr
            cases herr
          | some j =>
            simp only [hmb] at h1 herr
            obtain ⟨v, h3, -⟩ := bind_ok h1
            simp only [h3, ok_bind, h2, pure_eq] at herr
            cases herr
        all_goals
          obtain ⟨rfl, -⟩ := h
          simp [mlinPt] at hl

end

end Modbus
