import Verif.Props.BootMaster
import Verif.Proofs.BootMasterSys

/-! C91, continued: the master device from power-on, on a line that may carry traffic, is the master device of `Model/Driver.lean`, driver and all. -/

namespace Modbus

open Spec

/-- **C91**, the whole device. A device that is switched on with noise on its line, and that hears no silence before its first request (`MBootInTime`), is
the device of C60: there is a history of that device, beginning with the complete initialisation, with exactly the calls the main program makes after the
last statement of the initialisation, bytes that arrived, and the same outputs, the bytes written to the line included; and afterwards library, driver
pointers and flags are the same. -/
theorem C91_device_partial (cfg : Config) (hw : cfg.MWF) (ops : List MBOp) (hl : ∀ op ∈ ops, MBootLegal op) (ht : MBootInTime cfg .powerOn ops)
    (d : MasterBoot) (o : List HMOut) (h : mbootRun cfg .powerOn ops = .ok (d, o)) :
    ∃ hops s tr, (∀ x ∈ hops, x.legal) ∧ masterSysRun cfg MasterSys.powerOn (.main (.init .rtu) :: hops) = .ok (s, (.main (.init .rtu), []) :: tr) ∧
      (d.todo = [] → s = ⟨d.lib, d.txMsg, d.cur, d.last, d.gap, d.hw.rtof⟩) ∧
      tr.flatMap Prod.snd = o ∧ (hmBytes hops).Sublist (ops.flatMap MBootArrived) ∧
      hmCalls hops = ((afterNext 21 ops).flatMap MBootCalled).filter MOp.isCall := by
  obtain ⟨l0, h0, -⟩ := masterInit_inv hw Master.powerOn
  obtain ⟨hops, s, tr, a1, a2, a3, a4, a5, a6⟩ := mboot_mid_sim hw h0 ops _ _ _ 0 (.powerOn cfg) hl ht h
  refine ⟨hops, s, tr, a1, ?_, fun k => (a3 k).symm, a4, (List.sublist_append_left _ _).trans a5, a6⟩
  simp only [masterSysRun, sysInit_step h0, ok_bind, a2, pure_eq]

/-- **C91**, what the line carries: from power-on the device writes to the line the frames of accepted requests and nothing else, in order, each 1 to
`1 + R` times; only the last may still be under way. The requests are those the main program makes after the last statement of the initialisation, and they
are accepted exactly as in a history `tr` of the device of C60. -/
theorem C91_line_carries_requests_partial (cfg : Config) (hw : cfg.MWF) (ops : List MBOp) (hl : ∀ op ∈ ops, MBootLegal op)
    (ht : MBootInTime cfg .powerOn ops) (d : MasterBoot) (o : List HMOut) (h : mbootRun cfg .powerOn ops = .ok (d, o)) :
    ∃ (htr : HMTrace) (served : List (MReq × Nat)), htr.flatMap Prod.snd = o ∧
      hmCalls (htr.map Prod.fst) = .init .rtu :: ((afterNext 21 ops).flatMap MBootCalled).filter MOp.isCall ∧
      served.map Prod.fst <+: accepted (mainTrace htr) ∧ (∀ x ∈ served, 1 ≤ x.2 ∧ x.2 ≤ 1 + cfg.repeatMax) ∧
      (served.flatMap fun x => List.replicate x.2 (reqFrame x.1)).dropLast.flatten <+: lineBytes o ∧
      lineBytes o <+: (served.flatMap fun x => List.replicate x.2 (reqFrame x.1)).flatten := by
  obtain ⟨hops, s, tr, a1, a2, -, a4, -, a6⟩ := C91_device_partial cfg hw ops hl ht d o h
  rcases C60_line_carries_requests cfg hw hops a1 with ⟨s', htr, k1, served, k2, k3, k4, k5, -⟩ | ⟨pre, post, s', htr, rfl, k1, k2⟩
  · rw [a2] at k1
    obtain ⟨rfl, rfl⟩ := Prod.mk.inj (Except.ok.inj k1)
    have e : mwire ((HMOp.main (.init .rtu), []) :: tr) = lineBytes o := by
      rw [← a4]; rfl
    rw [e] at k4 k5
    refine ⟨(.main (.init .rtu), []) :: tr, served, a4, ?_, k2, k3, k4, k5⟩
    simp only [masterSysRun] at a2
    obtain ⟨⟨s1, o1⟩, b1, a2⟩ := bind_ok a2
    obtain ⟨⟨s2, t2⟩, b2, a2⟩ := bind_ok a2
    have e3 : t2 = tr := (List.cons.inj (Prod.mk.inj (Except.ok.inj a2)).2).2
    have e2 : tr.map Prod.fst = hops := by rw [← e3]; exact masterSysRun_fst hops b2
    rw [List.map_cons, e2]
    show MOp.init .rtu :: hmCalls hops = _
    rw [a6]
  · have hs : masterSysStep cfg s' (.main .poll) = .error .oobRead := by
      show (masterStep cfg s'.lib .poll >>= _) = _
      rw [k2]; rfl
    have := masterSysRun_error (post := post) k1 hs
    rw [List.cons_append, a2] at this
    cases this

/-! ### Non-vacuity: the sample of `Props/BootMaster.lean` -/

example : (match mbootRun smallCfg .powerOn mbootSample with
    | .ok (_, o) => decide (lineBytes o = (reqFrame (.readHoldingReg 0 1 7)).take 3)
    | .error _ => false) = true := by decide +kernel

end Modbus
