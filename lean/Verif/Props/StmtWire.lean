import Verif.Proofs.StmtWire
import Verif.Props.DeviceTimed

/-! C78: what the line carries when interrupts occur between any two statements of a poll. -/

namespace Modbus

open Spec

theorem start_pinv (cfg : Config) (mem : AppMem) (id : U8) : PInv cfg id (stmtStart mem id) :=
  ⟨⟨rfl, rfl, rfl, rfl⟩, rfl, show 0 < 256 by decide, (fun h => nomatch h), by rintro (h | h | h) <;> cases h⟩

theorem start_tinv (cfg : Config) (mem : AppMem) (id : U8) : TInv cfg id (stmtStart mem id) [] :=
  ⟨(fun f h => nomatch h), Nat.le_refl _, fun h => absurd h (Nat.lt_irrefl _), fun _ => .inl ⟨rfl, rfl, rfl⟩, by rintro (h | h) <;> cases h⟩

/-- **C78**, first part. Initialise, then let anything happen, interrupts between any two statements of polls included: there is no undefined behaviour;
in particular the driver's pointer never leaves the response buffer. -/
theorem C78_no_undefined_behaviour (cfg : Config) (hc : cfg.WF) (mem : AppMem) (id : U8) (evs : List SDEv) (hl : ∀ e ∈ evs, LegalEv cfg e) :
    ∃ d o, stmtRun cfg (stmtStart mem id) evs = .ok (d, o) := by
  obtain ⟨d, o, h, -⟩ := inv_run hc evs (start_pinv cfg mem id) hl
  exact ⟨d, o, h⟩

/-- **C78**, second part, for every history in which the UART's handler does not run with an empty transmit register while the main program is between
the first and the third assignment of the driver's `send`: the line carries exactly the frames the library handed over, each of them a response the
protocol prescribes, framed, complete and in order; only the last one may still be under way. It is complete when the main program is not in a poll
and the library is not transmitting or has been told the end. What is missing for the full claim is that excluded moment, at which it is false
(`C78_send_disturbed_violated`). -/
theorem C78_line_carries_whole_frames_partial (cfg : Config) (hc : cfg.WF) (mem : AppMem) (id : U8) (evs : List SDEv) (hl : ∀ e ∈ evs, LegalEv cfg e)
    (hu : SendUndisturbed cfg (stmtStart mem id) evs) :
    ∃ d o, stmtRun cfg (stmtStart mem id) evs = .ok (d, o) ∧
      (∀ f ∈ frames o, ∃ m r, f = rtuFrame id (encodeResponse (respond cfg.limits m r))) ∧
      (frames o).dropLast.flatten <+: wire o ∧ wire o <+: (frames o).flatten ∧
      (d.pc = .out → d.sys.lib.st ≠ .transmitting ∨ d.sys.lib.txf ≠ .set → wire o = (frames o).flatten) := by
  obtain ⟨d, o, h, -, ht⟩ := inv_run hc evs (start_pinv cfg mem id) hl
  have ht := ht [] (start_tinv cfg mem id) hu
  rw [List.nil_append] at ht
  have hpre : (frames o).dropLast.flatten <+: wire o ∧ wire o <+: (frames o).flatten := by
    by_cases hs : Sending d
    · rw [(ht.send hs).1]
      refine ⟨?_, List.prefix_refl _⟩
      rcases List.eq_nil_or_concat (frames o) with h1 | ⟨l, f, h1⟩
      · rw [h1]; exact List.nil_prefix
      · rw [h1, List.concat_eq_append, List.dropLast_concat, List.flatten_append]; exact List.prefix_append _ _
    · rcases ht.hist hs with ⟨h1, h2, -⟩ | ⟨done, f, h1, h2, -⟩
      · rw [h1, h2]; exact ⟨List.nil_prefix, List.nil_prefix⟩
      · rw [h1, h2, List.dropLast_concat, List.flatten_append]
        refine ⟨List.prefix_append _ _, ?_⟩
        simp only [List.flatten_cons, List.flatten_nil, List.append_nil]
        exact (List.prefix_append_right_inj _).mpr (List.take_prefix _ _)
  refine ⟨d, o, h, ?_, hpre.1, hpre.2, fun hpc hx => ?_⟩
  · intro f hf
    obtain ⟨p, ⟨m, r, rfl⟩, hp⟩ := ht.fr f hf
    exact ⟨m, r, hp⟩
  · refine ht.complete ?_ (ht.done ?_)
    · rintro (h | h) <;> rw [hpc] at h <;> cases h
    · unfold BusyAt
      rw [hpc]
      rintro ⟨h1, h2⟩
      exact hx.elim (fun h => h h1) (fun h => h h2)

/-! ### The excluded moment -/

theorem stmtRun_append {cfg : Config} (a b : List SDEv) : ∀ {d d' d'' : SlaveDev} {o o' : List HOut}, stmtRun cfg d a = .ok (d', o) →
    stmtRun cfg d' b = .ok (d'', o') → stmtRun cfg d (a ++ b) = .ok (d'', o ++ o') := by
  induction a with
  | nil =>
    intro d d' d'' o o' h1 h2
    simp only [stmtRun, Except.ok.injEq, Prod.mk.injEq] at h1
    rw [← h1.2, h1.1]; exact h2
  | cons e a ih =>
    intro d d' d'' o o' h1 h2
    simp only [stmtRun] at h1
    obtain ⟨⟨d1, o1⟩, k1, h1⟩ := bind_ok h1
    obtain ⟨⟨d2, o2⟩, k2, h1⟩ := bind_ok h1
    simp only [pure_eq, Except.ok.injEq, Prod.mk.injEq] at h1
    obtain ⟨rfl, rfl⟩ := h1
    have k2 : stmtRun cfg d1 a = .ok (d2, o2) := k2
    have k3 := ih k2 h2
    simp only [List.cons_append, stmtRun, k1, k3, ok_bind, pure_eq, List.append_assoc]

/-- **C78**: whatever the history and the response, a byte that is received between the second and the third assignment of the driver's `send` (the
transmit register is empty then) makes the driver write the second byte of the response to the line before the first. -/
theorem C78_bytes_swapped_violated (cfg : Config) (hc : cfg.WF) (mem : AppMem) (id : U8) (evs : List SDEv) (hl : ∀ e ∈ evs, LegalEv cfg e)
    (hu : SendUndisturbed cfg (stmtStart mem id) evs) (d : SlaveDev) (o : List HOut) (hr : stmtRun cfg (stmtStart mem id) evs = .ok (d, o))
    (hpc : d.pc = .anTdr) (hrt : d.sys.rtof = false) (b : U8) :
    ∃ d' o' m r, stmtRun cfg (stmtStart mem id) (evs ++ [.irq (.usart (some b) true), .stmt]) = .ok (d', o') ∧
      frames o' = frames o ++ [rtuFrame id (encodeResponse (respond cfg.limits m r))] ∧
      wire o' = (frames o).flatten ++ [(encodeResponse (respond cfg.limits m r)).getD 0 0, id] := by
  obtain ⟨d0, o0, h0, hp, ht⟩ := inv_run hc evs (start_pinv cfg mem id) hl
  have e := Prod.mk.inj (Except.ok.inj (h0.symm.trans hr))
  obtain ⟨rfl, rfl⟩ := e
  have ht := ht [] (start_tinv cfg mem id) hu
  rw [List.nil_append] at ht
  obtain ⟨k1, k2, k3⟩ := ht.send (.inr hpc)
  have k3 := k3 hpc
  obtain ⟨p, ⟨m, r, rfl⟩, hb⟩ := hp.send (.inr (.inr hpc))
  generalize hq : encodeResponse (respond cfg.limits m r) = q at *
  have hq2 : 2 ≤ q.length := by rw [← hq]; exact (encode_len cfg.limits m r).1
  have hlen : d0.sys.lib.respLen.toNat = q.length + 3 := by
    have := congrArg List.length hb
    rwa [Buf.bytes_length, rtuFrame_length] at this
  have hn : ∀ op, HOp.usart (some b) true ≠ .main op := fun op h => nomatch h
  obtain ⟨s', o', h1, ef⟩ := eff_irq hc hp.live hp.last (.usart (some b) true) hn
  have htx : s'.cur = 1 ∧ o' = [.tdr (d0.sys.lib.resp 1)] := by
    rcases ef.tx with ⟨-, -, t3, -, t5⟩ | ⟨-, -, t⟩
    · rw [k2] at t3 t5; exact ⟨t3, t5⟩
    · rcases t with ⟨t, -⟩ | ⟨-, t⟩
      · cases t
      · exact absurd (show d0.sys.cur < d0.sys.last by omega) t
  have hrt' : s'.rtof = false := by
    simp only [slaveSysStep] at h1
    obtain ⟨s1, a1, h1⟩ := bind_ok h1
    obtain ⟨⟨s2, o2⟩, a2, h1⟩ := bind_ok h1
    obtain ⟨s3, a3, h1⟩ := bind_ok h1
    simp only [pure_eq, Except.ok.injEq, Prod.mk.injEq] at h1
    have r1 := (irqRx_frame a1).1
    have r2 : s2.rtof = s1.rtof := irqTx_frame a2
    have a3 : slaveIrqRto cfg s2 = .ok s3 := a3
    have : s2.rtof = false := by rw [r2, r1]; exact hrt
    simp only [slaveIrqRto, this] at a3
    rw [← h1.1, ← Except.ok.inj a3]; exact this
  have step1 : slaveDevStep cfg d0 (.irq (.usart (some b) true)) = .ok (⟨s', d0.pc, txeAfter (.usart (some b) true) d0.txeie d0.sys⟩, o') := by
    show slaveDevIrq cfg d0 _ = _
    simp only [slaveDevIrq, h1, ok_bind, pure_eq]
  have step2 : slaveDevStep cfg ⟨s', d0.pc, txeAfter (.usart (some b) true) d0.txeie d0.sys⟩ .stmt =
      .ok (⟨s', .anTxeie, txeAfter (.usart (some b) true) d0.txeie d0.sys⟩,
        [.send (d0.sys.lib.resp.bytes 0 d0.sys.lib.respLen.toNat), .tdr (d0.sys.lib.resp 0)]) := by
    rw [hpc]
    show (if s'.rtof = true then _ else slaveStmt _ _) = _
    rw [if_neg (by rw [hrt']; simp)]
    simp only [slaveStmt, ef.resp, ef.respLen, rd_ok d0.sys.lib.resp (show 0 < 256 by decide), ok_bind]
  refine ⟨⟨s', .anTxeie, txeAfter (.usart (some b) true) d0.txeie d0.sys⟩, o0 ++ (o' ++ ([.send (d0.sys.lib.resp.bytes 0 d0.sys.lib.respLen.toNat), .tdr (d0.sys.lib.resp 0)] ++ [])), m, r,
    stmtRun_append _ _ h0 ?_, ?_, ?_⟩
  · simp only [stmtRun, step1, step2, ok_bind, pure_eq]
  · rw [frames_append, htx.2, hq, hb]; rfl
  · have hbytes : ∀ n, d0.sys.lib.resp.bytes 0 (n + 2) = d0.sys.lib.resp 0 :: d0.sys.lib.resp 1 :: d0.sys.lib.resp.bytes 2 n := by
      intro n; rw [Buf.bytes_succ, Buf.bytes_succ]
    rw [hlen, show q.length + 3 = (q.length + 1) + 2 by omega, hbytes] at hb
    have hq0 : rtuFrame id q = id :: (q ++ (rtuFrame id q).drop (q.length + 1)) := by
      simp [rtuFrame]
    rw [hq0] at hb
    obtain ⟨e0, e1⟩ := List.cons.inj hb
    have e1 : d0.sys.lib.resp 1 = q.getD 0 0 := by
      cases q with
      | nil => simp at hq2
      | cons a q => exact (List.cons.inj e1).1
    rw [wire_append, k1, htx.2, hq]
    show _ ++ [d0.sys.lib.resp 1, d0.sys.lib.resp 0] = _
    rw [e0, e1]

/-- A valid request, silence, polls, and one stray byte while the driver's `send` is between its second and third assignment. -/
def strayEvs : List SDEv :=
  sampleFrame.map (fun b => .irq (.usart (some b) true)) ++ [.irq .rto, .irq (.usart none true), .irq .timer, .call] ++ List.replicate 5 .stmt ++ [.call] ++
  List.replicate 8 .stmt ++ [.irq (.usart (some 0x55) true)] ++ List.replicate 5 .stmt ++ List.replicate 10 (.irq (.usart none true))

/-- **C78** is violated: in this history nothing but a stray byte happens inside the polls, and the line does not carry the response. -/
theorem C78_send_disturbed_violated : (∀ e ∈ strayEvs, LegalEv Config.default e) ∧
    (stmtRun Config.default (stmtStart sampleMem 1) strayEvs).toOption.map (fun x => frames x.2) = some [ddemoResp] ∧
    (stmtRun Config.default (stmtStart sampleMem 1) strayEvs).toOption.map (fun x => wire x.2) =
      some (ddemoResp.getD 1 0 :: ddemoResp.getD 0 0 :: ddemoResp.drop 2) ∧
    ddemoResp.getD 1 0 ≠ ddemoResp.getD 0 0 := by
  refine ⟨?_, by decide +kernel, by decide +kernel, by decide +kernel⟩
  intro e he
  have key : ∀ e ∈ strayEvs, (match e with
      | .app _ => false
      | _ => true) = true := by decide +kernel
  have := key e he
  cases e with
  | app op => cases this
  | _ => trivial

/-- The same history without the stray byte, which satisfies the condition of the partial theorem. -/
def calmEvs : List SDEv :=
  sampleFrame.map (fun b => .irq (.usart (some b) true)) ++ [.irq .rto, .irq (.usart none true), .irq .timer, .call] ++ List.replicate 5 .stmt ++ [.call] ++
  List.replicate 9 .stmt ++ [.irq (.usart (some 0x55) true)] ++ List.replicate 4 .stmt ++ List.replicate 10 (.irq (.usart none true))

/-- The condition, as a computation. -/
def undisturbedB (cfg : Config) : SlaveDev → List SDEv → Bool
  | _, [] => true
  | d, e :: es =>
    (match e with
      | .irq (.usart _ true) => decide (d.pc ≠ .anLast ∧ d.pc ≠ .anTdr)
      | _ => true) &&
    match slaveDevStep cfg d e with
    | .ok (d', _) => undisturbedB cfg d' es
    | .error _ => true

theorem undisturbed_of {cfg : Config} (es : List SDEv) : ∀ {d : SlaveDev}, undisturbedB cfg d es = true → SendUndisturbed cfg d es := by
  induction es with
  | nil => exact fun _ => trivial
  | cons e es ih =>
    intro d h
    simp only [undisturbedB, Bool.and_eq_true] at h
    refine ⟨?_, ?_⟩
    · rintro rx rfl hs
      have := h.1
      simp only [decide_eq_true_eq] at this
      exact hs.elim this.1 this.2
    · intro d' o hd
      have := h.2
      rw [hd] at this
      exact ih this

/-- Such a history exists, with a whole response on the line, and a stray byte one statement later. -/
theorem stmt_wire_demo : SendUndisturbed Config.default (stmtStart sampleMem 1) calmEvs ∧
    (stmtRun Config.default (stmtStart sampleMem 1) calmEvs).toOption.map (fun x => wire x.2) = some ddemoResp :=
  ⟨undisturbed_of _ (by decide +kernel), by decide +kernel⟩

end Modbus
