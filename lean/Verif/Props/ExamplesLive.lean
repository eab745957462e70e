import Verif.Proofs.ExamplesLive

/-! **C95**: the two example programs, each on its device, in real time. -/

namespace Modbus

open Spec

/-- What is known of the two programs on an undisturbed line. -/
structure ExLive (l : Limits) (x : MDeviceTimed) (y : DeviceTimed) (D : Nat → List Tx) (R : Nat → List MReq) : Prop where
  empty : ∀ k, R k = [] → (y.st k).lib.mem = (y.appOps k).foldl appAct xInitMem
  mem : ∀ k, R k ≠ [] → (y.st k).lib.mem = (R k).foldl exEffect (appMem xInitMem xRegistrations)
  asked : ∀ k, ∃ q, R k <+: accepted (mainTrace (x.trace q))
  finished : ∀ q k, x.time q < y.time k → (D q).map Tx.req <+: R k
  reports : ∀ n, ∀ e ∈ callbacks (x.trace n), e ∈ exReports

theorem ex_asked {cfgM : Config} (hw : cfgM.MWF) {x : MDeviceTimed} (hM : RunsExampleMaster cfgM x) (q : Nat) :
    ∀ r ∈ accepted (mainTrace (x.trace q)), ExReq r := by
  obtain ⟨t, e, ht⟩ := accepted_requests (x := x) (P := ExReq) (a := 0) (fun q _ r ho => ⟨_, _, hM.request hw ho⟩) (Nat.zero_le q)
  have : accepted (mainTrace (x.trace 0)) = [] := rfl
  rw [this, List.nil_append] at e
  rw [e]
  exact ht

theorem exReq_slave {r : MReq} (h : ExReq r) : reqSlave r = 1 := by
  obtain ⟨c, v, h⟩ := h
  simp only [exampleRound, List.mem_cons, List.not_mem_nil, or_false] at h
  rcases h with rfl | rfl | rfl | rfl <;> rfl

theorem ex_live {cfgM cfgS : Config} {τ : BusTimes} {x : MDeviceTimed} {y : DeviceTimed} (hw : cfgM.MWF) (hf : XFits cfgS)
    (B : TimedBus cfgM cfgS 1 τ x y) (hd : 0 < τ.d) (hM : RunsExampleMaster cfgM x) (hS : RunsExampleSlave cfgS y) {D : Nat → List Tx} {H : Nat → List Act}
    (S : SerialSlave cfgS.limits 1 x y D H) (hT : ∀ n, ∃ cur queued, Transactions 0 (mainTrace (x.trace n)) (D n) cur queued) :
    ∃ R, ExLive cfgS.limits x y D R := by
  obtain ⟨R, hR⟩ := Classical.axiomOfChoice fun k => S.example hS k
  have hreq : ∀ k, (H k).filterMap Act.req? = R k := by
    intro k
    rw [(hR k).1, List.filterMap_append, List.filterMap_map, List.filterMap_map]
    have e1 : (y.appOps k).filterMap (Act.req? ∘ Act.app) = [] := List.filterMap_eq_nil_iff.2 fun _ _ => rfl
    have e2 : (R k).filterMap (Act.req? ∘ Act.req) = R k := List.filterMap_some
    rw [e1, e2, List.nil_append]
  have h0 : (y.st 0).lib.mem = xInitMem := by
    obtain ⟨m, h1, -, -, h4⟩ := hsync_after_init cfgS xInitMem 1
    rw [hS.init] at h1
    rw [(Prod.mk.inj (Except.ok.inj h1)).1]
    exact h4
  have hrun : ∀ k, runActs cfgS.limits (y.st 0).lib.mem (H k) = (seqMem cfgS.limits ((y.appOps k).foldl appAct xInitMem) (R k),
      seqEvs cfgS.limits ((y.appOps k).foldl appAct xInitMem) (R k)) := by
    intro k
    rw [(hR k).1, h0, runActs_apps, runActs_reqs]
  have hacts : xRegistrations.foldl appAct xInitMem = appMem xInitMem xRegistrations := by
    refine (appMem_acts _ (fun op ho => ?_) _).symm
    rw [← xRegs_app] at ho
    exact (List.mem_filter.1 ho).2
  have hasked : ∀ k, ∃ q, R k <+: accepted (mainTrace (x.trace q)) := by
    intro k
    obtain ⟨q, -, hq⟩ := time_passes B hd (y.time k + 1)
    have h1 := S.made k q (by omega)
    rw [hreq] at h1
    have h2 : forSlave 1 (accepted (mainTrace (x.trace q))) = accepted (mainTrace (x.trace q)) :=
      List.filter_eq_self.2 fun r hr => decide_eq_true (exReq_slave (ex_asked hw hM q r hr))
    rw [h2] at h1
    exact ⟨q, h1⟩
  have hex : ∀ k, ∀ r ∈ R k, ExReq r := by
    intro k r hr
    obtain ⟨q, hq⟩ := hasked k
    exact ex_asked hw hM q r (hq.subset hr)
  have hDex : ∀ q, ∀ t ∈ D q, ExReq t.req := by
    intro q t ht
    obtain ⟨cur, queued, T⟩ := hT q
    refine ex_asked hw hM q _ ?_
    rw [T.order, List.append_assoc]
    exact List.mem_append_left _ (List.mem_map.2 ⟨t, ht, rfl⟩)
  have hD : ∀ q, forSlave 1 ((D q).map Tx.req) = (D q).map Tx.req := by
    intro q
    refine List.filter_eq_self.2 fun r hr => decide_eq_true ?_
    obtain ⟨t, ht, rfl⟩ := List.mem_map.1 hr
    exact exReq_slave (hDex q t ht)
  have hDr : ∀ q, reportsOf 1 (D q) = (D q).flatMap Tx.evs := by
    intro q
    unfold reportsOf
    rw [List.filter_eq_self.2 fun t ht => decide_eq_true (exReq_slave (hDex q t ht))]
  refine ⟨R, fun k hk => ?_, fun k hk => ?_, hasked, fun q k hqk => ?_, fun n e he => ?_⟩
  · rw [S.data k, hrun, hk]; rfl
  · rw [S.data k, hrun, (hR k).2 hk, hacts]
    exact (ex_seq hf _ exMem_registered (hex k)).1
  · have := (S.finished_at hqk).1
    rwa [hD, hreq] at this
  · obtain ⟨n', hn, hc⟩ := hM.callbacks_eq hw n
    obtain ⟨t, ht⟩ := trace_prefix x hn
    have he : e ∈ callbacks (x.trace n') := by rw [← ht, callbacks_append]; exact List.mem_append_left _ he
    obtain ⟨cur, queued, T⟩ := hT n'
    have hcur : (curOuts cur).filterMap evOf = [] := by
      cases cur with
      | none => rfl
      | some c => exact List.filterMap_eq_nil_iff.2 fun o ho => by rw [List.eq_of_mem_replicate ho]; rfl
    rw [hc, T.output, List.filterMap_append, evs_outs, hcur, List.append_nil, ← hDr] at he
    obtain ⟨k, -, -, h3⟩ := S.finished n'
    replace he := h3.subset he
    rw [hrun] at he
    by_cases hk : R k = []
    · rw [hk] at he; cases he
    · rw [(hR k).2 hk, hacts] at he
      exact (ex_seq hf _ exMem_registered (hex k)).2.2 e he

theorem exMem_at {l : Limits} {x : MDeviceTimed} {y : DeviceTimed} {D : Nat → List Tx} {R : Nat → List MReq} (L : ExLive l x y D R)
    (hex : ∀ k, ∀ r ∈ R k, ExReq r) {k : Nat} (hk : R k ≠ []) : ExMem (y.st k).lib.mem := by
  rw [L.mem k hk]
  have key : ∀ (rs : List MReq) (m : AppMem), ExMem m → (∀ r ∈ rs, ExReq r) → ExMem (rs.foldl exEffect m) := by
    intro rs
    induction rs with
    | nil => intro m h _; exact h
    | cons r rs ih => intro m h hr; exact ih _ (h.effect (hr r (List.mem_cons_self ..))) fun q hq => hr q (List.mem_cons_of_mem _ hq)
  exact key _ _ exMem_registered (hex k)

theorem exEffect_coil (m : AppMem) (a : U16) (s : U8) (c : Bool) : (exEffect m (.writeSingleCoil a s c)).bools (xCoil 0) = c := by simp [exEffect]

theorem exEffect_reg (m : AppMem) (a : U16) (s : U8) (v : U16) : (exEffect m (.writeSingleReg a s v)).regs (xHreg 0) = v := by simp [exEffect]

/-- The last coil write decides. -/
theorem fold_coil (rs : List MReq) : (∀ r ∈ rs, ∃ v, r ∈ exampleRound false v) → ∀ m, (rs.foldl exEffect m).bools (xCoil 0) = m.bools (xCoil 0) ∨
    (rs.foldl exEffect m).bools (xCoil 0) = false := by
  induction rs with
  | nil => intro _ m; exact .inl rfl
  | cons r rs ih =>
    intro h m
    have ih := ih (fun q hq => h q (List.mem_cons_of_mem _ hq)) (exEffect m r)
    obtain ⟨v, hr⟩ := h r (List.mem_cons_self ..)
    simp only [exampleRound, List.mem_cons, List.not_mem_nil, or_false] at hr
    rcases hr with rfl | rfl | rfl | rfl
    · exact ih
    · exact ih
    · right
      rcases ih with ih | ih
      · exact ih.trans (exEffect_coil ..)
      · exact ih
    · exact ih

theorem fold_reg (rs : List MReq) {v : U16} : (∀ r ∈ rs, ∃ c, r ∈ exampleRound c v) → ∀ m, (rs.foldl exEffect m).regs (xHreg 0) = m.regs (xHreg 0) ∨
    (rs.foldl exEffect m).regs (xHreg 0) = v := by
  induction rs with
  | nil => intro _ m; exact .inl rfl
  | cons r rs ih =>
    intro h m
    have ih := ih (fun q hq => h q (List.mem_cons_of_mem _ hq)) (exEffect m r)
    obtain ⟨c, hr⟩ := h r (List.mem_cons_self ..)
    simp only [exampleRound, List.mem_cons, List.not_mem_nil, or_false] at hr
    rcases hr with rfl | rfl | rfl | rfl
    · exact ih
    · exact ih
    · exact ih
    · right
      rcases ih with ih | ih
      · exact ih.trans (exEffect_reg ..)
      · exact ih

theorem coil_false {evs : List MEvent} (h : ∀ e ∈ evs, e ∈ exReports) : evs.foldl coilAfter false = false := by
  induction evs with
  | nil => rfl
  | cons e evs ih =>
    have h1 := h e (List.mem_cons_self ..)
    simp only [exReports, List.mem_cons, List.not_mem_nil, or_false] at h1
    have ih := ih fun q hq => h q (List.mem_cons_of_mem _ hq)
    rcases h1 with rfl | rfl | rfl | rfl <;> exact ih

theorem reg_read {evs : List MEvent} (h : ∀ e ∈ evs, e ∈ exReports) {v : U16} (hv : v = 2002 ∨ .hregRead 1 1 2002 ∈ evs) : evs.foldl regAfter v = 2002 := by
  induction evs generalizing v with
  | nil => exact hv.resolve_right nofun
  | cons e evs ih =>
    have h1 := h e (List.mem_cons_self ..)
    simp only [exReports, List.mem_cons, List.not_mem_nil, or_false] at h1
    have ih := fun v => ih (v := v) fun q hq => h q (List.mem_cons_of_mem _ hq)
    rcases h1 with rfl | rfl | rfl | rfl
    · exact ih _ (hv.imp id fun h => by simpa using h)
    · exact ih _ (.inl rfl)
    · exact ih _ (hv.imp id fun h => by simpa using h)
    · exact ih _ (hv.imp id fun h => by simpa using h)

/-- **C95.** The two example programs in real time, on an undisturbed line, from power-on, for as long as they run.
* All that the master's application is ever told: coil 1 is off, holding register 1 is 2002, coil 0 and holding register 0 have been written.
* Of the slave's variables only those of coil 0 and holding register 0 ever change; in particular the LED's variable stays off.
* Once a write of coil 0 has been accepted, coil 0 of the slave equals its coil 1 (off), from the time bound on, for ever.
* Once a write of holding register 0 has been accepted after the first value of holding register 1 came in, holding register 0 of the slave equals its holding register 1
  (2002), from the time bound on, for ever. -/
theorem C95_examples_live {cfgM cfgS : Config} {τ : BusTimes} {x : MDeviceTimed} {y : DeviceTimed} (hw : cfgM.MWF) (hc : cfgS.WF) (hf : XFits cfgS)
    (B : TimedBus cfgM cfgS 1 τ x y) (ht : τ.Fit cfgM.respTimeout) (hM : RunsExampleMaster cfgM x) (hS : RunsExampleSlave cfgS y) :
    (∀ n, ∀ e ∈ callbacks (x.trace n), e ∈ [MEvent.coilRead 1 1 false, .hregRead 1 1 2002, .coilWrite 1 0 1, .hregWrite 1 0 1]) ∧
    (∀ k, (∀ p, p ≠ xCoil 0 → (y.st k).lib.mem.bools p = xInitMem.bools p) ∧ ∀ p, p ≠ xHreg 0 → (y.st k).lib.mem.regs p = xInitMem.regs p) ∧
    (∀ a c, x.op a = .main (.request (.writeSingleCoil 0 1 c)) → x.out a = [.lib (.ret .sendToQueue)] →
      ∀ k, x.time a + cfgM.queueItems * (τ.most cfgM.respTimeout + τ.Pm) + 2 * τ.Pm < y.time k →
        bitAt (y.st k).lib.mem.coils (y.st k).lib.mem.bools 0 = false ∧ bitAt (y.st k).lib.mem.coils (y.st k).lib.mem.bools 1 = false) ∧
    (∀ a v, x.op a = .main (.request (.writeSingleReg 0 1 v)) → x.out a = [.lib (.ret .sendToQueue)] → .hregRead 1 1 2002 ∈ callbacks (x.trace a) →
      ∀ k, x.time a + cfgM.queueItems * (τ.most cfgM.respTimeout + τ.Pm) + 2 * τ.Pm < y.time k →
        regAt (y.st k).lib.mem.hregs (y.st k).lib.mem.regs 0 = 2002 ∧ regAt (y.st k).lib.mem.hregs (y.st k).lib.mem.regs 1 = 2002) := by
  have hd : 0 < τ.d := by have := ht.tick; omega
  obtain ⟨D, H, S⟩ := C94_bus_is_serial hw hc B ht
  obtain ⟨R, L⟩ := ex_live hw hf B hd hM hS (S.slave ()) S.transactions
  have hex : ∀ k, ∀ r ∈ R k, ExReq r := by
    intro k r hr
    obtain ⟨q, hq⟩ := L.asked k
    exact ex_asked hw hM q r (hq.subset hr)
  -- a request accepted at `a` is carried out before `k`, and what follows was asked for after `a`
  have served : ∀ a r, x.op a = .main (.request r) → x.out a = [.lib (.ret .sendToQueue)] →
      ∀ k, x.time a + cfgM.queueItems * (τ.most cfgM.respTimeout + τ.Pm) + 2 * τ.Pm < y.time k →
      ∃ A T, R k = A ++ r :: T ∧ ∀ P : MReq → Prop, (∀ q, a ≤ q → ∀ r, x.op q = .main (.request r) → P r) → ∀ r ∈ T, P r := by
    intro a r ho hout k hk
    obtain ⟨m, -, m2, m3⟩ := S.served (a + 1)
    obtain ⟨a', a1, -, a2⟩ := B.mpoll a
    obtain ⟨m', m4, -, m5⟩ := B.mpoll m
    have t1 := B.master.time_le (show a + 1 ≤ a' by omega)
    have t2 := B.master.time_le (show m + 1 ≤ m' by omega)
    have h1 := List.IsPrefix.trans (m3 (m + 1) (Nat.lt_succ_self _)) (L.finished (m + 1) k (by omega))
    have hacc : accepted (mainTrace (x.trace (a + 1))) = accepted (mainTrace (x.trace a)) ++ [r] := by
      rw [(mainTrace_step a).1 _ ho, accepted_append', hout]
      rfl
    obtain ⟨q, hq⟩ := L.asked k
    obtain ⟨z, hz⟩ := h1
    refine ⟨accepted (mainTrace (x.trace a)), z, by rw [← hz, hacc, List.append_assoc]; rfl, fun P hP => ?_⟩
    obtain ⟨t, e, hPt⟩ := accepted_requests (x := x) (P := P) (a := a + 1) (q := max q (a + 1)) (fun q hq r ho => hP q (by omega) r ho) (by omega)
    have h2 := List.IsPrefix.trans hq (x.accepted_mono (show q ≤ max q (a + 1) by omega))
    rw [e, ← hz, List.prefix_append_right_inj] at h2
    exact fun r hr => hPt r (h2.subset hr)
  refine ⟨L.reports, fun k => ?_, fun a c ho hout k hk => ?_, fun a v ho hout hread k hk => ?_⟩
  · by_cases hk : R k = []
    · rw [L.empty k hk]
      obtain ⟨h1, h2⟩ := reg_prefix_mem (hS.appOps_prefix k)
      rw [h1, h2]
      exact ⟨fun _ _ => rfl, fun _ _ => rfl⟩
    · have := exMem_at L hex hk
      exact ⟨this.bools, this.regs⟩
  · obtain ⟨A, T, e, hT⟩ := served a _ ho hout k hk
    have hne : R k ≠ [] := by rw [e]; simp
    have hm := exMem_at L hex hne
    have t0 : (y.st k).lib.mem.coils 0 = some (xCoil 0) := by rw [hm.lay.coils]; rfl
    have t1 : (y.st k).lib.mem.coils 1 = some (xCoil 1) := by rw [hm.lay.coils]; rfl
    have hall : ∀ q r, x.op q = .main (.request r) → ∃ v, r ∈ exampleRound false v := by
      intro q r ho
      have := hM.request hw ho
      rw [show lastCoil (x.trace q) = false from coil_false (L.reports q)] at this
      exact ⟨_, this⟩
    have hc' : c = false := by
      obtain ⟨v, h⟩ := hall a _ ho
      simpa [exampleRound] using h
    refine ⟨?_, ?_⟩
    · simp only [bitAt, t0]
      rw [L.mem k hne, e, List.foldl_append, List.foldl_cons, hc']
      rcases fold_coil T (hT _ fun q _ r ho => hall q r ho) _ with h | h
      · exact h.trans (exEffect_coil ..)
      · exact h
    · simp only [bitAt, t1]
      rw [hm.bools _ (by decide)]
      rfl
  · obtain ⟨A, T, e, hT⟩ := served a _ ho hout k hk
    have hne : R k ≠ [] := by rw [e]; simp
    have hm := exMem_at L hex hne
    have t0 : (y.st k).lib.mem.hregs 0 = some (xHreg 0) := by rw [hm.lay.hregs]; rfl
    have t1 : (y.st k).lib.mem.hregs 1 = some (xHreg 1) := by rw [hm.lay.hregs]; rfl
    have hall : ∀ q, a ≤ q → ∀ r, x.op q = .main (.request r) → ∃ c, r ∈ exampleRound c 2002 := by
      intro q hq r ho
      have := hM.request hw ho
      obtain ⟨t, htr⟩ := trace_prefix x hq
      have hr : MEvent.hregRead 1 1 2002 ∈ callbacks (x.trace q) := by rw [← htr, callbacks_append]; exact List.mem_append_left _ hread
      rw [show lastReg (x.trace q) = 2002 from reg_read (L.reports q) (.inr hr)] at this
      exact ⟨_, this⟩
    have hv : v = 2002 := by
      obtain ⟨c, h⟩ := hall a (Nat.le_refl _) _ ho
      simpa [exampleRound] using h
    refine ⟨?_, ?_⟩
    · simp only [regAt, t0]
      rw [L.mem k hne, e, List.foldl_append, List.foldl_cons, hv]
      rcases fold_reg T (hT _ fun q hq r ho => hall q hq r ho) _ with h | h
      · exact h.trans (exEffect_reg ..)
      · exact h
    · simp only [regAt, t1]
      rw [hm.regs _ (by decide)]
      rfl

end Modbus
