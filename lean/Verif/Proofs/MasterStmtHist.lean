import Verif.Proofs.MasterStmtLine

/-! Master device statement by statement: histories. -/

namespace Modbus

open Spec

theorem masterPRun_append {cfg : Config} (a b : List MPOp) : ∀ {s s1 s2 : Master} {t1 t2 : List (MPOp × List MOut)}, masterPRun cfg s a = .ok (s1, t1) →
    masterPRun cfg s1 b = .ok (s2, t2) → masterPRun cfg s (a ++ b) = .ok (s2, t1 ++ t2) := by
  induction a with
  | nil => intro s s1 s2 t1 t2 h1 h2; cases h1; exact h2
  | cons x a ih =>
    intro s s1 s2 t1 t2 h1 h2
    simp only [masterPRun] at h1
    obtain ⟨⟨s3, o3⟩, k1, h1⟩ := bind_ok h1
    obtain ⟨⟨s4, t4⟩, k2, h1⟩ := bind_ok h1
    cases h1
    have k3 := ih k2 h2
    simp only [List.cons_append, masterPRun, k1, ok_bind, k3, pure_eq]

theorem masterPRun_append_err {cfg : Config} (a b : List MPOp) {e : UB} : ∀ {s s1 : Master} {t1 : List (MPOp × List MOut)}, masterPRun cfg s a = .ok (s1, t1) →
    masterPRun cfg s1 b = .error e → masterPRun cfg s (a ++ b) = .error e := by
  induction a with
  | nil => intro s s1 t1 h1 h2; cases h1; exact h2
  | cons x a ih =>
    intro s s1 t1 h1 h2
    simp only [masterPRun] at h1
    obtain ⟨⟨s3, o3⟩, k1, h1⟩ := bind_ok h1
    obtain ⟨⟨s4, t4⟩, k2, h1⟩ := bind_ok h1
    cases h1
    have k3 := ih k2 h2
    simp only [List.cons_append, masterPRun, k1, ok_bind, k3, error_bind]

/-- Interrupts, one after the other. -/
theorem masterPRun_ints {cfg : Config} (l : List MEv) : ∀ {s : Master}, s.drv = true → s.dataSet = true →
    masterPRun cfg s (l.map fun e => .op e.op) = .ok (masterAfter s l, l.map fun e => (.op e.op, [])) := by
  induction l with
  | nil => intro s _ _; rw [masterAfter_nil]; rfl
  | cons e l ih =>
    intro s hd hs
    have h1 := masterStep_int cfg s hd hs e
    have h2 := ih (s := masterAfter s [e]) hd hs
    simp only [List.map_cons, masterPRun, masterPStep, h1, ok_bind, h2, pure_eq]
    rw [masterAfter_append]
    rfl

/-- What the library experiences (`ptr`) while the device goes through `tr`. -/
structure DRel (cfg : Config) (l l' : Master) (tr : MDTrace) (ptr : List (MPOp × List MOut)) : Prop where
  run : masterPRun cfg l (ptr.map Prod.fst) = .ok (l', ptr)
  ok : POpsOk (ptr.map Prod.fst)
  acc : accepted (forget ptr) = accepted (callTrace tr)
  flat : (forget ptr).flatMap Prod.snd = libOuts (allOuts tr)
  ref : refused (forget ptr) = refused (callTrace tr)
  reqs : ∀ r, MPOp.op (.request r) ∈ ptr.map Prod.fst → MDOp.op (.main (.request r)) ∈ tr.map Prod.fst
  calls : (callTrace tr).flatMap Prod.snd = libOuts (allOuts tr)

theorem DRel.nil (cfg : Config) (l : Master) : DRel cfg l l [] [] := ⟨rfl, nofun, rfl, rfl, rfl, nofun, rfl⟩

theorem forget_append (a b : List (MPOp × List MOut)) : forget (a ++ b) = forget a ++ forget b := by simp [forget]

theorem callTrace_append (a b : MDTrace) : callTrace (a ++ b) = callTrace a ++ callTrace b := by simp [callTrace]

theorem allOuts_append (a b : MDTrace) : allOuts (a ++ b) = allOuts a ++ allOuts b := by simp [allOuts]

theorem DRel.append {cfg : Config} {l l1 l2 : Master} {t1 t2 : MDTrace} {p1 p2 : List (MPOp × List MOut)} (a : DRel cfg l l1 t1 p1) (b : DRel cfg l1 l2 t2 p2) :
    DRel cfg l l2 (t1 ++ t2) (p1 ++ p2) := by
  refine ⟨?_, ?_, ?_, ?_, ?_, ?_, ?_⟩
  · rw [List.map_append]; exact masterPRun_append _ _ a.run b.run
  · intro op hop
    rw [List.map_append] at hop
    rcases List.mem_append.1 hop with h | h
    · exact a.ok op h
    · exact b.ok op h
  · rw [forget_append, callTrace_append, accepted_append', accepted_append', a.acc, b.acc]
  · rw [forget_append, List.flatMap_append, allOuts_append, libOuts_append, a.flat, b.flat]
  · rw [forget_append, callTrace_append, refused_append', refused_append', a.ref, b.ref]
  · intro r hr
    rw [List.map_append] at hr ⊢
    rcases List.mem_append.1 hr with h | h
    · exact List.mem_append_left _ (a.reqs r h)
    · exact List.mem_append_right _ (b.reqs r h)
  · rw [callTrace_append, List.flatMap_append, allOuts_append, libOuts_append, a.calls, b.calls]

theorem ints_forget (l : List MEv) : forget (l.map fun e => (MPOp.op e.op, ([] : List MOut))) = intTrace l := by
  simp [forget, intTrace]

/-- An interrupt between polls. -/
theorem drel_int {cfg : Config} {d d' : MasterDev} {h : HMOp} {o : List HMOut} (hd : d.sys.lib.drv = true) (hs : d.sys.lib.dataSet = true)
    (hm : ∀ op, h ≠ .main op) (ef : IntEff d h d' o) : ∃ ptr, DRel cfg d.sys.lib d'.sys.lib [(.op h, o)] ptr := by
  obtain ⟨l, e1, -⟩ := ef.lib
  have hc : callTrace [(MDOp.op h, o)] = [] := by
    cases h with
    | main op => exact absurd rfl (hm op)
    | _ => rfl
  have hmap : (l.map fun e => (MPOp.op e.op, ([] : List MOut))).map Prod.fst = l.map fun e => MPOp.op e.op := by simp
  have hmem : ∀ op, MPOp.op op ∈ l.map (fun e => MPOp.op e.op) → ∃ e : MEv, op = e.op := by
    intro op hop
    obtain ⟨e, -, he⟩ := List.mem_map.1 hop
    exact ⟨e, (MPOp.op.inj he).symm⟩
  refine ⟨l.map fun e => (.op e.op, []), ?_, ?_, ?_, ?_, ?_, ?_, ?_⟩
  · rw [hmap, masterPRun_ints l hd hs, e1]
  · intro op hop
    rw [hmap] at hop
    obtain ⟨e, rfl⟩ := hmem op hop
    exact ⟨by cases e <;> simp [MEv.op], by cases e <;> simp [MEv.op]⟩
  · rw [ints_forget, intTrace_accepted, hc]; rfl
  · rw [ints_forget]
    simp only [allOuts, List.flatMap_cons, List.flatMap_nil, List.append_nil, ef.outs]
    simp [intTrace]
  · rw [ints_forget, intTrace_refused, hc]; rfl
  · intro r hr
    rw [hmap] at hr
    obtain ⟨e, he⟩ := hmem _ hr
    cases e <;> cases he
  · rw [hc]
    simp only [allOuts, List.flatMap_cons, List.flatMap_nil, List.append_nil, ef.outs]

/-- A poll. -/
theorem drel_poll {cfg : Config} {l l' : Master} {op : MDOp} {o : List HMOut} {mi : List (List MEv)} (hop : op = .op (.main .poll) ∨ ∃ ints, op = .pollWith ints)
    (h : runProg (masterInt cfg) (masterPollP cfg) mi l = .ok (l', libOuts o)) : DRel cfg l l' [(op, o)] [(.pollWith mi, libOuts o)] := by
  have hc : callTrace [(op, o)] = [(.poll, libOuts o)] := by rcases hop with rfl | ⟨ints, rfl⟩ <;> rfl
  refine ⟨?_, ?_, ?_, ?_, ?_, ?_, ?_⟩
  · simp only [List.map_cons, List.map_nil, masterPRun, masterPStep, h, ok_bind, pure_eq]
  · intro op hop
    simp at hop
  · rw [hc]; rfl
  · simp [forget, allOuts]
  · rw [hc]; rfl
  · intro r hr
    simp at hr
  · rw [hc]; simp [allOuts]

/-- A call of the main program that is not a poll. -/
theorem drel_main {cfg : Config} (hw : cfg.MWF) {U : Prop} {d : MasterDev} {g : Ghost} {o : List HMOut} {op : MOp} (hi : MInv cfg d.sys.lib g) (hl : LineU U d o)
    (hop : op ≠ .poll) (hleg : MDOp.legal (.op (.main op))) :
    ∃ d' o1 ptr, masterDevStep cfg d (.op (.main op)) = .ok (d', o1) ∧ DRel cfg d.sys.lib d'.sys.lib [(.op (.main op), o1)] ptr ∧ LineU U d' (o ++ o1) := by
  obtain ⟨h1, h2, h3⟩ := hleg
  rcases masterStep_inv hw hi op h2 h3 with ⟨l, out, g', k1, k2, k3⟩ | ⟨k, -, -⟩
  · have hns : ∀ f, MOut.send f ∉ out := by cases k3 <;> first | (exact absurd rfl hop) | simp
    have ef := masterStep_effect hw hi hop h2 k1
    have hstep : masterDevStep cfg d (.op (.main op)) = .ok ({ d with sys := { d.sys with lib := l } }, out.map .lib) := by
      simp only [masterDevStep, if_neg hop, masterSysStep, h1, Bool.true_eq_false, if_false, k1, ok_bind]
      rw [masterSends_none _ _ hns]
      rfl
    refine ⟨_, _, [(.op op, out)], hstep, ⟨?_, ?_, ?_, ?_, ?_, ?_, ?_⟩, fun u => ?_⟩
    · simp only [List.map_cons, List.map_nil, masterPRun, masterPStep, k1, ok_bind, pure_eq]
    · intro op' hop'
      simp only [List.map_cons, List.map_nil, List.mem_singleton, MPOp.op.injEq] at hop'
      subst hop'
      exact ⟨h2, h3⟩
    · simp only [forget, callTrace, List.map_cons, List.map_nil, List.filterMap_cons, List.filterMap_nil, libOuts_map]
    · simp only [forget, allOuts, List.map_cons, List.map_nil, List.flatMap_cons, List.flatMap_nil, List.append_nil, libOuts_map]
    · simp only [forget, callTrace, List.map_cons, List.map_nil, List.filterMap_cons, List.filterMap_nil, libOuts_map]
    · intro r hr
      simp only [List.map_cons, List.map_nil, List.mem_singleton, MPOp.op.injEq] at hr ⊢
      rw [hr]
    · simp only [allOuts, callTrace, List.filterMap_cons, List.filterMap_nil, List.flatMap_cons, List.flatMap_nil, List.append_nil, libOuts_map]
    · rcases hl u with q | ⟨⟨q1, q2, q3, q4, done, q5, q6⟩, q7, q8⟩
      · exact .inl (q0_lib q l hns)
      · have hreq : (l.msgs d.sys.txMsg).req = (d.sys.lib.msgs d.sys.txMsg).req := by
          have hcur := hi.cur
          cases hg : g.cur with
          | none => rw [hg] at hcur; rw [hcur.1] at q8; cases q8
          | some x =>
            obtain ⟨i, r', c'⟩ := x
            rw [hg] at hcur
            obtain ⟨c1, c2, -⟩ := hcur
            have hij : i = d.sys.txMsg := by rw [c1] at q4; exact Option.some.inj q4
            subst hij
            have := ef.msg d.sys.txMsg c1 c2 (by rw [q8]; simp)
            rw [this]
            cases op <;> rfl
        have hb : MasterDev.buf { d with sys := { d.sys with lib := l } } = d.buf := hreq
        refine .inr ⟨⟨q1, q2, q3, ef.msgBuf.trans q4, done, ?_, ?_⟩, ?_, ef.st.trans q8⟩
        · rw [hb, handed_append, handed_lib hns, List.append_nil]; exact q5
        · rw [hb, lineOf_append, lineOf_lib, List.append_nil]; exact q6
        · show l.txf = .set
          rw [ef.txf', if_neg]
          · exact q7
          · rintro rfl; cases h1
  · exact absurd k hop

/-- One event. -/
theorem drel_step {cfg : Config} (hw : cfg.MWF) {U : Prop} {d : MasterDev} {g : Ghost} {o : List HMOut} {op : MDOp} (hi : MInv cfg d.sys.lib g) (hl : LineU U d o)
    (hleg : MDOp.legal op) (hu : U → ∀ ints, op = .pollWith ints → noRaceO (masterDevInt cfg) (masterDevPollP cfg) ints d) :
    match masterDevStep cfg d op with
    | .ok (d', o1) => LineU U d' (o ++ o1) ∧ ∃ ptr, DRel cfg d.sys.lib d'.sys.lib [(op, o1)] ptr
    | .error e => U → ∃ mi, masterPRun cfg d.sys.lib [.pollWith mi] = .error e := by
  have poll : ∀ (ints : List (List HMOp)) (op : MDOp), (op = .op (.main .poll) ∨ ∃ ints, op = .pollWith ints) →
      (U → noRaceO (masterDevInt cfg) (masterDevPollP cfg) ints d) → masterDevStep cfg d op = runProgO (masterDevInt cfg) (masterDevPollP cfg) ints d →
      match masterDevStep cfg d op with
      | .ok (d', o1) => LineU U d' (o ++ o1) ∧ ∃ ptr, DRel cfg d.sys.lib d'.sys.lib [(op, o1)] ptr
      | .error e => U → ∃ mi, masterPRun cfg d.sys.lib [.pollWith mi] = .error e := by
    intro ints op hop hn heq
    have h := tr_poll (cfg := cfg) (U := U) ints d o hl hi.drv hi.data hn
    rw [heq]
    cases hx : runProgO (masterDevInt cfg) (masterDevPollP cfg) ints d with
    | error e =>
      rw [hx] at h
      intro u
      obtain ⟨mi, h1⟩ := h u
      exact ⟨mi, by simp only [masterPRun, masterPStep, h1, error_bind]⟩
    | ok y =>
      obtain ⟨d', o1⟩ := y
      rw [hx] at h
      obtain ⟨h1, mi, h2⟩ := h
      exact ⟨h1, _, drel_poll hop h2⟩
  have noRace_nil : noRaceO (masterDevInt cfg) (masterDevPollP cfg) [] d := by
    have key : ∀ (p : DProg) (d : MasterDev), noRaceO (masterDevInt cfg) p [] d := by
      intro p
      induction p with
      | done => exact fun _ => trivial
      | step r f k ih => exact fun d => ⟨nofun, fun s1 o1 a s2 o2 _ _ => ih a s2⟩
    exact key _ _
  cases op with
  | pollWith ints => exact poll ints _ (.inr ⟨ints, rfl⟩) (fun u => hu u ints rfl) rfl
  | op h =>
    by_cases hm : ∃ op, h = .main op
    · obtain ⟨op, rfl⟩ := hm
      by_cases hp : op = .poll
      · subst hp
        exact poll [] _ (.inl rfl) (fun _ => noRace_nil) (by simp only [masterDevStep, if_true])
      · obtain ⟨d', o1, ptr, h1, h2, h3⟩ := drel_main hw hi hl hp hleg
        rw [h1]
        exact ⟨h3, ptr, h2⟩
    · have hm : ∀ op, h ≠ .main op := fun op e => hm ⟨op, e⟩
      have hst : masterDevStep cfg d (.op h) = masterDevInt cfg d h := by
        cases h with
        | main op => exact absurd rfl (hm op)
        | _ => rfl
      rw [hst]
      have h1 := (line_stable (cfg := cfg) steady_trans).imp (U := U) d o h d hl hi.drv hi.data (fun _ => rfl)
      have h2 := devInt_eff (cfg := cfg) hi.drv hi.data h
      cases hx : masterDevInt cfg d h with
      | error e => rw [hx] at h1; exact fun u => absurd u h1
      | ok y =>
        obtain ⟨d', o1⟩ := y
        rw [hx] at h1 h2
        exact ⟨h1, drel_int hi.drv hi.data hm h2⟩

/-- A history. -/
theorem drel_run {cfg : Config} (hw : cfg.MWF) {U : Prop} (ops : List MDOp) : ∀ {d : MasterDev} {g : Ghost} {o : List HMOut}, MInv cfg d.sys.lib g → LineU U d o →
    (∀ op ∈ ops, MDOp.legal op) → (U → Undisturbed cfg d ops) →
    match masterDevRun cfg d ops with
    | .ok (d', tr) => LineU U d' (o ++ allOuts tr) ∧ tr.map Prod.fst = ops ∧ ∃ ptr, DRel cfg d.sys.lib d'.sys.lib tr ptr
    | .error e => U → ∃ pops, POpsOk pops ∧ (∀ r, MPOp.op (.request r) ∈ pops → MDOp.op (.main (.request r)) ∈ ops) ∧ masterPRun cfg d.sys.lib pops = .error e := by
  induction ops with
  | nil =>
    intro d g o hi hl _ _
    exact ⟨by simpa [allOuts] using hl, rfl, [], .nil _ _⟩
  | cons op ops ih =>
    intro d g o hi hl hleg hu
    have h1 := drel_step hw hi hl (hleg op (List.mem_cons_self ..)) (fun u => (hu u).1)
    simp only [masterDevRun]
    cases hx : masterDevStep cfg d op with
    | error e =>
      rw [hx] at h1
      intro u
      obtain ⟨mi, h2⟩ := h1 u
      exact ⟨[.pollWith mi], (fun _ h => by simp at h), (fun _ h => by simp at h), h2⟩
    | ok y =>
      obtain ⟨d1, o1⟩ := y
      rw [hx] at h1
      obtain ⟨l1, p1, r1⟩ := h1
      obtain ⟨g1, hi1⟩ : ∃ g1, MInv cfg d1.sys.lib g1 := by
        rcases masterPRun_inv hw r1.ok hi with ⟨s', ptr, g', k1, -, k2, -⟩ | ⟨k1, -⟩
        · rw [r1.run] at k1
          cases k1
          exact ⟨g', k2⟩
        · rw [r1.run] at k1; cases k1
      have h2 := ih hi1 l1 (fun op ho => hleg op (List.mem_cons_of_mem _ ho)) (fun u => (hu u).2 d1 o1 hx)
      simp only [ok_bind]
      cases hy : masterDevRun cfg d1 ops with
      | error e =>
        rw [hy] at h2
        intro u
        obtain ⟨pops, k1, k2, k3⟩ := h2 u
        refine ⟨p1.map Prod.fst ++ pops, ?_, ?_, masterPRun_append_err _ _ r1.run k3⟩
        · intro op' ho
          rcases List.mem_append.1 ho with h | h
          · exact r1.ok op' h
          · exact k1 op' h
        · intro r hr
          rcases List.mem_append.1 hr with h | h
          · have := r1.reqs r h
            simp only [List.map_cons, List.map_nil, List.mem_singleton] at this
            rw [this]; exact List.mem_cons_self ..
          · exact List.mem_cons_of_mem _ (k2 r h)
      | ok z =>
        obtain ⟨d2, t2⟩ := z
        rw [hy] at h2
        obtain ⟨l2, e2, p2, r2⟩ := h2
        simp only [ok_bind, pure_eq]
        refine ⟨?_, by rw [List.map_cons, e2], _, r1.append r2⟩
        show LineU U d2 (o ++ (o1 ++ allOuts t2))
        rw [← List.append_assoc]; exact l2

end Modbus
