import Verif.Proofs.MasterStmtHist
import Verif.Props.DriverMaster

/-! C79: the master device, interrupts between any two statements of a poll and of the driver's `send`. -/

namespace Modbus

open Spec

/-- A device history after initialisation, for the library. -/
theorem stmt_history {cfg : Config} (hw : cfg.MWF) {U : Prop} {ops : List MDOp} (hl : ∀ op ∈ ops, MDOp.legal op)
    (hu : U → Undisturbed cfg MasterDev.powerOn (.op (.main (.init .rtu)) :: ops)) :
    match masterDevRun cfg MasterDev.powerOn (.op (.main (.init .rtu)) :: ops) with
    | .ok (d, tr) => LineU U d (allOuts tr) ∧ (∃ g, MInv cfg d.sys.lib g ∧ g.pend ⊆ accepted (callTrace tr)) ∧ ∃ ptr, POpsOk (ptr.map Prod.fst) ∧
        masterPRun cfg Master.powerOn (.op (.init .rtu) :: ptr.map Prod.fst) = .ok (d.sys.lib, (.op (.init .rtu), []) :: ptr) ∧
        accepted (forget ((.op (.init .rtu), []) :: ptr)) = accepted (callTrace tr) ∧ refused (forget ((.op (.init .rtu), []) :: ptr)) = refused (callTrace tr) ∧
        (forget ((.op (.init .rtu), []) :: ptr)).flatMap Prod.snd = (callTrace tr).flatMap Prod.snd ∧
        (callTrace tr).flatMap Prod.snd = libOuts (allOuts tr)
    | .error e => U → ∃ pops, POpsOk pops ∧ (∀ r, MPOp.op (.request r) ∈ pops → MDOp.op (.main (.request r)) ∈ ops) ∧
        masterPRun cfg Master.powerOn (.op (.init .rtu) :: pops) = .error e := by
  obtain ⟨l, h1, h2, h3⟩ := sysInit_ok hw MasterSys.powerOn
  have h0 : masterDevStep cfg MasterDev.powerOn (.op (.main (.init .rtu))) =
      .ok ({ sys := { MasterSys.powerOn with lib := l, gap := false }, lastMsg := 0 }, []) := by
    simp only [masterDevStep, reduceCtorEq, if_false, MasterDev.powerOn, h1, ok_bind, pure_eq]
  have hp : masterPStep cfg Master.powerOn (.op (.init .rtu)) = .ok (l, []) := h3
  have hlu : LineU U { sys := { MasterSys.powerOn with lib := l, gap := false }, lastMsg := 0 } [] := fun _ => .inl ⟨rfl, rfl, rfl⟩
  have hr := drel_run (cfg := cfg) hw (U := U) ops (d := { sys := { MasterSys.powerOn with lib := l, gap := false }, lastMsg := 0 }) (o := []) h2 hlu hl
    (fun u => (hu u).2 _ _ h0)
  simp only [masterDevRun, h0, ok_bind]
  have hd0 : MasterDev.sys { sys := { MasterSys.powerOn with lib := l, gap := false }, lastMsg := 0 } = { MasterSys.powerOn with lib := l, gap := false } := rfl
  have hr : match masterDevRun cfg { sys := { MasterSys.powerOn with lib := l, gap := false }, lastMsg := 0 } ops with
      | .ok (d', tr) => LineU U d' ([] ++ allOuts tr) ∧ tr.map Prod.fst = ops ∧ ∃ ptr, DRel cfg l d'.sys.lib tr ptr
      | .error e => U → ∃ pops, POpsOk pops ∧ (∀ r, MPOp.op (.request r) ∈ pops → MDOp.op (.main (.request r)) ∈ ops) ∧ masterPRun cfg l pops = .error e := hr
  cases hx : masterDevRun cfg { sys := { MasterSys.powerOn with lib := l, gap := false }, lastMsg := 0 } ops with
  | error e =>
    rw [hx] at hr
    intro u
    obtain ⟨pops, k1, k2, k3⟩ := hr u
    exact ⟨pops, k1, k2, by simp only [masterPRun, hp, ok_bind, k3, error_bind]⟩
  | ok y =>
    obtain ⟨d, tr⟩ := y
    rw [hx] at hr
    obtain ⟨k1, -, ptr, r⟩ := hr
    simp only [ok_bind, pure_eq]
    have ha : accepted (forget ((MPOp.op (.init .rtu), []) :: ptr)) = accepted (forget ptr) := by simp [accepted, forget]
    have ha' : accepted (callTrace ((MDOp.op (.main (.init .rtu)), []) :: tr)) = accepted (callTrace tr) := by simp [accepted, callTrace]
    have hf : refused (forget ((MPOp.op (.init .rtu), []) :: ptr)) = refused (forget ptr) := by simp [refused, forget]
    have hf' : refused (callTrace ((MDOp.op (.main (.init .rtu)), []) :: tr)) = refused (callTrace tr) := by simp [refused, callTrace]
    have ho : (callTrace ((MDOp.op (.main (.init .rtu)), []) :: tr)).flatMap Prod.snd = (callTrace tr).flatMap Prod.snd := by simp [callTrace, libOuts]
    have ho' : allOuts ((MDOp.op (.main (.init .rtu)), []) :: tr) = allOuts tr := by simp [allOuts]
    rw [ha', hf', ho, ho']
    refine ⟨k1, ?_, ptr, r.ok, ?_, ha.trans r.acc, hf.trans r.ref, ?_, r.calls⟩
    · rcases masterPRun_inv hw r.ok h2 with ⟨s', ptr', g, q1, -, hi, hg⟩ | ⟨q1, -⟩
      · rw [r.run] at q1
        cases q1
        refine ⟨g, hi, ?_⟩
        obtain ⟨-, -, done, -, e, -⟩ := hg.transactions (Ghost.fresh_valid cfg)
        intro x hxm
        have : x ∈ done.map Tx.req ++ (g.tx.map Prod.fst).toList ++ g.pend := List.mem_append_right _ hxm
        rw [← e] at this
        rw [← r.acc]
        simpa [Ghost.fresh, Ghost.tx] using this
      · rw [r.run] at q1; cases q1
    · simp only [masterPRun, hp, ok_bind, r.run, pure_eq]
    · rw [r.calls, ← r.flat]; simp [forget]

/-- **C79**, first part. Wherever interrupt handlers run, between any two statements of polls and of the driver's `send`: the requests accepted are
transacted one after the other in order, each transmitted at most once plus the configured repetitions and answered by exactly one outcome, and no message
buffer is lost other than by requests refused for their quantity. -/
theorem C79_device_transactions {cfg : Config} (hw : cfg.MWF) {ops : List MDOp} (hl : ∀ op ∈ ops, MDOp.legal op) {d : MasterDev} {tr : MDTrace}
    (h : masterDevRun cfg MasterDev.powerOn (.op (.main (.init .rtu)) :: ops) = .ok (d, tr)) :
    ∃ done cur queued, Transactions cfg.repeatMax (callTrace tr) done cur queued ∧ (d.sys.lib.st = .idle ↔ cur = none) ∧
      d.sys.lib.freeQ.items.toNat + outstanding cur queued + refused (callTrace tr) = cfg.queueItems := by
  have hh := stmt_history (U := False) hw hl (fun u => u.elim)
  rw [h] at hh
  obtain ⟨-, -, ptr, k1, k2, k3, k4, k5, -⟩ := hh
  obtain ⟨done, cur, queued, ⟨t1, t2, t3, t4, t5⟩, t6, t7⟩ := C56_transactions_any_schedule hw k1 k2
  rw [k3] at t1 t5
  rw [k4] at t7
  refine ⟨done, cur, queued, ⟨t1, ?_, t3, t4, t5⟩, t6, t7⟩
  rw [← t2]
  simp only [outs, k5]

/-- **C79**, second part: with bit reads limited to 126 bits (C43) and the driver's `send` not disturbed between its first and third assignment, there is no
undefined behaviour: the pointers never leave the buffer they point into. -/
theorem C79_no_undefined_behaviour {cfg : Config} (hw : cfg.MWF) {ops : List MDOp} (hl : ∀ op ∈ ops, MDOp.legal op)
    (hu : Undisturbed cfg MasterDev.powerOn (.op (.main (.init .rtu)) :: ops))
    (hbits : ∀ r, MDOp.op (.main (.request r)) ∈ ops → IsBitRead r → (reqField r).toNat ≤ 126) :
    ∃ d tr, masterDevRun cfg MasterDev.powerOn (.op (.main (.init .rtu)) :: ops) = .ok (d, tr) := by
  have hh := stmt_history (U := True) hw hl (fun _ => hu)
  cases hx : masterDevRun cfg MasterDev.powerOn (.op (.main (.init .rtu)) :: ops) with
  | ok y => exact ⟨y.1, y.2, rfl⟩
  | error e =>
    rw [hx] at hh
    obtain ⟨pops, k1, k2, k3⟩ := hh trivial
    obtain ⟨s, ptr, k4⟩ := C56_defined_any_schedule hw k1 Master.powerOn (fun r hr => hbits r (k2 r hr))
    rw [k4] at k3; cases k3

theorem handed_libOuts (o : List HMOut) : handed o = (libOuts o).filterMap fun o =>
    match o with
    | .send b => some b
    | _ => none := by
  induction o with
  | nil => rfl
  | cons x o ih =>
    cases x with
    | lib y => cases y <;> simpa [handed, libOuts] using ih
    | tdr b => simpa [handed, libOuts] using ih

theorem line_prefix {R : Master → Prop} {d : MasterDev} {o : List HMOut} (h : Line R d o) :
    (handed o).dropLast.flatten <+: lineOf o ∧ lineOf o <+: (handed o).flatten := by
  rcases h with ⟨-, -, h⟩ | ⟨⟨-, h2, -, -, done, h5, h6⟩, -⟩
  · rw [h]
    refine ⟨?_, List.prefix_refl _⟩
    rcases List.eq_nil_or_concat (handed o) with h1 | ⟨l, f, h1⟩
    · rw [h1]; exact List.nil_prefix
    · rw [h1, List.concat_eq_append, List.dropLast_concat, List.flatten_append]; exact List.prefix_append _ _
  · rw [h5, h6, List.dropLast_concat, List.flatten_append]
    refine ⟨List.prefix_append _ _, ?_⟩
    simp only [List.flatten_cons, List.flatten_nil, List.append_nil]
    refine (List.prefix_append_right_inj _).mpr ?_
    obtain ⟨n, hn⟩ : ∃ n, d.sys.last + 1 = d.sys.cur + 1 + n := ⟨d.sys.last - d.sys.cur, by omega⟩
    rw [hn, Buf.bytes_add d.buf 0 (d.sys.cur + 1) n]
    exact List.prefix_append _ _

/-- **C79**, third part, for every history in which the UART's handler does not run with an empty transmit register while the main program is between the
first and the third assignment of the driver's `send`: the line carries the request frames of the first requests accepted, in order, each as often as it was
transmitted (at most once plus the repetitions) and in full; only the last frame may still be under way. Outside transmissions it is complete. What is missing
for the full claim is that excluded moment, at which it is false (`C79_bytes_swapped_violated`). -/
theorem C79_line_carries_requests_partial {cfg : Config} (hw : cfg.MWF) {ops : List MDOp} (hl : ∀ op ∈ ops, MDOp.legal op)
    (hu : Undisturbed cfg MasterDev.powerOn (.op (.main (.init .rtu)) :: ops)) {d : MasterDev} {tr : MDTrace}
    (h : masterDevRun cfg MasterDev.powerOn (.op (.main (.init .rtu)) :: ops) = .ok (d, tr)) :
    ∃ served : List (MReq × Nat), served.map Prod.fst <+: accepted (callTrace tr) ∧ (∀ x ∈ served, 1 ≤ x.2 ∧ x.2 ≤ 1 + cfg.repeatMax) ∧
      (transmissions served).dropLast.flatten <+: lineOf (allOuts tr) ∧ lineOf (allOuts tr) <+: (transmissions served).flatten ∧
      (d.sys.lib.st ≠ .transmitting ∨ d.sys.lib.txf ≠ .set → lineOf (allOuts tr) = (transmissions served).flatten) := by
  have hh := stmt_history (U := True) hw hl (fun _ => hu)
  rw [h] at hh
  obtain ⟨k0, -, ptr, k1, k2, k3, -, k5, k6⟩ := hh
  have k0 := k0 trivial
  obtain ⟨served, t1, t2, t3⟩ := C56_transmissions_any_schedule hw k1 k2
  have hhand : handed (allOuts tr) = transmissions served := by
    rw [handed_libOuts, ← k6, ← k5]; exact t3
  have hp := line_prefix k0
  rw [hhand] at hp
  refine ⟨served, by rw [← k3]; exact t1, t2, hp.1, hp.2, fun hx => ?_⟩
  rcases k0 with ⟨-, -, q⟩ | ⟨-, q1, q2⟩
  · rw [q, hhand]
  · exact absurd q2 (hx.elim id fun h => absurd q1 h)

/-- A byte is received (the transmit register is empty) just before the third assignment of the driver's `send`; nothing else happens during the poll. -/
def lateByteInts (b : U8) : List (List HMOp) := [[], [], [], [], [], [], [.usart (some b) true]]

/-! ### Non-vacuity -/

/-- Two requests; the poll that starts the first one is interrupted by a stray byte before `send`, ticks and a handler without work inside it, and the end of the
transmission of the first byte after it; the first answer arrives inside the polls, the second request is under way at the end. -/
def stmtOps (pre : List (List HMOp)) : List MDOp :=
  [.op (.main (.request (.readHoldingReg 0xFFFF 2 9))), .op (.main (.request (.writeSingleCoil 5 9 true))), .pollWith pre] ++
  (List.replicate 7 (.op (.usart none true))) ++ [.pollWith [[], [.usart none true]]] ++
  ((rtuFrame 9 [3, 4, 0xAA, 0xBB, 0xCC, 0xDD]).map fun b => .pollWith [[], [.usart (some b) true]]) ++
  [.op .rto, .pollWith [[], [.usart none false]], .op (.main .poll), .pollWith [[], [.timer]], .op (.main .poll), .op (.main .poll), .op (.main .poll),
   .op (.usart none true), .op (.usart none true)]

/-- The line and the library's outputs. -/
def stmtLine (r : C (MasterDev × MDTrace)) : Option (List U8 × List MOut) :=
  match r with
  | .ok x => some (lineOf (allOuts x.2), libOuts (allOuts x.2))
  | .error _ => none

/-- Nothing happens inside the marked interval. -/
def calmInts : List (List HMOp) :=
  [[.usart (some 7) true], [], [.usart (some 7) true], [.main .tick], [.main .tick, .usart none true], [.usart (some 7) false], [.main .tick], [.usart none true]]

/-- The condition on a poll, as a computation. -/
def noRaceB {σ ω ε : Type} (int : σ → ε → C (σ × List ω)) : Prog σ ω ε → List (List ε) → σ → Bool
  | .done, _, _ => true
  | .step race f k, ints, s =>
    (ints.headD []).all (fun e => !race s e) &&
    match runIntsO int s (ints.headD []) with
    | .error _ => true
    | .ok (s1, _) =>
      match f s1 with
      | .error _ => true
      | .ok (a, s2, _) => noRaceB int (k a) ints.tail s2

theorem noRace_of {σ ω ε : Type} {int : σ → ε → C (σ × List ω)} (p : Prog σ ω ε) : ∀ {ints : List (List ε)} {s : σ}, noRaceB int p ints s = true →
    noRaceO int p ints s := by
  induction p with
  | done => exact fun _ => trivial
  | step race f k ih =>
    intro ints s h
    simp only [noRaceB, Bool.and_eq_true, List.all_eq_true, Bool.not_eq_true'] at h
    refine ⟨h.1, fun s1 o1 a s2 o2 h1 h2 => ih a ?_⟩
    have := h.2
    rw [h1] at this
    simp only [h2] at this
    exact this

/-- The condition on a history, as a computation. -/
def undisturbedMB (cfg : Config) : MasterDev → List MDOp → Bool
  | _, [] => true
  | d, op :: ops =>
    (match op with
      | .pollWith ints => noRaceB (masterDevInt cfg) (masterDevPollP cfg) ints d
      | _ => true) &&
    match masterDevStep cfg d op with
    | .ok (d', _) => undisturbedMB cfg d' ops
    | .error _ => true

theorem undisturbedM_of {cfg : Config} (ops : List MDOp) : ∀ {d : MasterDev}, undisturbedMB cfg d ops = true → Undisturbed cfg d ops := by
  induction ops with
  | nil => exact fun _ => trivial
  | cons op ops ih =>
    intro d h
    simp only [undisturbedMB, Bool.and_eq_true] at h
    refine ⟨?_, ?_⟩
    · rintro ints rfl
      exact noRace_of _ h.1
    · intro d' o hd
      have := h.2
      rw [hd] at this
      exact ih this

theorem stmtOps_legal (pre : List (List HMOp)) : ∀ op ∈ stmtOps pre, MDOp.legal op := by
  intro op ho
  simp only [stmtOps, List.mem_append, List.mem_cons, List.not_mem_nil, or_false, List.mem_replicate, List.mem_map] at ho
  rcases ho with (((((rfl | rfl | rfl) | ⟨-, rfl⟩) | rfl) | ⟨b, -, rfl⟩)) | rfl | rfl | rfl | rfl | rfl | rfl | rfl | rfl | rfl
  all_goals first
    | trivial
    | exact ⟨rfl, by simp, by simp [DataOk]⟩

/-- The history satisfies all conditions, both requests are served: the line carries the first and part of the second frame. -/
theorem stmt_master_demo :
    Undisturbed smallCfg MasterDev.powerOn (.op (.main (.init .rtu)) :: stmtOps calmInts) ∧
    (stmtLine (masterDevRun smallCfg MasterDev.powerOn (.op (.main (.init .rtu)) :: stmtOps calmInts))).map Prod.fst =
      some (reqFrame (.readHoldingReg 0xFFFF 2 9) ++ (reqFrame (.writeSingleCoil 5 9 true)).take 3) ∧
    (stmtLine (masterDevRun smallCfg MasterDev.powerOn (.op (.main (.init .rtu)) :: stmtOps calmInts))).map (fun x => x.2.drop 2) =
      some [.send (reqFrame (.readHoldingReg 0xFFFF 2 9)), .event (.hregRead 9 0xFFFF 0xAABB), .event (.hregRead 9 0 0xCCDD),
        .send (reqFrame (.writeSingleCoil 5 9 true))] :=
  ⟨undisturbedM_of _ (by decide +kernel), by decide +kernel, by decide +kernel⟩

/-- **C79** is violated: the same history, with a stray byte between the second and the third assignment of `send` and nothing else inside that poll. -/
theorem C79_send_disturbed_violated : (∀ op ∈ stmtOps (lateByteInts 7), MDOp.legal op) ∧
    (stmtLine (masterDevRun smallCfg MasterDev.powerOn (.op (.main (.init .rtu)) :: stmtOps (lateByteInts 7)))).map Prod.fst =
      some ([3, 9] ++ (reqFrame (.readHoldingReg 0xFFFF 2 9)).drop 2 ++ (reqFrame (.writeSingleCoil 5 9 true)).take 3) ∧
    (reqFrame (.readHoldingReg 0xFFFF 2 9)).take 2 = [9, 3] :=
  ⟨stmtOps_legal _, by decide +kernel, by decide +kernel⟩

end Modbus
