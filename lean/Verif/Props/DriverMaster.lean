import Verif.Proofs.DriverMaster
import Verif.Props.DriverSlave

/-! C60, C61: the master with its driver. -/

namespace Modbus

open Spec

/-- **C61** for the master. Whatever happens to a device (main program, bytes, interrupts in any order), the library inside it goes through a
history of its own interface: the same calls of the main program with the same outputs in the same order, the same bytes received, one
3.5-char event per timer interrupt, and callbacks of the driver which by themselves put out nothing. Hence every statement about all
histories of the library holds for the device. -/
theorem C61_master_device_refines_library (cfg : Config) (ops : List HMOp) (hp : ∀ op ∈ ops, op.proper) (s s' : MasterSys) (htr : HMTrace)
    (h : masterSysRun cfg s ops = .ok (s', htr)) :
    ∃ mops tr, masterRun cfg s.lib mops = .ok (s'.lib, tr) ∧ tr.filter (fun x => x.1.isMain) = mainTrace htr ∧
      mBytes mops = hmBytes ops ∧ mops.count .t35 = ops.count .timer ∧ ∀ x ∈ tr, x.1.isMain = false → x.2 = [] := by
  obtain ⟨m, t, r⟩ := sysRun_refines hp h
  exact ⟨m, t, r.run, r.main, r.bytes, r.t35, r.irq⟩

theorem mainTrace_ops {cfg : Config} {ops : List HMOp} {s s' : MasterSys} {htr : HMTrace} (h : masterSysRun cfg s ops = .ok (s', htr)) :
    htr.map Prod.fst = ops := by
  induction ops generalizing s htr with
  | nil => cases h; rfl
  | cons op ops ih =>
    simp only [masterSysRun] at h
    obtain ⟨⟨s1, o1⟩, h1, h⟩ := bind_ok h
    obtain ⟨⟨s2, o2⟩, h2, h⟩ := bind_ok h
    cases h
    rw [List.map_cons, ih h2]

theorem sysInit_ok {cfg : Config} (hw : cfg.MWF) (s : MasterSys) :
    ∃ l, masterSysStep cfg s (.main (.init .rtu)) = .ok ({ s with lib := l, gap := false }, []) ∧ MInv cfg l (Ghost.fresh cfg) ∧
      masterStep cfg s.lib (.init .rtu) = .ok (l, []) := by
  obtain ⟨l, h1, h2⟩ := masterInit_inv hw s.lib
  have h3 : masterStep cfg s.lib (.init .rtu) = .ok (l, []) := by simp only [masterStep, h1, ok_bind, pure_eq]
  refine ⟨l, ?_, h2, h3⟩
  simp only [masterSysStep, show ¬ (MOp.isMain (.init .rtu) = false) by simp [MOp.isMain], h3, ok_bind]
  rfl

/-- A history of a device after initialisation is a history of its library after initialisation. -/
theorem device_history {cfg : Config} (hw : cfg.MWF) {ops : List HMOp} (hl : ∀ op ∈ ops, op.legal) {s : MasterSys} {htr : HMTrace}
    (h : masterSysRun cfg MasterSys.powerOn (.main (.init .rtu) :: ops) = .ok (s, htr)) :
    ∃ mops tr, OpsOk mops ∧ masterRun cfg Master.powerOn (.init .rtu :: mops) = .ok (s.lib, tr) ∧ accepted tr = accepted (mainTrace htr) ∧
      tr.flatMap Prod.snd = (mainTrace htr).flatMap Prod.snd := by
  obtain ⟨l, h1, h2, h3⟩ := sysInit_ok hw MasterSys.powerOn
  simp only [masterSysRun, h1, ok_bind] at h
  obtain ⟨⟨s2, t2⟩, h4, h⟩ := bind_ok h
  cases h
  obtain ⟨m, t, r⟩ := sysRun_refines (fun op ho => (hl op ho).proper) h4
  refine ⟨m, (.init .rtu, []) :: t, ?_, ?_, ?_, ?_⟩
  · intro op ho
    by_cases hm : op.isMain = true
    · have hmem : op ∈ (t.filter fun x => x.1.isMain).map Prod.fst := by
        have := masterRun_ops r.run
        rw [← this] at ho
        obtain ⟨x, hx, rfl⟩ := List.mem_map.1 ho
        exact List.mem_map.2 ⟨x, List.mem_filter.2 ⟨hx, hm⟩, rfl⟩
      rw [r.main] at hmem
      obtain ⟨x, hx, rfl⟩ := List.mem_map.1 hmem
      obtain ⟨y, hy, hxy⟩ := List.mem_filterMap.1 hx
      have hy' : y.1 ∈ ops := by rw [← mainTrace_ops h4]; exact List.mem_map.2 ⟨y, hy, rfl⟩
      have hle := hl _ hy'
      revert hxy
      cases hy1 : y.1 with
      | main op' =>
        intro hxy
        obtain rfl := Option.some.inj hxy
        rw [hy1] at hle
        cases op' <;> first | exact hle.elim | exact ⟨by simp, hle.2⟩
      | _ => intro hxy; cases hxy
    · refine ⟨?_, ?_⟩
      · rintro m rfl; exact hm rfl
      · rintro r rfl; exact absurd rfl hm
  · exact run_seq (run_one h3) r.run
  · exact (r.accepted : accepted t = _)
  · exact (r.flat : t.flatMap Prod.snd = _)

/-- **C60.** Initialise a master device, then let anything happen: any requests, polls, ticks, bytes and interrupts in any order. Unless a poll
processes one of the responses of C43, there is no undefined behaviour (in particular the driver's pointer never leaves the request buffer).
The line carries exactly the frames of the accepted requests, in order of acceptance, each 1 to `1 + R` times, complete and unaltered; only
the last one may still be under way, and it is complete as soon as the library has been told so. -/
theorem C60_line_carries_requests (cfg : Config) (hw : cfg.MWF) (ops : List HMOp) (hl : ∀ op ∈ ops, op.legal) :
    (∃ s htr, masterSysRun cfg MasterSys.powerOn (.main (.init .rtu) :: ops) = .ok (s, htr) ∧
      ∃ served : List (MReq × Nat), served.map Prod.fst <+: accepted (mainTrace htr) ∧
        (∀ x ∈ served, 1 ≤ x.2 ∧ x.2 ≤ 1 + cfg.repeatMax) ∧
        (served.flatMap fun x => List.replicate x.2 (reqFrame x.1)).dropLast.flatten <+: mwire htr ∧
        mwire htr <+: (served.flatMap fun x => List.replicate x.2 (reqFrame x.1)).flatten ∧
        (s.lib.st ≠ .transmitting ∨ s.lib.txf ≠ .set →
          mwire htr = (served.flatMap fun x => List.replicate x.2 (reqFrame x.1)).flatten)) ∨
      ∃ pre post s htr, ops = pre ++ .main .poll :: post ∧
        masterSysRun cfg MasterSys.powerOn (.main (.init .rtu) :: pre) = .ok (s, htr) ∧ masterStep cfg s.lib .poll = .error .oobRead := by
  obtain ⟨l, h1, h2, h3⟩ := sysInit_ok hw MasterSys.powerOn
  have h0 : MWInv cfg { MasterSys.powerOn with lib := l, gap := false } [] [] :=
    ⟨⟨_, h2⟩, Nat.le_refl _, fun h => absurd h (Nat.lt_irrefl _), .inl ⟨rfl, rfl, rfl⟩⟩
  rcases h0.run hw ops hl with ⟨s, tr, hr, hi⟩ | ⟨pre, post, s, tr, e, hr, -, he⟩
  · refine .inl ⟨s, (.main (.init .rtu), []) :: tr, by simp only [masterSysRun, h1, ok_bind, hr, pure_eq], ?_⟩
    have hrun : masterSysRun cfg MasterSys.powerOn (.main (.init .rtu) :: ops) = .ok (s, (.main (.init .rtu), []) :: tr) := by
      simp only [masterSysRun, h1, ok_bind, hr, pure_eq]
    obtain ⟨mops, t, a1, a2, a3, a4⟩ := device_history hw hl hrun
    obtain ⟨served, b1, b2, b3⟩ := C34_transmissions hw a1 a2
    have hfr : mframes tr = served.flatMap fun x => List.replicate x.2 (reqFrame x.1) := by
      rw [← b3]
      show sends (mainTrace ((.main (.init .rtu), []) :: tr)) = _
      unfold sends
      rw [a4]
    rw [List.nil_append, List.nil_append] at hi
    refine ⟨served, by rw [← a3]; exact b1, b2, ?_⟩
    rw [← hfr]
    show _ <+: mwire tr ∧ mwire tr <+: _ ∧ (_ → mwire tr = _)
    refine ⟨?_, ?_, fun h => hi.complete (hi.idle h)⟩
    · rcases hi.hist with ⟨h1, h2, -⟩ | ⟨done, f, h1, h2, -⟩
      · rw [h1]; exact List.nil_prefix
      · rw [h1, h2, List.dropLast_concat]; exact List.prefix_append _ _
    · rcases hi.hist with ⟨h1, h2, -⟩ | ⟨done, f, h1, h2, -⟩
      · rw [h2]; exact List.nil_prefix
      · rw [h1, h2, List.flatten_append, List.flatten_singleton]
        exact (List.prefix_append_right_inj _).2 (List.take_prefix _ _)
  · refine .inr ⟨pre, post, s, (.main (.init .rtu), []) :: tr, e, by simp only [masterSysRun, h1, ok_bind, hr, pure_eq], he⟩

/-- **C60**, the application's side: the calls and callbacks of the main program of a device are a sequence of transactions (C34, C35, C44). -/
theorem C60_device_transactions (cfg : Config) (hw : cfg.MWF) (ops : List HMOp) (hl : ∀ op ∈ ops, op.legal) (s : MasterSys) (htr : HMTrace)
    (h : masterSysRun cfg MasterSys.powerOn (.main (.init .rtu) :: ops) = .ok (s, htr)) :
    ∃ done cur queued, Transactions cfg.repeatMax (mainTrace htr) done cur queued := by
  obtain ⟨mops, t, a1, a2, a3, a4⟩ := device_history hw hl h
  obtain ⟨done, cur, queued, ht, -⟩ := master_transactions hw a1 a2
  refine ⟨done, cur, queued, ?_, ?_, ht.done_ok, ht.cur_ok, ?_⟩
  · rw [← a3]; exact ht.order
  · rw [← ht.output]; unfold outs; rw [a4]
  · rw [← a3]; exact ht.valid

/-! ### The slave -/

/-- The frame of a transmission. -/
def SOut.bytes : SOut → List U8
  | .send f => f

theorem slaveSends_frames {s s' : SlaveSys} {o : List SOut} {o' : List HOut} (h : slaveSends s o = .ok (s', o')) :
    frames o' = o.map SOut.bytes ∧ s'.lib = s.lib := by
  induction o generalizing s o' with
  | nil => cases h; exact ⟨rfl, rfl⟩
  | cons x o ih =>
    cases x with
    | send f =>
      simp only [slaveSends] at h
      obtain ⟨⟨s1, o1⟩, h1, h2⟩ := bind_ok h
      obtain ⟨⟨s2, o2⟩, h3, h4⟩ := bind_ok h2
      cases h4
      have hu : frames o1 = [] ∧ s1.lib = s.lib := by
        unfold slaveUsartSend at h1
        split at h1
        · obtain ⟨b, -, h5⟩ := bind_ok h1
          cases h5; exact ⟨rfl, rfl⟩
        · cases h1; exact ⟨rfl, rfl⟩
      obtain ⟨i1, i2⟩ := ih h3
      refine ⟨?_, i2.trans hu.2⟩
      show f :: frames (o1 ++ o2) = _
      rw [frames_append, hu.1, i1]; rfl

theorem slaveRun_single {cfg : Config} {l l' : Slave} {op : SOp} {o : List SOut} (h : slaveStep cfg l op = .ok (l', o)) :
    slaveRun cfg l [op] = .ok (l', o) := by
  simp only [slaveRun, h, ok_bind, pure_eq, List.append_nil]

theorem slaveRun_seq {cfg : Config} {l l1 l2 : Slave} {a b : List SOp} {oa ob : List SOut} (h1 : slaveRun cfg l a = .ok (l1, oa))
    (h2 : slaveRun cfg l1 b = .ok (l2, ob)) : slaveRun cfg l (a ++ b) = .ok (l2, oa ++ ob) := by
  induction a generalizing l oa with
  | nil => cases h1; exact h2
  | cons op a ih =>
    simp only [slaveRun] at h1
    obtain ⟨⟨s1, o1⟩, k1, h⟩ := bind_ok h1
    obtain ⟨⟨s2, o2⟩, k2, h⟩ := bind_ok h
    cases h
    simp only [List.cons_append, slaveRun, k1, ok_bind, ih k2, pure_eq, List.append_assoc]

/-- Relation between events of the slave device and what its library experiences. -/
structure SRefines (cfg : Config) (l l' : Slave) (ops : List HOp) (o : List HOut) (sops : List SOp) (os : List SOut) : Prop where
  run : slaveRun cfg l sops = .ok (l', os)
  out : frames o = os.map SOut.bytes
  main : (sops.filter SOp.isMain).Sublist (mainOps ops)
  bytes : bytesOf sops = hbytes ops
  t35 : sops.count .t35 = ops.count .timer

theorem bytesOf_append' (a b : List SOp) : bytesOf (a ++ b) = bytesOf a ++ bytesOf b := by
  induction a with
  | nil => rfl
  | cons x a ih => cases x <;> simp [bytesOf, ih]

theorem SRefines.append {cfg : Config} {l l1 l2 : Slave} {a b : List HOp} {oa ob : List HOut} {sa sb : List SOp} {ra rb : List SOut}
    (x : SRefines cfg l l1 a oa sa ra) (y : SRefines cfg l1 l2 b ob sb rb) : SRefines cfg l l2 (a ++ b) (oa ++ ob) (sa ++ sb) (ra ++ rb) := by
  refine ⟨slaveRun_seq x.run y.run, ?_, ?_, ?_, ?_⟩
  · rw [frames_append, x.out, y.out, List.map_append]
  · rw [List.filter_append, mainOps_append]; exact x.main.append y.main
  · rw [bytesOf_append', hbytes_append, x.bytes, y.bytes]
  · rw [List.count_append, List.count_append, x.t35, y.t35]

theorem slaveStep_irq {cfg : Config} {l l' : Slave} {op : SOp} {o : List SOut} (hm : op.isMain = false) (h : slaveStep cfg l op = .ok (l', o)) :
    slaveRun cfg l [op] = .ok (l', []) := by
  have := slaveStep_out h (by rintro rfl; cases hm)
  subst this
  exact slaveRun_single h

theorem slaveSysStep_refines {cfg : Config} {s s' : SlaveSys} {op : HOp} {o : List HOut} (h : slaveSysStep cfg s op = .ok (s', o)) :
    ∃ sops os, SRefines cfg s.lib s'.lib [op] o sops os := by
  cases op with
  | main op =>
    simp only [slaveSysStep] at h
    split at h
    · cases h
      exact ⟨[], [], rfl, rfl, List.nil_sublist _, rfl, rfl⟩
    · rename_i hn
      obtain ⟨⟨l, o1⟩, h1, h2⟩ := bind_ok h
      obtain ⟨e1, e2⟩ := slaveSends_frames h2
      refine ⟨[op], o1, ?_, e1, ?_, ?_, ?_⟩
      · rw [e2]; exact slaveRun_single h1
      · exact List.filter_sublist
      · cases op <;> first | rfl | exact absurd (.inr rfl) hn
      · cases op <;> first | rfl | exact absurd (.inr rfl) hn
  | rto =>
    cases h
    exact ⟨[], [], rfl, rfl, List.nil_sublist _, rfl, rfl⟩
  | timer =>
    simp only [slaveSysStep] at h
    obtain ⟨⟨l, o1⟩, h1, h2⟩ := bind_ok h
    cases h2
    exact ⟨[.t35], [], slaveStep_irq rfl h1, rfl, List.nil_sublist _, rfl, rfl⟩
  | usart rx txe =>
    simp only [slaveSysStep] at h
    obtain ⟨s1, h1, h⟩ := bind_ok h
    obtain ⟨⟨s2, o2⟩, h2, h⟩ := bind_ok h
    obtain ⟨s3, h3, h⟩ := bind_ok h
    obtain rfl : s3 = s' := congrArg (fun x => (match x with | Except.ok y => y.1 | Except.error _ => s3 : SlaveSys)) h
    obtain rfl : o2 = o := congrArg (fun x => (match x with | Except.ok y => y.2 | Except.error _ => o2 : List HOut)) h
    have p1 : ∃ m, slaveRun cfg s.lib m = .ok (s1.lib, []) ∧ m.filter SOp.isMain = [] ∧ bytesOf m = hbytes [.usart rx txe] ∧ m.count .t35 = 0 := by
      cases rx with
      | none => cases h1; exact ⟨[], rfl, rfl, rfl, rfl⟩
      | some b =>
        simp only [slaveIrqRx] at h1
        obtain ⟨⟨l, o1⟩, h4, h1⟩ := bind_ok h1
        simp only at h1
        split at h1
        · obtain ⟨⟨l', o1'⟩, h5, h1⟩ := bind_ok h1
          cases h1
          exact ⟨[.rxByte b] ++ [.frameErr], slaveRun_seq (slaveStep_irq rfl h4) (slaveStep_irq rfl h5), rfl, rfl, by simp⟩
        · cases h1
          exact ⟨[.rxByte b], slaveStep_irq rfl h4, rfl, rfl, by simp⟩
    have p2 : frames o2 = [] ∧ ∃ m, slaveRun cfg s1.lib m = .ok (s2.lib, []) ∧ m.filter SOp.isMain = [] ∧ bytesOf m = [] ∧ m.count .t35 = 0 := by
      unfold slaveIrqTx at h2
      split at h2
      · split at h2
        · obtain ⟨b, -, h2⟩ := bind_ok h2
          cases h2; exact ⟨rfl, [], rfl, rfl, rfl, rfl⟩
        · obtain ⟨⟨l, o1⟩, h4, h2⟩ := bind_ok h2
          cases h2
          exact ⟨rfl, [.txDone], slaveStep_irq rfl h4, rfl, rfl, by simp⟩
      · cases h2; exact ⟨rfl, [], rfl, rfl, rfl, rfl⟩
    have p3 : ∃ m, slaveRun cfg s2.lib m = .ok (s3.lib, []) ∧ m.filter SOp.isMain = [] ∧ bytesOf m = [] ∧ m.count .t35 = 0 := by
      unfold slaveIrqRto at h3
      split at h3
      · obtain ⟨⟨l, o1⟩, h4, h3⟩ := bind_ok h3
        cases h3
        exact ⟨[.t15], slaveStep_irq rfl h4, rfl, rfl, by simp⟩
      · cases h3; exact ⟨[], rfl, rfl, rfl, rfl⟩
    obtain ⟨m1, a1, a2, a3, a4⟩ := p1
    obtain ⟨b0, m2, b1, b2, b3, b4⟩ := p2
    obtain ⟨m3, c1, c2, c3, c4⟩ := p3
    refine ⟨m1 ++ m2 ++ m3, [], slaveRun_seq (slaveRun_seq a1 b1) c1, b0, ?_, ?_, ?_⟩
    · rw [List.filter_append, List.filter_append, a2, b2, c2]; exact List.nil_sublist _
    · rw [bytesOf_append', bytesOf_append', a3, b3, c3]; simp
    · rw [List.count_append, List.count_append, a4, b4, c4]; rfl

/-- **C61** for the slave. Whatever happens to a slave device, its library goes through a history of its own interface: the frames handed to
the driver are those of that history, the calls of the main program are those made while it was running (it stands still between the 1.5 and the
3.5 character events), the bytes received are the same, and there is one 3.5-char event per timer interrupt. -/
theorem C61_slave_device_refines_library (cfg : Config) (ops : List HOp) : ∀ (s s' : SlaveSys) (o : List HOut),
    slaveSysRun cfg s ops = .ok (s', o) →
    ∃ sops os, slaveRun cfg s.lib sops = .ok (s'.lib, os) ∧ frames o = os.map SOut.bytes ∧ (sops.filter SOp.isMain).Sublist (mainOps ops) ∧
      bytesOf sops = hbytes ops ∧ sops.count .t35 = ops.count .timer := by
  suffices k : ∀ (s s' : SlaveSys) (o : List HOut), slaveSysRun cfg s ops = .ok (s', o) → ∃ sops os, SRefines cfg s.lib s'.lib ops o sops os by
    intro s s' o h
    obtain ⟨m, t, r⟩ := k s s' o h
    exact ⟨m, t, r.run, r.out, r.main, r.bytes, r.t35⟩
  induction ops with
  | nil => intro s s' o h; cases h; exact ⟨[], [], rfl, rfl, List.nil_sublist _, rfl, rfl⟩
  | cons op ops ih =>
    intro s s' o h
    simp only [slaveSysRun] at h
    obtain ⟨⟨s1, o1⟩, h1, h⟩ := bind_ok h
    obtain ⟨⟨s2, o2⟩, h2, h⟩ := bind_ok h
    cases h
    obtain ⟨m1, t1, r1⟩ := slaveSysStep_refines h1
    obtain ⟨m2, t2, r2⟩ := ih _ _ _ h2
    exact ⟨_, _, r1.append r2⟩

/-- **C61**, consequence: a slave device never puts more frames on the line than its 3.5 character timer has fired (C21). -/
theorem C61_slave_frames_le_timer (cfg : Config) (hc : cfg.WF) (mem : AppMem) (ops : List HOp) (s : SlaveSys) (o : List HOut)
    (h : slaveSysRun cfg (SlaveSys.powerOn mem) ops = .ok (s, o)) : (frames o).length ≤ ops.count .timer := by
  obtain ⟨sops, os, h1, h2, -, -, h5⟩ := C61_slave_device_refines_library cfg ops _ _ _ h
  have := (C21_one_response_per_frame cfg hc mem sops s.lib os h1).2
  rw [h2, List.length_map, ← h5]
  exact this

/-! ### Non-vacuity -/

/-- The line and the application's view of a run of a master device without undefined behaviour. -/
def hmoutsOf (r : C (MasterSys × HMTrace)) : Option (List U8 × List MOut) :=
  match r with
  | .ok x => some (mwire x.2, (mainTrace x.2).flatMap Prod.snd)
  | .error _ => none

/-- Reception of bytes by a master device. -/
def hmrx (l : List U8) : List HMOp := l.map fun b => .usart (some b) false

/-- Two requests; the first one is answered correctly, but with a gap in the response (hence transmitted twice), the second one is under way at the end:
the line carries the first request twice and the first bytes of the second one. -/
def sampleHM : List HMOp :=
  [.main (.request (.readHoldingReg 0xFFFF 2 9)), .main (.request (.writeSingleCoil 5 9 true)), .main .poll] ++
  List.replicate 8 (.usart none true) ++ [.main .tick, .main .poll] ++ hmrx [9, 3, 4] ++ [.rto, .usart none false] ++
  hmrx ((rtuFrame 9 [3, 4, 0xAA, 0xBB, 0xCC, 0xDD]).drop 3) ++ [.main .poll, .main .poll, .timer, .main .poll, .main .poll] ++
  List.replicate 8 (.usart none true) ++ [.main .poll] ++ hmrx (rtuFrame 9 [3, 4, 0xAA, 0xBB, 0xCC, 0xDD]) ++ [.rto, .usart none false] ++
  [.main .poll, .timer, .main .poll, .main .poll, .usart none true, .usart none true]

theorem sampleHM_legal : ∀ op ∈ sampleHM, op.legal := by
  have k : ∀ op ∈ sampleHM, op ∈ [.main .poll, .main .tick, .main (.request (.readHoldingReg 0xFFFF 2 9)),
      .main (.request (.writeSingleCoil 5 9 true)), .rto, .timer] ∨ op ∈ hmrx ([9, 3, 4, 0xAA, 0xBB] ++ rtuFrame 9 [3, 4, 0xAA, 0xBB, 0xCC, 0xDD]) ∨
      op ∈ [HMOp.usart none true, .usart none false] := by
    decide +kernel
  intro op ho
  rcases k op ho with h | h | h
  · simp only [List.mem_cons, List.not_mem_nil, or_false] at h
    rcases h with rfl | rfl | rfl | rfl | rfl | rfl
    · exact ⟨rfl, fun _ h => by cases h⟩
    · exact ⟨rfl, fun _ h => by cases h⟩
    · exact ⟨rfl, fun _ h => by cases h; exact fun _ => trivial⟩
    · exact ⟨rfl, fun _ h => by cases h; exact fun _ => trivial⟩
    · trivial
    · trivial
  · obtain ⟨b, -, rfl⟩ := List.mem_map.1 h
    trivial
  · simp only [List.mem_cons, List.not_mem_nil, or_false] at h
    rcases h with rfl | rfl <;> trivial

example : hmoutsOf (masterSysRun Config.default MasterSys.powerOn (.main (.init .rtu) :: sampleHM)) =
    some (rtuFrame 9 [3, 0xFF, 0xFF, 0, 2] ++ rtuFrame 9 [3, 0xFF, 0xFF, 0, 2] ++ [9, 5, 0],
      [.ret .sendToQueue, .ret .sendToQueue, .send (rtuFrame 9 [3, 0xFF, 0xFF, 0, 2]), .send (rtuFrame 9 [3, 0xFF, 0xFF, 0, 2]),
        .event (.hregRead 9 0xFFFF 0xAABB), .event (.hregRead 9 0 0xCCDD), .send (rtuFrame 9 [5, 0, 5, 0xFF, 0])]) := by decide +kernel

end Modbus
