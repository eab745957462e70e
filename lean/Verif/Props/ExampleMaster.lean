import Verif.Model.ExampleMaster
import Verif.Spec.Example
import Verif.Props.DriverSession
import Verif.Props.MasterFaults

/-! C68: the example master program. -/

namespace Modbus

open Spec

theorem refines_mem {cfg : Config} {l l' : Master} {ops : List HMOp} {htr : HMTrace} {mops : List MOp} {tr : MTrace}
    (r : Refines cfg l l' ops htr mops tr) (ho : htr.map Prod.fst = ops) {op : MOp} (hm : op.isMain = true) (h : op ∈ mops) : .main op ∈ ops := by
  have hmem : op ∈ (tr.filter fun x => x.1.isMain).map Prod.fst := by
    rw [← masterRun_ops r.run] at h
    obtain ⟨x, hx, rfl⟩ := List.mem_map.1 h
    exact List.mem_map.2 ⟨x, List.mem_filter.2 ⟨hx, hm⟩, rfl⟩
  rw [r.main] at hmem
  obtain ⟨x, hx, rfl⟩ := List.mem_map.1 hmem
  obtain ⟨y, hy, hxy⟩ := List.mem_filterMap.1 hx
  rw [← ho]
  refine List.mem_map.2 ⟨y, hy, ?_⟩
  revert hxy
  cases y.1 <;> intro hxy <;> cases hxy
  rfl

/-- **C43 for the device**: with bit reads limited to 126 bits nothing that can happen to a master device is undefined behaviour. -/
theorem C43_device_defined {cfg : Config} (hw : cfg.MWF) {ops : List HMOp} (hl : ∀ op ∈ ops, op.legal)
    (hb : ∀ r, .main (.request r) ∈ ops → IsBitRead r → (reqField r).toNat ≤ 126) :
    ∃ s htr, masterSysRun cfg MasterSys.powerOn (.main (.init .rtu) :: ops) = .ok (s, htr) := by
  rcases C60_line_carries_requests cfg hw ops hl with ⟨s, htr, h, -⟩ | ⟨pre, post, s, htr, rfl, h, he⟩
  · exact ⟨s, htr, h⟩
  · exfalso
    have hlp : ∀ op ∈ pre, op.legal := fun op ho => hl op (List.mem_append_left _ ho)
    obtain ⟨l, h1, h2, h3⟩ := sysInit_ok hw MasterSys.powerOn
    simp only [masterSysRun, h1, ok_bind] at h
    obtain ⟨⟨s2, t2⟩, h4, h⟩ := bind_ok h
    cases h
    obtain ⟨m, t, r⟩ := sysRun_refines (fun op ho => (hlp op ho).proper) h4
    have hmem := fun {op : MOp} => refines_mem r (mainTrace_ops h4) (op := op)
    have ho : OpsOk (m ++ [.poll]) := by
      intro op ho
      rcases List.mem_append.1 ho with ho | ho
      · by_cases hm : op.isMain = true
        · have := hlp _ (hmem hm ho)
          cases op <;> first | exact this.elim | exact ⟨by simp, this.2⟩
        · refine ⟨?_, ?_⟩
          · rintro m rfl; exact hm rfl
          · rintro r rfl; exact absurd rfl hm
      · obtain rfl := List.mem_singleton.1 ho
        exact ⟨by simp, by simp⟩
    have hbits : ∀ r, MOp.request r ∈ m ++ [.poll] → IsBitRead r → (reqField r).toNat ≤ 126 := by
      intro q hq
      rcases List.mem_append.1 hq with hq | hq
      · exact hb q (List.mem_append_left _ (hmem rfl hq))
      · cases List.mem_singleton.1 hq
    obtain ⟨s', tr, hr⟩ := C43_defined_partial hw ho Master.powerOn hbits
    have hr' : masterRun cfg Master.powerOn ((.init .rtu :: m) ++ [.poll]) = .ok (s', tr) := hr
    obtain ⟨s1, t1, t2, k1, k2, -⟩ := run_split hr'
    have : masterRun cfg Master.powerOn (.init .rtu :: m) = .ok (s2.lib, [(.init .rtu, [])] ++ t) := run_seq (run_one h3) r.run
    rw [this] at k1
    cases k1
    simp only [masterRun] at k2
    obtain ⟨⟨s3, o⟩, h5, -⟩ := bind_ok k2
    have he' : masterStep cfg s2.lib .poll = .error .oobRead := he
    rw [he'] at h5
    cases h5

/-- Events of the device that the example program may cause. -/
def HMOp.exOk (op : HMOp) : Prop :=
  op.legal ∧ ∀ r, op = .main (.request r) → QtyOk r ∧ (IsBitRead r → (reqField r).toNat ≤ 126)

/-- Relation of the state of the program to the history so far; the number is that of the ticks since the last round. -/
structure ExInv (cfg : Config) (s : ExMaster) (tr : HMTrace) (n : Nat) : Prop where
  run : ∃ hops, (∀ op ∈ hops, HMOp.exOk op) ∧ masterSysRun cfg MasterSys.powerOn (.main (.init .rtu) :: hops) = .ok (s.sys, tr)
  coil : s.app.coil = lastCoil tr
  hreg : s.app.hreg = lastReg tr
  hist : ExHistory tr n
  timer : s.app.timer.toNat = 300 - n

theorem exCallbacks_app (a : ExApp) (o : List HMOut) : (exCallbacks a o).timer = a.timer ∧
    (exCallbacks a o).coil = (o.filterMap callback?).foldl coilAfter a.coil ∧
    (exCallbacks a o).hreg = (o.filterMap callback?).foldl regAfter a.hreg := by
  induction o generalizing a with
  | nil => exact ⟨rfl, rfl, rfl⟩
  | cons x o ih =>
    rcases x with (_ | _ | e) | _
    · exact ih a
    · exact ih a
    · have := ih (exCallback a e)
      have h : (exCallback a e).timer = a.timer ∧ (exCallback a e).coil = coilAfter a.coil e ∧ (exCallback a e).hreg = regAfter a.hreg e := by
        cases e <;> simp only [exCallback, coilAfter, regAfter, and_self] <;> repeat' split
        all_goals simp_all
      rw [h.1, h.2.1, h.2.2] at this
      exact this
    · exact ih a

theorem lastCoil_append (a b : HMTrace) : lastCoil (a ++ b) = (callbacks b).foldl coilAfter (lastCoil a) := by
  simp [lastCoil, callbacks]

theorem lastReg_append (a b : HMTrace) : lastReg (a ++ b) = (callbacks b).foldl regAfter (lastReg a) := by
  simp [lastReg, callbacks]

theorem exOk_run {cfg : Config} (hw : cfg.MWF) {hops more : List HMOp} (h1 : ∀ op ∈ hops, HMOp.exOk op) (h2 : ∀ op ∈ more, HMOp.exOk op)
    {s : MasterSys} {tr : HMTrace} (h : masterSysRun cfg MasterSys.powerOn (.main (.init .rtu) :: hops) = .ok (s, tr)) :
    ∃ s' t', masterSysRun cfg s more = .ok (s', t') ∧
      masterSysRun cfg MasterSys.powerOn (.main (.init .rtu) :: (hops ++ more)) = .ok (s', tr ++ t') := by
  have ha : ∀ op ∈ hops ++ more, HMOp.exOk op := fun op ho => (List.mem_append.1 ho).elim (h1 op) (h2 op)
  obtain ⟨s2, t, h3⟩ := C43_device_defined hw (fun op ho => (ha op ho).1) (fun r hr => ((ha _ hr).2 r rfl).2)
  have h4 : masterSysRun cfg MasterSys.powerOn ((.main (.init .rtu) :: hops) ++ more) = .ok (s2, t) := h3
  obtain ⟨s1, t1, t2, k1, k2, rfl⟩ := sysM_split _ h4
  rw [h] at k1
  cases k1
  exact ⟨s2, t2, k2, h3⟩

theorem ex_request {cfg : Config} (hw : cfg.MWF) {hops : List HMOp} (h1 : ∀ op ∈ hops, HMOp.exOk op) {s : MasterSys} {tr : HMTrace}
    (h : masterSysRun cfg MasterSys.powerOn (.main (.init .rtu) :: hops) = .ok (s, tr)) {r : MReq} (hq : QtyOk r) (hd : QtyOk r → DataOk r)
    {s' : MasterSys} {o : List HMOut} (hs : masterSysStep cfg s (.main (.request r)) = .ok (s', o)) :
    o = [.lib (.ret .sendToQueue)] ∨ o = [.lib (.ret .freeQueueEmpty)] := by
  obtain ⟨mops, t, a1, a2, -, -⟩ := device_history hw (fun op ho => (h1 op ho).1) h
  obtain ⟨done, cur, queued, -, -, -, -, k⟩ := master_transactions hw a1 a2
  obtain ⟨l, e⟩ := k r hd
  simp only [masterSysStep, show ¬ (MOp.isMain (.request r) = false) by simp [MOp.isMain], e, ok_bind] at hs
  rw [if_neg (by simp)] at hs
  split at hs
  · cases hs; exact .inr rfl
  · first | (cases hs; exact .inl rfl) | (rw [if_pos hq] at hs; cases hs; exact .inl rfl)

theorem ex_requests {cfg : Config} (hw : cfg.MWF) (rs : List MReq) : ∀ {hops : List HMOp}, (∀ op ∈ hops, HMOp.exOk op) →
    (∀ r ∈ rs, QtyOk r ∧ DataOk r ∧ (IsBitRead r → (reqField r).toNat ≤ 126)) → ∀ {s s' : MasterSys} {tr t' : HMTrace},
    masterSysRun cfg MasterSys.powerOn (.main (.init .rtu) :: hops) = .ok (s, tr) →
    masterSysRun cfg s (rs.map fun r => .main (.request r)) = .ok (s', t') →
    ∀ x ∈ t', x.2 = [.lib (.ret .sendToQueue)] ∨ x.2 = [.lib (.ret .freeQueueEmpty)] := by
  induction rs with
  | nil => intro hops h1 h2 s s' tr t' h3 h4 x hx; cases h4; exact nomatch hx
  | cons r rs ih =>
    intro hops h1 h2 s s' tr t' h3 h4 x hx
    simp only [List.map_cons, masterSysRun] at h4
    obtain ⟨⟨s2, o⟩, k1, h4⟩ := bind_ok h4
    obtain ⟨⟨s3, t3⟩, k2, h4⟩ := bind_ok h4
    cases h4
    have hr := h2 r (List.mem_cons_self ..)
    have ho := ex_request hw h1 h3 hr.1 (fun _ => hr.2.1) k1
    have hx1 : HMOp.exOk (.main (.request r)) := ⟨⟨rfl, fun q e _ => by cases e; exact hr.2.1⟩, fun q e => by cases e; exact ⟨hr.1, hr.2.2⟩⟩
    rcases List.mem_cons.1 hx with rfl | hx
    · exact ho
    · have h5 : masterSysRun cfg MasterSys.powerOn (.main (.init .rtu) :: (hops ++ [.main (.request r)])) = .ok (s2, tr ++ [(.main (.request r), o)]) :=
        sysM_append _ h3 (sysM_one k1)
      refine ih ?_ (fun q hq => h2 q (List.mem_cons_of_mem _ hq)) h5 k2 x hx
      intro op hop
      rcases List.mem_append.1 hop with hop | hop
      · exact h1 op hop
      · rw [List.mem_singleton.1 hop]; exact hx1

/-- The next count of ticks since the last round. -/
def exTicks (n : Nat) (op : HMOp) : Nat := if op = .main .tick then n + 1 else n

theorem ExInv.device {cfg : Config} (hw : cfg.MWF) {s : ExMaster} {tr : HMTrace} {n : Nat} (h : ExInv cfg s tr n) {op : HMOp} (hl : op.legal)
    (hr : HMOp.isRequest op = false) (a : ExApp) (h1 : a.coil = s.app.coil) (h2 : a.hreg = s.app.hreg) (h3 : a.timer.toNat = 300 - exTicks n op) :
    ∃ s' o, exDevice cfg { s with app := a } op = .ok (s', [(op, o)]) ∧ ExInv cfg s' (tr ++ [(op, o)]) (exTicks n op) := by
  obtain ⟨hops, k1, k2⟩ := h.run
  have k3 : ∀ x ∈ [op], HMOp.exOk x := by
    intro x hx
    obtain rfl := List.mem_singleton.1 hx
    exact ⟨hl, by rintro r rfl; cases hr⟩
  obtain ⟨m, t', k4, k5⟩ := exOk_run hw k1 k3 k2
  simp only [masterSysRun] at k4
  obtain ⟨⟨s2, o⟩, k6, k4⟩ := bind_ok k4
  cases k4
  obtain ⟨c1, c2, c3⟩ := exCallbacks_app a o
  refine ⟨_, o, by simp only [exDevice, k6, ok_bind, pure_eq]; rfl, ⟨hops ++ [op], ?_, k5⟩, ?_, ?_, ?_, ?_⟩
  · intro x hx
    exact (List.mem_append.1 hx).elim (k1 x) (k3 x)
  · rw [lastCoil_append, ← h.coil, ← h1]
    show (exCallbacks a o).coil = _
    rw [c2]; simp [callbacks]
  · rw [lastReg_append, ← h.hreg, ← h2]
    show (exCallbacks a o).hreg = _
    rw [c3]; simp [callbacks]
  · exact .other h.hist hr
  · show (exCallbacks a o).timer.toNat = _
    rw [c1, h3]

/-- A step of the program: defined, and if it is a pass of the main loop over `update_modbus_data` with 300 ticks behind it, a round. -/
theorem ExInv.step {cfg : Config} (hw : cfg.MWF) {s : ExMaster} {tr : HMTrace} {n : Nat} (h : ExInv cfg s tr n) (op : EOp) :
    ∃ s' t', exStep cfg s op = .ok (s', t') ∧ ExInv cfg s' (tr ++ t')
      (if op = .systick then n + 1 else if op = .update ∧ 300 ≤ n then 0 else n) ∧ (op = .update → 300 ≤ n → ∃ x ∈ t', HMOp.isRequest x.1 = true) := by
  have easy : ∀ hop : HMOp, hop.legal → HMOp.isRequest hop = false → hop ≠ .main .tick → ∃ s' t', exDevice cfg s hop = .ok (s', t') ∧
      ExInv cfg s' (tr ++ t') n := by
    intro hop k1 k2 k3
    have e : exTicks n hop = n := if_neg k3
    obtain ⟨s', o, q1, q2⟩ := h.device hw k1 k2 s.app rfl rfl (by rw [e]; exact h.timer)
    rw [e] at q2
    exact ⟨s', _, q1, q2⟩
  cases op with
  | poll =>
    obtain ⟨s', t', k1, k2⟩ := easy (.main .poll) ⟨rfl, by simp⟩ rfl (by simp)
    exact ⟨s', t', k1, by simpa using k2, by simp⟩
  | rto =>
    obtain ⟨s', t', k1, k2⟩ := easy .rto trivial rfl (by simp)
    exact ⟨s', t', k1, by simpa using k2, by simp⟩
  | usart rx txe =>
    obtain ⟨s', t', k1, k2⟩ := easy (.usart rx txe) trivial rfl (by simp)
    exact ⟨s', t', k1, by simpa using k2, by simp⟩
  | timer =>
    obtain ⟨s', t', k1, k2⟩ := easy .timer trivial rfl (by simp)
    exact ⟨s', t', k1, by simpa using k2, by simp⟩
  | systick =>
    have ht := h.timer
    have e : (if s.app.timer = 0 then (0 : U16) else s.app.timer - 1).toNat = 300 - (n + 1) := by
      split
      · rename_i z; rw [z] at ht; simp at ht; simp; omega
      · rename_i z
        have : s.app.timer.toNat ≠ 0 := fun hz => z (BitVec.eq_of_toNat_eq (by simpa using hz))
        have : s.app.timer.toNat < 65536 := s.app.timer.isLt
        rw [BitVec.toNat_sub]; simp; omega
    obtain ⟨s', o, k1, k2⟩ := h.device hw (op := .main .tick) ⟨rfl, by simp⟩ rfl
      { s.app with timer := if s.app.timer = 0 then 0 else s.app.timer - 1 } rfl rfl e
    exact ⟨s', _, k1, by simpa [exTicks] using k2, by simp⟩
  | update =>
    have ht := h.timer
    by_cases hz : s.app.timer = 0
    · have hn : 300 ≤ n := by rw [hz] at ht; simp at ht; omega
      obtain ⟨hops, k1, k2⟩ := h.run
      have hrs : ∀ r ∈ exRequests s.app, QtyOk r ∧ DataOk r ∧ (IsBitRead r → (reqField r).toNat ≤ 126) := by
        intro r hr
        simp only [exRequests, List.mem_cons, List.not_mem_nil, or_false] at hr
        rcases hr with rfl | rfl | rfl | rfl <;> simp [QtyOk, DataOk, reqField, IsBitRead]
      have k3 : ∀ x ∈ (exRequests s.app).map (fun r => HMOp.main (.request r)), HMOp.exOk x := by
        intro x hx
        obtain ⟨r, hr, rfl⟩ := List.mem_map.1 hx
        exact ⟨⟨rfl, fun q e _ => by cases e; exact (hrs r hr).2.1⟩, fun q e => by cases e; exact ⟨(hrs r hr).1, (hrs r hr).2.2⟩⟩
      obtain ⟨m, t', k4, k5⟩ := exOk_run hw k1 k3 k2
      have ho := ex_requests hw _ k1 hrs k2 k4
      have hcb : callbacks t' = [] := by
        unfold callbacks
        rw [List.filterMap_eq_nil_iff]
        intro y hy
        obtain ⟨x, hx, hyx⟩ := List.mem_flatMap.1 hy
        rcases ho x hx with e | e <;> rw [e] at hyx <;> rw [List.mem_singleton.1 hyx] <;> rfl
      have hops' := mainTrace_ops k4
      refine ⟨_, t', by simp only [exStep, hz, if_true, k4, ok_bind, pure_eq]; rfl, ?_, ?_⟩
      · rw [if_neg (by simp), if_pos ⟨rfl, hn⟩]
        refine ⟨⟨_, fun x hx => (List.mem_append.1 hx).elim (k1 x) (k3 x), k5⟩, ?_, ?_, ?_, rfl⟩
        · rw [lastCoil_append, hcb]; exact h.coil
        · rw [lastReg_append, hcb]; exact h.hreg
        · refine .round h.hist hn ?_ ho
          rw [hops', ← h.coil, ← h.hreg]; rfl
      · rintro - -
        have hmem : HMOp.main (.request (.readCoils 1 1 1)) ∈ t'.map Prod.fst := by rw [hops']; exact List.mem_cons_self ..
        obtain ⟨x, hx, e⟩ := List.mem_map.1 hmem
        exact ⟨x, hx, by rw [e]; rfl⟩
    · have hn : ¬ 300 ≤ n := by
        intro hn
        exact hz (BitVec.eq_of_toNat_eq (by simp; omega))
      refine ⟨s, [], by simp only [exStep, if_neg hz], ?_, fun _ hn' => absurd hn' hn⟩
      rw [if_neg (by simp), if_neg (by simp [hn]), List.append_nil]; exact h

/-- The number of ticks since the last round after more events. -/
def exSince (n : Nat) : List EOp → Nat
  | [] => n
  | op :: ops => exSince (if op = .systick then n + 1 else if op = .update ∧ 300 ≤ n then 0 else n) ops

theorem ExInv.runs {cfg : Config} (hw : cfg.MWF) (ops : List EOp) : ∀ {s : ExMaster} {tr : HMTrace} {n : Nat}, ExInv cfg s tr n →
    ∃ s' t', exRun cfg s ops = .ok (s', t') ∧ ExInv cfg s' (tr ++ t') (exSince n ops) := by
  induction ops with
  | nil => intro s tr n h; exact ⟨s, [], rfl, by rw [List.append_nil]; exact h⟩
  | cons op ops ih =>
    intro s tr n h
    obtain ⟨s1, t1, h1, i1, -⟩ := h.step hw op
    obtain ⟨s2, t2, h2, i2⟩ := ih i1
    exact ⟨s2, t1 ++ t2, by simp only [exRun, h1, h2, ok_bind, pure_eq], by rw [← List.append_assoc]; exact i2⟩

theorem ex_init {cfg : Config} (hw : cfg.MWF) : ∃ s, exDevice cfg ExMaster.powerOn (.main (.init .rtu)) = .ok (s, [(.main (.init .rtu), [])]) ∧
    ExInv cfg s [(.main (.init .rtu), [])] 0 := by
  obtain ⟨l, h1, -, -⟩ := sysInit_ok hw MasterSys.powerOn
  refine ⟨_, by
    show exDevice cfg ⟨MasterSys.powerOn, ExMaster.powerOn.app⟩ _ = _
    simp only [exDevice, h1, ok_bind, pure_eq]; rfl, ⟨[], nofun, ?_⟩, rfl, rfl, ?_, rfl⟩
  · simp only [masterSysRun, h1, ok_bind, pure_eq]
  · exact .other (tr := []) .start rfl

theorem exMain_inv {cfg : Config} (hw : cfg.MWF) (ops : List EOp) : ∃ s tr n, exMain cfg ops = .ok (s, tr) ∧ ExInv cfg s tr n := by
  obtain ⟨s1, h1, i1⟩ := ex_init hw
  obtain ⟨s2, t2, h2, i2⟩ := i1.runs hw ops
  exact ⟨s2, _, _, by simp only [exMain, h1, h2, ok_bind, pure_eq], i2⟩

/-- **C68.** The example master program, whatever the main loop and the interrupts do when, and whatever comes in on the line, has no undefined
behaviour. Its request calls come in rounds of four, at least 300 ticks apart: read coil 1 and holding register 1 of slave 1, then write
coil 0 and holding register 0 with the values the application was given last; each is accepted, or turned down because the queue is full.
Its variables hold the values given last. The line carries nothing but the frames of the accepted requests, in order, each 1 to `1 + R` times. -/
theorem C68_example_master (cfg : Config) (hw : cfg.MWF) (ops : List EOp) :
    ∃ s tr, exMain cfg ops = .ok (s, tr) ∧ (∃ n, ExHistory tr n) ∧ s.app.coil = lastCoil tr ∧ s.app.hreg = lastReg tr ∧
      ∃ served : List (MReq × Nat), served.map Prod.fst <+: accepted (mainTrace tr) ∧
        (∀ x ∈ served, 1 ≤ x.2 ∧ x.2 ≤ 1 + cfg.repeatMax) ∧
        (served.flatMap fun x => List.replicate x.2 (reqFrame x.1)).dropLast.flatten <+: mwire tr ∧
        mwire tr <+: (served.flatMap fun x => List.replicate x.2 (reqFrame x.1)).flatten := by
  obtain ⟨s, tr, n, h, i⟩ := exMain_inv hw ops
  refine ⟨s, tr, h, ⟨n, i.hist⟩, i.coil, i.hreg, ?_⟩
  obtain ⟨hops, k1, k2⟩ := i.run
  rcases C60_line_carries_requests cfg hw hops (fun op ho => (k1 op ho).1) with ⟨s', htr, e, served, a1, a2, a3, a4, -⟩ | ⟨pre, post, s1, t1, rfl, k3, k4⟩
  · rw [k2] at e
    cases e
    exact ⟨served, a1, a2, a3, a4⟩
  · exfalso
    have k2' : masterSysRun cfg MasterSys.powerOn ((.main (.init .rtu) :: pre) ++ .main .poll :: post) = .ok (s.sys, tr) := k2
    obtain ⟨s3, t3, t4, q1, q2, -⟩ := sysM_split _ k2'
    rw [k3] at q1
    cases q1
    simp only [masterSysRun] at q2
    obtain ⟨⟨s5, o⟩, h5, -⟩ := bind_ok q2
    simp only [masterSysStep, show ¬ (MOp.isMain .poll = false) by decide, k4] at h5
    cases h5

theorem ExInv.due {cfg : Config} (hw : cfg.MWF) (ops : List EOp) : ∀ {s : ExMaster} {tr : HMTrace} {n : Nat}, ExInv cfg s tr n →
    ∃ s' t' n', exRun cfg s ops = .ok (s', t') ∧ ExInv cfg s' (tr ++ t') n' ∧
      ((∃ x ∈ t', HMOp.isRequest x.1 = true) ∨ n + ops.count .systick ≤ n') := by
  induction ops with
  | nil => intro s tr n h; exact ⟨s, [], n, rfl, by rw [List.append_nil]; exact h, .inr (Nat.le_refl _)⟩
  | cons op ops ih =>
    intro s tr n h
    obtain ⟨s1, t1, h1, i1, k1⟩ := h.step hw op
    obtain ⟨s2, t2, n2, h2, i2, k2⟩ := ih i1
    refine ⟨s2, t1 ++ t2, n2, by simp only [exRun, h1, h2, ok_bind, pure_eq], by rw [← List.append_assoc]; exact i2, ?_⟩
    by_cases hu : op = .update ∧ 300 ≤ n
    · obtain ⟨x, hx, hr⟩ := k1 hu.1 hu.2
      exact .inl ⟨x, List.mem_append_left _ hx, hr⟩
    · rcases k2 with ⟨x, hx, hr⟩ | k2
      · exact .inl ⟨x, List.mem_append_right _ hx, hr⟩
      · rw [if_neg hu] at k2
        refine .inr ?_
        by_cases hs : op = .systick
        · subst hs
          rw [if_pos rfl] at k2
          rw [List.count_cons_self]; omega
        · rw [if_neg hs] at k2
          rw [List.count_cons_of_ne hs]; exact k2

/-- **C68**, progress: after any history, 300 ticks followed by a pass of the main loop bring about (at least) a round of requests. -/
theorem C68_round_due (cfg : Config) (hw : cfg.MWF) (ops more : List EOp) (h300 : 300 ≤ more.count .systick) :
    ∃ s tr s' tr', exMain cfg ops = .ok (s, tr) ∧ exRun cfg s (more ++ [.update]) = .ok (s', tr') ∧ ∃ x ∈ tr', HMOp.isRequest x.1 = true := by
  obtain ⟨s, tr, n, h, i⟩ := exMain_inv hw ops
  obtain ⟨s1, t1, n1, h1, i1, k1⟩ := i.due hw more
  obtain ⟨s2, t2, h2, i2, k2⟩ := i1.step hw .update
  refine ⟨s, tr, s2, t1 ++ t2, h, ?_, ?_⟩
  · have : ∀ (l : List EOp) (a b : ExMaster) (t : HMTrace), exRun cfg a l = .ok (b, t) → exStep cfg b .update = .ok (s2, t2) →
        exRun cfg a (l ++ [.update]) = .ok (s2, t ++ t2) := by
      intro l
      induction l with
      | nil => intro a b t q1 q2; cases q1; simp only [List.nil_append, exRun, q2, ok_bind, pure_eq, List.append_nil]
      | cons op l ih =>
        intro a b t q1 q2
        simp only [exRun] at q1
        obtain ⟨⟨c, tc⟩, q3, q1⟩ := bind_ok q1
        obtain ⟨⟨d, td⟩, q4, q1⟩ := bind_ok q1
        cases q1
        simp only [List.cons_append, exRun, q3, ok_bind, ih c d td q4 q2, pure_eq, List.append_assoc]
    exact this more s s1 t1 h1 h2
  · rcases k1 with ⟨x, hx, hr⟩ | k1
    · exact ⟨x, List.mem_append_left _ hx, hr⟩
    · obtain ⟨x, hx, hr⟩ := k2 rfl (by omega)
      exact ⟨x, List.mem_append_right _ hx, hr⟩

/-- What went over the line and the values of the program's variables after a run. -/
def exOf (r : C (ExMaster × HMTrace)) : Option (List U8 × Bool × U16) :=
  match r with
  | .ok (s, tr) => some (mwire tr, s.app.coil, s.app.hreg)
  | .error _ => none

/-- A run: 300 ticks, a round, the first request goes out, the slave answers that the coil is on. -/
def sampleEx : List EOp :=
  List.replicate 300 .systick ++ [.update, .poll] ++ List.replicate 8 (.usart none true) ++ [.poll] ++
    ([0x01, 0x01, 0x01, 0x01, 0x90, 0x48].map fun b => .usart (some b) false) ++ [.rto, .usart none false, .poll, .timer, .poll, .poll]

example : exOf (exMain Config.default sampleEx) = some ([0x01, 0x01, 0x00, 0x01, 0x00, 0x01, 0xAC, 0x0A, 0x01], true, 0) := by decide +kernel


end Modbus
