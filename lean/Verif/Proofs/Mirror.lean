import Verif.Spec.Mirror
import Verif.Props.Bus
import Verif.Props.Repeat
import Verif.Props.ExampleMaster
import Verif.Props.ExampleSlave

/-! Proofs for C93: the two example programs on one bus. -/

namespace Modbus

open Spec

/-! ### One slave, requests one after the other -/

/-- The callbacks of requests served one after the other from memory `m`. -/
def seqEvs (l : Limits) : AppMem → List MReq → List MEvent
  | _, [] => []
  | m, r :: rs => outcome l m r ++ seqEvs l (effect l m (asRequest r)) rs

/-- The memory after requests served one after the other from memory `m`. -/
def seqMem (l : Limits) : AppMem → List MReq → AppMem
  | m, [] => m
  | m, r :: rs => seqMem l (effect l m (asRequest r)) rs

theorem attends_polls {l : Limits} {r : MReq} {m m' : AppMem} {e : Ear} {x : Option AppMem} (h : Attends l r m e x m') (hp : ∀ op ∈ mainOps e.ops, op = .poll) :
    (x = none ∧ m' = m) ∨ (x = some m ∧ m' = effect l m (asRequest r)) := by
  cases h with
  | unheard h => exact .inl ⟨rfl, appMem_polls _ hp m⟩
  | heard h split ht =>
    rename_i pre post
    rw [split, mainOps_append] at hp
    have e1 : ∀ m, appMem m (mainOps pre) = m := appMem_polls _ fun op ho => hp op (List.mem_append_left _ ho)
    have e2 : ∀ m, appMem m (mainOps post) = m := appMem_polls _ fun op ho => hp op (List.mem_append_right _ (List.mem_cons_of_mem _ ho))
    rw [e1, e2]
    exact .inr ⟨rfl, rfl⟩

theorem attendsAll_polls {l : Unit → Limits} {r : MReq} {m m' : Unit → AppMem} {es : List (Unit → Ear)} (h : AttendsAll l r m es m') :
    (∀ e ∈ es, ∀ op ∈ mainOps (e ()).ops, op = .poll) → m' () = m () ∨ m' () = effect (l ()) (m ()) (asRequest r) := by
  induction h with
  | nil m => intro _; exact .inl rfl
  | cons h hs ih =>
    intro hp
    have h1 := attends_polls (h ()) (hp _ (List.mem_cons_self ..))
    have h2 := ih fun e he => hp e (List.mem_cons_of_mem _ he)
    rcases h1 with ⟨-, h1⟩ | ⟨-, h1⟩ <;> rcases h2 with h2 | h2 <;> rw [h1] at h2
    · exact .inl h2
    · exact .inr h2
    · exact .inr h2
    · exact .inr (by rw [h2, effect_again])

theorem told_seq {l : Unit → Limits} {id : Unit → U8} {m m' : Unit → AppMem} {bs : List (BusRound Unit)} {txs : List Tx} (h : BusTold l id m bs txs m') :
    (∀ b ∈ bs, ∀ op ∈ mainOps (heardIn () b), op = .poll) → (∀ b ∈ bs, ∃ f, b.told = .response f) →
    txs.flatMap Tx.evs = seqEvs (l ()) (m ()) (bs.map fun b => b.round.req) ∧ m' () = seqMem (l ()) (m ()) (bs.map fun b => b.round.req) := by
  induction h with
  | nil m => intro _ _; exact ⟨rfl, rfl⟩
  | @cons m m1 m2 m3 at' b bs t ts hr hc hf hl he ho hs ih =>
    intro hp ha
    obtain ⟨f, hfr⟩ := ha b (List.mem_cons_self ..)
    have hpb := hp b (List.mem_cons_self ..)
    have hp1 : ∀ e ∈ b.ears, ∀ op ∈ mainOps (e ()).ops, op = .poll := by
      intro e hem op hop
      refine hpb op ?_
      unfold heardIn
      rw [mainOps_append]
      refine List.mem_append_left _ ?_
      generalize b.ears = es at hem
      induction es with
      | nil => cases hem
      | cons e' es ih =>
        rw [List.flatMap_cons, mainOps_append]
        rcases List.mem_cons.1 hem with rfl | hem
        · exact List.mem_append_left _ hop
        · exact List.mem_append_right _ (ih hem)
    have hp2 : ∀ op ∈ mainOps (b.lastEar ()).ops, op = .poll := by
      intro op hop
      refine hpb op ?_
      unfold heardIn
      rw [mainOps_append]
      exact List.mem_append_right _ hop
    obtain ⟨i, mem, -, k2, k3⟩ := ho f hfr
    have k1 := attendsAll_polls hf hp1
    have k4 := attends_polls (hl ()) hp2
    have e : at' i = at' () := rfl
    rw [e] at k2
    rcases k4 with ⟨k4, -⟩ | ⟨k4, k5⟩
    · rw [k4] at k2; cases k2
    rw [k4] at k2
    cases k2
    have hm2 : m2 () = effect (l ()) (m ()) (asRequest b.round.req) := by
      rw [k5]
      rcases k1 with k1 | k1 <;> rw [k1]
      exact effect_again _ _ _
    have hev : t.evs = outcome (l ()) (m ()) b.round.req := by
      rw [show t.evs = outcome (l ()) (m1 ()) b.round.req from k3]
      rcases k1 with k1 | k1 <;> rw [k1]
      exact outcome_again _ _ _
    obtain ⟨j1, j2⟩ := ih (fun b hb => hp b (List.mem_cons_of_mem _ hb)) (fun b hb => ha b (List.mem_cons_of_mem _ hb))
    rw [hm2] at j1 j2
    refine ⟨?_, j2⟩
    rw [List.flatMap_cons, j1, hev]
    rfl

/-! ### The master's program -/

/-- A request call of the example program is accepted or turned down because the queue is full. -/
theorem exHistory_requests {tr : HMTrace} {n : Nat} (h : ExHistory tr n) : ∀ x ∈ tr, HMOp.isRequest x.1 = true →
    x.2 = [.lib (.ret .sendToQueue)] ∨ x.2 = [.lib (.ret .freeQueueEmpty)] := by
  induction h with
  | start => intro x hx; cases hx
  | other h hr ih =>
    intro x hx hq
    rcases List.mem_append.1 hx with hx | hx
    · exact ih x hx hq
    · rw [List.mem_singleton.1 hx, hr] at hq; cases hq
  | round h _ _ ho ih =>
    intro x hx hq
    rcases List.mem_append.1 hx with hx | hx
    · exact ih x hx hq
    · exact ho x hx

theorem exHistory_refused {tr : HMTrace} {n : Nat} (h : ExHistory tr n) : refused (mainTrace tr) = 0 := by
  unfold refused
  rw [List.countP_eq_zero]
  rintro ⟨op, o⟩ hx
  unfold mainTrace at hx
  obtain ⟨⟨y, p⟩, h1, h2⟩ := List.mem_filterMap.1 hx
  cases y with
  | main y =>
    simp only [Option.some.injEq, Prod.mk.injEq] at h2
    obtain ⟨rfl, rfl⟩ := h2
    cases y with
    | request r => rcases exHistory_requests h _ h1 rfl with e | e <;> rw [show p = _ from e] <;> exact Bool.false_ne_true
    | _ => exact Bool.false_ne_true
  | _ => cases h2

theorem refused_filter (tr : MTrace) : refused (tr.filter fun x => x.1.isMain) = refused tr := by
  induction tr with
  | nil => rfl
  | cons x tr ih =>
    obtain ⟨op, o⟩ := x
    unfold refused at ih ⊢
    cases op <;> first
      | (rw [List.filter_cons_of_pos (by rfl), List.countP_cons, List.countP_cons, ih])
      | (rw [List.filter_cons_of_neg (by simp [MOp.isMain]), List.countP_cons, ih]; rfl)

/-- The bookkeeping at the end of a history from initialisation, with the buffers that went missing. -/
theorem ex_ghost {cfg : Config} (hw : cfg.MWF) {hops : List HMOp} (hl : ∀ op ∈ hops, op.legal) {s : MasterSys} {tr : HMTrace}
    (h : masterSysRun cfg MasterSys.powerOn (.main (.init .rtu) :: hops) = .ok (s, tr)) (hidle : s.lib.st = .idle) :
    ∃ g done, MInv cfg s.lib g ∧ g.Valid cfg ∧ g.cur = none ∧ g.lost.length = refused (mainTrace tr) ∧
      Transactions cfg.repeatMax (mainTrace tr) done none g.pend := by
  obtain ⟨l0, h1, h2, h3⟩ := sysInit_ok hw MasterSys.powerOn
  simp only [masterSysRun, h1, ok_bind] at h
  obtain ⟨⟨s2, t2⟩, h4, h⟩ := bind_ok h
  cases h
  obtain ⟨m, t, r⟩ := sysRun_refines (fun op ho => (hl op ho).proper) h4
  have hok : OpsOk m := by
    intro op ho
    by_cases hm : op.isMain = true
    · have := hl _ (refines_mem r (mainTrace_ops h4) hm ho)
      cases op <;> first | exact this.elim | exact ⟨by simp, this.2⟩
    · refine ⟨?_, ?_⟩
      · rintro m rfl; exact hm rfl
      · rintro r rfl; exact absurd rfl hm
  obtain ⟨g, b1, b2⟩ := masterRun_ok hw hok h2 r.run
  obtain ⟨c1, c2, done, d1, d2, d3, d4⟩ := b2.transactions (Ghost.fresh_valid cfg)
  have hc := b1.idle_iff.1 hidle
  have ht : g.tx = none := by simp [Ghost.tx, hc]
  rw [ht] at d2 d3
  refine ⟨g, done, b1, c1, hc, ?_, ?_, ?_, d1, by simp, ?_⟩
  · rw [d4, show refused t = refused (mainTrace t2) by rw [← r.main, refused_filter]]
    show 0 + _ = refused ((_, _) :: mainTrace t2)
    rw [Nat.zero_add]; rfl
  · show accepted (mainTrace t2) = _
    rw [← r.accepted]
    simpa [Ghost.fresh, Ghost.tx] using d2
  · show outs (mainTrace t2) = _
    have : outs t = outs (mainTrace t2) := by unfold outs; rw [r.flat]
    rw [← this]
    simpa [Ghost.fresh, Ghost.tx, curOuts] using d3
  · show ∀ r ∈ accepted (mainTrace t2), _
    rw [← r.accepted]; exact c2

/-- Request calls on an idle device with enough free messages. -/
theorem ghost_requests {cfg : Config} (hw : cfg.MWF) {fe ce : Bool} (rs : List MReq) : (∀ r ∈ rs, QtyOk r ∧ DataOk r) → ∀ {s s' : MasterSys} {g : Ghost} {t : HMTrace},
    MInv cfg s.lib g → g.Valid cfg → Standing fe ce s.lib → rs.length ≤ g.fl.length →
    masterSysRun cfg s (rs.map fun r => .main (.request r)) = .ok (s', t) →
    ∃ g', MInv cfg s'.lib g' ∧ g'.Valid cfg ∧ g'.cur = g.cur ∧ g'.pend = g.pend ++ rs ∧ Standing fe ce s'.lib ∧
      t = rs.map fun r => (.main (.request r), [.lib (.ret .sendToQueue)]) := by
  induction rs with
  | nil =>
    intro _ s s' g t hi hv hs _ h
    cases h
    exact ⟨g, hi, hv, rfl, (List.append_nil _).symm, hs, rfl⟩
  | cons r rs ih =>
    intro hq s s' g t hi hv hs hle h
    obtain ⟨hq1, hd1⟩ := hq r (List.mem_cons_self ..)
    obtain ⟨l, o, g0, k1, k2, -⟩ := step_effect hw hi (op := .request r) (by simp) ⟨by simp, fun q e _ => by cases e; exact hd1⟩
    have hrun : masterRun cfg s.lib [.request r] = .ok (l, [(.request r, o)]) := run_one k1
    obtain ⟨g1, b1, b2⟩ := masterRun_ok hw (by
      intro op ho
      obtain rfl := List.mem_singleton.1 ho
      exact ⟨by simp, fun q e _ => by cases e; exact hd1⟩) hi hrun
    have hg : o = [.ret .sendToQueue] ∧ g1.cur = g.cur ∧ g1.pend = g.pend ++ [r] ∧ g1.Valid cfg ∧ g1.fl.length + 1 = g.fl.length := by
      cases b2 with
      | cons c1 c2 =>
        have hv1 := c1.valid hv
        cases c2
        cases c1 with
        | accept r i fl h hq => exact ⟨rfl, rfl, rfl, hv1, by rw [h]; rfl⟩
        | full r h => rw [h] at hle; cases hle
        | refuse r i fl h hq => exact absurd hq1 hq
        | silent op h => exact absurd rfl (h r)
    obtain ⟨rfl, e1, e2, e3, e4⟩ := hg
    have hst : Standing fe ce l := ⟨k2.st.trans hs.st, by rw [k2.t15', if_neg (by simp)]; exact hs.t15, by rw [k2.ferr', if_neg (by simp)]; exact hs.ferr,
      k2.crcf.trans hs.crcf⟩
    have hstep := sys_main (s := s) rfl (by simp) k1 (by simp)
    simp only [List.map_cons, masterSysRun, hstep, ok_bind] at h
    obtain ⟨⟨s2, t2⟩, h2, h⟩ := bind_ok h
    cases h
    obtain ⟨g', j1, j2, j3, j4, j5, j6⟩ := ih (fun q hm => hq q (List.mem_cons_of_mem _ hm)) (s := { s with lib := l }) b1 e3 hst
      (by rw [List.length_cons] at hle; omega) h2
    refine ⟨g', j1, j2, j3.trans e1, by rw [j4, e2, List.append_assoc]; rfl, j5, by rw [j6]; rfl⟩

/-- The device under the program. -/
theorem exRun_sys {cfg : Config} (ops : List EOp) : ∀ {s s' : ExMaster} {tr : HMTrace}, exRun cfg s ops = .ok (s', tr) →
    masterSysRun cfg s.sys (tr.map Prod.fst) = .ok (s'.sys, tr) := by
  induction ops with
  | nil => intro s s' tr h; cases h; rfl
  | cons op ops ih =>
    intro s s' tr h
    simp only [exRun] at h
    obtain ⟨⟨s1, t1⟩, k1, h⟩ := bind_ok h
    obtain ⟨⟨s2, t2⟩, k2, h⟩ := bind_ok h
    cases h
    rw [List.map_append]
    refine sysM_append _ ?_ (ih k2)
    have dev : ∀ {x : ExMaster} {hop : HMOp}, exDevice cfg x hop = .ok (s1, t1) → masterSysRun cfg x.sys (t1.map Prod.fst) = .ok (s1.sys, t1) := by
      intro x hop hd
      simp only [exDevice] at hd
      obtain ⟨⟨m, o⟩, q, hd⟩ := bind_ok hd
      cases hd
      exact sysM_one q
    cases op with
    | update =>
      simp only [exStep] at k1
      split at k1
      · obtain ⟨⟨m, t⟩, q, k1⟩ := bind_ok k1
        cases k1
        show masterSysRun cfg s.sys (List.map Prod.fst _) = _
        rw [mainTrace_ops q]
        exact q
      · cases k1; rfl
    | systick => exact dev (x := { s with app := { s.app with timer := if s.app.timer = 0 then 0 else s.app.timer - 1 } }) k1
    | poll => exact dev k1
    | rto => exact dev k1
    | usart rx txe => exact dev k1
    | timer => exact dev k1

/-- The callback among the library's outputs. -/
def evOf : MOut → Option MEvent
  | .event e => some e
  | _ => none

theorem callbacks_outs {tr : HMTrace} (h : ∀ x ∈ tr, (∀ m, x.1 ≠ .main m) → libOuts x.2 = []) : callbacks tr = (outs (mainTrace tr)).filterMap evOf := by
  have e1 : ∀ o : List HMOut, o.filterMap callback? = ((libOuts o).filter isOut).filterMap evOf := by
    intro o
    induction o with
    | nil => rfl
    | cons x o ih =>
      rcases x with (_ | _ | e) | _
      · exact ih
      · exact ih
      · exact congrArg (e :: ·) ih
      · exact ih
  induction tr with
  | nil => rfl
  | cons x tr ih =>
    replace ih := ih fun y hy => h y (List.mem_cons_of_mem _ hy)
    have hx := h x (List.mem_cons_self ..)
    have e2 : callbacks (x :: tr) = x.2.filterMap callback? ++ callbacks tr := by
      unfold callbacks
      rw [List.flatMap_cons, List.filterMap_append]
    rw [e2, e1, ih]
    obtain ⟨op, o⟩ := x
    cases op with
    | main m =>
      have : mainTrace ((HMOp.main m, o) :: tr) = (m, libOuts o) :: mainTrace tr := rfl
      rw [this]
      have := outs_append [(m, libOuts o)] (mainTrace tr)
      rw [show [(m, libOuts o)] ++ mainTrace tr = (m, libOuts o) :: mainTrace tr from rfl] at this
      rw [this, List.filterMap_append]
      congr 1
      unfold outs
      simp
    | _ => rw [show libOuts o = [] from hx (by simp)]; rfl

theorem irq_silent {cfg : Config} {ops : List HMOp} : ∀ {s s' : MasterSys} {tr : HMTrace}, masterSysRun cfg s ops = .ok (s', tr) →
    ∀ x ∈ tr, (∀ m, x.1 ≠ .main m) → libOuts x.2 = [] := by
  induction ops with
  | nil => intro s s' tr h x hx; cases h; cases hx
  | cons op ops ih =>
    intro s s' tr h x hx hn
    simp only [masterSysRun] at h
    obtain ⟨⟨s1, o⟩, k1, h⟩ := bind_ok h
    obtain ⟨⟨s2, t2⟩, k2, h⟩ := bind_ok h
    cases h
    rcases List.mem_cons.1 hx with rfl | hx
    · cases op with
      | main m => exact absurd rfl (hn m)
      | rto => cases k1; rfl
      | timer =>
        simp only [masterSysStep] at k1
        obtain ⟨⟨l, o'⟩, -, k1⟩ := bind_ok k1
        cases k1; rfl
      | usart rx txe =>
        simp only [masterSysStep] at k1
        obtain ⟨s3, -, k1⟩ := bind_ok k1
        obtain ⟨⟨s4, o4⟩, q2, k1⟩ := bind_ok k1
        obtain ⟨s5, -, k1⟩ := bind_ok k1
        cases k1
        simp only [masterIrqTx] at q2
        split at q2
        · split at q2
          · obtain ⟨b, -, q2⟩ := bind_ok q2
            cases q2; rfl
          · obtain ⟨⟨l, o'⟩, -, q2⟩ := bind_ok q2
            cases q2; rfl
        · cases q2; rfl
    · exact ih k2 x hx hn

theorem evs_outs (txs : List Tx) : (txs.flatMap Tx.outs).filterMap evOf = txs.flatMap Tx.evs := by
  have h1 : ∀ t : Tx, t.outs.filterMap evOf = t.evs := by
    intro t
    unfold Tx.outs
    rw [List.filterMap_append]
    have a : ∀ n f, (List.replicate n (MOut.send f)).filterMap evOf = [] := by
      intro n f
      induction n with
      | zero => rfl
      | succ n ih => rw [List.replicate_succ]; exact ih
    have b : ∀ evs : List MEvent, (evs.map MOut.event).filterMap evOf = evs := by
      intro evs
      induction evs with
      | nil => rfl
      | cons e evs ih => exact congrArg (e :: ·) ih
    rw [a, b, List.nil_append]
  induction txs with
  | nil => rfl
  | cons t ts ih => rw [List.flatMap_cons, List.flatMap_cons, List.filterMap_append, ih, h1]

/-! ### The slave's side -/

theorem slavesRuns_heard {cfg : Unit → Config} {id : Unit → U8} {r : MReq} {sl sl' : Unit → SlaveSys} {es : List (Unit → Ear)} (h : SlavesRuns cfg id r sl es sl') :
    ∃ o, slaveSysRun (cfg ()) (sl ()) (es.flatMap fun e => (e ()).ops) = .ok (sl' (), o) := by
  induction h with
  | nil sl => exact ⟨[], rfl⟩
  | cons h hs ih =>
    obtain ⟨o, ih⟩ := ih
    exact ⟨_, sysRun_append _ (h ()).2 ih⟩

theorem busSession_heard {cfg : Unit → Config} {id : Unit → U8} {sl sl' : Unit → SlaveSys} {bs : List (BusRound Unit)} (h : BusSession cfg id sl bs sl') :
    ∃ o, slaveSysRun (cfg ()) (sl ()) (bs.flatMap (heardIn ())) = .ok (sl' (), o) := by
  induction h with
  | nil sl => exact ⟨[], rfl⟩
  | cons hf hn hl hr hs ih =>
    obtain ⟨o1, a1⟩ := slavesRuns_heard hf
    obtain ⟨o, ih⟩ := ih
    rw [List.flatMap_cons]
    exact ⟨_, sysRun_append _ (sysRun_append _ a1 (hl ()).2) ih⟩

theorem mainOps_flatMap {α : Type} (f : α → List HOp) (l : List α) : mainOps (l.flatMap f) = l.flatMap fun x => mainOps (f x) := by
  induction l with
  | nil => rfl
  | cons x l ih => rw [List.flatMap_cons, mainOps_append, ih, List.flatMap_cons]

end Modbus
