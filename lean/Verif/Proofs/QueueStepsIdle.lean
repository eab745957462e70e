import Verif.Proofs.QueueStepsPoll

/-! C88: taking a message from the queue of requests while requests are added to it. -/

namespace Modbus

open Spec

/-- No message in transaction. -/
def NoCur (cfg : Config) (q : Master) : Prop := ∃ g, MInv cfg q g ∧ g.cur = none

/-- No message in transaction, and `i` is the next one. -/
def FrontIs (cfg : Config) (i : Nat) (q : Master) : Prop := ∃ g l, MInv cfg q g ∧ g.cur = none ∧ g.tl = i :: l

theorem genReq_nocur {cfg : Config} (hw : cfg.MWF) (t : Master) {s : Master} (h : NoCur cfg s) {r : MReq} (hr : QtyOk r → DataOk r) :
    ∃ c s', generateRequest cfg s r.param = .ok (c, s') ∧ NoCur cfg s' ∧ generateRequest cfg (over t s) r.param = .ok (c, over t s') := by
  obtain ⟨g, h, hc⟩ := h
  obtain ⟨c, s', g', k1, k2, k3, -⟩ := genReq_inv hw h hr
  exact ⟨c, s', k1, ⟨g', k2, by rw [k3, hc]⟩, genReq_view k1 t (fun x fq hp => ⟨hp, fun _ _ => rfl⟩) (fun j fq tq y _ hp => ⟨y, hp⟩)⟩

theorem ints_nocur {cfg : Config} (hw : cfg.MWF) {l : List MReq} (hl : ReqsOk l) {x : QMaster} (h : NoCur cfg x.lib) :
    ∃ x', runInts (reqInt cfg) x l = .ok x' ∧ NoCur cfg x'.lib := by
  obtain ⟨x', k1, k2, -⟩ := ints_view (NoCur cfg) x.lib (fun _ _ h hr => genReq_nocur hw x.lib h hr) hl h
  exact ⟨x', k1, k2⟩

/-- A modification of the queue of requests that leaves room for a push. -/
def PushOk (n : Nat) (ψ : Queue Nat → Queue Nat) : Prop :=
  ∀ q j tq z, q.tail.toNat < n → q.head.toNat < n → q.head ≠ q.tail → q.push n (some j) = .ok (tq, z) → ∃ z', (ψ q).push n (some j) = .ok (ψ tq, z')

theorem genReq_front {cfg : Config} (hw : cfg.MWF) (t : Master) {i : Nat} {ψ : Queue Nat → Queue Nat} (hψ : PushOk cfg.queueItems ψ) {s : Master} (h : FrontIs cfg i s)
    {r : MReq} (hr : QtyOk r → DataOk r) :
    ∃ c s', generateRequest cfg s r.param = .ok (c, s') ∧ FrontIs cfg i s' ∧
      generateRequest cfg (qview t id ψ (fun _ => false) s) r.param = .ok (c, qview t id ψ (fun _ => false) s') := by
  obtain ⟨g, l, h, hc, ht⟩ := h
  obtain ⟨c, s', g', k1, k2, k3, k4, -⟩ := genReq_inv hw h hr
  obtain ⟨l', hl'⟩ := k4 i l ht
  refine ⟨c, s', k1, ⟨g', l', k2, by rw [k3, hc], hl'⟩, genReq_view k1 t (fun x fq hp => ⟨hp, fun _ _ => rfl⟩) (fun j fq tq y hp hq => ?_)⟩
  have hlen := h.lengths
  have hfl : g.fl ≠ [] := by
    intro e
    have hf := h.free
    rw [e] at hf
    rw [hf.pop_nil] at hp
    cases hp
  have hfl' : 0 < g.fl.length := by cases hg : g.fl with
    | nil => exact absurd hg hfl
    | cons a b => simp
  have htl : 0 < g.tl.length := by rw [ht]; simp
  refine hψ _ j tq y h.tx.tail_lt ?_ ?_ hq
  · rw [h.tx.head_eq]; exact Nat.mod_lt _ (by omega)
  · intro e
    rcases h.tx.head_tail.1 e with e | e <;> omega

theorem ints_front {cfg : Config} (hw : cfg.MWF) (t : Master) {i : Nat} {ψ : Queue Nat → Queue Nat} (hψ : PushOk cfg.queueItems ψ) {l : List MReq} (hl : ReqsOk l) {x : QMaster}
    (h : FrontIs cfg i x.lib) :
    ∃ x', runInts (reqInt cfg) x l = .ok x' ∧ FrontIs cfg i x'.lib ∧
      runInts (reqInt cfg) { lib := qview t id ψ (fun _ => false) x.lib, rets := x.rets } l = .ok { lib := qview t id ψ (fun _ => false) x'.lib, rets := x'.rets } :=
  ints_view (FrontIs cfg i) t (fun _ _ h hr => genReq_front hw t hψ h hr) hl h

theorem PushOk.id (n : Nat) : PushOk n id := fun _ _ _ z _ _ _ h => ⟨z, h⟩

theorem push_ne {n : Nat} {q tq : Queue Nat} {j : Nat} {z : Option Nat} (hn : q.head ≠ q.tail) (hh : q.head.toNat < n) (h : q.push n (some j) = .ok (tq, z)) :
    tq = pushed n j q := by
  unfold Queue.push at h
  rw [if_neg (by omega), if_neg hn] at h
  simp only [slotWr, if_pos hh] at h
  cases h
  rfl

theorem push_eq {n : Nat} {q : Queue Nat} {j : Nat} (hn : q.head ≠ q.tail) (hh : q.head.toNat < n) : q.push n (some j) = .ok (pushed n j q, none) := by
  unfold Queue.push
  rw [if_neg (by omega), if_neg hn]
  simp only [slotWr, if_pos hh]
  rfl

def emptied (q : Queue Nat) : Queue Nat := { q with arr := fun j => if j = q.tail.toNat then none else q.arr j }
def counted (q : Queue Nat) : Queue Nat := { emptied q with items := q.items - 1 }

theorem arr_comm {q : Queue Nat} (hn : q.head ≠ q.tail) (j : Nat) :
    (fun k => if k = q.head.toNat then some j else if k = q.tail.toNat then none else q.arr k) =
    (fun k => if k = q.tail.toNat then none else if k = q.head.toNat then some j else q.arr k) := by
  have hne : q.head.toNat ≠ q.tail.toNat := fun e => hn (BitVec.eq_of_toNat_eq e)
  funext k
  by_cases h1 : k = q.head.toNat
  · subst h1; simp [hne]
  · simp [h1]

theorem PushOk.emptied (n : Nat) : PushOk n emptied := by
  intro q j tq z ht hh hn h
  have h2 := push_ne hn hh h
  subst h2
  refine ⟨none, ?_⟩
  rw [push_eq (q := Modbus.emptied q) hn hh]
  simp only [Except.ok.injEq, Prod.mk.injEq, and_true]
  simp only [pushed, slotted, Modbus.emptied, Queue.mk.injEq, true_and]
  exact arr_comm hn j

theorem PushOk.counted (n : Nat) : PushOk n counted := by
  intro q j tq z ht hh hn h
  have h2 := push_ne hn hh h
  subst h2
  refine ⟨none, ?_⟩
  rw [push_eq (q := Modbus.counted q) hn hh]
  simp only [Except.ok.injEq, Prod.mk.injEq, and_true]
  simp only [pushed, slotted, Modbus.counted, Modbus.emptied, Queue.mk.injEq, true_and]
  refine ⟨?_, arr_comm hn j⟩
  rw [BitVec.sub_add_cancel, BitVec.add_sub_cancel]

theorem FrontIs.nocur {cfg : Config} {i : Nat} {q : Master} (h : FrontIs cfg i q) : NoCur cfg q := by
  obtain ⟨g, l, h, hc, -⟩ := h; exact ⟨g, h, hc⟩

theorem NoCur.inv {cfg : Config} {q : Master} (h : NoCur cfg q) : Inv cfg q := by
  obtain ⟨g, h, -⟩ := h; exact ⟨g, h⟩

/-- Taking the next message and sending it, in the base model. -/
theorem front_poll {cfg : Config} (hw : cfg.MWF) {i : Nat} {q : Master} (h : FrontIs cfg i q) :
    q.txQ.tail.toNat < cfg.queueItems ∧ q.txQ.arr q.txQ.tail.toNat = some i ∧ q.txQ.items ≠ 0 ∧ q.st = .idle ∧
    ∃ o, masterSend { q with txQ := popped cfg.queueItems q.txQ, msgBuf := some i } =
        .ok ({ q with txQ := popped cfg.queueItems q.txQ, msgBuf := some i, rxTarget := some i, txf := .set, st := .transmitting }, o) ∧
      masterPoll cfg q = .ok ({ q with txQ := popped cfg.queueItems q.txQ, msgBuf := some i, rxTarget := some i, txf := .set, st := .transmitting }, o) ∧
      HasCur cfg i { q with txQ := popped cfg.queueItems q.txQ, msgBuf := some i, rxTarget := some i, txf := .set, st := .transmitting } := by
  obtain ⟨g, l, h, hc, ht⟩ := h
  have htx := h.tx
  rw [ht] at htx
  have h1 := htx.tail_lt
  have h2 := htx.slots 0 (by simp)
  rw [Nat.add_zero, Nat.mod_eq_of_lt h1] at h2
  have h2' : q.txQ.arr q.txQ.tail.toNat = some i := by rw [h2]; rfl
  have h3 : q.txQ.items ≠ 0 := by
    intro e
    have := htx.items_eq
    rw [e] at this
    simp at this
  have hcur := h.cur
  rw [hc] at hcur
  have hst : q.st = .idle := hcur.1
  refine ⟨h1, h2', h3, hst, [.send ((q.msgs i).req.bytes 0 (q.msgs i).reqLen.toNat)], ?_, ?_⟩
  · simp only [masterSend, h.drv, h.data]
    rfl
  · have hp : masterPoll cfg q = .ok ({ q with txQ := popped cfg.queueItems q.txQ, msgBuf := some i, rxTarget := some i, txf := .set, st := .transmitting },
        [.send ((q.msgs i).req.bytes 0 (q.msgs i).reqLen.toNat)]) := by
      have ha : q.txQ.available = true := by rw [htx.available]; rfl
      simp only [masterPoll, hst, masterIdle, ha, if_true, pop_eq (fun e => h3 e.2) h1, okBind, h2', masterSend, h.drv, h.data]
      rfl
    refine ⟨hp, ?_⟩
    rcases masterStep_inv hw h .poll (by simp) (by simp) with ⟨s', o', g', l1, l2, l3⟩ | ⟨-, l1, -⟩
    · have l4 : masterPoll cfg q = .ok (s', o') := l1
      rw [hp] at l4
      cases l4
      have hcu := l2.cur
      cases hgc : g'.cur with
      | none => rw [hgc] at hcu; exact absurd hcu.1 (by simp)
      | some z =>
        obtain ⟨j, r, c⟩ := z
        rw [hgc] at hcu
        have : some i = some j := hcu.1
        cases this
        exact ⟨g', r, c, l2, hgc⟩
    · have l3 : masterPoll cfg q = .error .oobRead := l1
      rw [hp] at l3
      cases l3

theorem rest_done {cfg : Config} (hw : cfg.MWF) {i : Nat} {p : QProg} (hp : RestTo i .done p) {t : Master} (hb : t.msgBuf = some i) (hd : t.dataSet = true) :
    (∃ u, ∀ (x : QMaster) (ints : List (List MReq)), HasCur cfg i x.lib → ReqsOk ints.flatten → runProg (reqInt cfg) p ints { lib := merge i t x.lib, rets := x.rets } = .error u) ∨
    ∃ T o, T.dataSet = true ∧ ∀ (x : QMaster) (ints : List (List MReq)), HasCur cfg i x.lib → ReqsOk ints.flatten →
      ∃ x', runInts (reqInt cfg) x ints.flatten = .ok x' ∧ HasCur cfg i x'.lib ∧
        runProg (reqInt cfg) p ints { lib := merge i t x.lib, rets := x.rets } = .ok ({ lib := merge i T x'.lib, rets := x'.rets }, o) := by
  rcases rest_end hw hp t hb hd with ⟨u, hu⟩ | ⟨T, o, hT, hdone⟩ | ⟨T, o, hT, hTb, hstop⟩
  · exact .inl ⟨u, hu⟩
  · exact .inr ⟨T, o, hT, hdone⟩
  · refine .inr ⟨T, o, hT, fun x ints hx hl => ?_⟩
    obtain ⟨n, x1, k1, k2, k3, -⟩ := hstop x ints hx hl
    have hsplit : ints.flatten = (ints.take n).flatten ++ (ints.drop n).flatten := by rw [← List.flatten_append, List.take_append_drop]
    rw [hsplit] at hl
    obtain ⟨x2, j1, j2, j3⟩ := ints_merge hw T hl.right k2
    refine ⟨x2, by rw [hsplit]; exact ints_app _ k1 j1, j2, ?_⟩
    rw [k3]
    simp only [runProg, j3, okBind, pureOk, List.append_nil]

theorem merge_of {i : Nat} {T S x' : Master} (h1 : merge i T S = S) (h2 : KeptBy i S x') (hd : x'.dataSet = true) (hs : S.dataSet = true) : merge i T x' = x' := by
  have e : merge i (merge i T S) x' = merge i T x' := by
    simp only [merge, qview, Master.mk.injEq, true_and, and_true]
    funext j
    by_cases hj : j = i
    · subst hj; simp
    · simp [hj]
  rw [← e, h1]
  exact merge_kept h2 hd hs

/-- The rest of the poll after the message has been taken from the queue. -/
theorem send_lin {cfg : Config} (hw : cfg.MWF) {i : Nat} {q : Master} (h : FrontIs cfg i q) {rs : List ReqRet} {ints : List (List MReq)} (hl : ReqsOk ints.flatten) :
    ∃ s2 o x3, masterPoll cfg q = .ok (s2, o) ∧ runInts (reqInt cfg) { lib := s2, rets := rs } ints.flatten = .ok x3 ∧
      runProg (reqInt cfg) (qassign (fun s => { s with msgBuf := some i }) masterSendQ) ints { lib := { q with txQ := popped cfg.queueItems q.txQ }, rets := rs } = .ok (x3, o) := by
  obtain ⟨h1, h2, h3, h4, o, hsend, hpoll, hcur⟩ := front_poll hw h
  generalize hS : ({ q with txQ := popped cfg.queueItems q.txQ, msgBuf := some i, rxTarget := some i, txf := .set, st := .transmitting } : Master) = S at *
  have hd : q.dataSet = true := by obtain ⟨g, l, h, -⟩ := h; exact h.data
  have hm : ∀ P : Master, P.freeQ = S.freeQ → P.txQ = S.txQ → P.msgs = S.msgs → P.dataSet = S.dataSet → merge i P S = P := by
    intro P e1 e2 e3 e4
    cases P; cases S
    simp only at e1 e2 e3 e4
    subst e1; subst e2; subst e3; subst e4
    simp [merge, qview]
  have e0 := flatten_headD ints
  rw [e0] at hl
  have hm1 : merge i { q with txQ := popped cfg.queueItems q.txQ } S = ({ q with txQ := popped cfg.queueItems q.txQ } : Master) := hm _ (by rw [← hS]) (by rw [← hS]) (by rw [← hS]) (by rw [← hS])
  have hm2 : merge i { q with txQ := popped cfg.queueItems q.txQ, msgBuf := some i } S = ({ q with txQ := popped cfg.queueItems q.txQ, msgBuf := some i } : Master) :=
    hm _ (by rw [← hS]) (by rw [← hS]) (by rw [← hS]) (by rw [← hS])
  obtain ⟨x1, a1, a2, a3⟩ := ints_merge hw { q with txQ := popped cfg.queueItems q.txQ } hl.left (x := { lib := S, rets := rs }) hcur
  have a3' : runInts (reqInt cfg) { lib := { q with txQ := popped cfg.queueItems q.txQ }, rets := rs } (ints.headD []) =
      .ok { lib := merge i { q with txQ := popped cfg.queueItems q.txQ } x1.lib, rets := x1.rets } := by
    rw [← a3]
    show _ = runInts (reqInt cfg) { lib := merge i { q with txQ := popped cfg.queueItems q.txQ } S, rets := rs } _
    rw [hm1]
  rcases rest_done hw (rest_sendQ (i := i) (E := .done)) (t := { q with txQ := popped cfg.queueItems q.txQ, msgBuf := some i }) rfl hd with ⟨u, hu⟩ | ⟨T, o', hT, hdone⟩
  · have := hu { lib := S, rets := [] } [] hcur (by simp [ReqsOk])
    rw [show ({ lib := S, rets := [] } : QMaster).lib = S from rfl, hm2, unint_sendQ, hsend] at this
    cases this
  · have hnil := hdone { lib := S, rets := [] } [] hcur (by simp [ReqsOk])
    obtain ⟨x', k1, -, k3⟩ := hnil
    simp only [List.flatten_nil, runInts, Except.ok.injEq] at k1
    subst k1
    rw [show ({ lib := S, rets := [] } : QMaster).lib = S from rfl, hm2, unint_sendQ, hsend, withRets_ok] at k3
    simp only [Except.ok.injEq, Prod.mk.injEq, QMaster.mk.injEq, and_true] at k3
    obtain ⟨kT, ko⟩ := k3
    obtain ⟨x3, j1, j2, j3⟩ := hdone x1 ints.tail a2 hl.right
    have hall := ints_app _ a1 j1
    have hk := ints_kept hw (by exact hl) (x := { lib := S, rets := rs }) hcur hall
    refine ⟨S, o, x3, hpoll, by rw [e0]; exact hall, ?_⟩
    rw [q_assign a3' (s := merge i { q with txQ := popped cfg.queueItems q.txQ, msgBuf := some i } x1.lib) rfl, j3, merge_of kT.symm hk j2.data (by rw [← hS]; exact hd), ko]

/-- Taking the next message from the queue of requests and sending it. -/
theorem take_lin {cfg : Config} (hw : cfg.MWF) {i : Nat} {x : QMaster} (hx : FrontIs cfg i x.lib) {ints : List (List MReq)} (hl : ReqsOk ints.flatten)
    (hr : noRace (reqInt cfg) (popTakeQ cfg.queueItems fun z => qassign (fun s => { s with msgBuf := z }) masterSendQ) ints x) :
    ∃ pre post x1 s2 o x3, ints.flatten = pre ++ post ∧ runInts (reqInt cfg) x pre = .ok x1 ∧ masterPoll cfg x1.lib = .ok (s2, o) ∧
      runInts (reqInt cfg) { lib := s2, rets := x1.rets } post = .ok x3 ∧
      runProg (reqInt cfg) (popTakeQ cfg.queueItems fun z => qassign (fun s => { s with msgBuf := z }) masterSendQ) ints x = .ok (x3, o) := by
  unfold popTakeQ at hr ⊢
  -- reading the slot
  have e0 := flatten_headD ints
  rw [e0] at hl
  obtain ⟨y0, a1, a2, -⟩ := ints_front hw x.lib (PushOk.id _) hl.left hx
  obtain ⟨t1, t2, t3, -⟩ := front_poll hw a2
  have f0 : (fun s : Master => (do let z ← slotRd cfg.queueItems s.txQ.arr s.txQ.tail.toNat; return (z, s, []) : C (Option Nat × Master × List MOut))) y0.lib = .ok (some i, y0.lib, []) := by
    simp only [slotRd, if_pos t1, t2]; rfl
  have hr := (q_race a1 f0 hr).2
  rw [q_quiet a1 f0]
  replace hl := hl.right
  generalize ints.headD [] = l0 at *
  generalize ints.tail = ints1 at *
  -- clearing the slot
  have e1 := flatten_headD ints1
  rw [e1] at hl
  obtain ⟨y1, b1, b2, -⟩ := ints_front hw y0.lib (PushOk.id _) hl.left a2
  obtain ⟨u1, -⟩ := front_poll hw b2
  have f1 : (fun s : Master => (do let a ← slotWr cfg.queueItems s.txQ.arr s.txQ.tail.toNat none; return { s with txQ := { s.txQ with arr := a } } : C Master)) y1.lib =
      .ok (qview y1.lib id emptied (fun _ => false) y1.lib) := by
    simp only [slotWr, if_pos u1]; rfl
  have hr := q_assignC_race b1 f1 hr
  rw [q_assignC b1 f1]
  replace hl := hl.right
  generalize ints1.headD [] = l1 at *
  generalize ints1.tail = ints2 at *
  -- reading the counter
  have e2 := flatten_headD ints2
  rw [e2] at hl
  obtain ⟨y2, c1, c2, c3⟩ := ints_front hw y1.lib (PushOk.emptied _) hl.left b2
  have hov2 := ints_only hw hl.left b2.nocur.inv c1
  have hr := (q_race c3 rfl hr).2
  rw [q_quiet c3 rfl]
  replace hl := hl.right
  generalize ints2.headD [] = l2 at *
  generalize ints2.tail = ints3 at *
  -- writing the counter
  have e3 := flatten_headD ints3
  have hno : ints3.headD [] = [] := by
    have h := hr
    simp only [qstep, noRace] at h
    have hall := h.1
    revert hall
    cases ints3.headD [] with
    | nil => intro _; rfl
    | cons e l => intro hall; exact absurd (hall e (by simp)) (by simp)
  rw [q_quiet (by rw [hno]; rfl) rfl]
  rw [e3, hno, List.nil_append] at hl
  generalize ints3.tail = ints4 at *
  -- advancing the tail
  have e4 := flatten_headD ints4
  rw [e4] at hl
  obtain ⟨y4, d1, d2, d3⟩ := ints_front hw y1.lib (PushOk.counted _) hl.left c2
  have hov4 := ints_only hw hl.left c2.nocur.inv d1
  obtain ⟨v1, -⟩ := front_poll hw d2
  have hN : cfg.queueItems ≠ 0 := by omega
  have hfin : ({ (qview y1.lib id counted (fun _ => false) y4.lib) with txQ := { (qview y1.lib id counted (fun _ => false) y4.lib).txQ with
      tail := BitVec.ofNat 8 (((qview y1.lib id counted (fun _ => false) y4.lib).txQ.tail.toNat + 1) % cfg.queueItems) } } : Master) =
      { y4.lib with txQ := popped cfg.queueItems y4.lib.txQ } := by
    have h5 : y4.lib = over y1.lib y4.lib := by
      rw [hov4]
      show over y2.lib y4.lib = over y1.lib (over y2.lib y4.lib)
      conv => lhs; rw [hov2]
      rfl
    have h6 : ({ y4.lib with txQ := popped cfg.queueItems y4.lib.txQ } : Master) = { over y1.lib y4.lib with txQ := popped cfg.queueItems y4.lib.txQ } := by
      rw [← h5]
    rw [h6]
    rfl
  have d3' : runInts (reqInt cfg) { lib := qview y1.lib id counted (fun _ => false) y2.lib, rets := y2.rets } (ints4.headD []) =
      .ok { lib := qview y1.lib id counted (fun _ => false) y4.lib, rets := y4.rets } := d3
  have f4 : (fun s : Master => if cfg.queueItems = 0 then (.error .divZero : C Master)
            else .ok { s with txQ := { s.txQ with tail := BitVec.ofNat 8 ((s.txQ.tail.toNat + 1) % cfg.queueItems) } })
        ({ lib := qview y1.lib id counted (fun _ => false) y4.lib, rets := y4.rets } : QMaster).lib = .ok { y4.lib with txQ := popped cfg.queueItems y4.lib.txQ } := by
    dsimp only
    rw [if_neg hN]
    exact congrArg _ hfin
  refine ⟨l0 ++ (l1 ++ (l2 ++ ints4.headD [])), ints4.tail.flatten, y4, ?_⟩
  obtain ⟨s2, o, x3, g1, g2, g3⟩ := send_lin hw d2 (rs := y4.rets) hl.right
  refine ⟨s2, o, x3, ?_, ints_app _ a1 (ints_app _ b1 (ints_app _ c1 d1)), g1, g2, ?_⟩
  · rw [e0, e1, e2, e3, hno, e4]; simp only [List.append_assoc, List.nil_append]
  · exact (q_assignC d3' f4).trans g3

end Modbus
