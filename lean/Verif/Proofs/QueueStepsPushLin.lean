import Verif.Proofs.QueueStepsPush

/-! C88: a push to the queue of free messages takes effect at one moment. -/

namespace Modbus

open Spec

theorem ints_nil {σ ε : Type} (int : σ → ε → C σ) (s : σ) : runInts int s ([] : List ε) = .ok s := rfl

/-- One request and a modified queue of free messages. -/
theorem one_view {cfg : Config} (hw : cfg.MWF) (t : Master) {φ : Queue Nat → Queue Nat} {l : List MReq} (hl : ReqsOk l) (h1 : l.length ≤ 1) {x : QMaster} (h : Inv cfg x.lib)
    (hφ : ∀ z fq, x.lib.freeQ.pop cfg.queueItems = .ok (z, fq) → (φ x.lib.freeQ).pop cfg.queueItems = .ok (z, φ fq)) :
    ∃ x', runInts (reqInt cfg) x l = .ok x' ∧ Inv cfg x'.lib ∧
      runInts (reqInt cfg) { lib := qview t φ id (fun _ => false) x.lib, rets := x.rets } l = .ok { lib := qview t φ id (fun _ => false) x'.lib, rets := x'.rets } := by
  match l, h1 with
  | [], _ => exact ⟨x, rfl, h, rfl⟩
  | [r], _ =>
    obtain ⟨g, h⟩ := h
    obtain ⟨c, s', g', k1, k2, -⟩ := genReq_inv hw h (hl r (by simp))
    refine ⟨{ lib := s', rets := x.rets ++ [c] }, ?_, ⟨g', k2⟩, ?_⟩
    · simp only [runInts, reqInt_ok k1, okBind]
    · have k3 := genReq_view k1 t (φ := φ) (ψ := id) (keep := fun _ => false) (fun z fq hp => ⟨hφ z fq hp, fun _ _ => rfl⟩) (fun j fq tq y _ hp => ⟨y, hp⟩)
      have k4 := reqInt_ok (x := { lib := qview t φ id (fun _ => false) x.lib, rets := x.rets }) k3
      simp only [runInts, k4, okBind]

theorem slot_write {cfg : Config} {i : Nat} {T q : Master} (hb : T.msgBuf = some i) (hq : HasCur cfg i q) :
    pushSlot cfg.queueItems (merge i T q) = .ok (slotView i T q) := by
  have hh : (merge i T q).freeQ.head.toNat < cfg.queueItems := hq.free.head_lt
  simp only [pushSlot, slotWr, if_pos hh, okBind, pureOk]
  cases T
  simp only at hb
  subst hb
  rfl

theorem decide_ht {p : Prop} [Decidable p] (h : p) : decide p = true := by simpa using h
theorem decide_hf {p : Prop} [Decidable p] (h : ¬ p) : decide p = false := by simpa using h

def endP : QProg := qassign (fun s => { s with st := .idle }) .done

/-- Without requests. -/
theorem push_nil {cfg : Config} {i : Nat} {T : Master} (hb : T.msgBuf = some i) {x : QMaster} (hx : HasCur cfg i x.lib) :
    runProg (reqInt cfg) (pushFreeQ cfg.queueItems endP) [] { lib := merge i T x.lib, rets := x.rets } =
      .ok ({ lib := pushEnd cfg i T x.lib, rets := x.rets }, []) := by
  have hf := hx.free
  have hn : cfg.queueItems ≠ 0 := by have := hf.lt; omega
  have hnh : ∀ y : QMaster, (fun s : Master => if cfg.queueItems = 0 then (.error .divZero : C (U8 × Master × List MOut)) else .ok (BitVec.ofNat 8 ((s.freeQ.head.toNat + 1) % cfg.queueItems), s, [])) y.lib
      = .ok (BitVec.ofNat 8 ((y.lib.freeQ.head.toNat + 1) % cfg.queueItems), y.lib, []) := fun y => by simp [hn]
  unfold pushFreeQ
  rw [q_quiet (ints := []) (ints_nil _ _) (hnh _)]
  by_cases ht : x.lib.freeQ.head = x.lib.freeQ.tail
  · have hi := hf.iff.1 ht
    rw [q_test (b := true) (ints_nil _ _) (decide_ht ht), if_pos rfl,
      q_test (b := false) (ints_nil _ _) (by have := hf.lt; simp only [decide_eq_false_iff_not]; show ¬ x.lib.freeQ.items.toNat = _; omega), if_neg (by simp),
      q_assignC (ints_nil _ _) (slot_write hb hx)]
    unfold pushCount
    rw [q_quiet (ints_nil _ _) rfl, q_quiet (ints_nil _ _) rfl, q_assign (ints_nil _ _) rfl, q_assign (ints_nil _ _) rfl]
    unfold endP
    rw [q_assign (ints_nil _ _) rfl]
    rfl
  · rw [q_test (b := false) (ints_nil _ _) (decide_hf ht), if_neg (by simp), q_assignC (ints_nil _ _) (slot_write hb hx), q_assign (ints_nil _ _) rfl]
    unfold pushCount
    rw [q_quiet (ints_nil _ _) rfl, q_quiet (ints_nil _ _) rfl, q_assign (ints_nil _ _) rfl]
    unfold endP
    rw [q_assign (ints_nil _ _) rfl]
    rfl

theorem pushEnd_over (cfg : Config) (i : Nat) (T q : Master) : pushEnd cfg i T q = over { T with msgBuf := none, st := .idle } (pushEnd cfg i T q) := rfl

/-- The queue of free messages after the push. -/
theorem pushed_queue {cfg : Config} (hw : cfg.MWF) {i : Nat} {q : Master} (hq : HasCur cfg i q) :
    (pushed cfg.queueItems i q.freeQ).items ≠ 0 ∧ (pushed cfg.queueItems i q.freeQ).tail.toNat < cfg.queueItems ∧
      ((pushed cfg.queueItems i q.freeQ).head = (pushed cfg.queueItems i q.freeQ).tail → (pushed cfg.queueItems i q.freeQ).items.toNat = cfg.queueItems) := by
  obtain ⟨g, r, c, h, hc⟩ := hq
  have hl := h.lengths
  simp [Ghost.curIdx, hc] at hl
  obtain ⟨fq, k1, k2⟩ := h.free.push_ok hw.qle (by omega) i
  have e : fq = pushed cfg.queueItems i q.freeQ := by
    have hf := HasCur.free ⟨g, r, c, h, hc⟩
    unfold Queue.push at k1
    rw [if_neg (by have := hf.lt; omega)] at k1
    simp only [slotWr, if_pos hf.head_lt] at k1
    split at k1
    · rw [if_neg (by have := hf.lt; omega)] at k1
      cases k1; rfl
    · cases k1; rfl
  subst e
  have h3 := k2.items_eq
  rw [List.length_append, List.length_singleton] at h3
  refine ⟨?_, k2.tail_lt, ?_⟩
  · intro e
    rw [e] at h3
    simp at h3
  · intro e
    rcases k2.head_tail.1 e with h5 | h5
    · simp at h5
    · rw [k2.items_eq, h5]

theorem over_items (t s : Master) (n : U8) (h : n = s.freeQ.items) (u : Master) (hu : u = qview t (fun q => { q with items := q.items - 1 }) id (fun _ => false) s) :
    ({ u with freeQ := { u.freeQ with items := n } } : Master) = over t s := by
  subst hu; subst h; rfl

theorem over_head (t s : Master) (n o : U8) (h : n = s.freeQ.head) (u : Master) (hu : u = qview t (fun q => { q with head := o }) id (fun _ => false) s) :
    ({ u with freeQ := { u.freeQ with head := n } } : Master) = over t s := by
  subst hu; subst h; rfl

/-- With requests, at most one at a time and none inside the update of a counter. -/
theorem push_lin_kept {cfg : Config} (hw : cfg.MWF) {i : Nat} {T x0 : Master} (hb : T.msgBuf = some i)
    (hS : ∀ q, HasCur cfg i q → KeptBy i x0 q → Inv cfg (pushEnd cfg i T q))
    {x : QMaster} (hx : HasCur cfg i x.lib) (hk : KeptBy i x0 x.lib) {ints : List (List MReq)} (hl : ReqsOk ints.flatten) (hg : ∀ g ∈ ints, g.length ≤ 1)
    (hr : noRace (reqInt cfg) (pushFreeQ cfg.queueItems endP) ints { lib := merge i T x.lib, rets := x.rets }) :
    ∃ pre post x1 x2, ints.flatten = pre ++ post ∧ runInts (reqInt cfg) x pre = .ok x1 ∧ HasCur cfg i x1.lib ∧
      runInts (reqInt cfg) { lib := pushEnd cfg i T x1.lib, rets := x1.rets } post = .ok x2 ∧
      runProg (reqInt cfg) (pushFreeQ cfg.queueItems endP) ints { lib := merge i T x.lib, rets := x.rets } = .ok (x2, []) := by
  have hn : cfg.queueItems ≠ 0 := by have := hx.free.lt; omega
  have hnh : ∀ y : QMaster, (fun s : Master => if cfg.queueItems = 0 then (.error .divZero : C (U8 × Master × List MOut)) else .ok (BitVec.ofNat 8 ((s.freeQ.head.toNat + 1) % cfg.queueItems), s, [])) y.lib
      = .ok (BitVec.ofNat 8 ((y.lib.freeQ.head.toNat + 1) % cfg.queueItems), y.lib, []) := fun y => by simp [hn]
  have hg1 : ∀ (l : List (List MReq)), (∀ g ∈ l, g.length ≤ 1) → (l.headD []).length ≤ 1 ∧ ∀ g ∈ l.tail, g.length ≤ 1 := by
    intro l h
    cases l with
    | nil => simp
    | cons a l => exact ⟨h a (by simp), fun g hg => h g (List.mem_cons_of_mem _ hg)⟩
  unfold pushFreeQ at hr ⊢
  -- computing the new head
  have e0 := flatten_headD ints
  rw [e0] at hl
  obtain ⟨y0, a1, a2, a3⟩ := ints_merge hw T hl.left hx
  have hk := hk.trans (ints_kept hw hl.left hx a1)
  have hr := (q_race a3 (hnh _) hr).2
  rw [q_quiet a3 (hnh _)]
  have hnew : ({ lib := merge i T y0.lib, rets := y0.rets } : QMaster).lib.freeQ.head = y0.lib.freeQ.head := rfl
  rw [hnew] at hr ⊢
  replace hl := hl.right
  have hg := (hg1 _ hg).2
  generalize ints.headD [] = l0 at *
  generalize ints.tail = ints1 at *
  -- is it empty (or full)?
  have e1 := flatten_headD ints1
  rw [e1] at hl
  obtain ⟨y1, b1, b2, b3⟩ := ints_merge hw T hl.left a2
  have hk := hk.trans (ints_kept hw hl.left a2 b1)
  have hh1 := ints_head b1
  by_cases ht : y1.lib.freeQ.head = y1.lib.freeQ.tail
  · have hi := b2.free.iff.1 ht
    have hr := q_test_race (b := true) b3 (decide_ht ht) hr
    rw [q_test (b := true) b3 (decide_ht ht)]
    rw [if_pos rfl] at hr ⊢
    replace hl := hl.right
    have hg := (hg1 _ hg).2
    generalize ints1.headD [] = l1 at *
    generalize ints1.tail = ints2 at *
    -- not full
    have e2 := flatten_headD ints2
    rw [e2] at hl
    obtain ⟨y2, c1, c2, c3⟩ := ints_merge hw T hl.left b2
    have hk := hk.trans (ints_kept hw hl.left b2 c1)
    have f2 := ints_refused ⟨ht, hi⟩ c1
    have hnf : (fun s : Master => decide (s.freeQ.items.toNat = cfg.queueItems)) ({ lib := merge i T y2.lib, rets := y2.rets } : QMaster).lib = false := by
      have := c2.free.lt
      simp only [decide_eq_false_iff_not]
      show ¬ y2.lib.freeQ.items.toNat = _
      omega
    have hr := q_test_race (b := false) c3 hnf hr
    rw [q_test (b := false) c3 hnf]
    rw [if_neg (by simp)] at hr ⊢
    replace hl := hl.right
    have hg := (hg1 _ hg).2
    generalize ints2.headD [] = l2 at *
    generalize ints2.tail = ints3 at *
    -- the slot
    have e3 := flatten_headD ints3
    rw [e3] at hl
    obtain ⟨y3, d1, d2, d3⟩ := ints_merge hw T hl.left c2
    have hk := hk.trans (ints_kept hw hl.left c2 d1)
    have f3 := ints_refused (by rw [f2]; exact ⟨ht, hi⟩) d1
    have hr := q_assignC_race d3 (slot_write hb d2) hr
    rw [q_assignC d3 (slot_write hb d2)]
    replace hl := hl.right
    have hg := (hg1 _ hg).2
    generalize ints3.headD [] = l3 at *
    generalize ints3.tail = ints4 at *
    -- reading the counter
    unfold pushCount at hr ⊢
    have e4 := flatten_headD ints4
    rw [e4] at hl
    obtain ⟨y4, p1, p2, p3⟩ := ints_slot hw T hl.left d2
    have hk := hk.trans (ints_kept hw hl.left d2 p1)
    have f4 := ints_refused (by rw [f3, f2]; exact ⟨ht, hi⟩) p1
    have hr := (q_race p3 rfl hr).2
    rw [q_quiet p3 rfl]
    replace hl := hl.right
    have hg := (hg1 _ hg).2
    generalize ints4.headD [] = l4 at *
    generalize ints4.tail = ints5 at *
    -- writing the counter
    have e5 := flatten_headD ints5
    have hno := (q_race (b := true) (x1 := { lib := slotView i T y4.lib, rets := y4.rets }) (o := [])
      (show runInts (reqInt cfg) { lib := slotView i T y4.lib, rets := y4.rets } (ints5.headD []) = .ok _ from by
        have h := hr
        simp only [qstep, noRace] at h
        have h0 : ints5.headD [] = [] := by
          have hall := h.1
          revert hall
          cases ints5.headD [] with
          | nil => intro _; rfl
          | cons e l => intro hall; exact absurd (hall e (by simp)) (by simp)
        rw [h0]; rfl) rfl hr).1 rfl
    have q5 : runInts (reqInt cfg) { lib := slotView i T y4.lib, rets := y4.rets } (ints5.headD []) = .ok { lib := slotView i T y4.lib, rets := y4.rets } := by rw [hno]; rfl
    rw [q_quiet q5 rfl]
    rw [e5, hno, List.nil_append] at hl
    have hg := (hg1 _ hg).2
    generalize ints5.tail = ints6 at *
    -- writing the head
    have e6 := flatten_headD ints6
    rw [e6] at hl
    have hI := hS _ p2 hk
    obtain ⟨pq1, pq2, pq3⟩ := pushed_queue hw p2
    have hone := one_view hw T (φ := fun q => { q with head := y4.lib.freeQ.head }) hl.left (hg1 _ hg).1 (x := { lib := pushEnd cfg i T y4.lib, rets := y4.rets }) hI (by
      intro z fq hp
      have hp' : (pushed cfg.queueItems i y4.lib.freeQ).pop cfg.queueItems = .ok (z, fq) := hp
      rw [pop_eq (fun e => pq1 e.2) pq2] at hp'
      cases hp'
      exact pop_eq (q := { (pushed cfg.queueItems i y4.lib.freeQ) with head := y4.lib.freeQ.head }) (fun e => pq1 e.2) pq2)
    obtain ⟨y6, s1, s2, s3⟩ := hone
    have hll := hl.left
    have hst : ({ lib := qview T (fun q => { q with head := y4.lib.freeQ.head }) id (fun _ => false) (pushEnd cfg i T y4.lib), rets := y4.rets } : QMaster) =
        { lib := { slotView i T y4.lib with freeQ := { (slotView i T y4.lib).freeQ with items := (slotView i T y4.lib).freeQ.items + 1 } }, rets := y4.rets } := rfl
    rw [hst] at s3
    have hhd : BitVec.ofNat 8 ((y0.lib.freeQ.head.toNat + 1) % cfg.queueItems) = y6.lib.freeQ.head := by
      rw [ints_head s1]
      show _ = BitVec.ofNat 8 ((y4.lib.freeQ.head.toNat + 1) % cfg.queueItems)
      rw [f4, f3, f2, hh1]
    rw [q_assign s3 (over_head T y6.lib _ _ hhd _ rfl)]
    replace hl := hl.right
    generalize ints6.headD [] = l6 at *
    generalize ints6.tail = ints7 at *
    -- the end
    have hv : y6.lib = over { T with msgBuf := none, st := .idle } y6.lib := by
      have := ints_only hw hll hI s1
      rw [this]; rfl
    obtain ⟨y7, t1, t2⟩ := push_tail hw (T := T) (rs := y6.rets) s2 hv hl
    refine ⟨l0 ++ (l1 ++ (l2 ++ (l3 ++ l4))), l6 ++ ints7.flatten, y4, y7, ?_, ints_app _ a1 (ints_app _ b1 (ints_app _ c1 (ints_app _ d1 p1))), p2, ints_app _ s1 t1, t2⟩
    rw [e0, e1, e2, e3, e4, e5, hno, e6]
    simp only [List.append_assoc, List.nil_append]
  · have hr := q_test_race (b := false) b3 (decide_hf ht) hr
    rw [q_test (b := false) b3 (decide_hf ht)]
    rw [if_neg (by simp)] at hr ⊢
    have hN : 1 < cfg.queueItems := by
      have h1 := b2.free.head_lt
      have h2 := b2.free.tail_lt
      have h3 : y1.lib.freeQ.head.toNat ≠ y1.lib.freeQ.tail.toNat := fun e => ht (BitVec.eq_of_toNat_eq e)
      omega
    replace hl := hl.right
    have hg := (hg1 _ hg).2
    generalize ints1.headD [] = l1 at *
    generalize ints1.tail = ints2 at *
    -- the slot
    have e2 := flatten_headD ints2
    rw [e2] at hl
    obtain ⟨y2, c1, c2, c3⟩ := ints_merge hw T hl.left b2
    have hk := hk.trans (ints_kept hw hl.left b2 c1)
    have hr := q_assignC_race c3 (slot_write hb c2) hr
    rw [q_assignC c3 (slot_write hb c2)]
    replace hl := hl.right
    have hg := (hg1 _ hg).2
    generalize ints2.headD [] = l2 at *
    generalize ints2.tail = ints3 at *
    -- the head
    have e3 := flatten_headD ints3
    rw [e3] at hl
    obtain ⟨y3, d1, d2, d3⟩ := ints_slot hw T hl.left c2
    have hk := hk.trans (ints_kept hw hl.left c2 d1)
    have hI := hS _ d2 hk
    obtain ⟨pq1, pq2, pq3⟩ := pushed_queue hw d2
    have hhd : BitVec.ofNat 8 ((y0.lib.freeQ.head.toNat + 1) % cfg.queueItems) = BitVec.ofNat 8 ((y3.lib.freeQ.head.toNat + 1) % cfg.queueItems) := by
      rw [ints_head d1, ints_head c1, hh1]
    have hst : ({ (slotView i T y3.lib) with freeQ := { (slotView i T y3.lib).freeQ with head := BitVec.ofNat 8 ((y0.lib.freeQ.head.toNat + 1) % cfg.queueItems) } } : Master) =
        qview T (fun q => { q with items := q.items - 1 }) id (fun _ => false) (pushEnd cfg i T y3.lib) := by
      have hit : (pushEnd cfg i T y3.lib).freeQ.items - 1 = y3.lib.freeQ.items := by
        show y3.lib.freeQ.items + 1 - 1 = _
        exact BitVec.add_sub_cancel _ _
      simp only [qview, hit, hhd]
      rfl
    have hr := q_assign_race d3 hst hr
    rw [q_assign d3 hst]
    replace hl := hl.right
    have hg := (hg1 _ hg).2
    generalize ints3.headD [] = l3 at *
    generalize ints3.tail = ints4 at *
    -- reading the counter
    unfold pushCount at hr ⊢
    have e4 := flatten_headD ints4
    rw [e4] at hl
    have hone := one_view hw T (φ := fun q => { q with items := q.items - 1 }) hl.left (hg1 _ hg).1 (x := { lib := pushEnd cfg i T y3.lib, rets := y3.rets }) hI (by
      intro z fq hp
      have hp' : (pushed cfg.queueItems i y3.lib.freeQ).pop cfg.queueItems = .ok (z, fq) := hp
      rw [pop_eq (fun e => pq1 e.2) pq2] at hp'
      cases hp'
      refine pop_eq (q := { (pushed cfg.queueItems i y3.lib.freeQ) with items := (pushed cfg.queueItems i y3.lib.freeQ).items - 1 }) ?_ pq2
      · rintro ⟨u1, u2⟩
        have u3 := pq3 u1
        have u4 : (pushed cfg.queueItems i y3.lib.freeQ).items.toNat = 1 := by
          have : (pushed cfg.queueItems i y3.lib.freeQ).items = 1 := by
            have u5 : (pushed cfg.queueItems i y3.lib.freeQ).items - 1 = 0 := u2
            rw [← BitVec.sub_add_cancel (pushed cfg.queueItems i y3.lib.freeQ).items 1, u5]
            rfl
          rw [this]; rfl
        omega)
    obtain ⟨y4, s1, s2, s3⟩ := hone
    have hll := hl.left
    have hr := (q_race s3 rfl hr).2
    rw [q_quiet s3 rfl]
    replace hl := hl.right
    have hg := (hg1 _ hg).2
    generalize ints4.headD [] = l4 at *
    generalize ints4.tail = ints5 at *
    -- writing the counter
    have e5 := flatten_headD ints5
    have hno : ints5.headD [] = [] := by
      have h := hr
      simp only [qstep, noRace] at h
      have hall := h.1
      revert hall
      cases ints5.headD [] with
      | nil => intro _; rfl
      | cons e l => intro hall; exact absurd (hall e (by simp)) (by simp)
    rw [q_quiet (by rw [hno]; rfl) rfl]
    rw [e5, hno, List.nil_append] at hl
    generalize ints5.tail = ints6 at *
    have hfin := over_items T y4.lib (y4.lib.freeQ.items - 1 + 1) (BitVec.sub_add_cancel _ _) _ rfl
    have hv : y4.lib = over { T with msgBuf := none, st := .idle } y4.lib := by
      have := ints_only hw hll hI s1
      rw [this]; rfl
    obtain ⟨y7, t1, t2⟩ := push_tail hw (T := T) (rs := y4.rets) s2 hv hl
    refine ⟨l0 ++ (l1 ++ (l2 ++ l3)), l4 ++ ints6.flatten, y3, y7, ?_, ints_app _ a1 (ints_app _ b1 (ints_app _ c1 d1)), d2, ints_app _ s1 t1, ?_⟩
    · rw [e0, e1, e2, e3, e4, e5, hno]
      simp only [List.append_assoc, List.nil_append]
    · rw [← t2, ← hfin]
      rfl

end Modbus
