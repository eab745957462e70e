import Verif.Proofs.QueueStepsRest

/-! C88: giving a message back to the queue of free messages while requests take messages from it. -/

namespace Modbus

open Spec

section steps
variable {cfg : Config} {ints : List (List MReq)} {x x1 : QMaster}

theorem q_test {c : Master → Bool} {p r : QProg} (h1 : runInts (reqInt cfg) x (ints.headD []) = .ok x1) {b : Bool} (hb : c x1.lib = b) :
    runProg (reqInt cfg) (qtest c p r) ints x = runProg (reqInt cfg) (if b then p else r) ints.tail x1 := by
  subst hb
  exact q_quiet (a := c x1.lib) (s := x1.lib) h1 rfl

theorem q_test_race {c : Master → Bool} {p r : QProg} (h1 : runInts (reqInt cfg) x (ints.headD []) = .ok x1) {b : Bool} (hb : c x1.lib = b)
    (hr : noRace (reqInt cfg) (qtest c p r) ints x) : noRace (reqInt cfg) (if b then p else r) ints.tail x1 := by
  subst hb
  exact (q_race (a := c x1.lib) (s := x1.lib) (o := []) h1 rfl hr).2

theorem q_assign {f : Master → Master} {k : QProg} (h1 : runInts (reqInt cfg) x (ints.headD []) = .ok x1) {s : Master} (hs : f x1.lib = s) :
    runProg (reqInt cfg) (qassign f k) ints x = runProg (reqInt cfg) k ints.tail { lib := s, rets := x1.rets } := by
  subst hs
  exact q_quiet (a := ()) (s := f x1.lib) h1 rfl

theorem q_assign_race {f : Master → Master} {k : QProg} (h1 : runInts (reqInt cfg) x (ints.headD []) = .ok x1) {s : Master} (hs : f x1.lib = s)
    (hr : noRace (reqInt cfg) (qassign f k) ints x) : noRace (reqInt cfg) k ints.tail { lib := s, rets := x1.rets } := by
  subst hs
  exact (q_race (a := ()) (s := f x1.lib) (o := []) h1 rfl hr).2

theorem q_assignC {f : Master → C Master} {k : QProg} (h1 : runInts (reqInt cfg) x (ints.headD []) = .ok x1) {s : Master} (hs : f x1.lib = .ok s) :
    runProg (reqInt cfg) (qassignC f k) ints x = runProg (reqInt cfg) k ints.tail { lib := s, rets := x1.rets } :=
  q_quiet (a := ()) (s := s) h1 (by simp only [hs]; rfl)

theorem q_assignC_race {f : Master → C Master} {k : QProg} (h1 : runInts (reqInt cfg) x (ints.headD []) = .ok x1) {s : Master} (hs : f x1.lib = .ok s)
    (hr : noRace (reqInt cfg) (qassignC f k) ints x) : noRace (reqInt cfg) k ints.tail { lib := s, rets := x1.rets } :=
  (q_race (a := ()) (s := s) (o := []) h1 (by simp only [hs]; rfl) hr).2

end steps

/-! ### Popping -/

def popped (n : Nat) (q : Queue Nat) : Queue Nat :=
  { q with arr := fun j => if j = q.tail.toNat then none else q.arr j, items := q.items - 1, tail := BitVec.ofNat 8 ((q.tail.toNat + 1) % n) }

theorem pop_eq {n : Nat} {q : Queue Nat} (h : ¬ (q.head = q.tail ∧ q.items = 0)) (ht : q.tail.toNat < n) :
    q.pop n = .ok (q.arr q.tail.toNat, popped n q) := by
  unfold Queue.pop
  rw [if_neg h]
  simp only [slotRd, slotWr, if_pos ht, ok_bind]
  rw [if_neg (by omega)]
  rfl

theorem pop_empty {n : Nat} {q : Queue Nat} (h : q.head = q.tail ∧ q.items = 0) : q.pop n = .ok (none, q) := by
  unfold Queue.pop
  rw [if_pos h]

theorem genReq_freeQ {cfg : Config} {s s' : Master} {p : ReqParam} {c : ReqRet} (h : generateRequest cfg s p = .ok (c, s')) :
    ∃ x, s.freeQ.pop cfg.queueItems = .ok (x, s'.freeQ) ∧ (x = none → s' = { s with freeQ := s'.freeQ }) := by
  unfold generateRequest at h
  obtain ⟨⟨x, fq⟩, h1, h⟩ := bind_ok h
  cases x with
  | none =>
    simp only [pure_eq, Except.ok.injEq, Prod.mk.injEq] at h
    rw [← h.2]; exact ⟨none, h1, fun _ => rfl⟩
  | some j =>
    refine ⟨some j, ?_, fun h => by cases h⟩
    simp only at h
    obtain ⟨⟨r, m⟩, h2, h⟩ := bind_ok h
    simp only at h
    split at h
    · simp only [pure_eq, Except.ok.injEq, Prod.mk.injEq] at h
      rw [← h.2]; exact h1
    · obtain ⟨⟨r2, b, l⟩, h3, h⟩ := bind_ok h
      simp only at h
      split at h
      · simp only [pure_eq, Except.ok.injEq, Prod.mk.injEq] at h
        rw [← h.2]; exact h1
      · obtain ⟨⟨tq, y⟩, h4, h⟩ := bind_ok h
        simp only [pure_eq, Except.ok.injEq, Prod.mk.injEq] at h
        rw [← h.2]; exact h1

theorem pop_head {n : Nat} {q q' : Queue Nat} {x : Option Nat} (h : q.pop n = .ok (x, q')) : q'.head = q.head := by
  unfold Queue.pop at h
  split at h
  · simp only [Except.ok.injEq, Prod.mk.injEq] at h; rw [h.2]
  · obtain ⟨r, h1, h⟩ := bind_ok h
    obtain ⟨a, h2, h⟩ := bind_ok h
    split at h
    · cases h
    · simp only [pure_eq, Except.ok.injEq, Prod.mk.injEq] at h; rw [← h.2]

theorem ints_head {cfg : Config} : ∀ {l : List MReq} {x x' : QMaster}, runInts (reqInt cfg) x l = .ok x' → x'.lib.freeQ.head = x.lib.freeQ.head
  | [], x, x', h => by cases h; rfl
  | r :: l, x, x', h => by
    simp only [runInts] at h
    obtain ⟨y, h1, h2⟩ := bind_ok h
    rw [ints_head h2]
    simp only [reqInt] at h1
    obtain ⟨⟨c, s⟩, h3, h4⟩ := bind_ok h1
    simp only [pure_eq, Except.ok.injEq] at h4
    rw [← h4]
    obtain ⟨z, h5, -⟩ := genReq_freeQ h3
    exact pop_head h5

/-- With no free message, requests are refused and change nothing. -/
theorem ints_refused {cfg : Config} : ∀ {l : List MReq} {x x' : QMaster}, x.lib.freeQ.head = x.lib.freeQ.tail ∧ x.lib.freeQ.items = 0 →
    runInts (reqInt cfg) x l = .ok x' → x'.lib = x.lib
  | [], x, x', _, h => by cases h; rfl
  | r :: l, x, x', hq, h => by
    simp only [runInts] at h
    obtain ⟨y, h1, h2⟩ := bind_ok h
    simp only [reqInt] at h1
    obtain ⟨⟨c, s⟩, h3, h4⟩ := bind_ok h1
    simp only [pure_eq, Except.ok.injEq] at h4
    obtain ⟨z, h5, h6⟩ := genReq_freeQ h3
    rw [pop_empty hq] at h5
    simp only [Except.ok.injEq, Prod.mk.injEq] at h5
    have e : s = x.lib := by
      rw [h6 h5.1.symm, ← h5.2]
    subst h4
    rw [ints_refused (x := { lib := s, rets := x.rets ++ [c] }) (by rw [show ({ lib := s, rets := x.rets ++ [c] } : QMaster).lib = x.lib from e]; exact hq) h2]
    exact e

/-! ### The states of a push -/

def slotted (i : Nat) (q : Queue Nat) : Queue Nat := { q with arr := fun j => if j = q.head.toNat then some i else q.arr j }

def pushed (n i : Nat) (q : Queue Nat) : Queue Nat :=
  { slotted i q with items := q.items + 1, head := BitVec.ofNat 8 ((q.head.toNat + 1) % n) }

/-- The state after the push and the end of the poll. -/
def pushEnd (cfg : Config) (i : Nat) (T q : Master) : Master :=
  { merge i T q with freeQ := pushed cfg.queueItems i q.freeQ, msgBuf := none, st := .idle }

structure FreeOk (n : Nat) (q : Queue Nat) : Prop where
  tail_lt : q.tail.toNat < n
  head_lt : q.head.toNat < n
  lt : q.items.toNat < n
  iff : q.head = q.tail ↔ q.items = 0

theorem HasCur.free {cfg : Config} {i : Nat} {q : Master} (h : HasCur cfg i q) : FreeOk cfg.queueItems q.freeQ := by
  obtain ⟨g, r, c, h, hc⟩ := h
  have hl := h.lengths
  simp [Ghost.curIdx, hc] at hl
  have hf := h.free
  have h1 := hf.head_eq
  have h2 := hf.tail_lt
  refine ⟨h2, ?_, by rw [hf.items_eq]; omega, ?_⟩
  · rw [h1]; exact Nat.mod_lt _ (by omega)
  · rw [hf.head_tail]
    have h3 := hf.items_eq
    constructor
    · intro e
      apply BitVec.eq_of_toNat_eq
      rw [h3]; show g.fl.length = 0; omega
    · intro e
      rw [e] at h3
      left; rw [← h3]; rfl

theorem slotted_pop {n i : Nat} {q : Queue Nat} (h : FreeOk n q) {x : Option Nat} {q' : Queue Nat} (hp : q.pop n = .ok (x, q')) :
    (slotted i q).pop n = .ok (x, slotted i q') := by
  by_cases he : q.head = q.tail
  · have hi := h.iff.1 he
    rw [pop_empty ⟨he, hi⟩] at hp
    cases hp
    exact pop_empty (q := slotted i q) ⟨he, hi⟩
  · have hne : ¬ (q.head = q.tail ∧ q.items = 0) := fun e => he e.1
    rw [pop_eq hne h.tail_lt] at hp
    simp only [Except.ok.injEq, Prod.mk.injEq] at hp
    obtain ⟨rfl, rfl⟩ := hp
    rw [pop_eq (q := slotted i q) hne h.tail_lt]
    have ht : ¬ q.tail.toNat = q.head.toNat := fun e => he (BitVec.eq_of_toNat_eq e.symm)
    simp only [Except.ok.injEq, Prod.mk.injEq]
    refine ⟨by simp [slotted, ht], ?_⟩
    unfold popped slotted
    simp only [Queue.mk.injEq, true_and]
    funext j
    by_cases h1 : j = q.tail.toNat
    · subst h1; simp [ht]
    · simp [h1]

def slotView (i : Nat) (T q : Master) : Master := qview T (slotted i) id (· == i) q

theorem genReq_slot {cfg : Config} (hw : cfg.MWF) {i : Nat} (t : Master) {s : Master} (h : HasCur cfg i s) {r : MReq} (hr : QtyOk r → DataOk r) :
    ∃ c s', generateRequest cfg s r.param = .ok (c, s') ∧ HasCur cfg i s' ∧ generateRequest cfg (slotView i t s) r.param = .ok (c, slotView i t s') := by
  obtain ⟨c, s', k1, k2, -⟩ := genReq_cur hw h hr
  refine ⟨c, s', k1, k2, genReq_view k1 t (fun x fq hp => ⟨slotted_pop h.free hp, ?_⟩) (fun j fq tq y _ hp => ⟨y, hp⟩)⟩
  rintro j rfl
  obtain ⟨g, r0, c0, h, hc⟩ := h
  by_cases hj : j = i
  · subst hj; exact absurd hp (pop_not_cur hw h hc fq)
  · simpa using hj

theorem ints_slot {cfg : Config} (hw : cfg.MWF) {i : Nat} (t : Master) {l : List MReq} (hl : ReqsOk l) {x : QMaster} (h : HasCur cfg i x.lib) :
    ∃ x', runInts (reqInt cfg) x l = .ok x' ∧ HasCur cfg i x'.lib ∧
      runInts (reqInt cfg) { lib := slotView i t x.lib, rets := x.rets } l = .ok { lib := slotView i t x'.lib, rets := x'.rets } :=
  ints_view (HasCur cfg i) t (fun _ _ h hr => genReq_slot hw t h hr) hl h

/-! ### After the push -/

def Inv (cfg : Config) (s : Master) : Prop := ∃ g, MInv cfg s g

/-- The queues and messages of `s`, otherwise `t`. -/
def over (t s : Master) : Master := qview t id id (fun _ => false) s

theorem genReq_over {cfg : Config} (hw : cfg.MWF) (t : Master) {s : Master} (h : Inv cfg s) {r : MReq} (hr : QtyOk r → DataOk r) :
    ∃ c s', generateRequest cfg s r.param = .ok (c, s') ∧ Inv cfg s' ∧ generateRequest cfg (over t s) r.param = .ok (c, over t s') := by
  obtain ⟨g, h⟩ := h
  obtain ⟨c, s', g', k1, k2, -⟩ := genReq_inv hw h hr
  exact ⟨c, s', k1, ⟨g', k2⟩, genReq_view k1 t (fun x fq hp => ⟨hp, fun _ _ => rfl⟩) (fun j fq tq y _ hp => ⟨y, hp⟩)⟩

theorem ints_over {cfg : Config} (hw : cfg.MWF) (t : Master) {l : List MReq} (hl : ReqsOk l) {x : QMaster} (h : Inv cfg x.lib) :
    ∃ x', runInts (reqInt cfg) x l = .ok x' ∧ Inv cfg x'.lib ∧
      runInts (reqInt cfg) { lib := over t x.lib, rets := x.rets } l = .ok { lib := over t x'.lib, rets := x'.rets } :=
  ints_view (Inv cfg) t (fun _ _ h hr => genReq_over hw t h hr) hl h

theorem over_self (s : Master) : over s s = s := rfl

theorem over_over (t s u : Master) : over (over t s) u = over t u := rfl

/-- Requests change nothing but the queues and messages. -/
theorem ints_only {cfg : Config} (hw : cfg.MWF) {l : List MReq} (hl : ReqsOk l) {x x' : QMaster} (h : Inv cfg x.lib)
    (hr : runInts (reqInt cfg) x l = .ok x') : x'.lib = over x.lib x'.lib := by
  obtain ⟨y, k1, -, k3⟩ := ints_over hw x.lib hl h
  rw [hr] at k1
  cases k1
  rw [over_self] at k3
  have := hr.symm.trans k3
  simp only [Except.ok.injEq] at this
  rw [QMaster.mk.injEq] at this
  exact this.1

/-- The end of the poll after the push: assignments to `msg_buf` and the state variable. -/
theorem push_tail {cfg : Config} (hw : cfg.MWF) {T s : Master} {rs : List ReqRet} (hI : Inv cfg s) (hv : s = over { T with msgBuf := none, st := .idle } s)
    {ints : List (List MReq)} (hl : ReqsOk ints.flatten) :
    ∃ x', runInts (reqInt cfg) { lib := s, rets := rs } ints.flatten = .ok x' ∧
      runProg (reqInt cfg) (qassign (fun s => { s with msgBuf := none }) (qassign (fun s => { s with st := .idle }) .done)) ints { lib := over T s, rets := rs } = .ok (x', []) := by
  have e0 := flatten_headD ints
  have e1 := flatten_headD ints.tail
  rw [e0, e1] at hl
  obtain ⟨x1, a1, a2, a3⟩ := ints_over hw T hl.left (x := { lib := s, rets := rs }) hI
  obtain ⟨x2, b1, b2, b3⟩ := ints_over hw { T with msgBuf := none } hl.right.left a2
  obtain ⟨x3, c1, c2, c3⟩ := ints_over hw { T with msgBuf := none, st := .idle } hl.right.right b2
  have hall := ints_app _ a1 (ints_app _ b1 c1)
  refine ⟨x3, by rw [e0, e1]; exact hall, ?_⟩
  rw [q_assign a3 (s := over { T with msgBuf := none } x1.lib) rfl, q_assign b3 (s := over { T with msgBuf := none, st := .idle } x2.lib) rfl]
  simp only [runProg, c3, okBind, pureOk, Except.ok.injEq, Prod.mk.injEq, and_true]
  have h3 := ints_only hw (by exact hl) (x := { lib := s, rets := rs }) hI hall
  have h4 : x3.lib = over { T with msgBuf := none, st := .idle } x3.lib := by
    rw [h3]
    show over s x3.lib = over _ (over s x3.lib)
    conv => lhs; rw [hv]
    rfl
  rw [← h4]

end Modbus
