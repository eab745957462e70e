import Verif.Model.QueueSteps
import Verif.Proofs.Callbacks
import Verif.Proofs.Preempt

/-! Proof machinery for C88: requests made by interrupt handlers while a poll runs. -/

namespace Modbus

open Spec

/-! ### Requests see only part of the state -/

/-- A state whose queues are images of those of `s`, whose messages are those of `s` except the kept ones, and which is otherwise `t`. -/
def qview (t : Master) (φ ψ : Queue Nat → Queue Nat) (keep : Nat → Bool) (s : Master) : Master :=
  { t with dataSet := s.dataSet, freeQ := φ s.freeQ, txQ := ψ s.txQ, msgs := fun j => if keep j then t.msgs j else s.msgs j }

theorem setMsg_view (keep : Nat → Bool) (a b : Nat → MMsg) {j : Nat} (m : MMsg) (h : keep j = false) :
    setMsg (fun k => if keep k then a k else b k) j m = fun k => if keep k then a k else setMsg b j m k := by
  funext k
  unfold setMsg
  by_cases hk : k = j
  · subst hk; simp [h]
  · simp [hk]

theorem genReq_view {cfg : Config} {s s' : Master} {p : ReqParam} {c : ReqRet} (h : generateRequest cfg s p = .ok (c, s')) (t : Master)
    {φ ψ : Queue Nat → Queue Nat} {keep : Nat → Bool}
    (hpop : ∀ x fq, s.freeQ.pop cfg.queueItems = .ok (x, fq) → (φ s.freeQ).pop cfg.queueItems = .ok (x, φ fq) ∧ ∀ j, x = some j → keep j = false)
    (hpush : ∀ j fq tq y, s.freeQ.pop cfg.queueItems = .ok (some j, fq) → s.txQ.push cfg.queueItems (some j) = .ok (tq, y) →
      ∃ y', (ψ s.txQ).push cfg.queueItems (some j) = .ok (ψ tq, y')) :
    generateRequest cfg (qview t φ ψ keep s) p = .ok (c, qview t φ ψ keep s') := by
  unfold generateRequest at h ⊢
  obtain ⟨⟨x, fq⟩, h1, h⟩ := bind_ok h
  obtain ⟨hp, hk⟩ := hpop x fq h1
  have hp' : (qview t φ ψ keep s).freeQ.pop cfg.queueItems = .ok (x, φ fq) := hp
  simp only [hp', ok_bind]
  cases x with
  | none =>
    simp only [pure_eq, Except.ok.injEq, Prod.mk.injEq] at h ⊢
    rw [← h.2]; exact ⟨h.1, rfl⟩
  | some j =>
    have hkj := hk j rfl
    have hm : (qview t φ ψ keep s).msgs j = s.msgs j := by simp [qview, hkj]
    have hds : (qview t φ ψ keep s).dataSet = s.dataSet := rfl
    have hsm : ∀ m, setMsg (qview t φ ψ keep s).msgs j m = fun k => if keep k then t.msgs k else setMsg s.msgs j m k :=
      fun m => setMsg_view keep t.msgs s.msgs m hkj
    simp only [hm, hds, hsm] at h ⊢
    obtain ⟨⟨r, m⟩, h2, h⟩ := bind_ok h
    simp only [h2, ok_bind] at h ⊢
    split at h
    · rename_i hr
      rw [if_pos hr]
      simp only [pure_eq, Except.ok.injEq, Prod.mk.injEq] at h ⊢
      rw [← h.2]; exact ⟨h.1, rfl⟩
    · rename_i hr
      rw [if_neg hr]
      obtain ⟨⟨r2, b, l⟩, h3, h⟩ := bind_ok h
      simp only [h3, ok_bind] at h ⊢
      split at h
      · rename_i hr2
        rw [if_pos hr2]
        simp only [pure_eq, Except.ok.injEq, Prod.mk.injEq] at h ⊢
        rw [← h.2]; exact ⟨h.1, rfl⟩
      · rename_i hr2
        rw [if_neg hr2]
        obtain ⟨⟨tq, y⟩, h4, h⟩ := bind_ok h
        obtain ⟨y', h5⟩ := hpush j fq tq y h1 h4
        have h5' : (qview t φ ψ keep s).txQ.push cfg.queueItems (some j) = .ok (ψ tq, y') := h5
        simp only [h5', ok_bind] at h ⊢
        simp only [pure_eq, Except.ok.injEq, Prod.mk.injEq] at h ⊢
        rw [← h.2]; exact ⟨h.1, rfl⟩

/-! ### Requests in states the invariant describes -/

def ReqsOk (l : List MReq) : Prop := ∀ r ∈ l, QtyOk r → DataOk r

theorem ReqsOk.left {a b : List MReq} (h : ReqsOk (a ++ b)) : ReqsOk a := fun r hr => h r (by simp [hr])
theorem ReqsOk.right {a b : List MReq} (h : ReqsOk (a ++ b)) : ReqsOk b := fun r hr => h r (by simp [hr])

/-- A request keeps the invariant, the current message and the head of the queue of requests. -/
theorem genReq_inv {cfg : Config} (hw : cfg.MWF) {s : Master} {g : Ghost} (h : MInv cfg s g) {r : MReq} (hr : QtyOk r → DataOk r) :
    ∃ c s' g', generateRequest cfg s r.param = .ok (c, s') ∧ MInv cfg s' g' ∧ g'.cur = g.cur ∧ (∀ x l, g.tl = x :: l → ∃ l', g'.tl = x :: l') ∧
      masterStep cfg s (.request r) = .ok (s', [.ret c]) := by
  obtain ⟨s1, o1, g1, k1, k2, k3⟩ := request_inv hw h r hr
  have hcur : g1.cur = g.cur ∧ ∀ x l, g.tl = x :: l → ∃ l', g1.tl = x :: l' := by
    generalize hop : MOp.request r = op at k3
    cases k3 with
    | accept r' i fl h1 hq => exact ⟨rfl, fun x l e => ⟨l ++ [i], by simp [e]⟩⟩
    | full r' h1 => exact ⟨rfl, fun x l e => ⟨l, e⟩⟩
    | refuse r' i fl h1 hq => exact ⟨rfl, fun x l e => ⟨l, e⟩⟩
    | silent _ h1 => exact absurd hop.symm (h1 r)
    | start | again | finish => cases hop
  have hst := k1
  simp only [masterStep] at k1
  obtain ⟨⟨c, s2⟩, j1, j2⟩ := bind_ok k1
  simp only [pure_eq, Except.ok.injEq, Prod.mk.injEq] at j2
  obtain ⟨rfl, rfl⟩ := j2
  exact ⟨c, _, g1, j1, k2, hcur.1, hcur.2, hst⟩

theorem reqInt_ok {cfg : Config} {x : QMaster} {r : MReq} {c : ReqRet} {s : Master} (h : generateRequest cfg x.lib r.param = .ok (c, s)) :
    reqInt cfg x r = .ok { lib := s, rets := x.rets ++ [c] } := by
  simp [reqInt, h]

/-- The requests `l`, made one after the other, in the base model. -/
theorem ints_base {cfg : Config} (hw : cfg.MWF) : ∀ {l : List MReq}, ReqsOk l → ∀ {x : QMaster} {g : Ghost}, MInv cfg x.lib g →
    ∃ x' g' cs, runInts (reqInt cfg) x l = .ok x' ∧ MInv cfg x'.lib g' ∧ g'.cur = g.cur ∧ x'.rets = x.rets ++ cs ∧ cs.length = l.length ∧
      masterRun cfg x.lib (l.map .request) = .ok (x'.lib, List.zipWith (fun r c => (MOp.request r, [MOut.ret c])) l cs)
  | [], _, x, g, h => ⟨x, g, [], rfl, h, rfl, by simp, rfl, rfl⟩
  | r :: l, hl, x, g, h => by
    obtain ⟨c, s1, g1, k1, k2, k3, -, k5⟩ := genReq_inv hw h (hl r (by simp))
    obtain ⟨x', g', cs, j1, j2, j3, j4, j5, j6⟩ := ints_base hw (l := l) (fun r' h' => hl r' (by simp [h'])) (x := { lib := s1, rets := x.rets ++ [c] }) k2
    refine ⟨x', g', c :: cs, ?_, j2, by rw [j3, k3], by rw [j4]; simp, by simp [j5], ?_⟩
    · simp only [runInts, reqInt_ok k1, okBind]; exact j1
    · simp only [List.map_cons, masterRun, k5, ok_bind, j6, List.zipWith_cons_cons, pure_eq]

theorem ints_app {σ ε : Type} (int : σ → ε → C σ) {a b c : σ} {l l' : List ε} (h1 : runInts int a l = .ok b) (h2 : runInts int b l' = .ok c) :
    runInts int a (l ++ l') = .ok c := by
  induction l generalizing a with
  | nil => cases h1; exact h2
  | cons e l ih =>
    simp only [runInts, List.cons_append] at h1 ⊢
    obtain ⟨s1, k1, k2⟩ := bind_ok h1
    rw [k1, okBind]
    exact ih k2

/-- Requests commute with a view of the state. -/
theorem ints_view {cfg : Config} (I : Master → Prop) (t : Master) {φ ψ : Queue Nat → Queue Nat} {keep : Nat → Bool}
    (hstep : ∀ s r, I s → (QtyOk r → DataOk r) → ∃ c s', generateRequest cfg s r.param = .ok (c, s') ∧ I s' ∧
      generateRequest cfg (qview t φ ψ keep s) r.param = .ok (c, qview t φ ψ keep s')) :
    ∀ {l : List MReq}, ReqsOk l → ∀ {x : QMaster}, I x.lib → ∃ x', runInts (reqInt cfg) x l = .ok x' ∧ I x'.lib ∧
      runInts (reqInt cfg) { lib := qview t φ ψ keep x.lib, rets := x.rets } l = .ok { lib := qview t φ ψ keep x'.lib, rets := x'.rets }
  | [], _, x, h => ⟨x, rfl, h, rfl⟩
  | r :: l, hl, x, h => by
    obtain ⟨c, s1, k1, k2, k3⟩ := hstep _ r h (hl r (by simp))
    obtain ⟨x', j1, j2, j3⟩ := ints_view I t hstep (l := l) (fun r' h' => hl r' (by simp [h'])) (x := { lib := s1, rets := x.rets ++ [c] }) k2
    refine ⟨x', ?_, j2, ?_⟩
    · simp only [runInts, reqInt_ok k1, okBind]; exact j1
    · have k3' := reqInt_ok (x := { lib := qview t φ ψ keep x.lib, rets := x.rets }) k3
      simp only [runInts, k3', okBind]; exact j3

/-! ### Steps of the program -/

theorem flatten_headD {α : Type} (l : List (List α)) : l.flatten = l.headD [] ++ l.tail.flatten := by cases l <;> simp

theorem q_step {cfg : Config} {α : Type} {b : Bool} {f : Master → C (α × Master × List MOut)} {k : α → QProg} {ints : List (List MReq)} {x x1 : QMaster} {a : α} {s : Master}
    {o : List MOut} (h1 : runInts (reqInt cfg) x (ints.headD []) = .ok x1) (h2 : f x1.lib = .ok (a, s, o)) :
    runProg (reqInt cfg) (qstep b f k) ints x =
      (do let (y, o') ← runProg (reqInt cfg) (k a) ints.tail { lib := s, rets := x1.rets }; return (y, o ++ o')) := by
  simp only [qstep, runProg, h1, okBind, h2]
  rfl

theorem q_quiet {cfg : Config} {α : Type} {b : Bool} {f : Master → C (α × Master × List MOut)} {k : α → QProg} {ints : List (List MReq)} {x x1 : QMaster} {a : α} {s : Master}
    (h1 : runInts (reqInt cfg) x (ints.headD []) = .ok x1) (h2 : f x1.lib = .ok (a, s, [])) :
    runProg (reqInt cfg) (qstep b f k) ints x = runProg (reqInt cfg) (k a) ints.tail { lib := s, rets := x1.rets } := by
  rw [q_step h1 h2]
  cases runProg (reqInt cfg) (k a) ints.tail { lib := s, rets := x1.rets } <;> rfl

theorem q_race {cfg : Config} {α : Type} {b : Bool} {f : Master → C (α × Master × List MOut)} {k : α → QProg} {ints : List (List MReq)} {x x1 : QMaster} {a : α} {s : Master}
    {o : List MOut} (h1 : runInts (reqInt cfg) x (ints.headD []) = .ok x1) (h2 : f x1.lib = .ok (a, s, o)) (hr : noRace (reqInt cfg) (qstep b f k) ints x) :
    (b = true → ints.headD [] = []) ∧ noRace (reqInt cfg) (k a) ints.tail { lib := s, rets := x1.rets } := by
  simp only [qstep, noRace] at hr
  refine ⟨fun hb => ?_, hr.2 _ a _ o h1 (by rw [h2]; rfl)⟩
  have hall := hr.1
  revert hall
  cases ints.headD [] with
  | nil => intro _; rfl
  | cons e l => intro hall; exact absurd (hall e (by simp)) (by simp [hb])

end Modbus
