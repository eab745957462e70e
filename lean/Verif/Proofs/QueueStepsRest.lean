import Verif.Proofs.QueueSteps

/-! C88: the parts of a poll that do not touch the queues. -/

namespace Modbus

open Spec

/-- The state `t` of a poll working on message `i`, with the queues and the other messages of `q`. -/
def merge (i : Nat) (t q : Master) : Master := qview t id id (· == i) q

/-- The invariant, with message `i` in transaction. -/
def HasCur (cfg : Config) (i : Nat) (q : Master) : Prop := ∃ g r c, MInv cfg q g ∧ g.cur = some (i, r, c)

theorem HasCur.data {cfg : Config} {i : Nat} {q : Master} (h : HasCur cfg i q) : q.dataSet = true := by
  obtain ⟨g, r, c, h, -⟩ := h; exact h.data

theorem merge_self (i : Nat) (q : Master) : merge i q q = q := by
  cases q; simp [merge, qview]

theorem genReq_cur {cfg : Config} (hw : cfg.MWF) {i : Nat} {s : Master} (h : HasCur cfg i s) {r : MReq} (hr : QtyOk r → DataOk r) :
    ∃ c s', generateRequest cfg s r.param = .ok (c, s') ∧ HasCur cfg i s' ∧ KeptBy i s s' := by
  obtain ⟨g, r0, c0, h, hc⟩ := h
  obtain ⟨c, s', g', k1, k2, k3, -⟩ := genReq_inv hw h hr
  exact ⟨c, s', k1, ⟨g', r0, c0, k2, by rw [k3, hc]⟩, genReq_kept k1 (pop_not_cur hw h hc)⟩

theorem genReq_merge {cfg : Config} (hw : cfg.MWF) {i : Nat} (t : Master) {s : Master} (h : HasCur cfg i s) {r : MReq} (hr : QtyOk r → DataOk r) :
    ∃ c s', generateRequest cfg s r.param = .ok (c, s') ∧ HasCur cfg i s' ∧ generateRequest cfg (merge i t s) r.param = .ok (c, merge i t s') := by
  obtain ⟨c, s', k1, k2, -⟩ := genReq_cur hw h hr
  refine ⟨c, s', k1, k2, genReq_view k1 t (fun x fq hp => ⟨hp, ?_⟩) (fun j fq tq y _ hp => ⟨y, hp⟩)⟩
  rintro j rfl
  obtain ⟨g, r0, c0, h, hc⟩ := h
  by_cases hj : j = i
  · subst hj; exact absurd hp (pop_not_cur hw h hc fq)
  · simpa using hj

theorem ints_merge {cfg : Config} (hw : cfg.MWF) {i : Nat} (t : Master) {l : List MReq} (hl : ReqsOk l) {x : QMaster} (h : HasCur cfg i x.lib) :
    ∃ x', runInts (reqInt cfg) x l = .ok x' ∧ HasCur cfg i x'.lib ∧
      runInts (reqInt cfg) { lib := merge i t x.lib, rets := x.rets } l = .ok { lib := merge i t x'.lib, rets := x'.rets } :=
  ints_view (HasCur cfg i) t (fun _ _ h hr => genReq_merge hw t h hr) hl h

theorem ints_kept {cfg : Config} (hw : cfg.MWF) {i : Nat} : ∀ {l : List MReq}, ReqsOk l → ∀ {x x' : QMaster}, HasCur cfg i x.lib →
    runInts (reqInt cfg) x l = .ok x' → KeptBy i x.lib x'.lib
  | [], _, x, x', _, h => by cases h; exact KeptBy.rfl' i _
  | r :: l, hl, x, x', hi, h => by
    obtain ⟨c, s', k1, k2, k3⟩ := genReq_cur hw hi (hl r (by simp))
    simp only [runInts, reqInt_ok k1, okBind] at h
    exact k3.trans (ints_kept hw (x := { lib := s', rets := x.rets ++ [c] }) (fun r' h' => hl r' (by simp [h'])) k2 h)

/-- Requests change nothing but the queues and the other messages. -/
theorem merge_kept {i : Nat} {s q : Master} (h : KeptBy i s q) (hd : q.dataSet = true) (hs : s.dataSet = true) : merge i s q = q := by
  obtain ⟨h1, h2⟩ := h
  rw [h1]
  cases s; cases q
  simp only [merge, qview, id] at *
  simp only [Master.mk.injEq, true_and, and_true]
  funext j
  by_cases hj : j = i
  · subst hj; simp [h2]
  · simp [hj]

/-- A step that does not touch the queues and the messages other than `i`. -/
def RestStep {α : Type} (i : Nat) (f : Master → C (α × Master × List MOut)) : Prop :=
  ∀ t q, t.msgBuf = some i → t.dataSet = true → q.dataSet = true →
    f (merge i t q) = (do let (a, t', o) ← f t; return (a, merge i t' q, o)) ∧
    ∀ a t' o, f t = .ok (a, t', o) → t'.msgBuf = some i ∧ t'.dataSet = true

/-- A program consisting of such steps until it ends or reaches `E`. -/
inductive RestTo (i : Nat) (E : QProg) : QProg → Prop
  | done : RestTo i E .done
  | stop : RestTo i E E
  | step {α : Type} {b : Bool} {f : Master → C (α × Master × List MOut)} {k : α → QProg} (hf : RestStep i f) (hk : ∀ a, RestTo i E (k a)) :
      RestTo i E (qstep b f k)

/-- What such a program does, decided by the state `t` of the poll alone. -/
inductive RestEnd (cfg : Config) (i : Nat) (E p : QProg) (t : Master) : Prop
  | error (u : UB) (h : ∀ (x : QMaster) (ints : List (List MReq)), HasCur cfg i x.lib → ReqsOk ints.flatten →
      runProg (reqInt cfg) p ints { lib := merge i t x.lib, rets := x.rets } = .error u)
  | done (T : Master) (o : List MOut) (hd : T.dataSet = true) (h : ∀ (x : QMaster) (ints : List (List MReq)), HasCur cfg i x.lib → ReqsOk ints.flatten →
      ∃ x', runInts (reqInt cfg) x ints.flatten = .ok x' ∧ HasCur cfg i x'.lib ∧
        runProg (reqInt cfg) p ints { lib := merge i t x.lib, rets := x.rets } = .ok ({ lib := merge i T x'.lib, rets := x'.rets }, o))
  | stop (T : Master) (o : List MOut) (hd : T.dataSet = true) (hb : T.msgBuf = some i) (h : ∀ (x : QMaster) (ints : List (List MReq)), HasCur cfg i x.lib → ReqsOk ints.flatten →
      ∃ n x', runInts (reqInt cfg) x (ints.take n).flatten = .ok x' ∧ HasCur cfg i x'.lib ∧
        runProg (reqInt cfg) p ints { lib := merge i t x.lib, rets := x.rets } =
          (do let (y, o') ← runProg (reqInt cfg) E (ints.drop n) { lib := merge i T x'.lib, rets := x'.rets }; return (y, o ++ o')) ∧
        (noRace (reqInt cfg) p ints { lib := merge i t x.lib, rets := x.rets } →
          noRace (reqInt cfg) E (ints.drop n) { lib := merge i T x'.lib, rets := x'.rets }))

theorem take_headD {α : Type} (l : List (List α)) (n : Nat) : (l.take (n + 1)).flatten = l.headD [] ++ (l.tail.take n).flatten := by cases l <;> simp
theorem drop_tail_q {α : Type} (l : List α) (n : Nat) : l.tail.drop n = l.drop (n + 1) := by cases l <;> simp

theorem rest_end {cfg : Config} (hw : cfg.MWF) {i : Nat} {E p : QProg} (hp : RestTo i E p) : ∀ (t : Master), t.msgBuf = some i → t.dataSet = true →
    RestEnd cfg i E p t := by
  induction hp with
  | done =>
    intro t hb hd
    refine .done t [] hd fun x ints hx hl => ?_
    obtain ⟨x', k1, k2, k3⟩ := ints_merge hw t hl hx
    exact ⟨x', k1, k2, by simp only [runProg, k3, okBind, pureOk]⟩
  | stop =>
    intro t hb hd
    refine .stop t [] hd hb fun x ints hx hl => ⟨0, x, rfl, hx, ?_, fun h => h⟩
    simp only [List.drop_zero, List.nil_append]
    cases runProg (reqInt cfg) E ints { lib := merge i t x.lib, rets := x.rets } <;> rfl
  | @step α b f k hf hk ih =>
    intro t hb hd
    have key : ∀ (x : QMaster) (ints : List (List MReq)), HasCur cfg i x.lib → ReqsOk ints.flatten → ∃ x1, runInts (reqInt cfg) x (ints.headD []) = .ok x1 ∧
        HasCur cfg i x1.lib ∧ runInts (reqInt cfg) { lib := merge i t x.lib, rets := x.rets } (ints.headD []) = .ok { lib := merge i t x1.lib, rets := x1.rets } ∧
        ReqsOk ints.tail.flatten := by
      intro x ints hx hl
      rw [flatten_headD] at hl
      obtain ⟨x1, k1, k2, k3⟩ := ints_merge hw t hl.left hx
      exact ⟨x1, k1, k2, k3, hl.right⟩
    cases hft : f t with
    | error u =>
      refine .error u fun x ints hx hl => ?_
      obtain ⟨x1, k1, k2, k3, -⟩ := key x ints hx hl
      have hfm := (hf t x1.lib hb hd k2.data).1
      rw [hft] at hfm
      simp only [qstep, runProg, k3, okBind, hfm]
      rfl
    | ok z =>
      obtain ⟨a, t', o⟩ := z
      have hfm : ∀ q, q.dataSet = true → f (merge i t q) = .ok (a, merge i t' q, o) := by
        intro q hq
        have := (hf t q hb hd hq).1
        rw [hft] at this
        exact this
      obtain ⟨hb', hd'⟩ := (hf t t hb hd hd).2 a t' o hft
      rcases ih a t' hb' hd' with ⟨u, hu⟩ | ⟨T, o', hT, hdone⟩ | ⟨T, o', hT, hTb, hstop⟩
      · refine .error u fun x ints hx hl => ?_
        obtain ⟨x1, k1, k2, k3, k4⟩ := key x ints hx hl
        rw [q_step k3 (hfm _ k2.data), hu x1 ints.tail k2 k4]
        rfl
      · refine .done T (o ++ o') hT fun x ints hx hl => ?_
        obtain ⟨x1, k1, k2, k3, k4⟩ := key x ints hx hl
        obtain ⟨x', j1, j2, j3⟩ := hdone x1 ints.tail k2 k4
        refine ⟨x', by rw [flatten_headD]; exact ints_app _ k1 j1, j2, ?_⟩
        rw [q_step k3 (hfm _ k2.data), j3]
        rfl
      · refine .stop T (o ++ o') hT hTb fun x ints hx hl => ?_
        obtain ⟨x1, k1, k2, k3, k4⟩ := key x ints hx hl
        obtain ⟨n, x', j1, j2, j3, j4⟩ := hstop x1 ints.tail k2 k4
        refine ⟨n + 1, x', by rw [take_headD]; exact ints_app _ k1 j1, j2, ?_, ?_⟩
        · rw [q_step k3 (hfm _ k2.data), j3, drop_tail_q]
          cases runProg (reqInt cfg) E (ints.drop (n + 1)) { lib := merge i T x'.lib, rets := x'.rets } with
          | error u => rfl
          | ok z => simp only [okBind, pureOk, List.append_assoc]
        · intro hr
          rw [← drop_tail_q]
          exact j4 (q_race k3 (hfm _ k2.data) hr).2

end Modbus
