import Verif.Spec.TimedSlave
import Verif.Props.SlaveSync

/-! Timed executions of the slave: from rest to rest. -/

namespace Modbus

open Spec

section
variable {cfg : Config} {id : U8} {x : SlaveTimed} {P X : Nat}

theorem Spec.SlaveTimed.seg_split (x : SlaveTimed) {a b c : Nat} (h1 : a ≤ b) (h2 : b ≤ c) : x.seg a c = x.seg a b ++ x.seg b c := by
  unfold SlaveTimed.seg
  rw [← List.map_append]
  congr 1
  have : c - a = (b - a) + (c - b) := by omega
  rw [this, ← List.range'_append_1]
  congr 2
  omega

theorem Spec.SlaveTimed.seg_one (x : SlaveTimed) (a : Nat) : x.seg a (a + 1) = [x.op a] := by
  unfold SlaveTimed.seg
  rw [show a + 1 - a = 1 by omega]; rfl

theorem Spec.SlaveTimed.seg_cons (x : SlaveTimed) {a c : Nat} (h : a < c) : x.seg a c = x.op a :: x.seg (a + 1) c := by
  rw [x.seg_split (Nat.le_succ a) h, x.seg_one]; rfl

theorem Spec.SlaveTimed.mem_seg {x : SlaveTimed} {a b : Nat} {op : SOp} : op ∈ x.seg a b ↔ ∃ k, a ≤ k ∧ k < b ∧ x.op k = op := by
  unfold SlaveTimed.seg
  rw [List.mem_map]
  constructor
  · rintro ⟨k, h, rfl⟩
    have := List.mem_range'_1.1 h
    exact ⟨k, by omega, by omega, rfl⟩
  · rintro ⟨k, h1, h2, rfl⟩
    exact ⟨k, List.mem_range'_1.2 (by omega), rfl⟩

/-- The outputs of a segment. -/
def Spec.SlaveTimed.outSeg (x : SlaveTimed) (a n : Nat) : List SOut := (List.range' a n).flatMap x.out

theorem Spec.SlaveTimed.Exec.seg_run (hx : x.Exec cfg id) (a n : Nat) : slaveRun cfg (x.st a) (x.seg a (a + n)) = .ok (x.st (a + n), x.outSeg a n) := by
  induction n with
  | zero => simp [SlaveTimed.seg, SlaveTimed.outSeg, slaveRun]
  | succ n ih =>
    rw [x.seg_split (show a ≤ a + n by omega) (show a + n ≤ a + (n + 1) by omega)]
    have h1 : slaveRun cfg (x.st (a + n)) (x.seg (a + n) (a + (n + 1))) = .ok (x.st (a + (n + 1)), x.out (a + n)) := by
      rw [show a + (n + 1) = a + n + 1 by omega, x.seg_one, slaveRun_one]; exact hx.step _
    have := slaveRun_append_ok ih h1
    rw [this]
    congr 2
    unfold SlaveTimed.outSeg
    rw [List.range'_1_concat, List.flatMap_append]
    simp

/-- A known run of a segment. -/
theorem Spec.SlaveTimed.Exec.seg_eq (hx : x.Exec cfg id) {a b : Nat} (h : a ≤ b) {s' : Slave} {o : List SOut}
    (hr : slaveRun cfg (x.st a) (x.seg a b) = .ok (s', o)) : x.st b = s' ∧ x.outSeg a (b - a) = o := by
  have := hx.seg_run a (b - a)
  rw [show a + (b - a) = b by omega, hr] at this
  simp only [Except.ok.injEq, Prod.mk.injEq] at this
  exact ⟨this.1.symm, this.2.symm⟩

theorem Spec.SlaveTimed.outSeg_nil {x : SlaveTimed} {a n : Nat} (h : x.outSeg a n = []) {k : Nat} (h1 : a ≤ k) (h2 : k < a + n) : x.out k = [] := by
  unfold SlaveTimed.outSeg at h
  rw [List.flatMap_eq_nil_iff] at h
  exact h k (List.mem_range'_1.2 ⟨h1, h2⟩)

/-- A silent run of a segment. -/
theorem Spec.SlaveTimed.Exec.seg_silent (hx : x.Exec cfg id) {a b : Nat} (h : a ≤ b) {s' : Slave}
    (hr : slaveRun cfg (x.st a) (x.seg a b) = .ok (s', [])) : x.st b = s' ∧ ∀ k, a ≤ k → k < b → x.out k = [] := by
  obtain ⟨h1, h2⟩ := hx.seg_eq h hr
  exact ⟨h1, fun k k1 k2 => SlaveTimed.outSeg_nil h2 k1 (by omega)⟩

theorem Spec.SlaveTimed.Exec.time_le (hx : x.Exec cfg id) {a b : Nat} (h : a ≤ b) : x.time a ≤ x.time b := by
  induction h with
  | refl => exact Nat.le_refl _
  | step _ ih => exact Nat.le_trans ih (hx.mono _)

/-- Without a pending 3.5-char event nothing is put out until the next one. -/
theorem Spec.SlaveTimed.Exec.no35 (hc : cfg.WF) (hx : x.Exec cfg id) {a b : Nat} (h : a ≤ b) (h35 : (x.st a).t35 ≠ .set)
    (hn : ∀ k, a ≤ k → k < b → x.op k ≠ .t35) : (∀ k, a ≤ k → k < b → x.out k = []) ∧ (x.st b).t35 ≠ .set := by
  have hr := hx.seg_run a (b - a)
  rw [show a + (b - a) = b by omega] at hr
  obtain ⟨h1, h2⟩ := C25_no_answer_without_event_partial cfg hc _ _ _ _ h35 (by
    intro hm
    obtain ⟨k, k1, k2, k3⟩ := SlaveTimed.mem_seg.1 hm
    exact hn k k1 k2 k3) hr
  exact ⟨fun k k1 k2 => SlaveTimed.outSeg_nil h1 k1 (by omega), h2⟩

/-- The first operation of a kind after `n`. -/
theorem first_after (Q : Nat → Prop) {n m : Nat} (h : n < m) (hm : Q m) : ∃ k, n < k ∧ k ≤ m ∧ Q k ∧ ∀ j, n < j → j < k → ¬ Q j := by
  induction m using Nat.strongRecOn with
  | ind m ih =>
    by_cases hex : ∃ j, n < j ∧ j < m ∧ Q j
    · obtain ⟨j, j1, j2, j3⟩ := hex
      obtain ⟨k, k1, k2, k3, k4⟩ := ih j j2 j1 j3
      exact ⟨k, k1, by omega, k3, k4⟩
    · exact ⟨m, h, Nat.le_refl _, hm, fun j j1 j2 j3 => hex ⟨j, j1, j2, j3⟩⟩

theorem Spec.SlaveTimed.Exec.firstPoll (hx : x.Exec cfg id) (hp : x.Punctual P X) (n : Nat) :
    ∃ m, n < m ∧ x.op m = .poll ∧ x.time m ≤ x.time n + P ∧ ∀ k, n < k → k < m → x.op k ≠ .poll := by
  obtain ⟨m, m1, m2, m3⟩ := hp.poll n
  obtain ⟨k, k1, k2, k3, k4⟩ := first_after (fun k => x.op k = .poll) m1 m2
  exact ⟨k, k1, k3, Nat.le_trans (hx.time_le k2) m3, k4⟩

theorem Spec.SlaveTimed.Exec.step_eq (hx : x.Exec cfg id) {k : Nat} {op : SOp} (ho : x.op k = op) {s' : Slave} {o : List SOut}
    (h : slaveStep cfg (x.st k) op = .ok (s', o)) : x.st (k + 1) = s' ∧ x.out k = o := by
  have := hx.step k
  rw [ho, h] at this
  simp only [Except.ok.injEq, Prod.mk.injEq] at this
  exact ⟨this.1.symm, this.2.symm⟩

/-- Only polls put something out. -/
theorem Spec.SlaveTimed.Exec.out_poll (hx : x.Exec cfg id) {k : Nat} (h : x.op k ≠ .poll) : x.out k = [] :=
  slaveStep_out (hx.step k) h

/-- What is not from the line, not a completion and not an initialisation is noise. -/
theorem Spec.SlaveTimed.Exec.noise (hx : x.Exec cfg id) {k : Nat} (h1 : ¬ SlaveTimed.Line (x.op k)) (h2 : x.op k ≠ .txDone) : (x.op k).noise cfg := by
  have h3 := hx.once k
  have h4 := hx.tables k
  cases ho : x.op k with
  | init m i => exact absurd ho (h3 m i)
  | txDone => exact absurd ho h2
  | register t a p => have := h4 t a p ho; cases t <;> exact this
  | poll | appBool | appReg => trivial
  | t15 | t35 | frameErr | rxByte => rw [ho] at h1; exact absurd trivial h1

theorem Spec.SlaveTimed.Exec.seg_err (hc : cfg.WF) (hx : x.Exec cfg id) {a b : Nat} (h : a ≤ b) (hl : Live (x.st a))
    (hn : ∀ k, a ≤ k → k < b → (x.op k).noise cfg ∨ x.op k = .frameErr)
    (hq : (∀ k, a ≤ k → k < b → x.op k ≠ .poll) ∨ ∀ m f r n, slavePoll cfg { x.st a with mem := m, ferr := f, req := r, reqLen := n } =
      .ok ({ x.st a with mem := m, ferr := f, req := r, reqLen := n }, [])) :
    Live (x.st b) ∧ sig (x.st b) = ((x.st a).st, (x.st a).t15, (x.st a).t35, if .frameErr ∈ x.seg a b then .set else (x.st a).ferr, (x.st a).txf,
      (x.st a).id, (x.st a).req, (x.st a).reqLen, appMem (x.st a).mem (x.seg a b)) ∧ ∀ k, a ≤ k → k < b → x.out k = [] := by
  obtain ⟨s', r, l, e⟩ := err_run cfg hc (x.seg a b) (x.st a) hl (by
    intro op ho
    obtain ⟨k, k1, k2, rfl⟩ := SlaveTimed.mem_seg.1 ho
    exact hn k k1 k2) (by
    rcases hq with h | h
    · left; intro hm
      obtain ⟨k, k1, k2, k3⟩ := SlaveTimed.mem_seg.1 hm
      exact h k k1 k2 k3
    · exact .inr h)
  obtain ⟨h1, h2⟩ := hx.seg_silent h r
  rw [h1]
  exact ⟨l, e, h2⟩

theorem Spec.SlaveTimed.Exec.seg_noise (hc : cfg.WF) (hx : x.Exec cfg id) {a b : Nat} (h : a ≤ b) (hl : Live (x.st a))
    (hn : ∀ k, a ≤ k → k < b → (x.op k).noise cfg)
    (hq : (∀ k, a ≤ k → k < b → x.op k ≠ .poll) ∨ ∀ m f r n, slavePoll cfg { x.st a with mem := m, ferr := f, req := r, reqLen := n } =
      .ok ({ x.st a with mem := m, ferr := f, req := r, reqLen := n }, [])) :
    Live (x.st b) ∧ sig (x.st b) = ((x.st a).st, (x.st a).t15, (x.st a).t35, (x.st a).ferr, (x.st a).txf,
      (x.st a).id, (x.st a).req, (x.st a).reqLen, appMem (x.st a).mem (x.seg a b)) ∧ ∀ k, a ≤ k → k < b → x.out k = [] := by
  obtain ⟨l, e, o⟩ := hx.seg_err hc h hl (fun k k1 k2 => .inl (hn k k1 k2)) hq
  rw [if_neg (by
    intro hm
    obtain ⟨k, k1, k2, k3⟩ := SlaveTimed.mem_seg.1 hm
    have := hn k k1 k2
    rw [k3] at this
    exact this)] at e
  exact ⟨l, e, o⟩

/-- A 3.5-char event. -/
theorem Spec.SlaveTimed.Exec.at35 (hx : x.Exec cfg id) {m : Nat} (ho : x.op m = .t35) (hl : Live (x.st m)) :
    Live (x.st (m + 1)) ∧ sig (x.st (m + 1)) = ((x.st m).st, (x.st m).t15, .set, (x.st m).ferr, (x.st m).txf, (x.st m).id, (x.st m).req,
      (x.st m).reqLen, (x.st m).mem) := by
  have h : slaveStep cfg (x.st m) .t35 = .ok ({ x.st m with t35 := .set }, []) := by simp only [slaveStep, hl.sub, if_true]
  rw [(hx.step_eq ho h).1]
  exact ⟨live_of hl rfl rfl rfl rfl, rfl⟩

/-- The poll that checks a frame. -/
theorem Spec.SlaveTimed.Exec.atCheck (hx : x.Exec cfg id) {m : Nat} (ho : x.op m = .poll) (hl : Live (x.st m)) (h1 : (x.st m).st = .idle)
    (h2 : (x.st m).t15 = .set) :
    Live (x.st (m + 1)) ∧ sig (x.st (m + 1)) = (.msgReceived, .cleared, (x.st m).t35, if (x.st m).frameOk then (x.st m).ferr else .set, (x.st m).txf,
      (x.st m).id, (x.st m).req, (x.st m).reqLen, (x.st m).mem) ∧ x.out m = [] := by
  obtain ⟨e1, e2⟩ := hx.step_eq ho (poll_check cfg hl h1 h2)
  refine ⟨?_, ?_, e2⟩
  · rw [e1]; exact live_of hl rfl rfl rfl rfl
  · rw [e1]; rfl

/-- No completion is reported while every response so far has been completed and nothing is put out. -/
theorem Spec.SlaveTimed.Punctual.noDone (hp : x.Punctual P X) {e b : Nat} (hd : ∀ n, n < e → x.Sends n → ∃ q, n < q ∧ q < e ∧ x.op q = .txDone)
    (ho : ∀ k, e ≤ k → k < b → x.out k = []) {k : Nat} (k1 : e ≤ k) (k2 : k ≤ b) : x.op k ≠ .txDone := by
  intro hk
  obtain ⟨n, n1, n2, n3⟩ := hp.done k hk
  by_cases hn : n < e
  · obtain ⟨q, q1, q2, q3⟩ := hd n hn n2
    exact n3 q q1 (by omega) q3
  · exact n2 (ho n (by omega) (by omega))

/-- At rest: synchronised, and every response so far has been completed. -/
structure AtRest (x : SlaveTimed) (id : U8) (e : Nat) : Prop where
  sync : Sync (x.st e)
  id : (x.st e).id = id
  done : ∀ n, n < e → x.Sends n → ∃ q, n < q ∧ q < e ∧ x.op q = .txDone

/-- From rest to the poll that acts on a frame. -/
theorem frame_to_act (hc : cfg.WF) (hx : x.Exec cfg id) (hp : x.Punctual P X) {e m : Nat} (hr : AtRest x id e) (hem : e ≤ m)
    (hn : ∀ k, e ≤ k → k < m → x.op k ≠ .t35) (hm : x.op m = .t35) (ha : ∃ a, e ≤ a ∧ a < m ∧ x.op a = .t15 ∧ (∀ k, e ≤ k → k < a → x.op k ≠ .t15) ∧
      ∀ k, a < k → k < m → SlaveTimed.Line (x.op k) → x.op k = .frameErr) :
    ∃ (p : Nat) (s1 : Slave), m < p ∧ x.op p = .poll ∧ x.time p ≤ x.time m + 2 * P ∧ (∀ k, e ≤ k → k < p → x.out k = []) ∧ (∀ k, e ≤ k → k < p → x.op k ≠ .txDone) ∧
      Live (x.st p) ∧ s1.id = id ∧ s1.reqLen = (pushAll ((x.st e).req, 0) (bytesOf (x.seg e m))).2 ∧
      s1.req = (pushAll ((x.st e).req, 0) (bytesOf (x.seg e m))).1 ∧
      (x.st p).st = .msgReceived ∧ (x.st p).t15 = .cleared ∧ (x.st p).t35 = .set ∧ (x.st p).id = id ∧ (x.st p).req = s1.req ∧
      (x.st p).ferr = (if s1.frameOk ∧ .frameErr ∉ x.seg e m then .cleared else .set) := by
  obtain ⟨a, a1, a2, a3, a4, a5⟩ := ha
  obtain ⟨s0, i0, d0⟩ := hr
  obtain ⟨o35, _⟩ := hx.no35 hc hem (by simp [s0.t35]) hn
  have om : x.out m = [] := hx.out_poll (by rw [hm]; simp)
  have nd1 : ∀ k, e ≤ k → k ≤ m → x.op k ≠ .txDone := fun k k1 k2 => hp.noDone (b := m) d0 o35 k1 k2
  -- reception
  have h1 : ∀ k, e ≤ k → k < a → (x.op k).soft cfg := by
    intro k k1 k2
    have n1 := hn k k1 (by omega)
    have n2 := a4 k k1 k2
    have n3 := nd1 k k1 (by omega)
    by_cases hl : SlaveTimed.Line (x.op k)
    · cases ho : x.op k with
      | rxByte b => exact .inl (.inr ⟨b, rfl⟩)
      | frameErr => exact .inr rfl
      | t15 => exact absurd ho n2
      | t35 => exact absurd ho n1
      | init | poll | txDone | register | appBool | appReg => rw [ho] at hl; exact hl.elim
    · exact .inl (.inl (hx.noise hl n3))
  have r0 : slaveRun cfg (x.st e) (x.seg e a) = .ok (softRes (x.st e) (x.seg e a), []) := by
    refine soft_run cfg hc _ _ s0.live (fun op ho => ?_) (.inr (quiet_idle cfg _ s0.st (by simp [s0.t15])))
    obtain ⟨k, k1, k2, rfl⟩ := SlaveTimed.mem_seg.1 ho
    exact h1 k k1 k2
  obtain ⟨ea, oa⟩ := hx.seg_silent a1 r0
  have la : Live (x.st a) := by rw [ea]; exact live_of s0.live rfl rfl rfl rfl
  have p15 : slaveStep cfg (x.st a) .t15 = .ok ({ x.st a with t15 := .set }, []) := by simp only [slaveStep, la.sub, if_true]
  obtain ⟨eb, ob⟩ := hx.step_eq a3 p15
  have lb : Live (x.st (a + 1)) := by rw [eb]; exact live_of la rfl rfl rfl rfl
  have b15 : (x.st (a + 1)).t15 = .set := by rw [eb]
  have bst : (x.st (a + 1)).st = .idle := by rw [eb, ea]; exact s0.st
  have b35 : (x.st (a + 1)).t35 = .cleared := by rw [eb, ea]; exact s0.t35
  have bf : (x.st (a + 1)).ferr = if .frameErr ∈ x.seg e a then .set else .cleared := by rw [eb, ea, ← s0.ferr]; rfl
  have bi : (x.st (a + 1)).id = id := by rw [eb, ea]; exact i0
  have hseg : x.seg e m = x.seg e a ++ .t15 :: x.seg (a + 1) m := by
    rw [x.seg_split a1 (Nat.le_of_lt a2), x.seg_cons a2, a3]
  have n1 : ∀ k, a + 1 ≤ k → k < m → (x.op k).noise cfg ∨ x.op k = .frameErr := by
    intro k k1 k2
    by_cases hl : SlaveTimed.Line (x.op k)
    · exact .inr (a5 k (by omega) k2 hl)
    · exact .inl (hx.noise hl (nd1 k (by omega) (by omega)))
  have hby : bytesOf (x.seg e m) = bytesOf (x.seg e a) := by
    rw [hseg, bytesOf_append]
    have : bytesOf (x.seg (a + 1) m) = [] := bytesOf_noiseErr (cfg := cfg) (fun op ho => by
      obtain ⟨k, k1, k2, rfl⟩ := SlaveTimed.mem_seg.1 ho
      exact n1 k k1 k2)
    simp only [bytesOf, this, List.append_nil]
  have bn : (x.st (a + 1)).reqLen = (pushAll ((x.st e).req, 0) (bytesOf (x.seg e m))).2 := by rw [eb, ea, hby, ← s0.len]; rfl
  have br : (x.st (a + 1)).req = (pushAll ((x.st e).req, 0) (bytesOf (x.seg e m))).1 := by rw [eb, ea, hby, ← s0.len]; rfl
  have hfe : SOp.frameErr ∈ x.seg e m ↔ SOp.frameErr ∈ x.seg e a ∨ SOp.frameErr ∈ x.seg (a + 1) m := by
    rw [hseg, List.mem_append, List.mem_cons]; simp
  obtain ⟨p1, p11, p12, p13, p14⟩ := hx.firstPoll hp m
  obtain ⟨p2, p21, p22, p23, p24⟩ := hx.firstPoll hp p1
  have q2 : ∀ k, m < k → k ≤ p2 → ¬ SlaveTimed.Line (x.op k) := by
    intro k k1 k2 hl
    have := hp.quiet m k k1 hm hl
    have := hx.time_le k2
    omega
  have oA : ∀ k, e ≤ k → k < p1 → x.out k = [] := by
    intro k k1 k2
    by_cases h : k < m
    · exact o35 k k1 h
    · by_cases h : k = m
      · subst h; exact om
      · exact hx.out_poll (p14 k (by omega) k2)
  have ndA : ∀ k, e ≤ k → k ≤ p1 → x.op k ≠ .txDone := fun k k1 k2 => hp.noDone (b := p1) d0 oA k1 k2
  have nA : ∀ k, m + 1 ≤ k → k < p1 → (x.op k).noise cfg := fun k k1 k2 => hx.noise (q2 k (by omega) (by omega)) (ndA k (by omega) (by omega))
  by_cases hpoll : ∃ k, a < k ∧ k < m ∧ x.op k = .poll
  · -- checked before the 3.5-char event
    obtain ⟨k', k1', k2', k3'⟩ := hpoll
    obtain ⟨k, k1, k2, k3, k4⟩ := first_after (fun k => x.op k = .poll) k1' k3'
    obtain ⟨l1, e1, _⟩ := hx.seg_err hc (show a + 1 ≤ k by omega) lb (fun j j1 j2 => n1 j j1 (by omega)) (.inl (fun j j1 j2 => k4 j (by omega) j2))
    obtain ⟨e1st, e115, e135, e1f, e1x, e1i, e1r, e1n, e1m⟩ := sig_eqs e1
    obtain ⟨l2, e2, _⟩ := hx.atCheck k3 l1 (by rw [e1st, bst]) (by rw [e115, b15])
    obtain ⟨e2st, e215, e235, e2f, e2x, e2i, e2r, e2n, e2m⟩ := sig_eqs e2
    obtain ⟨l3, e3, _⟩ := hx.seg_err hc (show k + 1 ≤ m by omega) l2 (fun j j1 j2 => n1 j (by omega) (by omega))
      (.inr (quiet_msg cfg _ e2st (by rw [e235, e135, b35]; simp)))
    obtain ⟨e3st, e315, e335, e3f, e3x, e3i, e3r, e3n, e3m⟩ := sig_eqs e3
    obtain ⟨l4, e4⟩ := hx.at35 hm l3
    obtain ⟨e4st, e415, e435, e4f, e4x, e4i, e4r, e4n, e4m⟩ := sig_eqs e4
    obtain ⟨l5, e5, _⟩ := hx.seg_noise hc (show m + 1 ≤ p1 by omega) l4 nA (.inl (fun j j1 j2 => p14 j (by omega) j2))
    obtain ⟨e5st, e515, e535, e5f, e5x, e5i, e5r, e5n, e5m⟩ := sig_eqs e5
    have ef : (x.st k).frameOk ↔ (x.st (a + 1)).frameOk := frameOk_congr e1i e1r e1n
    refine ⟨p1, x.st (a + 1), p11, p12, by omega, oA, fun j j1 j2 => ndA j j1 (by omega), l5, bi, bn, br, by rw [e5st, e4st, e3st, e2st],
      by rw [e515, e415, e315, e215], by rw [e535, e435], by rw [e5i, e4i, e3i, e2i, e1i, bi], by rw [e5r, e4r, e3r, e2r, e1r], ?_⟩
    have hs2 : SOp.frameErr ∈ x.seg (a + 1) m ↔ SOp.frameErr ∈ x.seg (a + 1) k ∨ SOp.frameErr ∈ x.seg (k + 1) m := by
      rw [x.seg_split (show a + 1 ≤ k by omega) (show k ≤ m by omega), x.seg_cons (show k < m by omega), k3, List.mem_append, List.mem_cons]; simp
    rw [e5f, e4f, e3f, e2f, e1f, bf]
    simp only [ef, hfe, hs2]
    by_cases f1 : (x.st (a + 1)).frameOk <;> by_cases f2 : SOp.frameErr ∈ x.seg e a <;> by_cases f3 : SOp.frameErr ∈ x.seg (a + 1) k <;>
      by_cases f4 : SOp.frameErr ∈ x.seg (k + 1) m <;> simp [f1, f2, f3, f4]
  · have np : ∀ k, a + 1 ≤ k → k < m → x.op k ≠ .poll := fun k k1 k2 h => hpoll ⟨k, k1, k2, h⟩
    obtain ⟨l1, e1, _⟩ := hx.seg_err hc (show a + 1 ≤ m by omega) lb n1 (.inl np)
    obtain ⟨e1st, e115, e135, e1f, e1x, e1i, e1r, e1n, e1m⟩ := sig_eqs e1
    obtain ⟨l2, e2⟩ := hx.at35 hm l1
    obtain ⟨e2st, e215, e235, e2f, e2x, e2i, e2r, e2n, e2m⟩ := sig_eqs e2
    obtain ⟨l3, e3, _⟩ := hx.seg_noise hc (show m + 1 ≤ p1 by omega) l2 nA (.inl (fun j j1 j2 => p14 j (by omega) j2))
    obtain ⟨e3st, e315, e335, e3f, e3x, e3i, e3r, e3n, e3m⟩ := sig_eqs e3
    obtain ⟨l4, e4, o4⟩ := hx.atCheck p12 l3 (by rw [e3st, e2st, e1st, bst]) (by rw [e315, e215, e115, b15])
    obtain ⟨e4st, e415, e435, e4f, e4x, e4i, e4r, e4n, e4m⟩ := sig_eqs e4
    have oB : ∀ k, e ≤ k → k < p2 → x.out k = [] := by
      intro k k1 k2
      by_cases h : k < p1
      · exact oA k k1 h
      · by_cases h : k = p1
        · subst h; exact o4
        · exact hx.out_poll (p24 k (by omega) k2)
    have ndB : ∀ k, e ≤ k → k ≤ p2 → x.op k ≠ .txDone := fun k k1 k2 => hp.noDone (b := p2) d0 oB k1 k2
    obtain ⟨l5, e5, _⟩ := hx.seg_noise hc (show p1 + 1 ≤ p2 by omega) l4
      (fun k k1 k2 => hx.noise (q2 k (by omega) (by omega)) (ndB k (by omega) (by omega))) (.inl (fun j j1 j2 => p24 j (by omega) j2))
    obtain ⟨e5st, e515, e535, e5f, e5x, e5i, e5r, e5n, e5m⟩ := sig_eqs e5
    have ef : (x.st p1).frameOk ↔ (x.st (a + 1)).frameOk :=
      frameOk_congr (by rw [e3i, e2i, e1i]) (by rw [e3r, e2r, e1r]) (by rw [e3n, e2n, e1n])
    refine ⟨p2, x.st (a + 1), by omega, p22, by omega, oB, fun j j1 j2 => ndB j j1 (by omega), l5, bi, bn, br, by rw [e5st, e4st],
      by rw [e515, e415], by rw [e535, e435, e335, e235], by rw [e5i, e4i, e3i, e2i, e1i, bi], by rw [e5r, e4r, e3r, e2r, e1r], ?_⟩
    rw [e5f, e4f, e3f, e2f, e1f, bf]
    simp only [ef, hfe]
    by_cases f1 : (x.st (a + 1)).frameOk <;> by_cases f2 : SOp.frameErr ∈ x.seg e a <;> by_cases f3 : SOp.frameErr ∈ x.seg (a + 1) m <;> simp [f1, f2, f3]

/-- The acting poll drops a frame: at rest again. -/
theorem act_drop (hx : x.Exec cfg id) {p : Nat} (ho : x.op p = .poll) (hl : Live (x.st p)) (h1 : (x.st p).st = .msgReceived)
    (h2 : (x.st p).t15 = .cleared) (h3 : (x.st p).t35 = .set) (h4 : (x.st p).ferr = .set) :
    x.out p = [] ∧ Sync (x.st (p + 1)) ∧ (x.st (p + 1)).id = (x.st p).id := by
  have h : slaveStep cfg (x.st p) .poll = .ok ({ x.st p with reqLen := 0, st := .idle, ferr := .cleared, t35 := .cleared }, []) := by
    simp only [slaveStep, slavePoll, h1]; exact slaveMsgReceived_drop cfg hl.msgPtr h4 h3
  obtain ⟨e, o⟩ := hx.step_eq ho h
  rw [e]
  exact ⟨o, ⟨live_of hl rfl rfl rfl rfl, rfl, h2, rfl, rfl, rfl⟩, rfl⟩

/-- The acting poll answers; after the completion and one more poll the slave is at rest again. -/
theorem act_answer (hc : cfg.WF) (hx : x.Exec cfg id) (hp : x.Punctual P X) {p : Nat} (ho : x.op p = .poll) (hl : Live (x.st p))
    (h1 : (x.st p).st = .msgReceived) (h2 : (x.st p).t15 = .cleared) (h3 : (x.st p).t35 = .set) (h4 : (x.st p).ferr = .cleared) :
    x.out p = [.send (rtuFrame (x.st p).id (encodeResponse (respond cfg.limits (x.st p).mem (requestOf (x.st p).req))))] ∧
    (x.st (p + 1)).mem = effect cfg.limits (x.st p).mem (requestOf (x.st p).req) ∧ (x.st (p + 1)).t35 = .cleared ∧
    ∃ q r, p < q ∧ q < r ∧ x.op q = .txDone ∧ Sync (x.st (r + 1)) ∧ (x.st (r + 1)).id = (x.st p).id ∧ (∀ k, p < k → k ≤ r → ¬ SlaveTimed.Line (x.op k)) ∧
      ∀ k, p < k → k ≤ r → x.out k = [] := by
  obtain ⟨resp, respLen, hans, _⟩ := slaveMsgReceived_send cfg hc hl.msgPtr hl.dataSet hl.drv h4 h3
  have hs : slaveStep cfg (x.st p) .poll = slaveMsgReceived cfg (x.st p) := by simp only [slaveStep, slavePoll, h1]
  obtain ⟨e, o⟩ := hx.step_eq ho (hs.trans hans)
  have l1 : Live (x.st (p + 1)) := by rw [e]; exact live_of hl rfl rfl rfl rfl
  have e1 : sig (x.st (p + 1)) = (.transmitting, (x.st p).t15, .cleared, (x.st p).ferr, .set, (x.st p).id, (x.st p).req, (x.st p).reqLen,
      effect cfg.limits (x.st p).mem (requestOf (x.st p).req)) := by rw [e]; rfl
  obtain ⟨e1st, e115, e135, e1f, e1x, e1i, e1r, e1n, e1m⟩ := sig_eqs e1
  refine ⟨o, e1m, e135, ?_⟩
  obtain ⟨q', q1', q2', q3', q4'⟩ := hp.txDone p (show x.out p ≠ [] by rw [o]; simp)
  obtain ⟨q, q1, q2, q3, q4⟩ := first_after (fun k => x.op k = .txDone) q1' q2'
  obtain ⟨r, r1, r2, r3, r4⟩ := hx.firstPoll hp q
  have nl : ∀ k, p < k → k ≤ r → ¬ SlaveTimed.Line (x.op k) := by
    intro k k1 k2 hk
    have := q4' k k1 hk
    have := hx.time_le q2
    have := hx.time_le k2
    omega
  obtain ⟨l2, e2, o2⟩ := hx.seg_noise hc (show p + 1 ≤ q by omega) l1 (fun k k1 k2 => hx.noise (nl k (by omega) (by omega)) (q4 k (by omega) k2))
    (.inr (quiet_tx cfg _ e1st (by rw [e1x]; simp)))
  obtain ⟨e2st, e215, e235, e2f, e2x, e2i, e2r, e2n, e2m⟩ := sig_eqs e2
  have p3 : slaveStep cfg (x.st q) .txDone = .ok ({ x.st q with txf := .cleared }, []) := by simp only [slaveStep, l2.sub, if_true]
  obtain ⟨e3', o3⟩ := hx.step_eq q3 p3
  have l3 : Live (x.st (q + 1)) := by rw [e3']; exact live_of l2 rfl rfl rfl rfl
  have e3 : sig (x.st (q + 1)) = ((x.st q).st, (x.st q).t15, (x.st q).t35, (x.st q).ferr, .cleared, (x.st q).id, (x.st q).req, (x.st q).reqLen,
      (x.st q).mem) := by rw [e3']; rfl
  obtain ⟨e3st, e315, e335, e3f, e3x, e3i, e3r, e3n, e3m⟩ := sig_eqs e3
  have nd : ∀ k, q < k → k < r → x.op k ≠ .txDone := by
    intro k k1 k2 hk
    obtain ⟨n, n1, n2, n3⟩ := hp.done k hk
    by_cases hn : n < q
    · exact n3 q hn k1 q3
    · apply n2
      by_cases hq : n = q
      · subst hq; exact o3
      · exact hx.out_poll (r4 n (by omega) (by omega))
  obtain ⟨l4, e4, o4⟩ := hx.seg_noise hc (show q + 1 ≤ r by omega) l3 (fun k k1 k2 => hx.noise (nl k (by omega) (by omega)) (nd k (by omega) k2))
    (.inl (fun k k1 k2 => r4 k (by omega) k2))
  obtain ⟨e4st, e415, e435, e4f, e4x, e4i, e4r, e4n, e4m⟩ := sig_eqs e4
  have p5 : slaveStep cfg (x.st r) .poll = .ok ({ x.st r with st := .idle, respLen := 0, reqLen := 0 }, []) := by
    have hst : (x.st r).st = .transmitting := by rw [e4st, e3st, e2st, e1st]
    simp only [slaveStep, slavePoll, hst]
    exact slaveTransmitting_done l4.msgPtr (by rw [e4x, e3x])
  obtain ⟨e5, o5⟩ := hx.step_eq r2 p5
  refine ⟨q, r, q1, r1, q3, ?_, ?_, nl, ?_⟩
  · rw [e5]
    exact ⟨live_of l4 rfl rfl rfl rfl, rfl, by show (x.st r).t15 = _; rw [e415, e315, e215, e115, h2],
      by show (x.st r).t35 = _; rw [e435, e335, e235, e135], by show (x.st r).ferr = _; rw [e4f, e3f, e2f, e1f, h4], rfl⟩
  · rw [e5]; show (x.st r).id = _; rw [e4i, e3i, e2i, e1i]
  · intro k k1 k2
    by_cases h : k < q
    · exact o2 k (by omega) h
    · by_cases h : k = q
      · subst h; exact o3
      · by_cases h : k < r
        · exact o4 k (by omega) h
        · have : k = r := by omega
          subst this; exact o5

/-- A point right after a 3.5-char event, or the beginning. -/
def FrameStart (x : SlaveTimed) (c : Nat) : Prop := c = 0 ∨ x.op (c - 1) = .t35

/-- The last start of a frame before `m`. -/
theorem last_start (x : SlaveTimed) (m : Nat) : ∃ c, c ≤ m ∧ FrameStart x c ∧ ∀ k, c ≤ k → k < m → x.op k ≠ .t35 := by
  induction m with
  | zero => exact ⟨0, Nat.le_refl _, .inl rfl, fun k _ h => by omega⟩
  | succ m ih =>
    by_cases h : x.op m = .t35
    · exact ⟨m + 1, Nat.le_refl _, .inr h, fun k _ _ => by omega⟩
    · obtain ⟨c, c1, c2, c3⟩ := ih
      refine ⟨c, by omega, c2, fun k k1 k2 => ?_⟩
      by_cases hk : k = m
      · subst hk; exact h
      · exact c3 k k1 (by omega)

/-- The 1.5-char event of a frame. -/
theorem the_t15 (hp : x.Punctual P X) {c e m : Nat} (hs : FrameStart x c) (hce : c ≤ e) (hl : ∀ k, c ≤ k → k < e → ¬ SlaveTimed.Line (x.op k))
    (hem : e ≤ m) (hn : ∀ k, e ≤ k → k < m → x.op k ≠ .t35) (hm : x.op m = .t35) :
    ∃ a, e ≤ a ∧ a < m ∧ x.op a = .t15 ∧ (∀ k, e ≤ k → k < a → x.op k ≠ .t15) ∧
      ∀ k, a < k → k < m → SlaveTimed.Line (x.op k) → x.op k = .frameErr := by
  obtain ⟨a, a1, a2, a3⟩ := hp.pair' m hm
  have hac : c ≤ a := by
    apply Classical.byContradiction
    intro h
    rcases hs with h0 | h0
    · omega
    · by_cases ha : a = c - 1
      · rw [ha, h0] at a2; simp at a2
      · have := a3 (c - 1) (by omega) (by omega) (by rw [h0]; trivial)
        rw [h0] at this; simp at this
  have hae : e ≤ a := by
    apply Classical.byContradiction
    intro h
    exact hl a hac (by omega) (by rw [a2]; trivial)
  refine ⟨a, hae, a1, a2, fun k k1 k2 h => ?_, a3⟩
  obtain ⟨m', m1, m2, m3⟩ := hp.pair k h
  have : m ≤ m' := by
    apply Classical.byContradiction
    intro h'
    exact hn m' (by omega) (by omega) m2
  have := m3 a k2 (by omega) (by rw [a2]; trivial)
  rw [a2] at this; simp at this

/-- What happens with one frame: the acting poll, and rest again before anything else arrives from the line. -/
theorem frame_cycle (hc : cfg.WF) (hx : x.Exec cfg id) (hp : x.Punctual P X) {c e m : Nat} (hs : FrameStart x c) (hce : c ≤ e)
    (hl : ∀ k, c ≤ k → k < e → ¬ SlaveTimed.Line (x.op k)) (hr : AtRest x id e) (hem : e ≤ m)
    (hn : ∀ k, e ≤ k → k < m → x.op k ≠ .t35) (hm : x.op m = .t35) :
    ∃ (p e' : Nat) (s1 : Slave), m < p ∧ p < e' ∧ x.op p = .poll ∧ x.time p ≤ x.time m + 2 * P ∧ (∀ k, e ≤ k → k < p → x.out k = []) ∧
      AtRest x id e' ∧ (∀ k, m < k → k < e' → ¬ SlaveTimed.Line (x.op k)) ∧ (x.st (p + 1)).t35 = .cleared ∧
      s1.id = id ∧ s1.reqLen = (pushAll ((x.st e).req, 0) (bytesOf (x.seg e m))).2 ∧
      s1.req = (pushAll ((x.st e).req, 0) (bytesOf (x.seg e m))).1 ∧
      if s1.frameOk ∧ .frameErr ∉ x.seg e m then
        x.out p = [.send (rtuFrame id (encodeResponse (respond cfg.limits (x.st p).mem (requestOf s1.req))))] ∧
        (x.st (p + 1)).mem = effect cfg.limits (x.st p).mem (requestOf s1.req)
      else x.out p = [] := by
  obtain ⟨p, s1, h1, h2, h3, h4, h5, h6, h7, h8, h9, h10, h11, h12, h13, h14, h15⟩ :=
    frame_to_act hc hx hp hr hem hn hm (the_t15 hp hs hce hl hem hn hm)
  have nl : ∀ k, m < k → k ≤ p → ¬ SlaveTimed.Line (x.op k) := by
    intro k k1 k2 hk
    have := hp.quiet m k k1 hm hk
    have := hx.time_le k2
    omega
  by_cases hok : s1.frameOk ∧ .frameErr ∉ x.seg e m
  · rw [if_pos hok] at h15
    obtain ⟨b1, b2, b3, q, r, b4, b5, b6, b7, b8, b9, b10⟩ := act_answer hc hx hp h2 h6 h10 h11 h12 h15
    refine ⟨p, r + 1, s1, h1, by omega, h2, h3, h4, ⟨b7, b8.trans h13, ?_⟩, ?_, b3, h7, h8, h9, ?_⟩
    · intro n n1 n2
      by_cases hn : n < e
      · obtain ⟨q', c1, c2, c3⟩ := hr.done n hn n2
        exact ⟨q', c1, by omega, c3⟩
      · by_cases hn' : n < p
        · exact absurd (h4 n (by omega) hn') n2
        · by_cases hn'' : n = p
          · subst hn''; exact ⟨q, b4, by omega, b6⟩
          · exact absurd (b10 n (by omega) (by omega)) n2
    · intro k k1 k2
      by_cases h : k ≤ p
      · exact nl k k1 h
      · exact b9 k (by omega) (by omega)
    · rw [if_pos hok, b1, b2, h13, h14]; exact ⟨rfl, rfl⟩
  · rw [if_neg hok] at h15
    obtain ⟨b1, b2, b3⟩ := act_drop hx h2 h6 h10 h11 h12 h15
    refine ⟨p, p + 1, s1, h1, by omega, h2, h3, h4, ⟨b2, b3.trans h13, ?_⟩, fun k k1 k2 => nl k k1 (by omega), b2.t35, h7, h8, h9, ?_⟩
    · intro n n1 n2
      by_cases hn : n < e
      · obtain ⟨q', c1, c2, c3⟩ := hr.done n hn n2
        exact ⟨q', c1, by omega, c3⟩
      · by_cases hn' : n < p
        · exact absurd (h4 n (by omega) hn') n2
        · have : n = p := by omega
          subst this; exact absurd b1 n2
    · rw [if_neg hok]; exact b1

/-- After every 3.5-char event the slave is at rest before anything else arrives from the line. -/
theorem rest_after (hc : cfg.WF) (hx : x.Exec cfg id) (hp : x.Punctual P X) (c : Nat) : FrameStart x c →
    ∃ e, c ≤ e ∧ (∀ k, c ≤ k → k < e → ¬ SlaveTimed.Line (x.op k)) ∧ AtRest x id e := by
  induction c using Nat.strongRecOn with
  | ind c ih =>
    intro hs
    by_cases h0 : c = 0
    · subst h0
      obtain ⟨m, hm⟩ := hx.init
      refine ⟨0, Nat.le_refl _, fun k _ h => by omega, ?_, ?_, fun n h => by omega⟩
      · rw [hm]; exact ⟨⟨rfl, rfl, rfl, rfl⟩, rfl, rfl, rfl, rfl, rfl⟩
      · rw [hm]; rfl
    · have hm : x.op (c - 1) = .t35 := by
        rcases hs with h | h
        · exact absurd h h0
        · exact h
      obtain ⟨c0, d1, d2, d3⟩ := last_start x (c - 1)
      obtain ⟨e0, f1, f2, f3⟩ := ih c0 (by omega) d2
      have hem : e0 ≤ c - 1 := by
        apply Classical.byContradiction
        intro h
        exact f2 (c - 1) d1 (by omega) (by rw [hm]; trivial)
      obtain ⟨p, e', s1, g1, g2, _, _, _, g6, g7, _⟩ := frame_cycle hc hx hp d2 f1 f2 f3 hem (fun k k1 k2 => d3 k (by omega) k2) hm
      exact ⟨e', by omega, fun k k1 k2 => g7 k (by omega) k2, g6⟩

end

end Modbus
