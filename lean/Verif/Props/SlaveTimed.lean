import Verif.Proofs.SlaveTimed

/-! C71: with punctual main loop, driver and line, every valid frame is answered within two poll periods, for ever. -/

namespace Modbus

open Spec

section
variable {cfg : Config} {id : U8} {x : SlaveTimed} {P X : Nat}

/-- Outside the operations of the application, memory changes only with a response. -/
theorem C71_memory_changes_only_with_response (hc : cfg.WF) (hx : x.Exec cfg id) {k : Nat} (ho : x.out k = [])
    (h : x.op k = .poll ∨ SlaveTimed.Line (x.op k) ∨ x.op k = .txDone) : (x.st (k + 1)).mem = (x.st k).mem := by
  have hs := hx.step k
  rw [ho] at hs
  rcases h with h | h | h
  · rw [h] at hs
    have := slavePoll_inv cfg hc hs
    generalize hs' : x.st (k + 1) = s' at this
    generalize ho' : ([] : List SOut) = o at this
    cases this with
    | answer => cases ho'
    | stay | check | drop | done | dflt => rfl
  · cases hop : x.op k <;> rw [hop] at h <;> first | exact h.elim | skip
    all_goals
      rw [hop] at hs
      simp only [slaveStep] at hs
    case rxByte b =>
      cases hsub : (x.st k).subscribed <;> rw [hsub] at hs
      · simp only [Bool.false_eq_true, if_false, pure_eq, Except.ok.injEq, Prod.mk.injEq] at hs
        rw [← hs.1]
      · rw [if_pos rfl, wr_ok _ _ (x.st k).reqLen.isLt] at hs
        simp only [ok_bind, pure_eq, Except.ok.injEq, Prod.mk.injEq] at hs
        rw [← hs.1]
    all_goals
      simp only [Except.ok.injEq, Prod.mk.injEq] at hs
      rw [← hs.1]
      split <;> rfl
  · rw [h] at hs
    simp only [slaveStep, Except.ok.injEq, Prod.mk.injEq] at hs
    rw [← hs.1]
    split <;> rfl

/-- **C71** In every execution from power-on in which the main loop polls at least every `P`, silences are reported in pairs, the line stays quiet for more
than `2 P` after a 3.5-char event and after a response, and completions are reported: take any frame, i.e. the bytes `f` received between two consecutive
3.5-char events (or power-on and the first). If it is a valid request for this slave and no frame error was reported, then within `2 P` a poll hands
exactly the response the protocol prescribes to the driver, with exactly the prescribed effect on memory, and nothing else is put out until the next
3.5-char event. If it is not (and at most 255 bytes long), nothing is put out at all. -/
theorem C71_every_frame_in_time (hc : cfg.WF) (hx : x.Exec cfg id) (hp : x.Punctual P X) (c m : Nat) (hcm : c ≤ m)
    (hs : c = 0 ∨ x.op (c - 1) = .t35) (hn : ∀ k, c ≤ k → k < m → x.op k ≠ .t35) (hm : x.op m = .t35) :
    (GoodFrame id (bytesOf (x.seg c m)) → (∀ k, c ≤ k → k < m → x.op k ≠ .frameErr) →
      ∃ p, m < p ∧ x.op p = .poll ∧ x.time p ≤ x.time m + 2 * P ∧
        x.out p = [.send (rtuFrame id (encodeResponse (respond cfg.limits (x.st p).mem (frameRequest (bytesOf (x.seg c m))))))] ∧
        (x.st (p + 1)).mem = effect cfg.limits (x.st p).mem (frameRequest (bytesOf (x.seg c m))) ∧
        (∀ k, m < k → k ≤ p → x.op k ≠ .t35) ∧
        ∀ k, m ≤ k → k ≠ p → (∀ j, m < j → j ≤ k → x.op j ≠ .t35) → x.out k = []) ∧
    ((bytesOf (x.seg c m)).length ≤ 255 →
      (¬ CrcCorrect (bytesOf (x.seg c m)) ∨ (bytesOf (x.seg c m)).getD 0 0 ≠ id ∨ ∃ k, c ≤ k ∧ k < m ∧ x.op k = .frameErr) →
      ∀ k, m ≤ k → (∀ j, m < j → j ≤ k → x.op j ≠ .t35) → x.out k = []) := by
  obtain ⟨e, e1, e2, e3⟩ := rest_after hc hx hp c hs
  have hem : e ≤ m := by
    apply Classical.byContradiction
    intro h
    exact e2 m hcm (by omega) (by rw [hm]; trivial)
  obtain ⟨p, e', s1, h1, h2, h3, h4, h5, h6, h7, h8, h9, h10, h11, h12⟩ :=
    frame_cycle hc hx hp hs e1 e2 e3 hem (fun k k1 k2 => hn k (by omega) k2) hm
  have hb : bytesOf (x.seg c m) = bytesOf (x.seg e m) := by
    have : bytesOf (x.seg c e) = [] := by
      have key : ∀ l : List SOp, (∀ op ∈ l, ¬ SlaveTimed.Line op) → bytesOf l = [] := by
        intro l
        induction l with
        | nil => intro _; rfl
        | cons op l ih =>
          intro h
          have h0 := h op (List.mem_cons_self ..)
          have h1 := ih (fun o ho => h o (List.mem_cons_of_mem _ ho))
          cases op <;> first | exact absurd trivial h0 | exact h1
      apply key
      intro op ho
      obtain ⟨k, k1, k2, rfl⟩ := SlaveTimed.mem_seg.1 ho
      exact e2 k k1 k2
    rw [x.seg_split e1 hem, bytesOf_append, this]; rfl
  have n35 : ∀ k, m < k → k ≤ p → x.op k ≠ .t35 := fun k k1 k2 h => h7 k k1 (by omega) (by rw [h]; trivial)
  have after : ∀ k, p < k → (∀ j, m < j → j ≤ k → x.op j ≠ .t35) → x.out k = [] := by
    intro k k1 k2
    exact (hx.no35 hc (show p + 1 ≤ k + 1 by omega) (by rw [h8]; simp) (fun j j1 j2 => k2 j (by omega) (by omega))).1 k (by omega) (by omega)
  have fok : (bytesOf (x.seg c m)).length ≤ 255 → (s1.reqLen.toNat = (bytesOf (x.seg c m)).length ∧
      ∀ i, i < (bytesOf (x.seg c m)).length → s1.req i = (bytesOf (x.seg c m)).getD i 0) := by
    intro hlen
    rw [hb] at hlen ⊢
    constructor
    · rw [h10, pushAll_len]; simp; omega
    · intro i hi
      rw [h11, pushAll_get _ _ (by simp; omega)]
      rw [if_pos (by simp; exact hi)]
      rfl
  constructor
  · intro hg hf
    obtain ⟨f1, f2⟩ := fok hg.len
    have h4' := goodFrame_len hg
    have ok : s1.frameOk := by
      refine ⟨?_, ?_⟩
      · rw [f2 0 (by omega), h9]; exact hg.addressed
      · rw [bytes_of_prefix f1 f2]; exact (crc16_eq_zero_iff _).mpr hg.crc
    rw [if_pos ⟨ok, by
      intro h
      obtain ⟨k, k1, k2, k3⟩ := SlaveTimed.mem_seg.1 h
      exact hf k (by omega) k2 k3⟩] at h12
    have hr := request_of_frame cfg hc hg s1.req f2 (x.st p).mem
    refine ⟨p, h1, h3, h4, by rw [h12.1, hr.1], by rw [h12.2, hr.2], n35, ?_⟩
    intro k k1 k2 k3
    by_cases h : k < p
    · exact h5 k (by omega) h
    · exact after k (by omega) k3
  · intro hlen hbad
    obtain ⟨f1, f2⟩ := fok hlen
    rw [if_neg (by
      intro ⟨ok, nf⟩
      have hcrc : CrcCorrect (bytesOf (x.seg c m)) := by
        have := ok.2
        rw [bytes_of_prefix f1 f2] at this
        exact (crc16_eq_zero_iff _).mp this
      have hpos : 0 < (bytesOf (x.seg c m)).length := by
        obtain ⟨body, hb'⟩ := hcrc
        have : (bytesOf (x.seg c m)).length = (body ++ [_, _]).length := congrArg List.length hb'
        rw [this]; simp
      rcases hbad with h | h | ⟨k, k1, k2, k3⟩
      · exact h hcrc
      · have := ok.1
        rw [f2 0 hpos, h9] at this
        exact h this
      · apply nf
        apply SlaveTimed.mem_seg.2
        refine ⟨k, ?_, k2, k3⟩
        apply Classical.byContradiction
        intro h
        exact e2 k k1 (by omega) (by rw [k3]; trivial))] at h12
    intro k k1 k3
    by_cases h : k < p
    · exact h5 k (by omega) h
    · by_cases h' : k = p
      · subst h'; exact h12
      · exact after k (by omega) k3

end

/-! ### Such executions exist -/

/-- One valid frame, its completion, one corrupted frame, and polls for ever; every second operation is a poll. -/
def sdemoSlot (s : Nat) : SOp :=
  if s ≤ 7 then .rxByte (sampleFrame.getD s 0)
  else if s = 8 then .t15
  else if s = 9 then .t35
  else if s = 10 then .txDone
  else if s = 11 then .appReg 0 77
  else if s ≤ 12 then .poll
  else if s ≤ 20 then .rxByte ((sampleFrame.getD (s - 13) 0) + 1)
  else if s = 21 then .t15
  else if s = 22 then .t35
  else .poll

def sdemoOp (n : Nat) : SOp := if n % 2 = 0 then .poll else sdemoSlot (n / 2)

def sdemoOut (n : Nat) : List SOut := if n = 20 then [.send [1, 3, 2, 0x03, 0xE8, 0xB8, 0xFA]] else []

def sdemoSt : Nat → Slave
  | 0 => slaveInit (Slave.powerOn sampleMem) .rtu 1
  | n + 1 => match slaveStep Config.default (sdemoSt n) (sdemoOp n) with
    | .ok r => r.1
    | .error _ => sdemoSt n

/-- The step defined at `n`, and its outputs. -/
def sdemoOk (n : Nat) : Bool := match slaveStep Config.default (sdemoSt n) (sdemoOp n) with
  | .ok r => decide (r.2 = sdemoOut n)
  | .error _ => false

theorem sdemo_head : ∀ n, n < 60 → sdemoOk n = true := by decide +kernel

theorem sdemo_rest : (sdemoSt 60).st = .idle ∧ (sdemoSt 60).t15 = .cleared := by decide +kernel

theorem sdemo_of_ok {n : Nat} (h : sdemoOk n = true) : slaveStep Config.default (sdemoSt n) (sdemoOp n) = .ok (sdemoSt (n + 1), sdemoOut n) := by
  unfold sdemoOk at h
  rw [sdemoSt]
  split at h
  · rename_i r hr
    rw [hr]
    simp only [decide_eq_true_eq] at h
    rw [← h]
  · cases h

theorem sdemo_tail (k : Nat) : slaveStep Config.default (sdemoSt (60 + k)) (sdemoOp (60 + k)) = .ok (sdemoSt (60 + k + 1), sdemoOut (60 + k)) ∧
    (sdemoSt (60 + k)).st = .idle ∧ (sdemoSt (60 + k)).t15 = .cleared := by
  have hop : ∀ k, sdemoOp (60 + k) = .poll := by
    intro k
    unfold sdemoOp sdemoSlot
    split
    · rfl
    · iterate 9 rw [if_neg (by omega)]
  have key : ∀ k, (sdemoSt (60 + k)).st = .idle → (sdemoSt (60 + k)).t15 = .cleared →
      slaveStep Config.default (sdemoSt (60 + k)) (sdemoOp (60 + k)) = .ok (sdemoSt (60 + k), []) := by
    intro k h1 h2
    rw [hop k]
    exact quiet_idle Config.default (sdemoSt (60 + k)) h1 (by simp [h2]) _ _ _ _
  have step : ∀ k, (sdemoSt (60 + k)).st = .idle → (sdemoSt (60 + k)).t15 = .cleared → sdemoSt (60 + k + 1) = sdemoSt (60 + k) := by
    intro k h1 h2
    have := key k h1 h2
    rw [sdemoSt, this]
  have rest : ∀ k, (sdemoSt (60 + k)).st = .idle ∧ (sdemoSt (60 + k)).t15 = .cleared := by
    intro k
    induction k with
    | zero => exact sdemo_rest
    | succ k ih => rw [show 60 + (k + 1) = 60 + k + 1 by omega, step k ih.1 ih.2]; exact ih
  refine ⟨?_, rest k⟩
  rw [step k (rest k).1 (rest k).2, key k (rest k).1 (rest k).2]
  unfold sdemoOut
  rw [if_neg (by omega)]

/-- The demonstration execution. -/
def sdemo : SlaveTimed := { op := sdemoOp, time := fun n => n, st := sdemoSt, out := sdemoOut }

theorem sdemoOp_tail {n : Nat} (h : 46 ≤ n) : sdemoOp n = .poll := by
  unfold sdemoOp sdemoSlot
  split
  · rfl
  · iterate 9 rw [if_neg (by omega)]

instance : DecidablePred SlaveTimed.Line := fun op => by cases op <;> (unfold SlaveTimed.Line; infer_instance)

/-- Line events of the demonstration. -/
theorem sdemo_line (n : Nat) : (sdemoOp n = .t15 → n = 17 ∨ n = 43) ∧ (sdemoOp n = .t35 → n = 19 ∨ n = 45) ∧
    (sdemoOp n = .txDone → n = 21) ∧ (SlaveTimed.Line (sdemoOp n) → n ≤ 19 ∨ (27 ≤ n ∧ n ≤ 45)) := by
  by_cases h : n < 46
  · revert n; decide +kernel
  · rw [sdemoOp_tail (by omega)]
    exact ⟨(fun h => nomatch h), (fun h => nomatch h), (fun h => nomatch h), (fun h => False.elim h)⟩

/-- **C71**: an execution as required exists; in it one valid frame is received and answered, and one corrupted frame is received and ignored. -/
theorem slave_timed_demo : sdemo.Exec Config.default 1 ∧ sdemo.Punctual 2 1 ∧ bytesOf (sdemo.seg 0 19) = sampleFrame ∧
    GoodFrame 1 (bytesOf (sdemo.seg 0 19)) ∧ ¬ CrcCorrect (bytesOf (sdemo.seg 20 45)) := by
  have hstep : ∀ n, slaveStep Config.default (sdemoSt n) (sdemoOp n) = .ok (sdemoSt (n + 1), sdemoOut n) := by
    intro n
    by_cases h : n < 60
    · exact sdemo_of_ok (sdemo_head n h)
    · have := (sdemo_tail (n - 60)).1
      rwa [show 60 + (n - 60) = n by omega] at this
  have hf : bytesOf (sdemo.seg 0 19) = sampleFrame := by decide +kernel
  refine ⟨⟨⟨sampleMem, rfl⟩, hstep, ?_, ?_, fun n => Nat.le_succ n⟩, ⟨?_, ?_, ?_, ?_, ?_, ?_⟩, hf, ?_, ?_⟩
  · intro n m i h
    have h : sdemoOp n = _ := h
    unfold sdemoOp sdemoSlot at h
    repeat' split at h
    all_goals cases h
  · intro n t a p h
    have h : sdemoOp n = _ := h
    unfold sdemoOp sdemoSlot at h
    repeat' split at h
    all_goals cases h
  · intro n
    refine ⟨2 * (n / 2) + 2, by omega, ?_, by show 2 * (n / 2) + 2 ≤ n + 2; omega⟩
    show sdemoOp _ = _
    unfold sdemoOp; rw [if_pos (by omega)]
  · intro n h
    have hn := (sdemo_line n).1 h
    rcases hn with rfl | rfl
    · refine ⟨19, by omega, rfl, fun k k1 k2 hl => ?_⟩
      have : k = 18 := by omega
      subst this; exact hl.elim
    · refine ⟨45, by omega, rfl, fun k k1 k2 hl => ?_⟩
      have : k = 44 := by omega
      subst this; exact hl.elim
  · intro n h
    have hn := (sdemo_line n).2.1 h
    rcases hn with rfl | rfl
    · refine ⟨17, by omega, rfl, fun k k1 k2 hl => ?_⟩
      have : k = 18 := by omega
      subst this; exact hl.elim
    · refine ⟨43, by omega, rfl, fun k k1 k2 hl => ?_⟩
      have : k = 44 := by omega
      subst this; exact hl.elim
  · intro m k hmk h hl
    have hn := (sdemo_line m).2.1 h
    have hk := (sdemo_line k).2.2.2 hl
    show m + 2 * 2 < k
    omega
  · intro n h
    have hn : n = 20 := by
      apply Classical.byContradiction
      intro hne
      exact h (show sdemoOut n = [] by unfold sdemoOut; rw [if_neg hne])
    subst hn
    refine ⟨21, by omega, rfl, Nat.le_refl _, fun k k1 hl => ?_⟩
    have hk := (sdemo_line k).2.2.2 hl
    show 21 + 2 < k
    omega
  · intro m h
    have hm := (sdemo_line m).2.2.1 h
    subst hm
    exact ⟨20, by omega, (show sdemoOut 20 ≠ [] by decide), fun k _ _ => by omega⟩
  · rw [hf]; exact sampleExchange_good.frame
  · rw [← crc16_eq_zero_iff]; decide +kernel

end Modbus
