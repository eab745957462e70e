import Verif.Spec.Timed
import Verif.Proofs.MasterExchange
import Verif.Proofs.MasterTrace

/-! Punctual executions of the master. -/

namespace Modbus

open Spec

/-- What a poll does, by state. -/
inductive PollCase (cfg : Config) (s s' : Master) (o : List MOut) : Prop
  | idleNop (h : s.st = .idle) (e : s' = s) (ho : o = [])
  | send (h : s.st = .idle ∨ s.st = .repeatRequest) (e : s'.st = .transmitting) (htx : s'.txf = .set) (h15 : s'.t15 = s.t15)
      (hcnt : s'.repeatCnt = s.repeatCnt) (b : List U8) (ho : o = [.send b])
  | txNop (h : s.st = .transmitting) (htx : s.txf ≠ .cleared) (e : s' = s) (ho : o = [])
  | txEnd (h : s.st = .transmitting) (htx : s.txf = .cleared) (e : s'.st = .waiting) (ht : s'.timer = cfg.respTimeout) (h15 : s'.t15 = s.t15)
      (hcnt : s'.repeatCnt = s.repeatCnt) (ho : o = [])
  | other (h : s.st = .waiting) (hs : s.t15 = .set) (e : s'.st = .waiting) (ht : s'.timer = s.timer) (h15 : s'.t15 = .cleared)
      (hcnt : s'.repeatCnt = s.repeatCnt) (ho : o = [])
  | check (h : s.st = .waiting) (hs : s.t15 = .set) (e : s'.st = .received) (h35 : s'.t35 = .cleared) (h15 : s'.t15 = .cleared)
      (hcnt : s'.repeatCnt = s.repeatCnt) (ho : o = [])
  | timeout (h : s.st = .waiting) (hs : s.t15 ≠ .set) (ht : s.timer = 1) (e : s'.st = .idle) (h15 : s'.t15 = s.t15) (ev : MEvent) (ho : o = [.event ev])
  | waitNop (h : s.st = .waiting) (hs : s.t15 ≠ .set) (ht : s.timer ≠ 1) (e : s' = s) (ho : o = [])
  | recNop (h : s.st = .received) (h35 : s.t35 ≠ .set) (e : s' = s) (ho : o = [])
  | again (h : s.st = .received) (h35 : s.t35 = .set) (e : s'.st = .repeatRequest) (hcnt : s'.repeatCnt.toNat = s.repeatCnt.toNat + 1)
      (hle : s'.repeatCnt.toNat ≤ cfg.repeatMax) (h15 : s'.t15 = s.t15) (ho : o = [])
  | finish (h : s.st = .received) (h35 : s.t35 = .set) (e : s'.st = .idle) (h15 : s'.t15 = s.t15) (evs : List MEvent) (ho : o = evs.map .event)

theorem processEnd_t15 {cfg : Config} {s s' : Master} (h : masterProcessEnd cfg s = .ok s') : s'.t15 = s.t15 := by
  unfold masterProcessEnd at h
  obtain ⟨x, -, h⟩ := bind_ok h
  cases h
  rfl

theorem poll_case {cfg : Config} (hw : cfg.MWF) {s s' : Master} {g : Ghost} {o : List MOut} (hi : MInv cfg s g)
    (h : masterStep cfg s .poll = .ok (s', o)) : PollCase cfg s s' o := by
  have h : masterPoll cfg s = .ok (s', o) := h
  have hfl := hi.flags
  cases hs : s.st with
  | idle =>
    cases hp : g.pend with
    | nil => rw [poll_idle_nop hi hs hp] at h; cases h; exact .idleNop hs rfl rfl
    | cons r rest =>
      have htx := hi.tx
      obtain ⟨s2, i, k1, k2, k3, k4, k5, k6, k7, k8, -⟩ := poll_idle_send hw hi hs hp
      rw [k1] at h
      simp only [Except.ok.injEq, Prod.mk.injEq] at h
      obtain ⟨rfl, rfl⟩ := h
      refine .send (.inl hs) k2 k3 k8 ?_ _ rfl
      unfold masterPoll at k1
      rw [hs] at k1
      simp only [masterIdle] at k1
      split at k1
      · obtain ⟨⟨y, q⟩, -, k1⟩ := bind_ok k1
        unfold masterSend at k1
        simp only at k1
        repeat' split at k1
        all_goals first | (simp only [Except.ok.injEq, Prod.mk.injEq] at k1; rw [← k1.1]; done) | cases k1
      · cases k1
  | repeatRequest =>
    obtain ⟨i, r, c, hc, h1⟩ := hi.curIs (by simp [hs])
    unfold masterPoll at h
    rw [hs] at h
    simp only [send_inv hi.drv hi.data h1.1 h1.2.2.1] at h
    simp only [Except.ok.injEq, Prod.mk.injEq] at h
    obtain ⟨rfl, rfl⟩ := h
    exact .send (.inr hs) rfl rfl rfl rfl _ rfl
  | transmitting =>
    obtain ⟨i, r, c, hc, h1⟩ := hi.curIs (by simp [hs])
    unfold masterPoll at h
    rw [hs] at h
    simp only [masterTransmitting] at h
    split at h
    · rename_i hx
      rw [clearRespLen_ok h1.1] at h
      simp only [ok_bind, pure_eq, Except.ok.injEq, Prod.mk.injEq] at h
      obtain ⟨rfl, rfl⟩ := h
      exact .txEnd hs hx rfl rfl rfl rfl rfl
    · rename_i hx
      simp only [Except.ok.injEq, Prod.mk.injEq] at h
      obtain ⟨rfl, rfl⟩ := h
      exact .txNop hs hx rfl rfl
  | waiting =>
    obtain ⟨i, r, c, hc, h1⟩ := hi.curIs (by simp [hs])
    unfold masterPoll at h
    rw [hs] at h
    simp only [masterWaiting] at h
    split at h
    · rename_i hx
      rw [masterRecv_eq h1.1 hi.data h1.2.2.1] at h
      simp only [Except.ok.injEq, Prod.mk.injEq] at h
      obtain ⟨h2, rfl⟩ := h
      split at h2
      · subst h2; exact .other hs hx hs rfl rfl rfl rfl
      split at h2
      · subst h2; exact .check hs hx rfl rfl rfl rfl rfl
      · subst h2; exact .check hs hx rfl rfl rfl rfl rfl
    · rename_i hx
      split at h
      · rename_i ht
        obtain ⟨e, -, h⟩ := bind_ok h
        obtain ⟨y, hp, h⟩ := bind_ok h
        cases h
        exact .timeout hs hx ht (processEnd_st hp) (processEnd_t15 hp) e rfl
      · rename_i ht
        simp only [Except.ok.injEq, Prod.mk.injEq] at h
        obtain ⟨rfl, rfl⟩ := h
        exact .waitNop hs hx ht rfl rfl
  | received =>
    obtain ⟨i, r, c, hc, h1⟩ := hi.curIs (by simp [hs])
    have hcur := hi.cur
    rw [hc] at hcur
    have hcnt : s.repeatCnt.toNat + 1 = c ∧ c ≤ cfg.repeatMax + 1 := by
      obtain ⟨c1, c2, c3, c4, c5, c6, q | q⟩ := hcur
      · simp [hs] at q
      · exact ⟨q.2, c6⟩
    have hinc := cnt_succ hcnt.1 hcnt.2 hw.rle
    unfold masterPoll at h
    rw [hs] at h
    simp only [masterReceived] at h
    split at h
    · rename_i hx
      unfold masterFrameError at h
      simp only at h
      split at h
      · rename_i hle
        rw [clearRespLen_ok (s := { s with repeatCnt := s.repeatCnt + 1 }) h1.1] at h
        simp only [ok_bind, pure_eq, Except.ok.injEq, Prod.mk.injEq] at h
        obtain ⟨rfl, rfl⟩ := h
        exact .again hs hx.2 rfl (by rw [hcnt.1]; exact hinc) hle rfl rfl
      · obtain ⟨e, -, h⟩ := bind_ok h
        obtain ⟨y, hp, h⟩ := bind_ok h
        cases h
        exact .finish hs hx.2 (processEnd_st hp) (processEnd_t15 hp) [e] rfl
    split at h
    · rename_i hx
      unfold masterCrcError at h
      simp only at h
      split at h
      · rename_i hle
        rw [clearRespLen_ok (s := { s with repeatCnt := s.repeatCnt + 1 }) h1.1] at h
        simp only [ok_bind, pure_eq, Except.ok.injEq, Prod.mk.injEq] at h
        obtain ⟨rfl, rfl⟩ := h
        exact .again hs hx.2 rfl (by rw [hcnt.1]; exact hinc) hle rfl rfl
      · obtain ⟨e, -, h⟩ := bind_ok h
        obtain ⟨y, hp, h⟩ := bind_ok h
        cases h
        exact .finish hs hx.2 (processEnd_st hp) (processEnd_t15 hp) [e] rfl
    split at h
    · rename_i hx
      unfold masterCorrect at h
      obtain ⟨ev, -, h⟩ := bind_ok h
      obtain ⟨y, hp, h⟩ := bind_ok h
      cases h
      exact .finish hs hx.2.2 (processEnd_st hp) (processEnd_t15 hp) ev rfl
    · rename_i n1 n2 n3
      simp only [Except.ok.injEq, Prod.mk.injEq] at h
      obtain ⟨rfl, rfl⟩ := h
      refine .recNop hs (fun h35 => ?_) rfl rfl
      cases hf : s.ferr with
      | set => exact n1 ⟨hf, h35⟩
      | unknown => exact hfl.2.2.1 hf
      | cleared =>
        cases hcf : s.crcf with
        | set => exact n2 ⟨hcf, h35⟩
        | unknown => exact hfl.2.2.2.2 hcf
        | cleared => exact n3 ⟨hf, hcf, h35⟩

/-! ## Infinite executions -/

section
variable {cfg : Config} {x : TimedRun} {P D X G : Nat}

theorem Spec.TimedRun.Exec.ghosts (hw : cfg.MWF) (hx : x.Exec cfg) : ∃ g : Nat → Ghost, g 0 = Ghost.fresh cfg ∧
    ∀ n, MInv cfg (x.st n) (g n) ∧ GStep cfg (g n) (x.op n) (x.out n) (g (n + 1)) := by
  have h0 : MInv cfg (x.st 0) (Ghost.fresh cfg) := by
    obtain ⟨s0, h⟩ := hx.init
    obtain ⟨s1, h1, h2⟩ := masterInit_inv hw s0
    simp only [masterStep, h1, ok_bind, pure_eq, Except.ok.injEq, Prod.mk.injEq, and_true] at h
    rw [← h]; exact h2
  have hs : ∀ n g, MInv cfg (x.st n) g → ∃ g', MInv cfg (x.st (n + 1)) g' ∧ GStep cfg g (x.op n) (x.out n) g' := by
    intro n g hi
    have hc := hx.contract n
    rcases masterStep_inv hw hi (x.op n) hc.1 hc.2 with ⟨s1, o1, g1, j1, j2, j3⟩ | ⟨-, j1, -⟩
    · rw [hx.step n] at j1
      simp only [Except.ok.injEq, Prod.mk.injEq] at j1
      obtain ⟨rfl, rfl⟩ := j1
      exact ⟨g1, j2, j3⟩
    · rw [hx.step n] at j1; cases j1
  let F : (n : Nat) → { g : Ghost // MInv cfg (x.st n) g } := fun n =>
    Nat.rec ⟨Ghost.fresh cfg, h0⟩ (fun n y => ⟨Classical.choose (hs n y.1 y.2), (Classical.choose_spec (hs n y.1 y.2)).1⟩) n
  exact ⟨fun n => (F n).1, rfl, fun n => ⟨(F n).2, (Classical.choose_spec (hs n (F n).1 (F n).2)).2⟩⟩

theorem Spec.TimedRun.Exec.inv (hw : cfg.MWF) (hx : x.Exec cfg) (n : Nat) : ∃ g, MInv cfg (x.st n) g := by
  obtain ⟨g, -, h⟩ := hx.ghosts hw
  exact ⟨g n, (h n).1⟩

theorem Spec.TimedRun.Exec.time_le (hx : x.Exec cfg) {m n : Nat} (h : m ≤ n) : x.time m ≤ x.time n := by
  induction h with
  | refl => exact Nat.le_refl _
  | step _ ih => exact Nat.le_trans ih (hx.mono _)

theorem Spec.TimedRun.Exec.lt_of_time (hx : x.Exec cfg) {m n : Nat} (h : x.time m < x.time n) : m < n := by
  refine Classical.byContradiction fun hc => ?_
  have := hx.time_le (m := n) (n := m) (by omega)
  omega

theorem Spec.TimedRun.Exec.eff (hw : cfg.MWF) (hx : x.Exec cfg) {n : Nat} (h : x.op n ≠ .poll) :
    Effect (x.st n) (x.st (n + 1)) (x.op n) (x.out n) := by
  obtain ⟨g, hi⟩ := hx.inv hw n
  exact masterStep_effect hw hi h (hx.contract n).1 (hx.step n)

theorem Spec.TimedRun.Exec.pollCase (hw : cfg.MWF) (hx : x.Exec cfg) {n : Nat} (h : x.op n = .poll) :
    PollCase cfg (x.st n) (x.st (n + 1)) (x.out n) := by
  obtain ⟨g, hi⟩ := hx.inv hw n
  have := hx.step n
  rw [h] at this
  exact poll_case hw hi this

/-- The first operation after `n` with a property. -/
theorem Spec.TimedRun.Exec.first (hx : x.Exec cfg) {n t : Nat} {p : Nat → Prop} (h : ∃ m, n < m ∧ p m ∧ x.time m ≤ t) :
    ∃ m, n < m ∧ p m ∧ x.time m ≤ t ∧ ∀ k, n < k → k < m → ¬ p k := by
  obtain ⟨m, h1, h2, h3⟩ := h
  induction m using Nat.strongRecOn with
  | _ m ih =>
    by_cases hc : ∃ k, n < k ∧ k < m ∧ p k
    · obtain ⟨k, k1, k2, k3⟩ := hc
      exact ih k k2 k1 k3 (Nat.le_trans (hx.time_le (Nat.le_of_lt k2)) h3)
    · exact ⟨m, h1, h2, h3, fun k k1 k2 k3 => hc ⟨k, k1, k2, k3⟩⟩

theorem stable {Q : Nat → Prop} {n m : Nat} (h : Q (n + 1)) (hs : ∀ k, n < k → k < m → Q k → Q (k + 1)) : ∀ j, n < j → j ≤ m → Q j := by
  intro j
  induction j with
  | zero => intro h1; omega
  | succ j ih =>
    intro h1 h2
    by_cases e : j = n
    · subst e; exact h
    · exact hs j (by omega) (by omega) (ih (by omega) (by omega))

/-- A transmission. -/
theorem Spec.TimedRun.Exec.sends (hw : cfg.MWF) (hx : x.Exec cfg) {n : Nat} (h : x.Sends n) :
    x.op n = .poll ∧ ((x.st n).st = .idle ∨ (x.st n).st = .repeatRequest) ∧ (x.st (n + 1)).st = .transmitting ∧ (x.st (n + 1)).txf = .set ∧
      (x.st (n + 1)).t15 = (x.st n).t15 ∧ (x.st (n + 1)).repeatCnt = (x.st n).repeatCnt := by
  obtain ⟨b, hb⟩ := h
  have hp : x.op n = .poll := by
    refine Classical.byContradiction fun hc => ?_
    have := (hx.eff hw hc).outs
    have hm : MOut.send b ∈ outs [(x.op n, x.out n)] := by simp [outs, hb, isOut]
    rw [this] at hm
    cases hm
  refine ⟨hp, ?_⟩
  cases hx.pollCase hw hp with
  | send h e htx h15 hcnt b ho => exact ⟨h, e, htx, h15, hcnt⟩
  | idleNop h e ho => rw [ho] at hb; cases hb
  | txNop h htx e ho => rw [ho] at hb; cases hb
  | txEnd h htx e ht h15 hcnt ho => rw [ho] at hb; cases hb
  | other h hs e ht h15 hcnt ho => rw [ho] at hb; cases hb
  | check h hs e h35 h15 hcnt ho => rw [ho] at hb; cases hb
  | timeout h hs ht e h15 ev ho => rw [ho] at hb; simp at hb
  | waitNop h hs ht e ho => rw [ho] at hb; cases hb
  | recNop h h35 e ho => rw [ho] at hb; cases hb
  | again h h35 e hcnt hle h15 ho => rw [ho] at hb; cases hb
  | finish h h35 e h15 evs ho => rw [ho] at hb; simp at hb

/-- A 1.5-char event comes while the master waits, if no earlier one is pending in another state. -/
theorem t15_waiting (hw : cfg.MWF) (hx : x.Exec cfg) (hp : x.Punctual P D X G) {n : Nat}
    (ih : ∀ k, k ≤ n → (x.st k).t15 = .set → (x.st k).st = .waiting) (h : x.op n = .t15) : (x.st n).st = .waiting := by
  obtain ⟨a, b, hab, hbn, hs, hb, htime, hsil⟩ := hp.t15 n h
  obtain ⟨-, sa, s1, s2, s3, -⟩ := hx.sends hw hs
  have h0 : (x.st (a + 1)).t15 ≠ .set := by
    rw [s3]
    intro e
    have := ih a (by omega) e
    rcases sa with k | k <;> rw [k] at this <;> cases this
  -- silent, no event: transmitting or waiting
  have q1 : ∀ j, a < j → j ≤ n → (x.st j).t15 ≠ .set ∧ ((x.st j).st = .transmitting ∨ (x.st j).st = .waiting) := by
    refine stable ⟨h0, .inl s1⟩ ?_
    rintro k k1 k2 ⟨i1, i2⟩
    obtain ⟨l1, l2⟩ := hsil k k1 k2
    by_cases hpo : x.op k = .poll
    · cases hx.pollCase hw hpo with
      | send h => rcases h with h | h <;> rcases i2 with i | i <;> rw [h] at i <;> cases i
      | idleNop h => rcases i2 with i | i <;> rw [h] at i <;> cases i
      | txNop h htx e ho => rw [e]; exact ⟨i1, i2⟩
      | txEnd h htx e ht h15 hcnt ho => rw [h15]; exact ⟨i1, .inr e⟩
      | other h hs e ht h15 hcnt ho => exact absurd hs i1
      | check h hs e h35 h15 hcnt ho => exact absurd hs i1
      | timeout h hs ht e h15 ev ho =>
        have := l1 (.event ev) (by rw [ho]; simp)
        cases this
      | waitNop h hs ht e ho => rw [e]; exact ⟨i1, i2⟩
      | recNop h => rcases i2 with i | i <;> rw [h] at i <;> cases i
      | again h => rcases i2 with i | i <;> rw [h] at i <;> cases i
      | finish h => rcases i2 with i | i <;> rw [h] at i <;> cases i
    · have e := hx.eff hw hpo
      rw [e.t15', if_neg l2, e.st]
      exact ⟨i1, i2⟩
  -- after the completion
  have hbp : x.op b ≠ .poll := by rw [hb]; simp
  have q2 : ∀ j, b < j → j ≤ n → ((x.st j).st = .transmitting → (x.st j).txf = .cleared) := by
    refine stable ?_ ?_
    · intro _
      rw [(hx.eff hw hbp).txf', if_pos hb]
    · intro k k1 k2 i1 i2
      by_cases hpo : x.op k = .poll
      · have hq := q1 k (by omega) (by omega)
        cases hx.pollCase hw hpo with
        | send h => rcases h with h | h <;> rcases hq.2 with i | i <;> rw [h] at i <;> cases i
        | idleNop h => rcases hq.2 with i | i <;> rw [h] at i <;> cases i
        | txNop h htx e ho => rw [e]; exact i1 h
        | txEnd h htx e ht h15 hcnt ho => rw [e] at i2; cases i2
        | other h hs e ht h15 hcnt ho => rw [e] at i2; cases i2
        | check h hs e h35 h15 hcnt ho => rw [e] at i2; cases i2
        | timeout h hs ht e h15 ev ho => rw [e] at i2; cases i2
        | waitNop h hs ht e ho => rw [e, h] at i2; cases i2
        | recNop h => rcases hq.2 with i | i <;> rw [h] at i <;> cases i
        | again h => rcases hq.2 with i | i <;> rw [h] at i <;> cases i
        | finish h => rcases hq.2 with i | i <;> rw [h] at i <;> cases i
      · have e := hx.eff hw hpo
        rw [e.st] at i2
        rw [e.txf', i1 i2]
        simp
  obtain ⟨c, hbc, hc, htc⟩ := hp.poll b
  have hcn : c < n := hx.lt_of_time (by omega)
  refine (stable (Q := fun j => (x.st j).st = .waiting) ?_ ?_ n hcn (Nat.le_refl n))
  · have hq := q1 c (by omega) (by omega)
    have hq2 := q2 c hbc (by omega)
    have hl := (hsil c (by omega) hcn).1
    cases hx.pollCase hw hc with
    | send h => rcases h with h | h <;> rcases hq.2 with i | i <;> rw [h] at i <;> cases i
    | idleNop h => rcases hq.2 with i | i <;> rw [h] at i <;> cases i
    | txNop h htx e ho => exact absurd (hq2 h) htx
    | txEnd h htx e ht h15 hcnt ho => exact e
    | other h hs e ht h15 hcnt ho => exact e
    | check h hs e h35 h15 hcnt ho => exact absurd hs hq.1
    | timeout h hs ht e h15 ev ho =>
      have := hl (.event ev) (by rw [ho]; simp)
      cases this
    | waitNop h hs ht e ho => rw [e]; exact h
    | recNop h => rcases hq.2 with i | i <;> rw [h] at i <;> cases i
    | again h => rcases hq.2 with i | i <;> rw [h] at i <;> cases i
    | finish h => rcases hq.2 with i | i <;> rw [h] at i <;> cases i
  · intro k k1 k2 i1
    have hq := q1 (k + 1) (by omega) (by omega)
    rcases hq.2 with i | i
    · exfalso
      by_cases hpo : x.op k = .poll
      · cases hx.pollCase hw hpo with
        | send h => rcases h with h | h <;> rw [h] at i1 <;> cases i1
        | idleNop h => rw [h] at i1; cases i1
        | txNop h => rw [h] at i1; cases i1
        | txEnd h => rw [h] at i1; cases i1
        | other h hs e => rw [e] at i; cases i
        | check h hs e => rw [e] at i; cases i
        | timeout h hs ht e => rw [e] at i; cases i
        | waitNop h hs ht e => rw [e, h] at i; cases i
        | recNop h => rw [h] at i1; cases i1
        | again h => rw [h] at i1; cases i1
        | finish h => rw [h] at i1; cases i1
      · rw [(hx.eff hw hpo).st, i1] at i; cases i
    · exact i

/-- A pending 1.5-char event: the master waits and has not polled since. -/
theorem t15_pending (hw : cfg.MWF) (hx : x.Exec cfg) (hp : x.Punctual P D X G) (n : Nat) : (x.st n).t15 = .set →
    (x.st n).st = .waiting ∧ ∃ e, e < n ∧ x.op e = .t15 ∧ ∀ k, e < k → k < n → x.op k ≠ .poll := by
  induction n using Nat.strongRecOn with
  | _ n ih =>
    intro h
    cases n with
    | zero =>
      exfalso
      obtain ⟨s0, h0⟩ := hx.init
      simp only [masterStep] at h0
      obtain ⟨s1, h1, h0⟩ := bind_ok h0
      simp only [pure_eq, Except.ok.injEq, Prod.mk.injEq, and_true] at h0
      unfold masterInit at h1
      split at h1
      · cases h1
      · obtain ⟨q, -, h1⟩ := bind_ok h1
        simp only [pure_eq, Except.ok.injEq] at h1
        rw [← h0, ← h1] at h
        cases h
    | succ n =>
      by_cases hpo : x.op n = .poll
      · exfalso
        have key : (x.st (n + 1)).t15 = (x.st n).t15 → (x.st n).st ≠ .waiting → False := fun e k => by
          rw [e] at h
          exact k (ih n (by omega) h).1
        cases hx.pollCase hw hpo with
        | send hs e htx h15 => exact key h15 (by rcases hs with k | k <;> rw [k] <;> decide)
        | idleNop hs e => exact key (by rw [e]) (by rw [hs]; decide)
        | txNop hs htx e => exact key (by rw [e]) (by rw [hs]; decide)
        | txEnd hs htx e ht h15 => exact key h15 (by rw [hs]; decide)
        | other hs h1 e ht h15 => rw [h15] at h; cases h
        | check hs h1 e h35 h15 => rw [h15] at h; cases h
        | timeout hs h1 ht e h15 => rw [h15] at h; exact h1 h
        | waitNop hs h1 ht e => rw [e] at h; exact h1 h
        | recNop hs h35 e => exact key (by rw [e]) (by rw [hs]; decide)
        | again hs h35 e hcnt hle h15 => exact key h15 (by rw [hs]; decide)
        | finish hs h35 e h15 => exact key h15 (by rw [hs]; decide)
      · have e := hx.eff hw hpo
        by_cases h15 : x.op n = .t15
        · refine ⟨?_, n, by omega, h15, fun k k1 k2 => by omega⟩
          rw [e.st]
          exact t15_waiting hw hx hp (fun k hk hk' => (ih k (by omega) hk').1) h15
        · rw [e.t15', if_neg h15] at h
          obtain ⟨i1, e', i2, i3, i4⟩ := ih n (by omega) h
          refine ⟨e.st.trans i1, e', by omega, i3, fun k k1 k2 => ?_⟩
          by_cases hk : k = n
          · subst hk; exact hpo
          · exact i4 k k1 (by omega)

/-- From the transmission to the wait for the response. -/
theorem sent_waits (hw : cfg.MWF) (hx : x.Exec cfg) (hp : x.Punctual P D X G) {a : Nat} (hs : x.Sends a) :
    ∃ c, a < c ∧ x.time c ≤ x.time a + X + P ∧ (x.st (c + 1)).st = .waiting ∧ (x.st (c + 1)).timer = cfg.respTimeout ∧
      (x.st (c + 1)).repeatCnt = (x.st (a + 1)).repeatCnt ∧ ∀ k, a < k → k ≤ c → (x.st k).st ≠ .idle := by
  obtain ⟨-, -, s1, s2, -, -⟩ := hx.sends hw hs
  obtain ⟨b, b1, b2, b3, b4⟩ := hx.first (hp.txDone a hs)
  have q1 : ∀ j, a < j → j ≤ b → (x.st j).st = .transmitting ∧ (x.st j).txf = .set ∧ (x.st j).repeatCnt = (x.st (a + 1)).repeatCnt := by
    refine stable ⟨s1, s2, rfl⟩ ?_
    rintro k k1 k2 ⟨i1, i2, i3⟩
    by_cases hpo : x.op k = .poll
    · cases hx.pollCase hw hpo with
      | send h => rcases h with h | h <;> rw [h] at i1 <;> cases i1
      | idleNop h => rw [h] at i1; cases i1
      | txNop h htx e ho => rw [e]; exact ⟨i1, i2, i3⟩
      | txEnd h htx e ht h15 hcnt ho => rw [htx] at i2; cases i2
      | other h => rw [h] at i1; cases i1
      | check h => rw [h] at i1; cases i1
      | timeout h => rw [h] at i1; cases i1
      | waitNop h => rw [h] at i1; cases i1
      | recNop h => rw [h] at i1; cases i1
      | again h => rw [h] at i1; cases i1
      | finish h => rw [h] at i1; cases i1
    · have e := hx.eff hw hpo
      rw [e.st, e.txf', if_neg (b4 k k1 k2), e.cnt]
      exact ⟨i1, i2, i3⟩
  obtain ⟨c, c1, c2, c3, c4⟩ := hx.first (p := fun m => x.op m = .poll) (hp.poll b)
  have hbp : x.op b ≠ .poll := by rw [b2]; simp
  have q2 : ∀ j, b < j → j ≤ c → (x.st j).st = .transmitting ∧ (x.st j).txf = .cleared ∧ (x.st j).repeatCnt = (x.st (a + 1)).repeatCnt := by
    refine stable ?_ ?_
    · have e := hx.eff hw hbp
      have := q1 b b1 (Nat.le_refl _)
      rw [e.st, e.txf', if_pos b2, e.cnt]
      exact ⟨this.1, rfl, this.2.2⟩
    · rintro k k1 k2 ⟨i1, i2, i3⟩
      have e := hx.eff hw (c4 k k1 k2)
      rw [e.st, e.txf', i2, e.cnt]
      exact ⟨i1, by simp, i3⟩
  have hq := q2 c c1 (Nat.le_refl _)
  have h1 : (x.st (c + 1)).st = .waiting ∧ (x.st (c + 1)).timer = cfg.respTimeout ∧ (x.st (c + 1)).repeatCnt = (x.st c).repeatCnt := by
    cases hx.pollCase hw c2 with
    | txEnd h htx e ht h15 hcnt ho => exact ⟨e, ht, hcnt⟩
    | txNop h htx e ho => exact absurd hq.2.1 htx
    | send h => rcases h with h | h <;> rw [h] at hq <;> simp at hq
    | idleNop h => rw [h] at hq; simp at hq
    | other h => rw [h] at hq; simp at hq
    | check h => rw [h] at hq; simp at hq
    | timeout h => rw [h] at hq; simp at hq
    | waitNop h => rw [h] at hq; simp at hq
    | recNop h => rw [h] at hq; simp at hq
    | again h => rw [h] at hq; simp at hq
    | finish h => rw [h] at hq; simp at hq
  refine ⟨c, by omega, by omega, h1.1, h1.2.1, h1.2.2.trans hq.2.2, fun k k1 k2 => ?_⟩
  by_cases hk : k ≤ b
  · rw [(q1 k k1 hk).1]; decide
  · rw [(q2 k (by omega) k2).1]; decide

/-- The poll `m` ends the wait. -/
def Leaves (x : TimedRun) (P m : Nat) : Prop :=
  (x.st (m + 1)).st = .idle ∨ ((x.st (m + 1)).st = .received ∧ (x.st (m + 1)).t35 = .cleared ∧ (x.st (m + 1)).repeatCnt = (x.st m).repeatCnt ∧
    ∃ e, e < m ∧ x.op e = .t15 ∧ x.time m ≤ x.time e + P)

theorem checks_soon (hw : cfg.MWF) (hx : x.Exec cfg) (hp : x.Punctual P D X G) {n : Nat} (h : (x.st n).t15 = .set) :
    ∃ e, e < n ∧ x.op e = .t15 ∧ x.time n ≤ x.time e + P := by
  obtain ⟨-, e, h1, h2, h3⟩ := t15_pending hw hx hp n h
  obtain ⟨m, m1, m2, m3⟩ := hp.poll e
  have : n ≤ m := Classical.byContradiction fun hc => h3 m m1 (by omega) m2
  exact ⟨e, h1, h2, Nat.le_trans (hx.time_le this) m3⟩

theorem wait_step (hw : cfg.MWF) (hx : x.Exec cfg) (hp : x.Punctual P D X G) {n : Nat} (h : (x.st n).st = .waiting) :
    (x.op n = .poll ∧ Leaves x P n) ∨ ((x.st (n + 1)).st = .waiting ∧ (x.st (n + 1)).repeatCnt = (x.st n).repeatCnt ∧
      (x.st (n + 1)).timer = (x.st n).timer - if x.op n = .tick then 1 else 0) := by
  by_cases hpo : x.op n = .poll
  · have ht : ¬ x.op n = .tick := by rw [hpo]; simp
    cases hx.pollCase hw hpo with
    | other h1 hs e ht' h15 hcnt ho => right; rw [if_neg ht]; exact ⟨e, hcnt, ht'⟩
    | check h1 hs e h35 h15 hcnt ho => left; exact ⟨hpo, .inr ⟨e, h35, hcnt, checks_soon hw hx hp hs⟩⟩
    | timeout h1 hs ht' e h15 ev ho => left; exact ⟨hpo, .inl e⟩
    | waitNop h1 hs ht' e ho => right; rw [if_neg ht, e]; exact ⟨h, rfl, rfl⟩
    | send h1 => rcases h1 with h1 | h1 <;> rw [h1] at h <;> cases h
    | idleNop h1 => rw [h1] at h; cases h
    | txNop h1 => rw [h1] at h; cases h
    | txEnd h1 => rw [h1] at h; cases h
    | recNop h1 => rw [h1] at h; cases h
    | again h1 => rw [h1] at h; cases h
    | finish h1 => rw [h1] at h; cases h
  · have e := hx.eff hw hpo
    right
    exact ⟨e.st.trans h, e.cnt, e.timer⟩

/-- Still waiting up to and including `k`, with counter `c0`. -/
def WaitsTo (x : TimedRun) (c0 : U8) (n k : Nat) : Prop := ∀ j, n < j → j ≤ k → (x.st j).st = .waiting ∧ (x.st j).repeatCnt = c0

/-- The wait that began with operation `n` is ended by poll `m`. -/
def Exits (x : TimedRun) (P : Nat) (c0 : U8) (n m : Nat) : Prop := n < m ∧ WaitsTo x c0 n m ∧ x.op m = .poll ∧ Leaves x P m

theorem wait_until (hw : cfg.MWF) (hx : x.Exec cfg) (hp : x.Punctual P D X G) {c0 : U8} {n k : Nat} (h : WaitsTo x c0 n (k + 1)) (hnk : n ≤ k) :
    ∀ k', k < k' → (∃ m, m < k' ∧ Exits x P c0 n m) ∨
      (WaitsTo x c0 n k' ∧ ((∀ j, k < j → j < k' → x.op j ≠ .tick) → (x.st k').timer = (x.st (k + 1)).timer)) := by
  intro k'
  induction k' with
  | zero => intro h; omega
  | succ k' ih =>
    intro hk
    by_cases e : k' = k
    · subst e; exact .inr ⟨h, fun _ => rfl⟩
    · rcases ih (by omega) with ⟨m, m1, m2⟩ | ⟨w1, w2⟩
      · exact .inl ⟨m, by omega, m2⟩
      · have hk' := w1 k' (by omega) (Nat.le_refl _)
        rcases wait_step hw hx hp hk'.1 with ⟨l1, l2⟩ | ⟨l1, l2, l3⟩
        · exact .inl ⟨k', by omega, by omega, w1, l1, l2⟩
        · right
          refine ⟨fun j j1 j2 => ?_, fun ht => ?_⟩
          · by_cases hj : j = k' + 1
            · subst hj; exact ⟨l1, l2.trans hk'.2⟩
            · exact w1 j j1 (by omega)
          · rw [l3, if_neg (ht k' (by omega) (by omega)), w2 (fun j j1 j2 => ht j j1 (by omega))]
            simp

/-- `j` ticks later. -/
theorem wait_ticks (hw : cfg.MWF) (hx : x.Exec cfg) (hp : x.Punctual P D X G) {c : Nat} (h : (x.st (c + 1)).st = .waiting)
    (ht : (x.st (c + 1)).timer = cfg.respTimeout) : ∀ j,
    (∃ m, Exits x P (x.st (c + 1)).repeatCnt c m ∧ x.time m ≤ x.time c + j * D) ∨
    (∃ k, c ≤ k ∧ x.time k ≤ x.time c + j * D ∧ WaitsTo x (x.st (c + 1)).repeatCnt c (k + 1) ∧ (x.st (k + 1)).timer = cfg.respTimeout - j ∧
      (0 < j → x.op k = .tick)) := by
  intro j
  induction j with
  | zero =>
    refine .inr ⟨c, Nat.le_refl _, by omega, fun j j1 j2 => ?_, ht, fun h => absurd h (by omega)⟩
    obtain rfl : j = c + 1 := by omega
    exact ⟨h, rfl⟩
  | succ j ih =>
    have hmul : (j + 1) * D = j * D + D := by rw [Nat.add_mul]; omega
    rcases ih with ⟨m, m1, m2⟩ | ⟨k, k1, k2, k3, k4, -⟩
    · exact .inl ⟨m, m1, by omega⟩
    · obtain ⟨k', t1, t2, t3, t4⟩ := hx.first (p := fun m => x.op m = .tick) (hp.tick k)
      rcases wait_until hw hx hp k3 k1 k' t1 with ⟨m, m1, m2⟩ | ⟨w1, w2⟩
      · have := hx.time_le (Nat.le_of_lt m1)
        exact .inl ⟨m, m2, by omega⟩
      · have hk' := w1 k' (by omega) (Nat.le_refl _)
        rcases wait_step hw hx hp hk'.1 with ⟨l1, -⟩ | ⟨l1, l2, l3⟩
        · rw [t2] at l1; cases l1
        · refine .inr ⟨k', by omega, by omega, fun i i1 i2 => ?_, ?_, fun _ => t2⟩
          · by_cases hi : i = k' + 1
            · subst hi; exact ⟨l1, l2.trans hk'.2⟩
            · exact w1 i i1 (by omega)
          · rw [l3, if_pos t2, w2 (fun i i1 i2 => t4 i i1 i2), k4]
            omega

/-- No second 1.5-char event for the same transmission. -/
theorem t15_once (hw : cfg.MWF) (hx : x.Exec cfg) (hp : x.Punctual P D X G) {p1 p2 : Nat} (h12 : p1 < p2) (h1 : (x.st p1).t15 = .set)
    (ho : x.out p1 = []) (hpo : x.op p1 = .poll) (hwait : ∀ j, p1 < j → j ≤ p2 → (x.st j).st = .waiting) : (x.st p2).t15 ≠ .set := by
  intro h2
  obtain ⟨-, e1, a1, a2, a3⟩ := t15_pending hw hx hp p1 h1
  obtain ⟨-, e2, b1, b2, b3⟩ := t15_pending hw hx hp p2 h2
  have hpe : p1 < e2 := by
    refine Classical.byContradiction fun hc => ?_
    by_cases h : e2 = p1
    · rw [h, hpo] at b2; cases b2
    · exact b3 p1 (by omega) h12 hpo
  obtain ⟨a, b, hab, hbe, hs, -, -, hsil⟩ := hp.t15 e2 b2
  have hsa := hx.sends hw hs
  have hae : e1 ≤ a := Classical.byContradiction fun hc => (hsil e1 (by omega) (by omega)).2 a2
  by_cases c1 : a = e1
  · rw [c1, a2] at hsa; simp at hsa
  by_cases c2 : a < p1
  · exact a3 a (by omega) c2 hsa.1
  by_cases c3 : a = p1
  · obtain ⟨bb, hbb⟩ := hs
    rw [c3, ho] at hbb; cases hbb
  · have := hwait a (by omega) (by omega)
    rw [this] at hsa
    simp at hsa

/-- The wait ends. -/
theorem wait_ends (hw : cfg.MWF) (hT : 2 ≤ cfg.respTimeout) (hx : x.Exec cfg) (hp : x.Punctual P D X G) {c : Nat} (h : (x.st (c + 1)).st = .waiting)
    (ht : (x.st (c + 1)).timer = cfg.respTimeout) :
    ∃ m, Exits x P (x.st (c + 1)).repeatCnt c m ∧ x.time m ≤ x.time c + (cfg.respTimeout - 1) * D + 2 * P := by
  rcases wait_ticks hw hx hp h ht (cfg.respTimeout - 1) with ⟨m, m1, m2⟩ | ⟨k, k1, k2, k3, k4, k5⟩
  · exact ⟨m, m1, by omega⟩
  have htick := k5 (by omega)
  have hno : ∀ j t, k < j → x.time j ≤ t → t ≤ x.time k + 2 * P → x.op j ≠ .tick := fun j t j1 j2 j3 hj => by
    have := hp.apart k j j1 htick hj
    omega
  obtain ⟨p1, a1, a2, a3, a4⟩ := hx.first (p := fun m => x.op m = .poll) (hp.poll k)
  rcases wait_until hw hx hp k3 k1 p1 a1 with ⟨m, m1, m2⟩ | ⟨w1, w2⟩
  · have := hx.time_le (Nat.le_of_lt m1)
    exact ⟨m, m2, by omega⟩
  have ht1 : (x.st p1).timer = 1 := by
    rw [w2 (fun j j1 j2 => hno j (x.time p1) j1 (hx.time_le (Nat.le_of_lt j2)) (by omega)), k4]
    omega
  have hw1 := w1 p1 (by omega) (Nat.le_refl _)
  have hcase := hx.pollCase hw a2
  have hgo : Leaves x P p1 ∨ ((x.st p1).t15 = .set ∧ x.out p1 = []) := by
    cases hcase with
    | other h1 hs e ht' h15 hcnt ho => exact .inr ⟨hs, ho⟩
    | check h1 hs e h35 h15 hcnt ho => exact .inl (.inr ⟨e, h35, hcnt, checks_soon hw hx hp hs⟩)
    | timeout h1 hs ht' e h15 ev ho => exact .inl (.inl e)
    | waitNop h1 hs ht' e ho => exact absurd ht1 ht'
    | send h1 => rcases h1 with h1 | h1 <;> rw [h1] at hw1 <;> simp at hw1
    | idleNop h1 => rw [h1] at hw1; simp at hw1
    | txNop h1 => rw [h1] at hw1; simp at hw1
    | txEnd h1 => rw [h1] at hw1; simp at hw1
    | recNop h1 => rw [h1] at hw1; simp at hw1
    | again h1 => rw [h1] at hw1; simp at hw1
    | finish h1 => rw [h1] at hw1; simp at hw1
  rcases hgo with hl | ⟨hset, hout⟩
  · exact ⟨p1, ⟨by omega, w1, a2, hl⟩, by omega⟩
  rcases wait_step hw hx hp hw1.1 with ⟨-, l2⟩ | ⟨l1, l2, l3⟩
  · exact ⟨p1, ⟨by omega, w1, a2, l2⟩, by omega⟩
  -- the poll was used up by a frame of another slave: the next one
  have k3' : WaitsTo x (x.st (c + 1)).repeatCnt c (p1 + 1) := fun j j1 j2 => by
    by_cases hj : j = p1 + 1
    · subst hj; exact ⟨l1, l2.trans hw1.2⟩
    · exact w1 j j1 (by omega)
  obtain ⟨p2, b1, b2, b3, b4⟩ := hx.first (p := fun m => x.op m = .poll) (hp.poll p1)
  rcases wait_until hw hx hp k3' (by omega) p2 b1 with ⟨m, m1, m2⟩ | ⟨v1, v2⟩
  · have := hx.time_le (Nat.le_of_lt m1)
    exact ⟨m, m2, by omega⟩
  have hv1 := v1 p2 (by omega) (Nat.le_refl _)
  have ht2 : (x.st p2).timer = 1 := by
    rw [v2 (fun j j1 j2 => hno j (x.time p2) (by omega) (hx.time_le (Nat.le_of_lt j2)) (by omega)), l3, ht1, if_neg (by rw [a2]; simp)]
  have hns := t15_once hw hx hp b1 hset hout a2 (fun j j1 j2 => (v1 j (by omega) j2).1)
  have hl : Leaves x P p2 := by
    cases hx.pollCase hw b2 with
    | other h1 hs e ht' h15 hcnt ho => exact absurd hs hns
    | check h1 hs e h35 h15 hcnt ho => exact absurd hs hns
    | timeout h1 hs ht' e h15 ev ho => exact .inl e
    | waitNop h1 hs ht' e ho => exact absurd ht2 ht'
    | send h1 => rcases h1 with h1 | h1 <;> rw [h1] at hv1 <;> simp at hv1
    | idleNop h1 => rw [h1] at hv1; simp at hv1
    | txNop h1 => rw [h1] at hv1; simp at hv1
    | txEnd h1 => rw [h1] at hv1; simp at hv1
    | recNop h1 => rw [h1] at hv1; simp at hv1
    | again h1 => rw [h1] at hv1; simp at hv1
    | finish h1 => rw [h1] at hv1; simp at hv1
  exact ⟨p2, ⟨by omega, v1, b2, hl⟩, by omega⟩

/-- A checked response is processed. -/
theorem received_ends (hw : cfg.MWF) (hx : x.Exec cfg) (hp : x.Punctual P D X G) {m e : Nat} (h : (x.st (m + 1)).st = .received)
    (h35 : (x.st (m + 1)).t35 = .cleared) (he : e < m) (h15 : x.op e = .t15) (htime : x.time m ≤ x.time e + P) :
    ∃ q, m < q ∧ x.time q ≤ x.time m + G + P ∧ (∀ k, m < k → k ≤ q → (x.st k).st = .received) ∧
      ((x.st (q + 1)).st = .idle ∨ ((x.st (q + 1)).st = .repeatRequest ∧ (x.st (q + 1)).repeatCnt.toNat = (x.st (m + 1)).repeatCnt.toNat + 1 ∧
        (x.st (q + 1)).repeatCnt.toNat ≤ cfg.repeatMax)) := by
  obtain ⟨f, f1, f2, f3, f4⟩ := hp.t35 e h15
  have hmf : m < f := hx.lt_of_time (by omega)
  have hem := hx.time_le (Nat.le_of_lt he)
  obtain ⟨f', g1, g2, g3, g4⟩ := hx.first (n := m) (p := fun k => x.op k = .t35) (t := x.time m + G) ⟨f, hmf, f2, by omega⟩
  have q1 : ∀ j, m < j → j ≤ f' → (x.st j).st = .received ∧ (x.st j).t35 = .cleared ∧ (x.st j).repeatCnt = (x.st (m + 1)).repeatCnt := by
    refine stable ⟨h, h35, rfl⟩ ?_
    rintro k k1 k2 ⟨i1, i2, i3⟩
    by_cases hpo : x.op k = .poll
    · cases hx.pollCase hw hpo with
      | recNop h1 h2 e => rw [e]; exact ⟨i1, i2, i3⟩
      | again h1 h2 => rw [h2] at i2; cases i2
      | finish h1 h2 => rw [h2] at i2; cases i2
      | send h1 => rcases h1 with h1 | h1 <;> rw [h1] at i1 <;> cases i1
      | idleNop h1 => rw [h1] at i1; cases i1
      | txNop h1 => rw [h1] at i1; cases i1
      | txEnd h1 => rw [h1] at i1; cases i1
      | other h1 => rw [h1] at i1; cases i1
      | check h1 => rw [h1] at i1; cases i1
      | timeout h1 => rw [h1] at i1; cases i1
      | waitNop h1 => rw [h1] at i1; cases i1
    · have e := hx.eff hw hpo
      rw [e.st, e.t35', if_neg (g4 k k1 k2), e.cnt]
      exact ⟨i1, i2, i3⟩
  obtain ⟨q, c1, c2, c3, c4⟩ := hx.first (p := fun m => x.op m = .poll) (hp.poll f')
  have hfp : x.op f' ≠ .poll := by rw [g2]; simp
  have q2 : ∀ j, f' < j → j ≤ q → (x.st j).st = .received ∧ (x.st j).t35 = .set ∧ (x.st j).repeatCnt = (x.st (m + 1)).repeatCnt := by
    refine stable ?_ ?_
    · have e := hx.eff hw hfp
      have := q1 f' g1 (Nat.le_refl _)
      rw [e.st, e.t35', if_pos g2, e.cnt]
      exact ⟨this.1, rfl, this.2.2⟩
    · rintro k k1 k2 ⟨i1, i2, i3⟩
      have e := hx.eff hw (c4 k k1 k2)
      rw [e.st, e.t35', i2, e.cnt]
      exact ⟨i1, by simp, i3⟩
  have hq := q2 q c1 (Nat.le_refl _)
  refine ⟨q, by omega, by omega, fun k k1 k2 => ?_, ?_⟩
  · by_cases hk : k ≤ f'
    · exact (q1 k k1 hk).1
    · exact (q2 k (by omega) k2).1
  · cases hx.pollCase hw c2 with
    | recNop h1 h2 e => exact absurd hq.2.1 h2
    | again h1 h2 e hcnt hle => exact .inr ⟨e, by rw [hcnt, hq.2.2], hle⟩
    | finish h1 h2 e => exact .inl e
    | send h1 => rcases h1 with h1 | h1 <;> rw [h1] at hq <;> simp at hq
    | idleNop h1 => rw [h1] at hq; simp at hq
    | txNop h1 => rw [h1] at hq; simp at hq
    | txEnd h1 => rw [h1] at hq; simp at hq
    | other h1 => rw [h1] at hq; simp at hq
    | check h1 => rw [h1] at hq; simp at hq
    | timeout h1 => rw [h1] at hq; simp at hq
    | waitNop h1 => rw [h1] at hq; simp at hq

/-- One attempt. -/
theorem attempt_ends (hw : cfg.MWF) (hT : 2 ≤ cfg.respTimeout) (hx : x.Exec cfg) (hp : x.Punctual P D X G) {a : Nat} (hs : x.Sends a) :
    ∃ q, a < q ∧ x.time q ≤ x.time a + (X + P + ((cfg.respTimeout - 1) * D + 2 * P) + (G + P)) ∧ (∀ k, a < k → k ≤ q → (x.st k).st ≠ .idle) ∧
      ((x.st (q + 1)).st = .idle ∨ ((x.st (q + 1)).st = .repeatRequest ∧ (x.st (q + 1)).repeatCnt.toNat = (x.st (a + 1)).repeatCnt.toNat + 1 ∧
        (x.st (q + 1)).repeatCnt.toNat ≤ cfg.repeatMax)) := by
  obtain ⟨c, c1, c2, c3, c4, c5, c6⟩ := sent_waits hw hx hp hs
  obtain ⟨m, ⟨m1, m2, m3, m4⟩, m5⟩ := wait_ends hw hT hx hp c3 c4
  have hne : ∀ k, a < k → k ≤ m → (x.st k).st ≠ .idle := fun k k1 k2 => by
    by_cases hk : k ≤ c
    · exact c6 k k1 hk
    · rw [(m2 k (by omega) k2).1]; decide
  rcases m4 with h | ⟨h, h35, hcnt, e, e1, e2, e3⟩
  · exact ⟨m, by omega, by omega, hne, .inl h⟩
  · obtain ⟨q, q1, q2, q3, q4⟩ := received_ends hw hx hp h h35 e1 e2 e3
    refine ⟨q, by omega, by omega, fun k k1 k2 => ?_, ?_⟩
    · by_cases hk : k ≤ m
      · exact hne k k1 hk
      · rw [q3 k (by omega) k2]; decide
    · have := (m2 m m1 (Nat.le_refl _)).2
      rw [hcnt, this, c5] at q4
      exact q4

/-- All attempts of a transaction. -/
theorem transaction_ends (hw : cfg.MWF) (hT : 2 ≤ cfg.respTimeout) (hx : x.Exec cfg) (hp : x.Punctual P D X G) : ∀ (d : Nat) {a : Nat}, x.Sends a →
    (x.st (a + 1)).repeatCnt.toNat + d = cfg.repeatMax →
    ∃ q, a < q ∧ x.time q ≤ x.time a + (d + 1) * (X + P + ((cfg.respTimeout - 1) * D + 2 * P) + (G + P) + P) ∧
      (∀ k, a < k → k ≤ q → (x.st k).st ≠ .idle) ∧ (x.st (q + 1)).st = .idle := by
  intro d
  induction d with
  | zero =>
    intro a hs hd
    obtain ⟨q, q1, q2, q3, q4⟩ := attempt_ends hw hT hx hp hs
    refine ⟨q, q1, by omega, q3, ?_⟩
    rcases q4 with h | ⟨-, h1, h2⟩
    · exact h
    · omega
  | succ d ih =>
    intro a hs hd
    obtain ⟨q, q1, q2, q3, q4⟩ := attempt_ends hw hT hx hp hs
    generalize hA : X + P + ((cfg.respTimeout - 1) * D + 2 * P) + (G + P) = A at *
    have hmul : (d + 1 + 1) * (A + P) = (d + 1) * (A + P) + (A + P) := by rw [Nat.add_mul (d + 1)]; omega
    rcases q4 with h | ⟨h, h1, h2⟩
    · exact ⟨q, q1, by omega, q3, h⟩
    obtain ⟨p, c1, c2, c3, c4⟩ := hx.first (p := fun m => x.op m = .poll) (hp.poll q)
    have w : ∀ j, q < j → j ≤ p → (x.st j).st = .repeatRequest ∧ (x.st j).repeatCnt = (x.st (q + 1)).repeatCnt := by
      refine stable ⟨h, rfl⟩ ?_
      rintro k k1 k2 ⟨i1, i2⟩
      have e := hx.eff hw (c4 k k1 k2)
      rw [e.st, e.cnt]
      exact ⟨i1, i2⟩
    have hwp := w p c1 (Nat.le_refl _)
    have hsp : x.Sends p ∧ (x.st (p + 1)).repeatCnt = (x.st p).repeatCnt := by
      cases hx.pollCase hw c2 with
      | send h1 e htx h15 hcnt b ho => exact ⟨⟨b, by rw [ho]; simp⟩, hcnt⟩
      | idleNop h1 => rw [h1] at hwp; simp at hwp
      | txNop h1 => rw [h1] at hwp; simp at hwp
      | txEnd h1 => rw [h1] at hwp; simp at hwp
      | other h1 => rw [h1] at hwp; simp at hwp
      | check h1 => rw [h1] at hwp; simp at hwp
      | timeout h1 => rw [h1] at hwp; simp at hwp
      | waitNop h1 => rw [h1] at hwp; simp at hwp
      | recNop h1 => rw [h1] at hwp; simp at hwp
      | again h1 => rw [h1] at hwp; simp at hwp
      | finish h1 => rw [h1] at hwp; simp at hwp
    obtain ⟨q', r1, r2, r3, r4⟩ := ih hsp.1 (by rw [hsp.2, hwp.2]; omega)
    refine ⟨q', by omega, by omega, fun k k1 k2 => ?_, r4⟩
    by_cases hk : k ≤ q
    · exact q3 k k1 hk
    by_cases hk' : k ≤ p
    · rw [(w k (by omega) hk').1]; decide
    · exact r3 k (by omega) k2

/-- Every busy master began with a transmission when idle. -/
theorem busy_since (hw : cfg.MWF) (hx : x.Exec cfg) (n : Nat) : (x.st n).st ≠ .idle →
    ∃ a, a < n ∧ x.Sends a ∧ (x.st a).st = .idle ∧ ∀ k, a < k → k ≤ n → (x.st k).st ≠ .idle := by
  induction n with
  | zero =>
    intro h
    exfalso
    obtain ⟨g, h0, hg⟩ := hx.ghosts hw
    apply h
    rw [(hg 0).1.idle_iff, h0]; rfl
  | succ n ih =>
    intro h
    by_cases hi : (x.st n).st = .idle
    · refine ⟨n, by omega, ?_, hi, fun k k1 k2 => ?_⟩
      · by_cases hpo : x.op n = .poll
        · cases hx.pollCase hw hpo with
          | send h1 e htx h15 hcnt b ho => exact ⟨b, by rw [ho]; simp⟩
          | idleNop h1 e => rw [e] at h; exact absurd hi h
          | txNop h1 => rw [h1] at hi; cases hi
          | txEnd h1 => rw [h1] at hi; cases hi
          | other h1 => rw [h1] at hi; cases hi
          | check h1 => rw [h1] at hi; cases hi
          | timeout h1 => rw [h1] at hi; cases hi
          | waitNop h1 => rw [h1] at hi; cases hi
          | recNop h1 => rw [h1] at hi; cases hi
          | again h1 => rw [h1] at hi; cases hi
          | finish h1 => rw [h1] at hi; cases hi
        · rw [(hx.eff hw hpo).st] at h; exact absurd hi h
      · obtain rfl : k = n + 1 := by omega
        exact h
    · obtain ⟨a, a1, a2, a3, a4⟩ := ih hi
      refine ⟨a, by omega, a2, a3, fun k k1 k2 => ?_⟩
      by_cases hk : k = n + 1
      · subst hk; exact h
      · exact a4 k k1 (by omega)

/-- The longest time a transaction may take. -/
def txTime (cfg : Config) (P D X G : Nat) : Nat := (cfg.repeatMax + 1) * (X + P + ((cfg.respTimeout - 1) * D + 2 * P) + (G + P) + P)

theorem busy_ends (hw : cfg.MWF) (hT : 2 ≤ cfg.respTimeout) (hx : x.Exec cfg) (hp : x.Punctual P D X G) {n : Nat} (h : (x.st (n + 1)).st ≠ .idle) :
    ∃ q, n < q ∧ x.time q ≤ x.time n + txTime cfg P D X G ∧ (∀ k, n < k → k ≤ q → (x.st k).st ≠ .idle) ∧ (x.st (q + 1)).st = .idle := by
  obtain ⟨a, a1, a2, a3, a4⟩ := busy_since hw hx (n + 1) h
  obtain ⟨g, hi⟩ := hx.inv hw a
  have hcnt : (x.st (a + 1)).repeatCnt.toNat = 0 := by
    rw [(hx.sends hw a2).2.2.2.2.2]
    have := hi.cur
    rw [hi.idle_iff.1 a3] at this
    rw [this.2]; rfl
  obtain ⟨q, q1, q2, q3, q4⟩ := transaction_ends hw hT hx hp cfg.repeatMax a2 (by omega)
  have hnq : n < q := Classical.byContradiction fun hc => a4 (q + 1) (by omega) (by omega) q4
  have := hx.time_le (show a ≤ n by omega)
  exact ⟨q, hnq, by unfold txTime; omega, fun k k1 k2 => q3 k (by omega) k2, q4⟩

end

end Modbus
