import Verif.Proofs.MasterTimed
import Verif.Props.MasterTrace
import Verif.Proofs.DriverMasterExchange

/-! C70: with a punctual environment every request is dealt with in time. -/

namespace Modbus

open Spec

section
variable {cfg : Config} {x : TimedRun} {P D X G : Nat}

/-- Requests queued or in flight, from the bookkeeping. -/
def Ghost.open' (g : Ghost) : Nat := g.curIdx.length + g.pend.length

theorem accepted_snoc (tr : MTrace) (y : MOp × List MOut) : (accepted (tr ++ [y])).length = (accepted tr).length + (accepted [y]).length := by
  unfold accepted; rw [List.filterMap_append, List.length_append]

/-- Accepted = finished + open, step by step. -/
theorem gstep_count {g g' : Ghost} {op : MOp} {o : List MOut} (h : GStep cfg g op o g') :
    (accepted [(op, o)]).length + g.open' = g'.open' + (if g.cur ≠ none ∧ g'.cur = none then 1 else 0) := by
  cases h with
  | accept r i fl h hq =>
    by_cases hc : g.cur = none
    · simp [accepted, Ghost.open', Ghost.curIdx, hc]; omega
    · simp [accepted, Ghost.open', Ghost.curIdx, hc]; omega
  | full r h =>
    by_cases hc : g.cur = none <;> simp [accepted, hc]
  | refuse r i fl h hq =>
    by_cases hc : g.cur = none <;> simp [accepted, Ghost.open', Ghost.curIdx, hc]
  | start r i tl rest hc ht hp => simp [accepted, Ghost.open', Ghost.curIdx, hc, hp]; omega
  | again r i c hc hle => simp [accepted, Ghost.open', Ghost.curIdx, hc]
  | finish r i c evs hc hf => simp [accepted, Ghost.open', Ghost.curIdx, hc]; omega
  | silent op h =>
    have : accepted [(op, ([] : List MOut))] = [] := by
      unfold accepted
      cases op <;> rfl
    rw [this]
    by_cases hc : g.cur = none <;> simp [hc]

theorem Spec.TimedRun.trace_succ (x : TimedRun) (n : Nat) : x.trace (n + 1) = x.trace n ++ [(x.op n, x.out n)] := by
  unfold TimedRun.trace
  rw [List.range_succ, List.map_append]
  rfl

theorem Spec.TimedRun.trace_prefix (x : TimedRun) {m n : Nat} (h : m ≤ n) : x.trace m <+: x.trace n := by
  induction h with
  | refl => exact List.prefix_rfl
  | step _ ih => exact ih.trans (by rw [x.trace_succ]; exact List.prefix_append _ _)

theorem accepted_prefix {t1 t2 : MTrace} (h : t1 <+: t2) : accepted t1 <+: accepted t2 := by
  obtain ⟨t, rfl⟩ := h
  unfold accepted
  rw [List.filterMap_append]
  exact List.prefix_append _ _

/-- A timed execution is an execution. -/
theorem Spec.TimedRun.Exec.run (hx : x.Exec cfg) : ∃ s0, ∀ n, masterRun cfg s0 (.init .rtu :: x.ops n) = .ok (x.st n, x.trace n) := by
  obtain ⟨s0, h0⟩ := hx.init
  refine ⟨s0, fun n => ?_⟩
  induction n with
  | zero =>
    show masterRun cfg s0 [.init .rtu] = _
    exact run_one h0
  | succ n ih =>
    have e : (MOp.init .rtu :: x.ops (n + 1)) = (.init .rtu :: x.ops n) ++ [x.op n] := by
      unfold TimedRun.ops
      rw [List.range_succ, List.map_append]; rfl
    rw [e, x.trace_succ]
    exact run_seq ih (run_one (hx.step n))

theorem ghosts_run {g : Nat → Ghost} (hg : ∀ n, MInv cfg (x.st n) (g n) ∧ GStep cfg (g n) (x.op n) (x.out n) (g (n + 1))) (n : Nat) :
    ∃ tr, x.trace n = (.init .rtu, []) :: tr ∧ GRun cfg (g 0) tr (g n) := by
  induction n with
  | zero => exact ⟨[], rfl, .nil _⟩
  | succ n ih =>
    obtain ⟨tr, e, h⟩ := ih
    refine ⟨tr ++ [(x.op n, x.out n)], by rw [x.trace_succ, e]; rfl, ?_⟩
    have key : ∀ {g1 g2 g3 : Ghost} {t : MTrace} {op : MOp} {o : List MOut}, GRun cfg g1 t g2 → GStep cfg g2 op o g3 → GRun cfg g1 (t ++ [(op, o)]) g3 := by
      intro g1 g2 g3 t op o hr hs
      induction hr with
      | nil g => exact .cons hs (.nil _)
      | cons k1 _ ih => exact .cons k1 (ih hs)
    exact key h (hg n).2

/-- **C70.** A master in a punctual environment (see `TimedRun.Punctual`: polls at most `P` apart, ticks at most `D` and more than `2 P` apart,
completion of a transmission within `X`, at most one frame per transmission with its 1.5-char and 3.5-char events more than `P` and at most `G` apart),
with a response timeout of `T ≥ 2` ticks and at most `R` repetitions: whatever bytes and frame errors come in, and whether or not the slaves answer, every request is
dealt with in bounded time. At every moment `n` of every execution: not later than
`N · ((R + 1) · (X + P + (T - 1) · D + 2 P + G + P + P) + P)` afterwards, and from then on, all requests accepted before `n` have had their transaction completely (`done`),
where `done` is what the master really has finished: the buffers of exactly the requests not in `done` are in use. -/
theorem C70_every_request_in_time (hw : cfg.MWF) (hT : 2 ≤ cfg.respTimeout) (hx : x.Exec cfg) (hp : x.Punctual P D X G) (n : Nat) :
    ∃ m, n ≤ m ∧ x.time m ≤ x.time n + cfg.queueItems * ((cfg.repeatMax + 1) * (X + P + ((cfg.respTimeout - 1) * D + 2 * P) + (G + P) + P) + P) ∧
      ∀ q, m < q → ∃ done cur queued, Transactions cfg.repeatMax (x.trace q) done cur queued ∧
        accepted (x.trace n) <+: done.map Tx.req ∧
        ((x.st q).st = .idle ↔ cur = none) ∧
        (x.st q).freeQ.items.toNat + outstanding cur queued + refused (x.trace q) = cfg.queueItems := by
  obtain ⟨g, g0, hg⟩ := hx.ghosts hw
  -- finished transactions
  let F : Nat → Nat := fun n => Nat.rec 0 (fun n f => f + if (g n).cur ≠ none ∧ (g (n + 1)).cur = none then 1 else 0) n
  have hF : ∀ n, F (n + 1) = F n + if (g n).cur ≠ none ∧ (g (n + 1)).cur = none then 1 else 0 := fun n => rfl
  have hacc : ∀ n, (accepted (x.trace n)).length = F n + (g n).open' := by
    intro n
    induction n with
    | zero => rw [g0]; rfl
    | succ n ih =>
      have := gstep_count (hg n).2
      rw [x.trace_succ, accepted_snoc, hF]
      omega
  have hFm : ∀ {a b}, a ≤ b → F a ≤ F b := by
    intro a b h
    induction h with
    | refl => exact Nat.le_refl _
    | step _ ih => exact Nat.le_trans ih (by rw [hF]; omega)
  have hAm : ∀ {a b}, a ≤ b → (accepted (x.trace a)).length ≤ (accepted (x.trace b)).length := fun h =>
    (accepted_prefix (x.trace_prefix h)).length_le
  have hfin : ∀ q, (x.st q).st ≠ .idle → (x.st (q + 1)).st = .idle → F (q + 1) = F q + 1 := by
    intro q h1 h2
    rw [hF, if_pos ⟨fun e => h1 ((hg q).1.idle_iff.2 e), (hg (q + 1)).1.idle_iff.1 h2⟩]
  -- progress
  have key : ∀ d q, n ≤ q + 1 → (accepted (x.trace n)).length ≤ F (q + 1) + d →
      ∃ m, q ≤ m ∧ x.time m ≤ x.time q + d * (txTime cfg P D X G + P) ∧ (accepted (x.trace n)).length ≤ F (m + 1) := by
    intro d
    induction d with
    | zero => intro q _ h; exact ⟨q, Nat.le_refl _, by omega, h⟩
    | succ d ih =>
      intro q hq h
      have hmul : (d + 1) * (txTime cfg P D X G + P) = d * (txTime cfg P D X G + P) + (txTime cfg P D X G + P) := by
        rw [Nat.add_mul]; omega
      by_cases hle : (accepted (x.trace n)).length ≤ F (q + 1) + d
      · obtain ⟨m, m1, m2, m3⟩ := ih q hq hle
        exact ⟨m, m1, by omega, m3⟩
      by_cases hidle : (x.st (q + 1)).st = .idle
      · -- the next transaction is started first
        obtain ⟨p, c1, c2, c3, c4⟩ := hx.first (p := fun m => x.op m = .poll) (hp.poll q)
        have w : ∀ j, q < j → j ≤ p → (x.st j).st = .idle ∧ F j = F (q + 1) := by
          refine stable ⟨hidle, rfl⟩ ?_
          rintro k k1 k2 ⟨i1, i2⟩
          refine ⟨((hx.eff hw (c4 k k1 k2)).st).trans i1, ?_⟩
          rw [hF, if_neg (fun e => e.1 ((hg k).1.idle_iff.1 i1))]
          exact i2
        have hwp := w p c1 (Nat.le_refl _)
        have hpend : (g p).pend ≠ [] := by
          intro e
          have h1 := hacc p
          have h2 := hAm (show n ≤ p by omega)
          unfold Ghost.open' Ghost.curIdx at h1
          rw [(hg p).1.idle_iff.1 hwp.1, e] at h1
          simp at h1
          omega
        obtain ⟨r, rest, hr⟩ : ∃ r rest, (g p).pend = r :: rest := by
          cases hpp : (g p).pend with
          | nil => exact absurd hpp hpend
          | cons r rest => exact ⟨r, rest, rfl⟩
        obtain ⟨s', i, k1, k2, -⟩ := poll_idle_send hw (hg p).1 hwp.1 hr
        have hst : (x.st (p + 1)).st ≠ .idle := by
          have := hx.step p
          rw [c2] at this
          have k1' : masterStep cfg (x.st p) .poll = _ := k1
          rw [this] at k1'
          simp only [Except.ok.injEq, Prod.mk.injEq] at k1'
          rw [k1'.1, k2]; decide
        obtain ⟨q', q1, q2, q3, q4⟩ := busy_ends hw hT hx hp hst
        have hf := hfin q' (q3 q' q1 (Nat.le_refl _)) q4
        have hmono := hFm (show q + 1 ≤ q' by omega)
        obtain ⟨m, m1, m2, m3⟩ := ih q' (by omega) (by omega)
        exact ⟨m, by omega, by omega, m3⟩
      · obtain ⟨q', q1, q2, q3, q4⟩ := busy_ends hw hT hx hp hidle
        have hf := hfin q' (q3 q' q1 (Nat.le_refl _)) q4
        have hmono := hFm (show q + 1 ≤ q' by omega)
        obtain ⟨m, m1, m2, m3⟩ := ih q' (by omega) (by omega)
        exact ⟨m, by omega, by omega, m3⟩
  obtain ⟨m, m1, m2, m3⟩ : ∃ m, n ≤ m ∧ x.time m ≤ x.time n + cfg.queueItems * (txTime cfg P D X G + P) ∧ (accepted (x.trace n)).length ≤ F (m + 1) := by
    cases n with
    | zero =>
      refine ⟨0, Nat.le_refl _, by omega, ?_⟩
      rw [show accepted (x.trace 0) = [] from rfl]; exact Nat.zero_le _
    | succ q =>
      have ho : (g (q + 1)).open' ≤ cfg.queueItems := by
        have h1 := (hg (q + 1)).1.lengths
        have h2 := (hg (q + 1)).1.pend.length
        unfold Ghost.open'
        omega
      obtain ⟨m, m1, m2, m3⟩ := key (g (q + 1)).open' q (Nat.le_refl _) (by rw [hacc]; omega)
      have h1 := Nat.mul_le_mul_right (txTime cfg P D X G + P) ho
      have h2 := hx.mono q
      by_cases hm : q + 1 ≤ m
      · exact ⟨m, hm, by omega, m3⟩
      · exact ⟨q + 1, Nat.le_refl _, by omega, Nat.le_trans m3 (hFm (show m + 1 ≤ q + 1 + 1 by omega))⟩
  -- reading of the trace
  refine ⟨m, m1, m2, fun q hmq => ?_⟩
  obtain ⟨tr', etr, hrun⟩ := ghosts_run hg q
  rw [g0] at hrun
  obtain ⟨hv, hq, done, d1, d2, d3, d4⟩ := hrun.transactions (Ghost.fresh_valid cfg)
  have hi := (hg q).1
  have hlen := hi.lengths
  have hpl := hi.pend.length
  have hout : outstanding (g q).tx (g q).pend = (g q).tl.length + (g q).curIdx.length := by
    unfold outstanding Ghost.tx Ghost.curIdx
    cases (g q).cur <;> simp <;> omega
  have hlost : (g q).lost.length = refused tr' := by rw [d4]; simp [Ghost.fresh]
  have href : refused ((MOp.init .rtu, []) :: tr') = refused tr' := by simp [refused]
  have hord : accepted (x.trace q) = done.map Tx.req ++ ((g q).tx.map Prod.fst).toList ++ (g q).pend := by
    rw [etr, ← d2]; simp [accepted, Ghost.fresh, Ghost.tx]
  refine ⟨done, (g q).tx, (g q).pend, ⟨hord, ?_, d1, ?_, ?_⟩, ?_, ?_, ?_⟩
  · rw [etr, ← d3, outs_cons]; simp [Ghost.fresh, Ghost.tx, curOuts]
  · intro r c e
    simp [Ghost.tx] at e
    obtain ⟨i, e⟩ := e
    exact (hv.2 i r c e).2
  · intro r hr; exact hq r (by rw [etr] at hr; simpa [accepted] using hr)
  · have h1 : accepted (x.trace n) <+: accepted (x.trace q) := accepted_prefix (x.trace_prefix (by omega))
    have h2 : done.map Tx.req <+: accepted (x.trace q) := by rw [hord, List.append_assoc]; exact List.prefix_append _ _
    refine List.prefix_of_prefix_length_le h1 h2 ?_
    have h3 := hacc q
    have h6 := hFm (show m + 1 ≤ q by omega)
    have h4 := congrArg List.length hord
    simp only [List.length_append] at h4
    have h5 : (g q).open' = ((g q).tx.map Prod.fst).toList.length + (g q).pend.length := by
      unfold Ghost.open' Ghost.curIdx Ghost.tx
      cases (g q).cur <;> rfl
    omega
  · rw [hi.idle_iff]; simp [Ghost.tx]
  · rw [hout, etr, href, hi.free.items_eq]; omega

/-- **C70**, one transaction: not later than `(R + 1) · (X + P + (T - 1) · D + 2 P + G + P + P)` after the master has started to work on a request (a transmission
while idle) it is idle again, ready for the next one. -/
theorem C70_transaction_in_time (hw : cfg.MWF) (hT : 2 ≤ cfg.respTimeout) (hx : x.Exec cfg) (hp : x.Punctual P D X G) {n : Nat} (hs : x.Sends n) :
    ∃ m, n < m ∧ x.time m ≤ x.time n + (cfg.repeatMax + 1) * (X + P + ((cfg.respTimeout - 1) * D + 2 * P) + (G + P) + P) ∧ (x.st (m + 1)).st = .idle := by
  have h : (x.st (n + 1)).st ≠ .idle := by rw [(hx.sends hw hs).2.2.1]; decide
  obtain ⟨q, q1, q2, -, q4⟩ := busy_ends hw hT hx hp h
  exact ⟨q, q1, q2, q4⟩

end

/-! ### The hypotheses can be met

A master with the configuration `smallCfg` (`T = 3`, `R = 1`, `N = 2`): one operation per unit of time; every other operation is a poll; a tick every 30 units.
The first request is answered, the second one is not; then nothing happens any more, for ever. -/

/-- An execution from operations that never fail. -/
theorem timedRun_of_ops {cfg : Config} {op : Nat → MOp} {time : Nat → Nat} {s0 : Master}
    (hok : ∀ n, ∃ s tr, masterRun cfg s0 (.init .rtu :: (List.range n).map op) = .ok (s, tr))
    (hc : ∀ n, (∀ m, op n ≠ .init m) ∧ ∀ r, op n = .request r → QtyOk r → DataOk r) (ht : ∀ n, time n ≤ time (n + 1)) :
    ∃ x : TimedRun, x.op = op ∧ x.time = time ∧ x.Exec cfg ∧ ∀ n, masterRun cfg s0 (.init .rtu :: (List.range n).map op) = .ok (x.st n, x.trace n) := by
  let st : Nat → Master := fun n => Classical.choose (hok n)
  have hst : ∀ n, ∃ tr, masterRun cfg s0 (.init .rtu :: (List.range n).map op) = .ok (st n, tr) := fun n => Classical.choose_spec (hok n)
  have hstep : ∀ n, ∃ o, masterStep cfg (st n) (op n) = .ok (st (n + 1), o) := by
    intro n
    obtain ⟨t1, h1⟩ := hst n
    obtain ⟨t2, h2⟩ := hst (n + 1)
    rw [show (MOp.init .rtu :: (List.range (n + 1)).map op) = (.init .rtu :: (List.range n).map op) ++ [op n] by
      rw [List.range_succ, List.map_append]; rfl, masterRun_append, h1] at h2
    simp only [ok_bind] at h2
    obtain ⟨⟨s3, t3⟩, k1, k2⟩ := bind_ok h2
    simp only [masterRun] at k1
    obtain ⟨⟨s4, o4⟩, k3, k4⟩ := bind_ok k1
    simp only [ok_bind, pure_eq, Except.ok.injEq, Prod.mk.injEq] at k4 k2
    exact ⟨o4, by rw [k3, k4.1, k2.1]⟩
  let out : Nat → List MOut := fun n => Classical.choose (hstep n)
  have hx : TimedRun.Exec cfg ⟨op, time, st, out⟩ := by
    refine ⟨⟨s0, ?_⟩, fun n => Classical.choose_spec (hstep n), hc, ht⟩
    obtain ⟨t, h⟩ := hst 0
    obtain ⟨s1, o1, t1, h2, h3, -⟩ := run_cons_inv (show masterRun cfg s0 (.init .rtu :: []) = .ok (st 0, t) from h)
    cases h3
    have ho : o1 = [] := by
      simp only [masterStep] at h2
      obtain ⟨y, -, h2⟩ := bind_ok h2
      simp only [pure_eq, Except.ok.injEq, Prod.mk.injEq] at h2
      exact h2.2.symm
    rw [ho] at h2
    exact h2
  refine ⟨⟨op, time, st, out⟩, rfl, rfl, hx, fun n => ?_⟩
  induction n with
  | zero =>
    obtain ⟨t, h⟩ := hst 0
    rw [h]
    obtain ⟨s1, o1, t1, h2, h3, h4⟩ := run_cons_inv (show masterRun cfg s0 (.init .rtu :: []) = .ok (st 0, t) from h)
    cases h3
    have ho : o1 = [] := by
      simp only [masterStep] at h2
      obtain ⟨y, -, h2⟩ := bind_ok h2
      simp only [pure_eq, Except.ok.injEq, Prod.mk.injEq] at h2
      exact h2.2.symm
    rw [h4, ho]; rfl
  | succ n ih =>
    rw [show (MOp.init .rtu :: (List.range (n + 1)).map op) = (.init .rtu :: (List.range n).map op) ++ [op n] by
      rw [List.range_succ, List.map_append]; rfl, TimedRun.trace_succ]
    exact run_seq ih (run_one (hx.step n))

/-- What happens between the polls. -/
def demoSlot (s : Nat) : MOp :=
  if s = 0 then .request (.readHoldingReg 7 1 9)
  else if s = 13 then .t15
  else if s = 15 then .t35
  else if s = 16 then .request (.readHoldingReg 8 1 9)
  else if s % 15 = 14 then .tick
  else if 2 ≤ s ∧ s ≤ 8 then .rxByte ((rtuFrame 9 [3, 2, 0xAA, 0xBB]).getD (s - 2) 0)
  else .txDone

def demoOp (n : Nat) : MOp := if n % 2 = 0 then .poll else demoSlot (n / 2)

/-- What the operations put out. -/
def demoOut (n : Nat) : List MOut :=
  if n = 1 then [.ret .sendToQueue]
  else if n = 2 then [.send (reqFrame (.readHoldingReg 7 1 9))]
  else if n = 32 then [.event (.hregRead 9 7 0xAABB)]
  else if n = 33 then [.ret .sendToQueue]
  else if n = 34 then [.send (reqFrame (.readHoldingReg 8 1 9))]
  else if n = 90 then [.event (.timeoutErr { slave := 9, fc := 0, adr := 8, qty := 1, err := .timeout })]
  else []

theorem demo_head : (match masterRun smallCfg Master.powerOn (.init .rtu :: (List.range 92).map demoOp) with
    | .ok x => decide (x.1.st = .idle) && !x.1.txQ.available &&
        decide (x.2 = (.init .rtu, []) :: (List.range 92).map fun n => (demoOp n, demoOut n))
    | .error _ => false) = true := by decide +kernel

theorem demo_idle {cfg : Config} {s : Master} (h1 : s.st = .idle) (h2 : s.txQ.available = false) {op : MOp} (ho : op = .poll ∨ op = .tick ∨ op = .txDone) :
    ∃ s', masterStep cfg s op = .ok (s', []) ∧ s'.st = .idle ∧ s'.txQ.available = false := by
  rcases ho with rfl | rfl | rfl
  · refine ⟨s, ?_, h1, h2⟩
    simp only [masterStep, masterPoll, h1, masterIdle, h2]; rfl
  · refine ⟨_, rfl, ?_, ?_⟩ <;> (split <;> assumption)
  · refine ⟨_, rfl, ?_, ?_⟩ <;> (split <;> assumption)

theorem demoOp_tail {n : Nat} (h : 92 ≤ n) : demoOp n = .poll ∨ demoOp n = .tick ∨ demoOp n = .txDone := by
  unfold demoOp demoSlot
  split
  · exact .inl rfl
  · rw [if_neg (by omega), if_neg (by omega), if_neg (by omega), if_neg (by omega)]
    split
    · exact .inr (.inl rfl)
    · rw [if_neg (by omega)]; exact .inr (.inr rfl)

/-- The execution never fails, and its outputs are `demoOut`. -/
theorem demo_run (k : Nat) : ∃ s, masterRun smallCfg Master.powerOn (.init .rtu :: (List.range (92 + k)).map demoOp) =
    .ok (s, (.init .rtu, []) :: (List.range (92 + k)).map fun n => (demoOp n, demoOut n)) ∧ s.st = .idle ∧ s.txQ.available = false := by
  induction k with
  | zero =>
    have h := demo_head
    split at h
    · rename_i x hx
      simp only [Bool.and_eq_true, decide_eq_true_eq, Bool.not_eq_true'] at h
      exact ⟨x.1, by rw [hx, ← h.2], h.1.1, h.1.2⟩
    · cases h
  | succ k ih =>
    obtain ⟨s, h1, h2, h3⟩ := ih
    obtain ⟨s', k1, k2, k3⟩ := demo_idle (cfg := smallCfg) h2 h3 (demoOp_tail (n := 92 + k) (by omega))
    refine ⟨s', ?_, k2, k3⟩
    have e : demoOut (92 + k) = [] := by unfold demoOut; iterate 6 rw [if_neg (by omega)]
    have := run_seq h1 (run_one k1)
    rw [← Nat.add_assoc, List.range_succ, List.map_append, List.map_append]
    simp only [List.map_cons, List.map_nil, e]
    exact this

/-- **C70**: an execution in which main loop, tick, driver and slave are punctual exists; in it two requests are accepted and transmitted. -/
theorem timed_demo : ∃ x : TimedRun, x.Exec smallCfg ∧ x.Punctual 2 30 2 4 ∧ x.out = demoOut ∧ x.op = demoOp ∧ x.time = id := by
  have hok : ∀ n, ∃ s tr, masterRun smallCfg Master.powerOn (.init .rtu :: (List.range n).map demoOp) = .ok (s, tr) := by
    intro n
    obtain ⟨s, h, -⟩ := demo_run n
    rw [show 92 + n = n + 92 by omega, List.range_add, List.map_append,
      show (MOp.init .rtu :: ((List.range n).map demoOp ++ ((List.range 92).map (n + ·)).map demoOp)) = (MOp.init .rtu :: (List.range n).map demoOp) ++ ((List.range 92).map (n + ·)).map demoOp from rfl] at h
    obtain ⟨s1, t1, t2, k1, -⟩ := run_split h
    exact ⟨s1, t1, k1⟩
  obtain ⟨x, x1, x2, x3, x4⟩ := timedRun_of_ops (cfg := smallCfg) (time := id) hok (fun n => by
    constructor
    · intro m h
      unfold demoOp demoSlot at h
      repeat' split at h
      all_goals cases h
    · intro r h hq
      unfold demoOp demoSlot at h
      repeat' split at h
      all_goals first | cases h; done | (cases h; trivial)) (fun n => Nat.le_succ n)
  have hout : x.out = demoOut := by
    funext n
    obtain ⟨s, h, -⟩ := demo_run n
    rw [x4 (92 + n)] at h
    have h' := (Prod.mk.inj (Except.ok.inj h)).2
    have := congrArg (fun l => l[n + 1]?) h'
    simp [TimedRun.trace] at this
    exact this.2
  have hop : ∀ n, x.op n = demoOp n := fun n => congrFun x1 n
  have htm : ∀ n, x.time n = n := fun n => congrFun x2 n
  have ho : ∀ n, x.out n = demoOut n := fun n => congrFun hout n
  have hsends : ∀ n, x.Sends n → n = 2 ∨ n = 34 := by
    intro n ⟨b, hb⟩
    rw [ho n] at hb
    unfold demoOut at hb
    repeat' split at hb
    all_goals first | (simp at hb; done) | omega
  have hodd : ∀ s, demoOp (2 * s + 1) = demoSlot s := by
    intro s; unfold demoOp; rw [if_neg (by omega), show (2 * s + 1) / 2 = s by omega]
  have htick : ∀ n, demoOp n = .tick → n % 30 = 29 := by
    intro n h
    unfold demoOp demoSlot at h
    repeat' split at h
    all_goals first | (cases h; done) | omega
  have ht15 : ∀ n, demoOp n = .t15 → n = 27 := by
    intro n h
    unfold demoOp demoSlot at h
    repeat' split at h
    all_goals first | (cases h; done) | omega
  refine ⟨x, x3, ⟨?_, ?_, ?_, ?_, ?_, ?_⟩, hout, x1, x2⟩
  · intro n
    refine ⟨2 * (n / 2) + 2, by omega, ?_, by rw [htm, htm]; omega⟩
    rw [hop]; unfold demoOp; rw [if_pos (by omega)]
  · intro n
    refine ⟨2 * (15 * ((n + 1) / 30) + 14) + 1, by omega, ?_, by rw [htm, htm]; omega⟩
    rw [hop, hodd]
    unfold demoSlot
    iterate 4 rw [if_neg (by omega)]
    rw [if_pos (by omega)]
  · intro m n hmn h1 h2
    rw [hop] at h1 h2
    have := htick m h1
    have := htick n h2
    rw [htm, htm]; omega
  · intro n hn
    refine ⟨n + 1, by omega, ?_, by rw [htm, htm]; omega⟩
    rcases hsends n hn with rfl | rfl <;> rw [hop] <;> decide
  · intro n hn
    rw [hop] at hn
    have := ht15 n hn
    subst this
    refine ⟨2, 3, by omega, by omega, ⟨_, by rw [ho]; simp only [demoOut]; exact List.mem_singleton.2 rfl⟩, by rw [hop]; decide, by rw [htm, htm]; omega, ?_⟩
    intro k k1 k2
    constructor
    · intro o hm
      rw [ho] at hm
      unfold demoOut at hm
      iterate 6 rw [if_neg (by omega)] at hm
      cases hm
    · intro h; rw [hop] at h; have := ht15 k h; omega
  · intro n hn
    rw [hop] at hn
    have := ht15 n hn
    subst this
    exact ⟨31, by omega, by rw [hop]; decide, by rw [htm, htm]; omega, by rw [htm, htm]; omega⟩

end Modbus
