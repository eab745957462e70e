import Verif.Proofs.MasterPcStep

/-! The master statement by statement: executions. -/

set_option linter.unusedSimpArgs false

namespace Modbus

open Spec

section
variable {cfg : Config} {x : MStmtTimed} {t15 t35 lat P D X : Nat}

/-! ### Times and counts -/

theorem Spec.MStmtTimed.Exec.time_le (hx : x.Exec cfg) {m n : Nat} (h : m ≤ n) : x.time m ≤ x.time n := by
  induction n with
  | zero => rw [Nat.le_zero.1 h]; exact Nat.le_refl _
  | succ n ih =>
    rcases Nat.lt_or_ge m (n + 1) with h1 | h1
    · exact Nat.le_trans (ih (by omega)) (hx.mono n)
    · rw [show m = n + 1 by omega]; exact Nat.le_refl _

theorem Spec.MStmtTimed.Exec.lt_of_time (hx : x.Exec cfg) {m n : Nat} (h : x.time m < x.time n) : m < n := by
  rcases Nat.lt_or_ge m n with h1 | h1
  · exact h1
  · exact absurd (hx.time_le h1) (by omega)

theorem range'_succ_last {a n : Nat} (h : a ≤ n) : List.range' a (n + 1 - a) = List.range' a (n - a) ++ [n] := by
  rw [show n + 1 - a = (n - a) + 1 by omega, List.range'_concat]
  congr 2; omega

theorem mticks_succ {a n : Nat} (h : a ≤ n) : x.ticks a (n + 1) = x.ticks a n + if x.ev n = .irq (.main .tick) then 1 else 0 := by
  simp only [MStmtTimed.ticks, range'_succ_last h, List.map_append, List.map_cons, List.map_nil, List.count_append, List.count_cons, List.count_nil]
  simp

theorem mticks_self (a : Nat) : x.ticks a a = 0 := by simp [MStmtTimed.ticks]

theorem mtxCount_succ {a n : Nat} (h : a ≤ n) : x.txCount a (n + 1) = x.txCount a n + if x.ev n = .irq (.usart none true) then 1 else 0 := by
  simp only [MStmtTimed.txCount, range'_succ_last h, List.map_append, List.map_cons, List.map_nil, List.count_append, List.count_cons, List.count_nil]
  simp

theorem mtxCount_self (a : Nat) : x.txCount a a = 0 := by simp [MStmtTimed.txCount]

theorem mticks_mono {a m n : Nat} (ha : a ≤ m) (h : m ≤ n) : x.ticks a m ≤ x.ticks a n := by
  induction n with
  | zero => rw [Nat.le_zero.1 h]; exact Nat.le_refl _
  | succ n ih =>
    rcases Nat.lt_or_ge m (n + 1) with h1 | h1
    · have := ih (by omega)
      rw [mticks_succ (by omega)]
      omega
    · rw [show m = n + 1 by omega]; exact Nat.le_refl _

theorem mticks_pos {a n : Nat} (h : 0 < x.ticks a n) : ∃ i, a ≤ i ∧ i < n ∧ x.ev i = .irq (.main .tick) := by
  have := List.count_pos_iff.1 h
  obtain ⟨i, h1, h2⟩ := List.mem_map.1 this
  obtain ⟨h3, h4⟩ := List.mem_range'_1.1 h1
  exact ⟨i, h3, by omega, h2⟩

theorem mticks_le_one {a n : Nat} (h : ∀ i j, a ≤ i → i < j → j < n → x.ev i = .irq (.main .tick) → x.ev j = .irq (.main .tick) → False) :
    x.ticks a n ≤ 1 := by
  induction n with
  | zero => simp [MStmtTimed.ticks]
  | succ n ih =>
    rcases Nat.lt_or_ge n a with h1 | h1
    · simp [MStmtTimed.ticks, show n + 1 - a = 0 by omega]
    · rw [mticks_succ h1]
      have := ih (fun i j h1 h2 h3 => h i j h1 h2 (by omega))
      split
      · rename_i ht
        rcases Nat.eq_zero_or_pos (x.ticks a n) with h0 | h0
        · omega
        · obtain ⟨i, i1, i2, i3⟩ := mticks_pos h0
          exact (h i n i1 i2 (by omega) i3 ht).elim
      · omega

/-- No poll begins after event `r` and ends before event `n`. -/
def NoPoll (x : MStmtTimed) (r n : Nat) : Prop := ∀ k m, r < k → x.Poll k m → m < n → False

theorem NoPoll.succ {r n : Nat} (h : NoPoll x r n) (hn : x.InPoll n → x.InPoll (n + 1)) : NoPoll x r (n + 1) := by
  intro k m hk hp hm
  rcases Nat.lt_or_ge m n with h1 | h1
  · exact h k m hk hp h1
  · have : m = n := by omega
    subst this
    exact hp.over (hn (hp.inside m hp.lt (Nat.le_refl _)))

theorem NoPoll.self (x : MStmtTimed) (n : Nat) : NoPoll x n (n + 1) := fun _ _ h1 h2 h3 => by have := h2.lt; omega

theorem NoPoll.time {r n : Nat} (hx : x.Exec cfg) (hp : x.Punctual P D X) (h : NoPoll x r n) : x.time n ≤ x.time r + P := by
  obtain ⟨k, m, h1, h2, h3⟩ := hp.poll r
  have : ¬ m < n := fun h' => h k m h1 h2 h'
  exact Nat.le_trans (hx.time_le (show n ≤ m by omega)) h3

theorem inpoll_time {q n : Nat} (hx : x.Exec cfg) (hp : x.Punctual P D X) (h : ∀ j, q ≤ j → j ≤ n → x.InPoll j) : x.time n ≤ x.time q + P := by
  obtain ⟨k, m, h1, h2, h3⟩ := hp.poll q
  have hk : ¬ k ≤ n := fun h' => hx.outside k (.inl h2.call) (h k (by omega) h')
  exact Nat.le_trans (hx.time_le (show n ≤ m by have := h2.lt; omega)) h3

/-! ### Events -/

theorem not_out_of_inpoll {n : Nat} (h : x.InPoll n) : (x.st n).pc ≠ .out := h

theorem out_of_not {n : Nat} (h : ¬ x.InPoll n) : (x.st n).pc = .out := Classical.byContradiction h

theorem rtof_main (hh : x.Hardware t15 t35 lat) {n : Nat} (h : ∀ h', x.ev n = .irq h' → h' = .main .tick) : (x.st n).dev.sys.rtof = false := by
  cases hr : (x.st n).dev.sys.rtof with
  | false => rfl
  | true =>
    obtain ⟨h', e1, e2⟩ := hh.stalled n hr
    exact absurd (h h' e1) e2

theorem pc_of_irq (hx : x.Exec cfg) {n : Nat} {h : HMOp} (he : x.ev n = .irq h) : (x.st (n + 1)).pc = (x.st n).pc := by
  have := hx.step n
  rw [he] at this
  obtain ⟨v, -, e⟩ := mpc_irq this
  rw [e]

theorem app_of (hx : x.Exec cfg) {n : Nat} {op : MOp} (he : x.ev n = .app op) : (x.st n).pc = .out ∧ ∃ r, op = .request r ∧ (QtyOk r → DataOk r) :=
  ⟨out_of_not (hx.outside n (.inr ⟨op, he⟩)), hx.app n op he⟩

/-- An answer: a byte or the end of a frame. -/
def MAns (x : MStmtTimed) (n : Nat) : Prop := x.Byte n ∨ x.ev n = .irq .rto

theorem ans_iff {n : Nat} {h : HMOp} (he : x.ev n = .irq h) : h.isAnswer = true ↔ MAns x n := by
  constructor
  · intro ha
    cases h with
    | main op => cases ha
    | timer => cases ha
    | rto => exact .inr he
    | usart rx t =>
      cases rx with
      | none => cases ha
      | some b => exact .inl ⟨b, t, he⟩
  · rintro (⟨b, t, h1⟩ | h1)
    · rw [he] at h1; cases h1; rfl
    · rw [he] at h1; cases h1; rfl

/-! ### The effect of a poll -/

/-- Statement `n` is the one at which its poll has its effect, if it has not had it before (`fl`). -/
def mlinStep (cfg : Config) (d d' : MasterPcDev) (fl : Bool) : Bool := !fl && (mlinPt cfg d || decide (d'.pc = .out))

/-- The poll under way has had its effect. -/
def mflag (cfg : Config) (x : MStmtTimed) : Nat → Bool
  | 0 => false
  | n + 1 => match x.ev n with
    | .call => false
    | .stmt => mflag cfg x n || mlinStep cfg (x.st n) (x.st (n + 1)) (mflag cfg x n)
    | _ => mflag cfg x n

/-- Positions of the driver's `send` after the first byte. -/
def MPc.sent (pc : MPc) : Prop := pc = .snTxeie ∨ pc.starting = true ∨ pc = .snSt

/-- What holds before event `n`. -/
structure CI (cfg : Config) (x : MStmtTimed) (n : Nat) : Prop where
  si : SI (x.st n)
  tm : Answered (x.st n) → ∃ r, r < n ∧ x.ev r = .irq .rto ∧ 3 ≤ (x.st n).dev.sys.lib.timer + x.ticks r n ∧ NoPoll x r n ∧
    ((x.st n).pc = .wtTimer → ∀ j, r ≤ j → j ≤ n → x.InPoll j)
  one : Expired (x.st n) → ∃ q, q < n ∧ x.ev q = .irq (.main .tick) ∧ NoPoll x q n ∧ ((x.st n).pc = .trSt → ∀ j, q ≤ j → j ≤ n → x.InPoll j)
  exp : (x.st n).pc.expiring = true → (x.st n).pc ≠ .wtTimer → Expired (x.st n)
  sc : match (x.st n).pc with
    | .snLast _ k => (x.st n).dev.sys.cur = 0 ∧ 0 < k
    | .snTdr _ k => (x.st n).dev.sys.cur = 0 ∧ (x.st n).dev.sys.last + 1 = k
    | _ => True
  sn : (x.st n).pc.sent → ∃ a f, a < n ∧ .lib (.send f) ∈ x.out a ∧ (∀ j, a < j → j ≤ n → x.InPoll j) ∧
    (x.st n).dev.sys.cur = x.txCount (a + 1) n ∧ (x.st n).dev.sys.last + 1 = f.length
  fl : (x.st n).pc = .enter ∨ (x.st n).pc = .wtT15 → mflag cfg x n = false
  wt : (x.st n).pc = .wtTimer → if mflag cfg x n then (x.st n).dev.sys.lib.timer = 0 ∨ 3 ≤ (x.st n).dev.sys.lib.timer ∨
      ((x.st n).dev.sys.lib.timer = 2 ∧ ∃ q, q < n ∧ x.ev q = .irq (.main .tick) ∧ ∀ j, q ≤ j → j ≤ n → x.InPoll j)
    else (x.st n).dev.sys.lib.t15 ≠ .set ∧ (x.st n).dev.sys.rtof = false ∧ (x.st n).dev.sys.lib.timer ≤ 2

/-- An answer comes in time. -/
theorem CI.timer {n : Nat} (hx : x.Exec cfg) (hp : x.Punctual P D X) (h : CI cfg x n) (ha : Answered (x.st n)) : 2 ≤ (x.st n).dev.sys.lib.timer := by
  obtain ⟨r, h1, h2, h3, h4, -⟩ := h.tm ha
  have ht := h4.time hx hp
  have : x.ticks r n ≤ 1 := mticks_le_one fun i j a1 a2 a3 a4 a5 => by
    have := hp.apart i j a2 a4 a5
    have := hx.time_le a1
    have := hx.time_le (show j ≤ n by omega)
    omega
  omega

/-- No tick when the timeout is over. -/
theorem CI.noTick {n : Nat} (hx : x.Exec cfg) (hp : x.Punctual P D X) (h : CI cfg x n) (he : Expired (x.st n)) : x.ev n ≠ .irq (.main .tick) := by
  intro hn
  obtain ⟨q, h1, h2, h3, -⟩ := h.one he
  have := h3.time hx hp
  have := hp.apart q n h1 h2 hn
  omega

/-- While the driver's `send` runs, there are bytes left to transmit. -/
theorem CI.moreLeft {n : Nat} (hp : x.Punctual P D X) (h : CI cfg x n) (hs : (x.st n).pc.sent) (hev : x.ev n = .irq (.usart none true)) :
    (x.st n).dev.more = true := by
  obtain ⟨a, f, h1, h2, h3, h4, h5⟩ := h.sn hs
  have hlt := hp.slow a f n h2 h1 h3
  rw [mtxCount_succ (by omega), if_pos hev] at hlt
  have hrow := h.si.row
  have : (x.st n).dev.lastMsg = (x.st n).dev.sys.txMsg := by
    generalize (x.st n).pc = pc at hs hrow
    rcases hs with rfl | hs | rfl
    · exact hrow
    · cases pc <;> first | exact hrow | cases hs
    · exact hrow
  simp only [MasterDev.more, decide_eq_true_eq]
  exact .inr ⟨this.symm, by omega⟩

/-! ### What statements and interrupts keep -/

theorem mstmt_exp {d d' : MasterPcDev} {o : List HMOut} (h : masterStmt cfg d = .ok (d', o)) (hp : d.pc ≠ .out) (he : d'.pc.expiring = true)
    (hw : d'.pc ≠ .wtTimer) : d'.dev = d.dev ∧ (d.pc = .wtTimer ∧ d.dev.sys.lib.timer = 1 ∨ d.pc.expiring = true ∧ d.pc ≠ .wtTimer) := by
  obtain ⟨⟨⟨l, tm, cu, la, g, r⟩, lm⟩, pc, e⟩ := d
  cases pc <;> simp only [masterStmt] at h
  all_goals try (obtain ⟨x1, hb, h⟩ := bind_ok h)
  all_goals try (obtain ⟨x2, hb2, h⟩ := bind_ok h)
  all_goals repeat' split at h
  all_goals
    simp only [Except.ok.injEq, Prod.mk.injEq, reduceCtorEq] at h
    obtain ⟨rfl, -⟩ := h
    simp_all [MPc.expiring]

theorem mstmt_sc {d d' : MasterPcDev} {o : List HMOut} (h : masterStmt cfg d = .ok (d', o)) (hp : d.pc ≠ .out) :
    match d'.pc with
    | .snLast _ k => d'.dev.sys.cur = 0 ∧ 0 < k
    | .snTdr i k => d'.dev.sys.cur = d.dev.sys.cur ∧ d'.dev.sys.last = k - 1 ∧ d.pc = .snLast i k
    | _ => True := by
  obtain ⟨⟨⟨l, tm, cu, la, g, r⟩, lm⟩, pc, e⟩ := d
  cases pc <;> simp only [masterStmt] at h
  all_goals try (obtain ⟨x1, hb, h⟩ := bind_ok h)
  all_goals try (obtain ⟨x2, hb2, h⟩ := bind_ok h)
  all_goals repeat' split at h
  all_goals
    simp only [Except.ok.injEq, Prod.mk.injEq, reduceCtorEq] at h
    obtain ⟨rfl, -⟩ := h
    simp_all
  all_goals (repeat' split) <;> trivial

/-- The driver's `send` after its first byte. -/
theorem mstmt_sent {d d' : MasterPcDev} {o : List HMOut} (h : masterStmt cfg d = .ok (d', o)) (hp : d.pc ≠ .out) (hs : d'.pc.sent) :
    (d.pc.sent ∧ d'.dev.sys.cur = d.dev.sys.cur ∧ d'.dev.sys.last = d.dev.sys.last) ∨ (d.pc = .snCur ∧ o = [.lib (.send [])]) ∨
    (∃ i k f b, d.pc = .snTdr i k ∧ o = [.lib (.send f), .tdr b] ∧ f.length = k ∧ d'.dev = d.dev ∧ d'.pc = .snTxeie) := by
  obtain ⟨⟨⟨l, tm, cu, la, g, r⟩, lm⟩, pc, e⟩ := d
  cases pc <;> simp only [masterStmt] at h
  all_goals try (obtain ⟨x1, hb, h⟩ := bind_ok h)
  all_goals try (obtain ⟨x2, hb2, h⟩ := bind_ok h)
  all_goals repeat' split at h
  all_goals
    simp only [Except.ok.injEq, Prod.mk.injEq, reduceCtorEq] at h
    obtain ⟨rfl, rfl⟩ := h
    simp_all [MPc.sent, MPc.starting]

/-- An interrupt while RTOF is not set. -/
structure INorm (d d' : MasterPcDev) (h : HMOp) (o : List HMOut) : Prop where
  pc : d'.pc = d.pc
  st : d'.dev.sys.lib.st = d.dev.sys.lib.st
  timer : d'.dev.sys.lib.timer = if h = .main .tick then d.dev.sys.lib.timer - 1 else d.dev.sys.lib.timer
  t15 : d'.dev.sys.lib.t15 = d.dev.sys.lib.t15
  rtof : d'.dev.sys.rtof = false
  gap : d.dev.sys.gap = false → d'.dev.sys.gap = false
  txf : d'.dev.sys.lib.txf = d.dev.sys.lib.txf ∨ d'.dev.sys.lib.txf = .cleared ∧ (∃ r, h = .usart r true) ∧ o = []
  done : (∃ r, h = .usart r true) → o = [] → d'.dev.sys.lib.txf = .cleared

theorem irq_norm {d d' : MasterPcDev} {h : HMOp} {o : List HMOut} (hd : d.dev.sys.lib.drv = true) (hm : ∀ op, h = .main op → op = .tick)
    (hr : d.dev.sys.rtof = false) (hn : h ≠ .rto) (hs : masterPcStep cfg d (.irq h) = .ok (d', o)) : INorm d d' h o := by
  obtain ⟨v, h1, rfl⟩ := mpc_irq hs
  cases h with
  | main op =>
    cases hm op rfl
    obtain ⟨rfl, rfl⟩ := mint_tick h1
    exact ⟨rfl, rfl, rfl, rfl, hr, id, .inl rfl, fun h => (by obtain ⟨r, h⟩ := h; cases h)⟩
  | rto => exact absurd rfl hn
  | timer =>
    obtain ⟨rfl, rfl⟩ := mint_timer hd h1
    exact ⟨rfl, rfl, rfl, rfl, hr, fun _ => rfl, .inl rfl, fun h => (by obtain ⟨r, h⟩ := h; cases h)⟩
  | usart rx t =>
    obtain ⟨⟨M, -, rfl⟩, ho⟩ := mint_usart hd h1
    refine ⟨rfl, rfl, rfl, ?_, rfl, ?_, ?_, ?_⟩
    · dsimp only; rw [hr]; rfl
    · dsimp only; rw [hr]; exact id
    · dsimp only
      cases t with
      | false => exact .inl rfl
      | true =>
        cases hmo : d.dev.more with
        | true => exact .inl rfl
        | false =>
          rw [hmo] at ho
          exact .inr ⟨rfl, ⟨rx, rfl⟩, ho⟩
    · rintro ⟨r, h⟩ ho2
      cases h
      dsimp only
      cases hmo : d.dev.more with
      | false => rfl
      | true =>
        rw [hmo] at ho
        obtain ⟨b, hb⟩ := ho
        rw [hb] at ho2; cases ho2

end

end Modbus
