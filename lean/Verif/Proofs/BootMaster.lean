import Verif.Spec.BootMaster
import Verif.Proofs.MasterStmt
import Verif.Proofs.Callbacks

/-! The master device from power-on. -/

namespace Modbus

open Spec

variable {cfg : Config}

/-! ### What holds after every history -/

theorem mem_libOuts {f : MOut} {o : List HMOut} : HMOut.lib f ∈ o ↔ f ∈ libOuts o := by
  induction o with
  | nil => simp [libOuts]
  | cons x o ih => unfold libOuts at *; cases x <;> simp [ih]

/-- A request, a poll or a tick leaves the buffer to receive into alone, or hands a frame to the driver. -/
theorem masterStep_target {s s' : Master} {op : MOp} {o : List MOut} (hc : op.isCall = true) (h : masterStep cfg s op = .ok (s', o)) :
    (s'.rxTarget = s.rxTarget ∧ ∀ f, MOut.send f ∉ o) ∨
      (op = .poll ∧ s'.rxTarget ≠ none ∧ ∃ i, s'.msgBuf = some i ∧ o = [.send ((s'.msgs i).req.bytes 0 (s'.msgs i).reqLen.toNat)]) := by
  cases op with
  | request r =>
    simp only [masterStep] at h
    obtain ⟨⟨c, l⟩, h1, h2⟩ := bind_ok h
    cases h2
    refine .inl ⟨?_, fun f => by simp⟩
    unfold generateRequest at h1
    obtain ⟨⟨x, fq⟩, -, h1⟩ := bind_ok h1
    cases x with
    | none => cases h1; rfl
    | some i =>
      obtain ⟨⟨r', m⟩, -, h1⟩ := bind_ok h1
      dsimp only at h1
      split at h1
      · cases h1; rfl
      · obtain ⟨⟨a, b, c'⟩, -, h1⟩ := bind_ok h1
        dsimp only at h1
        split at h1
        · cases h1; rfl
        · obtain ⟨⟨tq, y⟩, -, h1⟩ := bind_ok h1
          cases h1; rfl
  | tick =>
    have := Except.ok.inj h
    simp only [Prod.mk.injEq] at this
    rw [← this.1, ← this.2]
    refine .inl ⟨?_, fun f => by simp⟩
    split <;> rfl
  | poll =>
    have key : ∀ {s s' : Master} {o}, masterSend s = .ok (s', o) → s'.rxTarget ≠ none ∧ ∃ i, s'.msgBuf = some i ∧
        o = [.send ((s'.msgs i).req.bytes 0 (s'.msgs i).reqLen.toNat)] := by
      intro s s' o h
      obtain ⟨i, e1, e2, e3⟩ := masterSend_inv h
      subst e2 e3
      exact ⟨(fun h => nomatch h), i, e1, rfl⟩
    have endr : ∀ {s s' : Master}, masterProcessEnd cfg s = .ok s' → s'.rxTarget = s.rxTarget := by
      intro s s' h
      unfold masterProcessEnd at h
      obtain ⟨⟨a, b⟩, -, h⟩ := bind_ok h
      cases h; rfl
    have clr : ∀ {s s' : Master}, clearRespLen s = .ok s' → s'.rxTarget = s.rxTarget := by
      intro s s' h
      unfold clearRespLen at h
      split at h
      · cases h
      · cases h; rfl
    have hp : masterPoll cfg s = .ok (s', o) := h
    unfold masterPoll at hp
    cases hs : s.st with
    | idle =>
      simp only [hs] at hp
      unfold masterIdle at hp
      split at hp
      · obtain ⟨⟨x, tq⟩, -, hp⟩ := bind_ok hp
        exact .inr ⟨rfl, key hp⟩
      · cases hp; exact .inl ⟨rfl, fun f => by simp⟩
    | repeatRequest =>
      simp only [hs] at hp
      exact .inr ⟨rfl, key hp⟩
    | transmitting =>
      simp only [hs] at hp
      unfold masterTransmitting at hp
      split at hp
      · obtain ⟨a, e1, hp⟩ := bind_ok hp
        cases hp; exact .inl ⟨(clr e1 :), fun f => by simp⟩
      · cases hp; exact .inl ⟨rfl, fun f => by simp⟩
    | waiting =>
      simp only [hs] at hp
      unfold masterWaiting at hp
      split at hp
      · unfold masterRecv at hp
        obtain ⟨a1, -, hp⟩ := bind_ok hp
        obtain ⟨a2, -, hp⟩ := bind_ok hp
        obtain ⟨a3, -, hp⟩ := bind_ok hp
        split at hp
        · cases hp; exact .inl ⟨rfl, fun f => by simp⟩
        · split at hp
          · obtain ⟨a4, e4, hp⟩ := bind_ok hp
            cases hp; exact .inl ⟨(clr e4 :), fun f => by simp⟩
          · cases hp; exact .inl ⟨rfl, fun f => by simp⟩
      · split at hp
        · obtain ⟨a1, -, hp⟩ := bind_ok hp
          obtain ⟨a2, e2, hp⟩ := bind_ok hp
          cases hp; exact .inl ⟨(endr e2 :), fun f => by simp⟩
        · cases hp; exact .inl ⟨rfl, fun f => by simp⟩
    | received =>
      simp only [hs] at hp
      unfold masterReceived at hp
      split at hp
      · unfold masterFrameError at hp
        simp only at hp
        split at hp
        · obtain ⟨a1, e1, hp⟩ := bind_ok hp
          cases hp; exact .inl ⟨(clr e1 :), fun f => by simp⟩
        · obtain ⟨a1, -, hp⟩ := bind_ok hp
          obtain ⟨a2, e2, hp⟩ := bind_ok hp
          cases hp; exact .inl ⟨(endr e2 :), fun f => by simp⟩
      · split at hp
        · unfold masterCrcError at hp
          simp only at hp
          split at hp
          · obtain ⟨a1, e1, hp⟩ := bind_ok hp
            cases hp; exact .inl ⟨(clr e1 :), fun f => by simp⟩
          · obtain ⟨a1, -, hp⟩ := bind_ok hp
            obtain ⟨a2, e2, hp⟩ := bind_ok hp
            cases hp; exact .inl ⟨(endr e2 :), fun f => by simp⟩
        · split at hp
          · unfold masterCorrect at hp
            obtain ⟨a1, -, hp⟩ := bind_ok hp
            obtain ⟨a2, e2, hp⟩ := bind_ok hp
            cases hp; exact .inl ⟨(endr e2 :), fun f => by simp⟩
          · cases hp; exact .inl ⟨rfl, fun f => by simp⟩
  | init _ => cases hc
  | t15 => cases hc
  | t35 => cases hc
  | frameErr => cases hc
  | txDone => cases hc
  | rxByte _ => cases hc

theorem masterRx_target {s s' : Master} {b : U8} (h : masterRx s b = .ok s') : s'.rxTarget = s.rxTarget := by
  unfold masterRx at h
  split at h
  · cases h; rfl
  · split at h
    · obtain ⟨r, -, h⟩ := bind_ok h
      cases h; rfl
    · cases h

theorem mstmt_target {l l' : Master} {x : MInitStmt} (h : x.lib cfg l = .ok l') : l'.rxTarget = l.rxTarget := by
  cases x <;> simp only [MInitStmt.lib] at h
  case buffers => split at h <;> cases h <;> rfl
  case pushAll =>
    split at h
    · cases h
    · obtain ⟨q, -, h⟩ := bind_ok h
      cases h; rfl
  all_goals cases h; rfl

/-- The parts of the device that the initialisation sets and nothing clears. -/
def MasterBoot.consts (d : MasterBoot) : Bool × Bool × Bool × Bool × Bool × Bool × Bool :=
  (d.cbTx, d.cbT15, d.cbT35, d.cbErr, d.hw.ue, d.hw.nvicU, d.hw.nvicT)

theorem mbootSend_inv {d d' : MasterBoot} {o : List HMOut} (h : mbootSend d = .ok (d', o)) :
    d'.lib = d.lib ∧ d'.todo = d.todo ∧ d'.consts = d.consts ∧ libOuts o = [] ∧ d'.hw.rdr = d.hw.rdr ∧ d'.hw.heard = d.hw.heard ∧
      d'.hw.uif = d.hw.uif ∧ (d.last < 256 → d'.last < 256) := by
  unfold mbootSend at h
  split at h
  · cases h
  · rename_i i hi
    split at h
    · obtain ⟨b, -, h⟩ := bind_ok h
      cases h
      refine ⟨rfl, rfl, rfl, rfl, rfl, rfl, rfl, fun _ => ?_⟩
      have := (d.lib.msgs i).reqLen.isLt
      show (d.lib.msgs i).reqLen.toNat - 1 < 256
      omega
    · cases h; exact ⟨rfl, rfl, rfl, rfl, rfl, rfl, rfl, fun h => h⟩

theorem mbootSends_inv {os : List MOut} : ∀ {d d' : MasterBoot} {o : List HMOut}, mbootSends d os = .ok (d', o) →
    d'.lib = d.lib ∧ d'.todo = d.todo ∧ d'.consts = d.consts ∧ libOuts o = os ∧ d'.hw.rdr = d.hw.rdr ∧ d'.hw.heard = d.hw.heard ∧
      d'.hw.uif = d.hw.uif ∧ (d.last < 256 → d'.last < 256) := by
  induction os with
  | nil => intro d d' o h; cases h; exact ⟨rfl, rfl, rfl, rfl, rfl, rfl, rfl, fun h => h⟩
  | cons x os ih =>
    intro d d' o h
    cases x with
    | send f =>
      simp only [mbootSends] at h
      obtain ⟨⟨d1, o1⟩, h1, h⟩ := bind_ok h
      obtain ⟨⟨d2, o2⟩, h2, h⟩ := bind_ok h
      cases h
      obtain ⟨a1, a2, a3, a4, a5, a6, a7, a8⟩ := mbootSend_inv h1
      obtain ⟨b1, b2, b3, b4, b5, b6, b7, b8⟩ := ih h2
      refine ⟨b1.trans a1, b2.trans a2, b3.trans a3, ?_, b5.trans a5, b6.trans a6, b7.trans a7, fun h => b8 (a8 h)⟩
      show libOuts (.lib (.send f) :: (o1 ++ o2)) = _
      have e : libOuts (o1 ++ o2) = os := by rw [libOuts_append, a4, b4]; rfl
      rw [← e]; rfl
    | ret c =>
      simp only [mbootSends] at h
      obtain ⟨⟨d2, o2⟩, h2, h⟩ := bind_ok h
      cases h
      obtain ⟨b1, b2, b3, b4, b5⟩ := ih h2
      exact ⟨b1, b2, b3, by rw [← b4]; rfl, b5⟩
    | event c =>
      simp only [mbootSends] at h
      obtain ⟨⟨d2, o2⟩, h2, h⟩ := bind_ok h
      cases h
      obtain ⟨b1, b2, b3, b4, b5⟩ := ih h2
      exact ⟨b1, b2, b3, by rw [← b4]; rfl, b5⟩

/-- The UART's and the timer's handler change neither these parts nor the buffer to receive into, and hand no frame to the driver. -/
theorem mbootIrqUsart_inv {d d' : MasterBoot} {o : List HMOut} (h : mbootIrqUsart d = .ok (d', o)) :
    d'.lib.rxTarget = d.lib.rxTarget ∧ d'.todo = d.todo ∧ d'.consts = d.consts ∧ libOuts o = [] := by
  unfold mbootIrqUsart at h
  obtain ⟨d1, h1, h⟩ := bind_ok h
  obtain ⟨⟨d2, o2⟩, h2, h⟩ := bind_ok h
  obtain ⟨rfl, rfl⟩ := Prod.mk.inj (Except.ok.inj h)
  have a : d1.lib.rxTarget = d.lib.rxTarget ∧ d1.todo = d.todo ∧ d1.consts = d.consts := by
    unfold mbootIrqRx at h1
    split at h1
    · cases h1; exact ⟨rfl, rfl, rfl⟩
    · split at h1
      · cases h1
      · obtain ⟨l, e, h1⟩ := bind_ok h1
        have := masterRx_target e
        dsimp only at h1
        split at h1
        · split at h1
          · cases h1; exact ⟨this, rfl, rfl⟩
          · cases h1
        · cases h1; exact ⟨this, rfl, rfl⟩
  have b : d2.lib.rxTarget = d1.lib.rxTarget ∧ d2.todo = d1.todo ∧ d2.consts = d1.consts ∧ libOuts o2 = [] := by
    unfold mbootIrqTx at h2
    split at h2
    · split at h2
      · obtain ⟨b, -, h2⟩ := bind_ok h2
        cases h2; exact ⟨rfl, rfl, rfl, rfl⟩
      · split at h2
        · cases h2; exact ⟨rfl, rfl, rfl, rfl⟩
        · cases h2
    · cases h2; exact ⟨rfl, rfl, rfl, rfl⟩
  have c : (mbootIrqRto d2).lib.rxTarget = d2.lib.rxTarget ∧ (mbootIrqRto d2).todo = d2.todo ∧ (mbootIrqRto d2).consts = d2.consts := by
    unfold mbootIrqRto
    split
    · refine ⟨?_, rfl, rfl⟩
      show (if _ then _ else _ : Master).rxTarget = _
      split <;> rfl
    · exact ⟨rfl, rfl, rfl⟩
  exact ⟨c.1.trans (b.1.trans a.1), c.2.1.trans (b.2.1.trans a.2.1), c.2.2.trans (b.2.2.1.trans a.2.2), b.2.2.2⟩

theorem mbootIrqTimer_inv {d d' : MasterBoot} (h : mbootIrqTimer d = .ok d') :
    d'.lib.rxTarget = d.lib.rxTarget ∧ d'.todo = d.todo ∧ d'.consts = d.consts := by
  unfold mbootIrqTimer at h
  split at h
  · cases h; exact ⟨rfl, rfl, rfl⟩
  · cases h

/-- How an event changes what is left to do, the permanent parts and the buffer to receive into. -/
theorem mbootStep_frame {d d' : MasterBoot} {op : MBOp} {o : List HMOut} (h : mbootStep cfg d op = .ok (d', o)) :
    (d'.lib.rxTarget = d.lib.rxTarget ∨ ∃ f, HMOut.lib (.send f) ∈ o) ∧
      (op = .next ∧ d'.todo = d.todo.tail ∧ (d.todo = [] → d'.consts = d.consts) ∧ (∀ x t, d.todo = x :: t → d'.consts = (x.drv d).consts) ∨
        op ≠ .next ∧ d'.todo = d.todo ∧ d'.consts = d.consts) := by
  cases op with
  | next =>
    have h : (match d.todo with | [] => Except.ok (d, []) | s :: t => do
      let l ← s.lib cfg d.lib
      return ({ s.drv d with lib := l, todo := t }, ([] : List HMOut))) = .ok (d', o) := h
    cases ht : d.todo with
    | nil =>
      rw [ht] at h
      cases h
      exact ⟨.inl rfl, .inl ⟨rfl, ht, fun _ => rfl, (fun _ _ h => nomatch h)⟩⟩
    | cons x t =>
      rw [ht] at h
      obtain ⟨l, h1, h⟩ := bind_ok h
      cases h
      refine ⟨.inl (mstmt_target h1), .inl ⟨rfl, rfl, (fun h => nomatch h), ?_⟩⟩
      intro y u e
      cases e
      rfl
  | main op =>
    have h : (if op.isCall = true ∧ (d.todo = [] ∨ op = .tick) then (do
      let (l, o) ← masterStep cfg d.lib op
      mbootSends { d with lib := l } o) else Except.ok (d, [])) = .ok (d', o) := h
    split at h
    · rename_i hc
      obtain ⟨⟨l, o1⟩, h1, h⟩ := bind_ok h
      obtain ⟨a1, a2, a3, a4, -⟩ := mbootSends_inv h
      refine ⟨?_, .inr ⟨(fun h => nomatch h), a2, a3⟩⟩
      rcases masterStep_target hc.1 h1 with ⟨k, -⟩ | ⟨-, -, i, -, k⟩
      · left; rw [a1]; exact k
      · right
        refine ⟨(l.msgs i).req.bytes 0 (l.msgs i).reqLen.toNat, mem_libOuts.2 ?_⟩
        rw [a4, k]
        exact List.mem_singleton_self _
    · cases h
      exact ⟨.inl rfl, .inr ⟨(fun h => nomatch h), rfl, rfl⟩⟩
  | hw e =>
    cases h
    refine ⟨.inl rfl, .inr ⟨(fun h => nomatch h), rfl, ?_⟩⟩
    cases e with
    | char b => show MasterBoot.consts { d with hw := if _ then _ else _ } = _; split <;> rfl
    | quiet => show MasterBoot.consts { d with hw := if _ then _ else _ } = _; split <;> rfl
    | shift => rfl
    | expire => show MasterBoot.consts { d with hw := if _ then _ else _ } = _; split <;> rfl
  | usart =>
    have h : (if d.hw.irqU = true then mbootIrqUsart d else Except.ok (d, [])) = .ok (d', o) := h
    split at h
    · obtain ⟨a1, a2, a3, -⟩ := mbootIrqUsart_inv h
      exact ⟨.inl a1, .inr ⟨(fun h => nomatch h), a2, a3⟩⟩
    · cases h; exact ⟨.inl rfl, .inr ⟨(fun h => nomatch h), rfl, rfl⟩⟩
  | timer =>
    have h : (if (d.hw.nvicT && d.hw.uif) = true then (do let d ← mbootIrqTimer d; return (d, ([] : List HMOut))) else Except.ok (d, [])) = .ok (d', o) := h
    split at h
    · obtain ⟨d1, h1, h⟩ := bind_ok h
      cases h
      obtain ⟨a1, a2, a3⟩ := mbootIrqTimer_inv h1
      exact ⟨.inl a1, .inr ⟨(fun h => nomatch h), a2, a3⟩⟩
    · cases h; exact ⟨.inl rfl, .inr ⟨(fun h => nomatch h), rfl, rfl⟩⟩

/-- After `n` statements of the initialisation. -/
structure MBAfter (d : MasterBoot) (n : Nat) : Prop where
  todo : d.todo = masterInitStmts.drop n
  ue : 6 ≤ n → d.hw.ue = true
  nvic : 7 ≤ n → d.hw.nvicU = true
  nvicT : 8 ≤ n → d.hw.nvicT = true
  tx : 10 ≤ n → d.cbTx = true
  t15 : 11 ≤ n → d.cbT15 = true
  t35 : 12 ≤ n → d.cbT35 = true
  err : 13 ≤ n → d.cbErr = true

theorem MBAfter.keep {d d' : MasterBoot} {n : Nat} (a : MBAfter d n) (h1 : d'.todo = d.todo) (h2 : d'.consts = d.consts) : MBAfter d' n := by
  simp only [MasterBoot.consts, Prod.mk.injEq] at h2
  obtain ⟨e1, e2, e3, e4, e5, e6, e7⟩ := h2
  exact ⟨h1.trans a.todo, by rw [e5]; exact a.ue, by rw [e6]; exact a.nvic, by rw [e7]; exact a.nvicT, by rw [e1]; exact a.tx, by rw [e2]; exact a.t15,
    by rw [e3]; exact a.t35, by rw [e4]; exact a.err⟩

theorem MBAfter.powerOn : MBAfter MasterBoot.powerOn 0 := by
  constructor
  · rfl
  all_goals omega

theorem MBAfter.step {d d' : MasterBoot} {n : Nat} {op : MBOp} {o : List HMOut} (a : MBAfter d n) (h : mbootStep cfg d op = .ok (d', o)) :
    MBAfter d' (n + if op = .next then 1 else 0) := by
  obtain ⟨-, ⟨rfl, h1, h2, h3⟩ | ⟨h0, h1, h2⟩⟩ := mbootStep_frame h
  · rw [if_pos rfl]
    rcases Nat.lt_or_ge n 21 with hn | hn
    · have ht := a.todo
      have hcase : n = 0 ∨ n = 1 ∨ n = 2 ∨ n = 3 ∨ n = 4 ∨ n = 5 ∨ n = 6 ∨ n = 7 ∨ n = 8 ∨ n = 9 ∨ n = 10 ∨ n = 11 ∨ n = 12 ∨ n = 13 ∨ n = 14 ∨
        n = 15 ∨ n = 16 ∨ n = 17 ∨ n = 18 ∨ n = 19 ∨ n = 20 := by omega
      have fin : ∀ x t, d.todo = x :: t → d'.todo = masterInitStmts.drop (n + 1) → (6 ≤ n + 1 → (x.drv d).hw.ue = true) →
          (7 ≤ n + 1 → (x.drv d).hw.nvicU = true) → (8 ≤ n + 1 → (x.drv d).hw.nvicT = true) → (10 ≤ n + 1 → (x.drv d).cbTx = true) →
          (11 ≤ n + 1 → (x.drv d).cbT15 = true) → (12 ≤ n + 1 → (x.drv d).cbT35 = true) → (13 ≤ n + 1 → (x.drv d).cbErr = true) → MBAfter d' (n + 1) := by
        intro x t hx h4 g1 g2 g3 g4 g5 g6 g7
        have := h3 x t hx
        simp only [MasterBoot.consts, Prod.mk.injEq] at this
        obtain ⟨e1, e2, e3, e4, e5, e6, e7⟩ := this
        exact ⟨h4, by rw [e5]; exact g1, by rw [e6]; exact g2, by rw [e7]; exact g3, by rw [e1]; exact g4, by rw [e2]; exact g5, by rw [e3]; exact g6,
          by rw [e4]; exact g7⟩
      have q1 := a.ue
      have q2 := a.nvic
      have q3 := a.nvicT
      have q4 := a.tx
      have q5 := a.t15
      have q6 := a.t35
      have q7 := a.err
      rcases hcase with rfl | rfl | rfl | rfl | rfl | rfl | rfl | rfl | rfl | rfl | rfl | rfl | rfl | rfl | rfl | rfl | rfl | rfl | rfl | rfl | rfl
      all_goals
        refine fin _ _ ht (by rw [h1, ht]; rfl) ?_ ?_ ?_ ?_ ?_ ?_ ?_
        all_goals first
          | (intro _; rfl)
          | (intro hh; exact absurd hh (by decide))
          | exact fun _ => q1 (by decide)
          | exact fun _ => q2 (by decide)
          | exact fun _ => q3 (by decide)
          | exact fun _ => q4 (by decide)
          | exact fun _ => q5 (by decide)
          | exact fun _ => q6 (by decide)
          | exact fun _ => q7 (by decide)
    · have ht : d.todo = [] := by
        rw [a.todo]
        exact List.drop_eq_nil_of_le hn
      have b := a.keep (d' := d') (by rw [h1, ht]; rfl) (h2 ht)
      refine ⟨?_, fun _ => b.ue (by omega), fun _ => b.nvic (by omega), fun _ => b.nvicT (by omega), fun _ => b.tx (by omega), fun _ => b.t15 (by omega),
        fun _ => b.t35 (by omega), fun _ => b.err (by omega)⟩
      rw [h1, ht]
      exact (List.drop_eq_nil_of_le (show 21 ≤ n + 1 by omega)).symm
  · rw [if_neg h0]
    exact a.keep h1 h2

theorem mbootRun_after {ops : List MBOp} : ∀ {d d' : MasterBoot} {n : Nat} {o : List HMOut}, MBAfter d n → mbootRun cfg d ops = .ok (d', o) →
    MBAfter d' (n + ops.count .next) ∧ (d'.lib.rxTarget = d.lib.rxTarget ∨ ∃ f, HMOut.lib (.send f) ∈ o) := by
  induction ops with
  | nil => intro d d' n o a h; cases h; exact ⟨a, .inl rfl⟩
  | cons op ops ih =>
    intro d d' n o a h
    simp only [mbootRun] at h
    obtain ⟨⟨d1, o1⟩, h1, h⟩ := bind_ok h
    obtain ⟨⟨d2, o2⟩, h2, h⟩ := bind_ok h
    cases h
    obtain ⟨b, t⟩ := ih (a.step h1) h2
    refine ⟨?_, ?_⟩
    · have : n + (op :: ops).count .next = n + (if op = .next then 1 else 0) + ops.count .next := by
        rw [List.count_cons]
        by_cases ho : op = .next
        · rw [if_pos ho, if_pos (by simp [ho])]; omega
        · rw [if_neg ho, if_neg (by simp [ho])]; omega
      rw [this]; exact b
    · rcases t with t | ⟨f, t⟩
      · rcases (mbootStep_frame h1).1 with u | ⟨f, u⟩
        · exact .inl (t.trans u)
        · exact .inr ⟨f, List.mem_append_left _ u⟩
      · exact .inr ⟨f, List.mem_append_right _ t⟩

end Modbus
