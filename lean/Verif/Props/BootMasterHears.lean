import Verif.Props.BootMaster

/-! C91, continued: once it has sent a request, the master device hears its line. -/

namespace Modbus

open Spec

variable {cfg : Config}

/-- The initialisation is over, the driver has a buffer to receive into, and its receive interrupt is enabled. -/
structure MBHears (d : MasterBoot) : Prop where
  todo : d.todo = []
  rxneie : d.hw.rxneie = true
  target : d.lib.rxTarget ≠ none

theorem mbhears_rx {d d' : MasterBoot} (h : mbootIrqRx d = .ok d') : d'.hw.rxneie = d.hw.rxneie := by
  unfold mbootIrqRx at h
  split at h
  · cases h; rfl
  · split at h
    · cases h
    · obtain ⟨l, -, h⟩ := bind_ok h
      dsimp only at h
      split at h
      · split at h
        · cases h; rfl
        · cases h
      · cases h; rfl

theorem mbhears_tx {d d' : MasterBoot} {o : List HMOut} (h : mbootIrqTx d = .ok (d', o)) :
    d'.hw.rxneie = d.hw.rxneie ∧ d'.lib.msgs = d.lib.msgs := by
  unfold mbootIrqTx at h
  split at h
  · split at h
    · obtain ⟨b, -, h⟩ := bind_ok h
      cases h; exact ⟨rfl, rfl⟩
    · split at h
      · cases h; exact ⟨rfl, rfl⟩
      · cases h
  · cases h; exact ⟨rfl, rfl⟩

theorem mbhears_rto (d : MasterBoot) : (mbootIrqRto d).hw.rxneie = d.hw.rxneie ∧ (mbootIrqRto d).lib.msgs = d.lib.msgs := by
  unfold mbootIrqRto
  split
  · refine ⟨rfl, ?_⟩
    show (if _ then _ else _ : Master).msgs = _
    split <;> rfl
  · exact ⟨rfl, rfl⟩

theorem mbhears_send {d d' : MasterBoot} {o : List HMOut} (h : mbootSend d = .ok (d', o)) : d'.hw.rxneie = true := by
  unfold mbootSend at h
  split at h
  · cases h
  · split at h
    · obtain ⟨b, -, h⟩ := bind_ok h
      cases h; rfl
    · cases h; rfl

theorem mbhears_sends {os : List MOut} : ∀ {d d' : MasterBoot} {o : List HMOut}, mbootSends d os = .ok (d', o) →
    (d.hw.rxneie = true ∨ ∃ f, MOut.send f ∈ os) → d'.hw.rxneie = true := by
  induction os with
  | nil =>
    intro d d' o h k
    cases h
    rcases k with k | ⟨f, k⟩
    · exact k
    · cases k
  | cons x os ih =>
    intro d d' o h k
    cases x with
    | send f =>
      simp only [mbootSends] at h
      obtain ⟨⟨d1, o1⟩, h1, h⟩ := bind_ok h
      obtain ⟨⟨d2, o2⟩, h2, h⟩ := bind_ok h
      cases h
      exact ih h2 (.inl (mbhears_send h1))
    | ret c =>
      simp only [mbootSends] at h
      obtain ⟨⟨d2, o2⟩, h2, h⟩ := bind_ok h
      cases h
      exact ih h2 (k.imp_right fun ⟨f, k⟩ => ⟨f, (List.mem_cons.1 k).resolve_left (fun e => nomatch e)⟩)
    | event c =>
      simp only [mbootSends] at h
      obtain ⟨⟨d2, o2⟩, h2, h⟩ := bind_ok h
      cases h
      exact ih h2 (k.imp_right fun ⟨f, k⟩ => ⟨f, (List.mem_cons.1 k).resolve_left (fun e => nomatch e)⟩)

theorem MBHears.step {d d' : MasterBoot} {op : MBOp} {o : List HMOut} (h : mbootStep cfg d op = .ok (d', o))
    (k : MBHears d ∨ ∃ f, HMOut.lib (.send f) ∈ o) : MBHears d' := by
  have key : ∀ (x : MOp), op = .main x → (∃ f, HMOut.lib (.send f) ∈ o) → MBHears d' := by
    rintro x rfl ⟨f, hf⟩
    have h : (if x.isCall = true ∧ (d.todo = [] ∨ x = .tick) then (do
      let (l, o) ← masterStep cfg d.lib x
      mbootSends { d with lib := l } o) else Except.ok (d, [])) = .ok (d', o) := h
    split at h
    · rename_i hc
      obtain ⟨⟨l, o1⟩, h1, h9⟩ := bind_ok h
      obtain ⟨a1, a2, -, a4, -⟩ := mbootSends_inv h9
      have hm : MOut.send f ∈ o1 := by
        have := mem_libOuts.1 hf
        rw [a4] at this
        exact this
      rcases masterStep_target hc.1 h1 with ⟨-, q⟩ | ⟨rfl, q, -⟩
      · exact absurd hm (q f)
      · refine ⟨a2.trans (hc.2.resolve_right (fun e => nomatch e)), mbhears_sends h9 (.inr ⟨f, hm⟩), ?_⟩
        rw [a1]; exact q
    · cases h; cases hf
  have quiet : ∀ e, MBHears d → d'.hw.rxneie = d.hw.rxneie → (d'.lib.rxTarget = d.lib.rxTarget ∨ e) → (e → MBHears d') → d'.todo = d.todo → MBHears d' := by
    intro e k h1 h2 h3 h4
    rcases h2 with h2 | h2
    · exact ⟨h4.trans k.todo, h1.trans k.rxneie, by rw [h2]; exact k.target⟩
    · exact h3 h2
  obtain ⟨t1, t2⟩ := mbootStep_frame h
  cases op with
  | main x =>
    by_cases hs : ∃ f, HMOut.lib (.send f) ∈ o
    · exact key x rfl hs
    · rcases k with k | k
      · have t3 : d'.todo = d.todo := by
          rcases t2 with ⟨e, -⟩ | ⟨-, e, -⟩
          · cases e
          · exact e
        refine ⟨t3.trans k.todo, ?_, ?_⟩
        · have h : (if x.isCall = true ∧ (d.todo = [] ∨ x = .tick) then (do
            let (l, o) ← masterStep cfg d.lib x
            mbootSends { d with lib := l } o) else Except.ok (d, [])) = .ok (d', o) := h
          split at h
          · obtain ⟨⟨l, o1⟩, -, h⟩ := bind_ok h
            exact mbhears_sends h (.inl k.rxneie)
          · cases h; exact k.rxneie
        · rw [t1.resolve_right hs]; exact k.target
      · exact absurd k hs
  | next =>
    have h : (match d.todo with | [] => Except.ok (d, []) | s :: t => do
      let l ← s.lib cfg d.lib
      return ({ s.drv d with lib := l, todo := t }, ([] : List HMOut))) = .ok (d', o) := h
    split at h
    · cases h
      rcases k with k | ⟨f, k⟩
      · exact k
      · cases k
    · rename_i hx
      obtain ⟨l, -, h⟩ := bind_ok h
      cases h
      rcases k with k | ⟨f, k⟩
      · rw [k.todo] at hx; cases hx
      · cases k
  | hw e =>
    cases h
    rcases k with k | ⟨f, k⟩
    · refine quiet False k ?_ (.inl rfl) False.elim rfl
      cases e <;> dsimp only [hwStep] <;> first | rfl | (split <;> rfl)
    · cases k
  | usart =>
    have h : (if d.hw.irqU = true then mbootIrqUsart d else Except.ok (d, [])) = .ok (d', o) := h
    split at h
    · obtain ⟨a1, a2, -, a4⟩ := mbootIrqUsart_inv h
      rcases k with k | ⟨f, k⟩
      · refine quiet False k ?_ (.inl a1) False.elim a2
        unfold mbootIrqUsart at h
        obtain ⟨d1, h1, h⟩ := bind_ok h
        obtain ⟨⟨d2, o2⟩, h2, h⟩ := bind_ok h
        obtain ⟨rfl, rfl⟩ := Prod.mk.inj (Except.ok.inj h)
        exact (mbhears_rto d2).1.trans ((mbhears_tx h2).1.trans (mbhears_rx h1))
      · have := mem_libOuts.1 k
        rw [a4] at this
        cases this
    · cases h
      rcases k with k | ⟨f, k⟩
      · exact k
      · cases k
  | timer =>
    have h : (if (d.hw.nvicT && d.hw.uif) = true then (do let d ← mbootIrqTimer d; return (d, ([] : List HMOut))) else Except.ok (d, [])) = .ok (d', o) := h
    split at h
    · obtain ⟨d1, h1, h⟩ := bind_ok h
      cases h
      obtain ⟨a1, a2, -⟩ := mbootIrqTimer_inv h1
      rcases k with k | ⟨f, k⟩
      · refine quiet False k ?_ (.inl a1) False.elim a2
        unfold mbootIrqTimer at h1
        split at h1
        · cases h1; rfl
        · cases h1
      · cases k
    · cases h
      rcases k with k | ⟨f, k⟩
      · exact k
      · cases k

theorem MBHears.run {ops : List MBOp} : ∀ {d d' : MasterBoot} {o : List HMOut}, mbootRun cfg d ops = .ok (d', o) →
    (MBHears d ∨ ∃ f, HMOut.lib (.send f) ∈ o) → MBHears d' := by
  induction ops with
  | nil =>
    intro d d' o h k
    cases h
    rcases k with k | ⟨f, k⟩
    · exact k
    · cases k
  | cons op ops ih =>
    intro d d' o h k
    simp only [mbootRun] at h
    obtain ⟨⟨d1, o1⟩, h1, h⟩ := bind_ok h
    obtain ⟨⟨d2, o2⟩, h2, h⟩ := bind_ok h
    cases h
    refine ih h2 ?_
    rcases k with k | ⟨f, k⟩
    · exact .inl (MBHears.step h1 (.inl k))
    · rcases List.mem_append.1 k with k | k
      · exact .inl (MBHears.step h1 (.inr ⟨f, k⟩))
      · exact .inr ⟨f, k⟩

theorem mbootRun_two {cfg : Config} {d d' : MasterBoot} {a b : MBOp} {o : List HMOut} (h : mbootRun cfg d [a, b] = .ok (d', o)) :
    ∃ d1 o1 o2, mbootStep cfg d a = .ok (d1, o1) ∧ mbootStep cfg d1 b = .ok (d', o2) := by
  simp only [mbootRun] at h
  obtain ⟨⟨d1, o1⟩, h1, h⟩ := bind_ok h
  refine ⟨d1, o1, ?_⟩
  cases e : mbootStep cfg d1 b with
  | error x => rw [e] at h; cases h
  | ok r =>
    rw [e] at h
    refine ⟨r.2, h1, ?_⟩
    obtain ⟨rfl, -⟩ := Prod.mk.inj (Except.ok.inj h)
    rfl

/-- **C91**, the device hears its line: once it has handed a frame to the driver, a byte that is received is in the response buffer of the message the driver
was told to receive into as soon as the UART's handler has run (that nothing undefined happens is `C91_quiet_before_first_request_partial`). -/
theorem C91_hears_partial (cfg : Config) (ops : List MBOp) (d : MasterBoot) (o : List HMOut) (h : mbootRun cfg .powerOn ops = .ok (d, o)) (f : List U8)
    (hs : HMOut.lib (.send f) ∈ o) (b : U8) (d' : MasterBoot) (o' : List HMOut) (h' : mbootRun cfg d [.hw (.char b), .usart] = .ok (d', o')) :
    ∃ i, d.lib.rxTarget = some i ∧ (d'.lib.msgs i).resp = (d.lib.msgs i).resp.set (d.lib.msgs i).respLen.toNat b ∧
      (d'.lib.msgs i).respLen = (d.lib.msgs i).respLen + 1 := by
  have k := MBHears.run h (.inr ⟨f, hs⟩)
  obtain ⟨a, -⟩ := mbootRun_after (n := 0) .powerOn h
  have hn : 21 ≤ 0 + ops.count .next := by
    have e := a.todo
    rw [k.todo] at e
    have := congrArg List.length e
    rw [List.length_drop] at this
    have hlen : masterInitStmts.length = 21 := rfl
    rw [List.length_nil, hlen] at this
    omega
  have hu := a.ue (by omega)
  have hv := a.nvic (by omega)
  have hx := k.rxneie
  obtain ⟨i, hi⟩ := Option.ne_none_iff_exists'.1 k.target
  refine ⟨i, hi, ?_⟩
  obtain ⟨d0, o0, o2, h0, h1⟩ := mbootRun_two h'
  rw [mbootStep, hwStep, if_pos hu] at h0
  obtain ⟨rfl, -⟩ := Prod.mk.inj (Except.ok.inj h0)
  rw [mbootStep, if_pos (by simp [UartHw.irqU, hv, hx])] at h1
  unfold mbootIrqUsart at h1
  obtain ⟨dx, x1, h1⟩ := bind_ok h1
  obtain ⟨⟨dy, oy⟩, x2, h1⟩ := bind_ok h1
  obtain ⟨rfl, -⟩ := Prod.mk.inj (Except.ok.inj h1)
  rw [(mbhears_rto dy).2, (mbhears_tx x2).2]
  unfold mbootIrqRx at x1
  dsimp only at x1
  rw [hi] at x1
  dsimp only at x1
  obtain ⟨l, x3, x1⟩ := bind_ok x1
  have hm : dx.lib.msgs = l.msgs := by
    split at x1
    · split at x1
      · cases x1; rfl
      · cases x1
    · cases x1; rfl
  rw [hm]
  unfold masterRx at x3
  rw [hi] at x3
  dsimp only at x3
  split at x3
  · rw [wr_ok _ _ (d.lib.msgs i).respLen.isLt, ok_bind] at x3
    cases x3
    exact ⟨by simp [setMsg], by simp [setMsg]⟩
  · cases x3

/-! ### Non-vacuity: a master that has sent a request receives a byte -/

def mbootHeard (r : C (MasterBoot × List HMOut)) : Option (Bool × List U8) :=
  match r with
  | .ok (d, o) => some ((libOuts o).any (fun x => match x with | .send _ => true | _ => false), match d.lib.rxTarget with
    | some i => (d.lib.msgs i).resp.bytes 0 (d.lib.msgs i).respLen.toNat
    | none => [])
  | .error _ => none

example : mbootHeard (mbootRun smallCfg .powerOn (List.replicate 21 .next ++ [.main (.request (.readHoldingReg 0 1 7)), .main .poll, .main .poll, .hw (.char 7), .usart])) =
    some (true, [7]) := by decide +kernel

end Modbus
