import Verif.Proofs.DeviceMasterTimed

/-! The library of a punctual master device is punctual in the sense of `Spec/Timed.lean`. -/

namespace Modbus

open Spec

section
variable {cfg : Config} {x : MDeviceTimed} {t15 t35 lat P D X : Nat}

theorem lib_mem {n : Nat} {p : MOp} {o : List MOut} : (p, o) ∈ x.lib n ↔ p ∈ evOps (x.st n) (x.op n) ∧ o = if p.isMain then libOuts (x.out n) else [] := by
  simp only [MDeviceTimed.lib, evTrace, List.mem_map, Prod.mk.injEq]
  constructor
  · rintro ⟨q, h1, rfl, rfl⟩; exact ⟨h1, rfl⟩
  · rintro ⟨h1, rfl⟩; exact ⟨p, h1, rfl, rfl⟩

theorem lib_length (n : Nat) : (x.lib n).length = (evOps (x.st n) (x.op n)).length := by
  simp [MDeviceTimed.lib, evTrace]

/-- Operations of the interrupt handlers. -/
theorem evOps_usart {s : MasterSys} {rx : Option U8} {t : Bool} {p : MOp} (h : p ∈ evOps s (.usart rx t)) :
    p.isMain = false ∧ (p = .t15 → s.rtof = true) ∧ (p = .txDone → t = true ∧ ¬ s.cur < s.last) ∧ p ≠ .t35 := by
  simp only [evOps, List.mem_append] at h
  rcases h with (h | h) | h
  · cases rx with
    | none => cases h
    | some b =>
      simp only [rxOps] at h
      rcases List.mem_cons.1 h with rfl | h
      · exact ⟨rfl, nofun, nofun, nofun⟩
      · split at h
        · obtain rfl := List.mem_singleton.1 h; exact ⟨rfl, nofun, nofun, nofun⟩
        · cases h
  · split at h
    · rename_i k
      obtain rfl := List.mem_singleton.1 h; exact ⟨rfl, nofun, fun _ => k, nofun⟩
    · cases h
  · split at h
    · rename_i k
      obtain rfl := List.mem_singleton.1 h; exact ⟨rfl, fun _ => k, nofun, nofun⟩
    · cases h

/-- In the UART handler the receiver timeout is dealt with last. -/
theorem evOps_t15_last {s : MasterSys} {rx : Option U8} {t : Bool} {i j : Nat} (hi : i < (evOps s (.usart rx t)).length)
    (hj : j < (evOps s (.usart rx t)).length) (h : (evOps s (.usart rx t))[i] = .t15) (hij : j < i) : (evOps s (.usart rx t))[j] ≠ .t15 := by
  intro hc
  have key : ∀ (l : List MOp) (b : Bool) (hi : i < (l ++ if b then [MOp.t15] else []).length), (∀ p ∈ l, p ≠ .t15) →
      (l ++ if b then [MOp.t15] else [])[j]'(by omega) ≠ .t15 := by
    intro l b hi hl
    have : j < l.length := by
      cases b <;> simp at hi <;> omega
    rw [List.getElem_append_left this]
    exact hl _ (List.getElem_mem this)
  refine key (rxOps s rx ++ (if t = true ∧ ¬ s.cur < s.last then [.txDone] else [])) s.rtof hi ?_ hc
  intro p hp
  rcases List.mem_append.1 hp with hp | hp
  · cases rx with
    | none => cases hp
    | some b =>
      simp only [rxOps] at hp
      rcases List.mem_cons.1 hp with rfl | hp
      · nofun
      · split at hp
        · obtain rfl := List.mem_singleton.1 hp; nofun
        · cases hp
  · split at hp
    · obtain rfl := List.mem_singleton.1 hp; nofun
    · cases hp

theorem not_main_out {n : Nat} (hx : x.Exec cfg) (h : ∀ op, x.op n ≠ .main op) : ∀ o, .lib o ∉ x.out n := by
  intro o ho
  have hs := hx.step n
  cases hop : x.op n with
  | main op => exact h op hop
  | rto =>
    rw [hop] at hs
    simp only [masterSysStep, Except.ok.injEq, Prod.mk.injEq] at hs
    rw [← hs.2] at ho; cases ho
  | timer =>
    rw [hop] at hs
    simp only [masterSysStep] at hs
    obtain ⟨⟨l, o1⟩, -, hs⟩ := bind_ok hs
    simp only [pure_eq, Except.ok.injEq, Prod.mk.injEq] at hs
    rw [← hs.2] at ho; cases ho
  | usart rx t =>
    rw [hop] at hs
    obtain ⟨-, -, -, -, -, -, -, -, -, u2, u3⟩ := usart_parts hs
    by_cases k : t = true ∧ (x.st n).cur < (x.st n).last
    · obtain ⟨-, b, e⟩ := u2 k.1 k.2
      rw [e] at ho; simp at ho
    · rw [(u3 k).2] at ho; cases ho

/-- The receiver timeout behind a 1.5-char event of the library. -/
theorem t15_since (hx : x.Exec cfg) (hh : x.Hardware t15 t35 lat) {e : Nat} (h : .t15 ∈ evOps (x.st e) (x.op e)) :
    ∃ rx t r, x.op e = .usart rx t ∧ r < e ∧ x.op r = .rto ∧ (∀ k, r < k → k < e → x.op k = .rto ∨ x.op k = .timer) := by
  cases hop : x.op e with
  | main op =>
    exfalso
    have hl := hx.legal e
    rw [hop] at h hl
    obtain rfl := List.mem_singleton.1 h
    have : MOp.isMain .t15 = true := hl.proper
    cases this
  | rto => rw [hop] at h; cases h
  | timer => rw [hop] at h; have := List.mem_singleton.1 h; cases this
  | usart rx t =>
    rw [hop] at h
    obtain ⟨r, r1, r2, r3⟩ := rtof_since hx hh e ((evOps_usart h).2.1 rfl)
    exact ⟨rx, t, r, rfl, r1, r2, r3⟩

/-- The least number beyond `k` with a property. -/
theorem least_beyond {p : Nat → Prop} {k n : Nat} (h1 : k < n) (h2 : p n) : ∃ m, k < m ∧ m ≤ n ∧ p m ∧ ∀ j, k < j → j < m → ¬ p j := by
  induction n using Nat.strongRecOn with
  | ind n ih =>
    by_cases h : ∃ j, k < j ∧ j < n ∧ p j
    · obtain ⟨j, j1, j2, j3⟩ := h
      obtain ⟨m, m1, m2, m3⟩ := ih j j2 j1 j3
      exact ⟨m, m1, by omega, m3⟩
    · exact ⟨n, h1, Nat.le_refl _, h2, fun j j1 j2 j3 => h ⟨j, j1, j2, j3⟩⟩

/-- The library of a punctual device is punctual. -/
theorem device_punctual (hw : cfg.MWF) (hx : x.Exec cfg) (hh : x.Hardware t15 t35 lat) (ha : x.OneAnswer P) (hp : x.Punctual P D X)
    (hord : t15 + 2 * lat + P < t35) :
    ∃ (y : TimedRun) (ev : Nat → Nat), y.Exec cfg ∧ y.Punctual P D X (t35 + lat - t15) ∧ (∀ i, y.time i = x.time (ev i)) ∧
      (∀ i, pos x.lib (ev i) ≤ i ∧ i < pos x.lib (ev i) + (x.lib (ev i)).length) ∧
      ∀ n, y.st (pos x.lib n) = (x.st n).lib ∧ y.trace (pos x.lib n) = (.init .rtu, []) :: flat x.lib n := by
  have hmain : ∀ {n op}, x.op n = .main op → x.lib n = [(op, libOuts (x.out n))] := by
    intro n op h
    have := (hx.legal n).proper
    rw [h] at this
    simp [MDeviceTimed.lib, evTrace, h, evOps, show op.isMain = true from this]
  have hinf : ∀ n, ∃ m, n ≤ m ∧ x.lib m ≠ [] := by
    intro n
    obtain ⟨m, m1, m2, -⟩ := hp.poll n
    exact ⟨m, by omega, by rw [hmain m2]; simp⟩
  obtain ⟨y, ev, y1, y2, y3, y4, y5, y6⟩ := hx.timed hinf
  have hlt : ∀ {i j}, ev i < ev j → i < j := by
    intro i j h
    have h1 := pos_mono x.lib (show ev i + 1 ≤ ev j from h)
    rw [pos_succ] at h1
    have h2 := (y4 i).2
    have h3 := (y4 j).1
    omega
  have hle : ∀ {i j}, i ≤ j → ev i ≤ ev j := by
    intro i j h
    refine Classical.byContradiction fun hc => ?_
    have := hlt (i := j) (j := i) (by omega)
    omega
  -- a position for an operation of an event
  have hat : ∀ {n p}, p ∈ evOps (x.st n) (x.op n) → ∃ i, ev i = n ∧ y.op i = p ∧ y.out i = if p.isMain then libOuts (x.out n) else [] := by
    intro n p h
    obtain ⟨j, hj, e⟩ := List.getElem_of_mem (lib_mem.2 ⟨h, rfl⟩)
    have := y6 n j hj
    rw [e] at this
    exact ⟨_, this.2, (Prod.mk.inj this.1).1, (Prod.mk.inj this.1).2⟩
  have hof : ∀ i, y.op i ∈ evOps (x.st (ev i)) (x.op (ev i)) ∧ y.out i = if (y.op i).isMain then libOuts (x.out (ev i)) else [] :=
    fun i => lib_mem.1 (y5 i)
  have hmainAt : ∀ {n op}, x.op n = .main op → ∃ i, ev i = n ∧ y.op i = op := by
    intro n op h
    obtain ⟨i, i1, i2, -⟩ := hat (n := n) (p := op) (by rw [h]; exact List.mem_singleton.2 rfl)
    exact ⟨i, i1, i2⟩
  have hpos : ∀ {i op}, x.op (ev i) = .main op → i = pos x.lib (ev i) := by
    intro i op h
    have := y4 i
    rw [hmain h] at this
    simp at this
    omega
  have hofMain : ∀ {i op}, op.isMain = true → y.op i = op → x.op (ev i) = .main op := by
    intro i op h1 h2
    have := (hof i).1
    rw [h2] at this
    cases hop : x.op (ev i) with
    | main op' => rw [hop] at this; rw [List.mem_singleton.1 this]
    | rto => rw [hop] at this; cases this
    | timer => rw [hop] at this; rw [List.mem_singleton.1 this] at h1; cases h1
    | usart rx t => rw [hop] at this; rw [(evOps_usart this).1] at h1; cases h1
  have hsil : ∀ {i}, x.Silent (ev i) → y.Silent i := by
    intro i h o ho
    rw [(hof i).2] at ho
    split at ho
    · simp only [libOuts, List.mem_filterMap] at ho
      obtain ⟨z, z1, z2⟩ := ho
      cases z with
      | lib w => simp only [Option.some.injEq] at z2; subst z2; exact h _ z1
      | tdr b => cases z2
    · cases ho
  have hsilIrq : ∀ {i}, (∀ op, x.op (ev i) ≠ .main op) → y.Silent i := by
    intro i h
    exact hsil fun o ho => absurd ho (not_main_out hx h o)
  refine ⟨y, ev, y1, ⟨?_, ?_, ?_, ?_, ?_, ?_⟩, y2, y4, y3⟩
  · intro i
    obtain ⟨m, m1, m2, m3⟩ := hp.poll (ev i)
    obtain ⟨j, j1, j2⟩ := hmainAt m2
    exact ⟨j, hlt (by omega), j2, by rw [y2, y2, j1]; exact m3⟩
  · intro i
    obtain ⟨m, m1, m2, m3⟩ := hp.tick (ev i)
    obtain ⟨j, j1, j2⟩ := hmainAt m2
    exact ⟨j, hlt (by omega), j2, by rw [y2, y2, j1]; exact m3⟩
  · intro i j hij h1 h2
    have k1 := hofMain rfl h1
    have k2 := hofMain rfl h2
    have hne : ev i ≠ ev j := by
      intro e
      have e1 := hpos k1
      have e2 := hpos k2
      rw [e] at e1
      omega
    rw [y2, y2]
    exact hp.apart _ _ (by have := hle (Nat.le_of_lt hij); omega) k1 k2
  · intro i hs
    obtain ⟨p1, -, p3, p4, -⟩ := y1.sends hw hs
    have k := hofMain rfl p1
    obtain ⟨f, hf⟩ := hs
    have hf0 := hf
    have e := hpos k
    have e1 : i + 1 = pos x.lib (ev i + 1) := by
      rw [pos_succ, hmain k]; simp; omega
    have hst := (y3 (ev i + 1)).1
    rw [← e1] at hst
    rw [hst] at p3 p4
    rw [(hof i).2, p1] at hf
    have hf' : .lib (.send f) ∈ x.out (ev i) := by
      simp only [show MOp.isMain .poll = true from rfl, if_true, libOuts, List.mem_filterMap] at hf
      obtain ⟨z, z1, z2⟩ := hf
      cases z with
      | lib w => simp only [Option.some.injEq] at z2; subst z2; exact z1
      | tdr b => cases z2
    have hlen : f.length = (x.st (ev i + 1)).last + 1 := by
      have hst1 := y1.step i
      rw [p1] at hst1
      have ho := (poll_send (show masterPoll cfg (y.st i) = .ok (y.st (i + 1), y.out i) from hst1) hf0).2.2
      obtain ⟨i0, -, -, ho⟩ := ho.2
      have hout : libOuts (x.out (ev i)) = [.send f] := by
        have := (hof i).2
        rw [p1, if_pos (show MOp.isMain .poll = true from rfl)] at this
        rw [← this]; exact ho
      have hm := hx.mwinv hw (ev i + 1)
      have e2 : x.trace (ev i + 1) = x.trace (ev i) ++ [(x.op (ev i), x.out (ev i))] := by
        unfold MDeviceTimed.trace
        rw [List.range_succ, List.map_append]; rfl
      have e3 : mframes [(x.op (ev i), x.out (ev i))] = [f] := by
        rw [k]
        simp [mframes, mainTrace, hout, sends]
      rw [e2, mframes_append, e3] at hm
      rcases hm.hist with ⟨q, -, -⟩ | ⟨done, f', q, -, q3, -⟩
      · simp at q
      · have := List.append_inj_right' q rfl
        simp only [List.cons.injEq, and_true] at this
        rw [this]; exact q3
    obtain ⟨m, m1, m2, m3⟩ := tx_completes hw hx hp hf' ⟨p3, p4⟩ hlen
    obtain ⟨j, j1, j2, -⟩ := hat m2
    exact ⟨j, hlt (by omega), j2, by rw [y2, y2, j1]; exact m3⟩
  · intro i h15
    have h := (hof i).1
    rw [h15] at h
    obtain ⟨rx, t, r, r1, r2, r3, r4⟩ := t15_since hx hh h
    obtain ⟨a, b, a1, a2, a3, a4, a5, a6⟩ := ha.answer r r3
    obtain ⟨f, hf⟩ := a3
    have am : ∃ op, x.op a = .main op := by
      cases hop : x.op a with
      | main op => exact ⟨op, rfl⟩
      | _ => exact absurd hf (not_main_out hx (by rw [hop]; nofun) _)
    obtain ⟨op, hop⟩ := am
    obtain ⟨i1, i2, i3, i4⟩ := hat (n := a) (p := op) (by rw [hop]; exact List.mem_singleton.2 rfl)
    obtain ⟨⟨rb, b1⟩, b2⟩ := a4
    have hb : .txDone ∈ evOps (x.st b) (x.op b) := by
      have hs := hx.step b
      rw [b1] at hs
      obtain ⟨-, -, -, -, -, -, -, -, -, u2, -⟩ := usart_parts hs
      have : ¬ (x.st b).cur < (x.st b).last := by
        intro k
        obtain ⟨-, c, e⟩ := u2 rfl k
        rw [b2] at e; cases e
      rw [b1]
      simp [evOps, this]
    obtain ⟨j1, j2, j3, -⟩ := hat hb
    refine ⟨i1, j1, hlt (by omega), hlt (by omega), ⟨f, ?_⟩, j3, ?_, ?_⟩
    · have hm : op.isMain = true := by
        have := (hx.legal a).proper
        rw [hop] at this
        exact this
      rw [i4, hm]
      simp only [if_true, libOuts, List.mem_filterMap]
      exact ⟨_, hf, rfl⟩
    · rw [y2, y2, j2]
      have := hx.time_le (Nat.le_of_lt r2)
      omega
    · intro k k1 k2
      have hka := hle (Nat.le_of_lt k1)
      have hki := hle (Nat.le_of_lt k2)
      rw [i2] at hka
      have hne : ev k ≠ a := by
        intro e
        have e1 := hpos (i := k) (op := op) (by rw [e]; exact hop)
        have e2 := hpos (i := i1) (op := op) (by rw [i2]; exact hop)
        rw [e] at e1
        rw [i2] at e2
        omega
      rcases Nat.lt_trichotomy (ev k) r with hk | hk | hk
      · refine ⟨hsil (a6 _ (by omega) hk).1, fun e => ?_⟩
        have h := (hof k).1
        rw [e] at h
        obtain ⟨rx', t', r', q1, q2, q3, q4⟩ := t15_since hx hh h
        rcases Nat.lt_trichotomy r' a with c | c | c
        · rcases q4 a c (by omega) with q | q <;> rw [hop] at q <;> cases q
        · subst c; rw [hop] at q3; cases q3
        · exact (a6 r' c (by omega)).2 q3
      · have h := (hof k).1
        rw [hk, r3] at h; cases h
      · rcases Nat.lt_or_ge (ev k) (ev i) with hki' | hki'
        · rcases r4 _ hk hki' with q | q
          · have h := (hof k).1
            rw [q] at h; cases h
          · refine ⟨hsilIrq (by rw [q]; nofun), fun e => ?_⟩
            have h := (hof k).1
            rw [q] at h
            have := List.mem_singleton.1 h
            rw [e] at this; cases this
        · have he : ev k = ev i := by omega
          refine ⟨hsilIrq (by rw [he, r1]; nofun), fun e => ?_⟩
          have g1 := y4 k
          have g2 := y4 i
          rw [he] at g1
          have l1 : i - pos x.lib (ev i) < (x.lib (ev i)).length := by omega
          have l2 : k - pos x.lib (ev i) < (x.lib (ev i)).length := by omega
          have m1 := (y6 _ _ l1).1
          have m2 := (y6 _ _ l2).1
          rw [show pos x.lib (ev i) + (i - pos x.lib (ev i)) = i by omega] at m1
          rw [show pos x.lib (ev i) + (k - pos x.lib (ev i)) = k by omega] at m2
          have m1 := congrArg Prod.fst m1
          have m2 := congrArg Prod.fst m2
          rw [h15] at m1
          rw [e] at m2
          simp only [MDeviceTimed.lib, evTrace, List.getElem_map] at m1 m2
          rw [lib_length] at l1 l2
          have hev : evOps (x.st (ev i)) (x.op (ev i)) = evOps (x.st (ev i)) (.usart rx t) := by rw [r1]
          refine evOps_t15_last (s := x.st (ev i)) (rx := rx) (t := t) (i := i - pos x.lib (ev i)) (j := k - pos x.lib (ev i)) (by rw [← hev]; exact l1) (by rw [← hev]; exact l2) ?_ (by omega) ?_
          · rw [m1]; congr 1; exact hev.symm
          · rw [m2]; congr 1; exact hev.symm
  · intro i h15
    have h := (hof i).1
    rw [h15] at h
    obtain ⟨rx, t, r, r1, r2, r3, r4⟩ := t15_since hx hh h
    obtain ⟨k, k1, k2, k3, k4⟩ := hh.rtoOnly r r3
    obtain ⟨n1, c1, c2, c3⟩ := hh.timerMust k k2
    obtain ⟨n0, d1, d2, d3, d4⟩ := least_beyond (p := fun n => x.Byte n ∨ x.op n = .timer) c1 c2
    have hT : x.op n0 = .timer := by
      rcases d3 with d3 | d3
      · exfalso
        have hrn : r < n0 := by
          rcases Nat.lt_trichotomy r n0 with g | g | g
          · exact g
          · subst g
            obtain ⟨b, t', e⟩ := d3
            rw [r3] at e; cases e
          · exact absurd d3 (k4 n0 d1 g).1
        obtain ⟨m, m1, m2, m3⟩ := ha.noGap r n0 hrn r3 d3
        exact d4 m (by omega) m2 (.inr m3)
      · exact d3
    obtain ⟨k', f1, f2, f3, f4⟩ := hh.timerOnly n0 hT
    have hk : k' = k := by
      rcases Nat.lt_trichotomy k' k with g | g | g
      · exact absurd k2 (f4 k g d1).1
      · exact g
      · exact absurd (.inl f2) (d4 k' g f1)
    subst hk
    have e1 := hx.time_le d2
    obtain ⟨m, rx', t', m1, m2, m3⟩ := hh.irq r r3
    have e2 : ev i ≤ m := by
      refine Classical.byContradiction fun g => ?_
      rcases r4 m m1 (by omega) with q | q <;> rw [m2] at q <;> cases q
    have e3 := hx.time_le e2
    obtain ⟨n2, g1, g2, g3⟩ := hh.rtoMust k' k2
    have e4 : r ≤ n2 := by
      refine Classical.byContradiction fun g => ?_
      have := k4 n2 g1 (by omega)
      rcases g2 with g2 | g2
      · exact this.1 g2
      · exact this.2 g2
    have e5 := hx.time_le e4
    have e6 := hx.time_le (Nat.le_of_lt r2)
    have e7 : ev i < n0 := hx.lt_of_time (by omega)
    obtain ⟨j, j1, j2, -⟩ := hat (n := n0) (p := .t35) (by rw [hT]; exact List.mem_singleton.2 rfl)
    refine ⟨j, hlt (by omega), j2, ?_, ?_⟩ <;> rw [y2, y2, j1] <;> omega

end

end Modbus
