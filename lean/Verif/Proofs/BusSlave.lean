import Verif.Proofs.BusChain

/-! The slave of a timed bus: its transmission, event by event. -/

namespace Modbus

open Spec

section
variable {cfg : Config} {id : U8} {y : DeviceTimed} {t15 t35 lat P X : Nat}

/-- The slave's library waits for the end of a transmission of `L` bytes. -/
structure SBusy (L : Nat) (s : SlaveSys) : Prop where
  st : s.lib.st = .transmitting
  txf : s.lib.txf = .set
  last : s.last + 1 = L
  cur : s.cur ≤ s.last

/-- The event is a transmit interrupt. -/
def HOp.isTx : HOp → Bool
  | .usart _ t => t
  | _ => false

theorem irqRx_lib {s s' : SlaveSys} {rx : Option U8} (h : slaveIrqRx cfg s rx = .ok s') : s'.lib.st = s.lib.st ∧ s'.lib.txf = s.lib.txf := by
  cases rx with
  | none => simp only [slaveIrqRx, Except.ok.injEq] at h; rw [← h]; exact ⟨rfl, rfl⟩
  | some b =>
    simp only [slaveIrqRx] at h
    obtain ⟨⟨l, o⟩, h1, h2⟩ := bind_ok h
    obtain ⟨a1, -, -, -, -, -, -, -, -, -, -, a2⟩ := slaveStep_frame h1 (by simp) (by simp)
    have a2 : l.txf = s.lib.txf := by
      rcases a2 with e | ⟨e, -⟩
      · exact e
      · cases e
    by_cases hg : s.gap = true
    · simp only [hg, if_true] at h2
      obtain ⟨⟨l2, o2⟩, h3, h4⟩ := bind_ok h2
      obtain ⟨b1, -, -, -, -, -, -, -, -, -, -, b2⟩ := slaveStep_frame h3 (by simp) (by simp)
      simp only [pure_eq, Except.ok.injEq] at h4
      rw [← h4]
      refine ⟨b1.trans a1, ?_⟩
      rcases b2 with e | ⟨e, -⟩
      · exact e.trans a2
      · cases e
    · simp only [hg, Bool.false_eq_true, if_false, pure_eq, Except.ok.injEq] at h2
      rw [← h2]
      exact ⟨a1, a2⟩

theorem irqRto_lib {s s' : SlaveSys} (h : slaveIrqRto cfg s = .ok s') : s'.lib.st = s.lib.st ∧ s'.lib.txf = s.lib.txf := by
  unfold slaveIrqRto at h
  by_cases hr : s.rtof = true
  · rw [if_pos hr] at h
    obtain ⟨⟨l, o⟩, h1, h2⟩ := bind_ok h
    obtain ⟨a1, -, -, -, -, -, -, -, -, -, -, a2⟩ := slaveStep_frame h1 (by simp) (by simp)
    simp only [pure_eq, Except.ok.injEq] at h2
    rw [← h2]
    refine ⟨a1, ?_⟩
    rcases a2 with e | ⟨e, -⟩
    · exact e
    · cases e
  · rw [if_neg hr] at h
    simp only [Except.ok.injEq] at h
    rw [← h]; exact ⟨rfl, rfl⟩

/-- While the slave transmits, an event that is no transmit interrupt changes nothing about it and puts nothing out; a transmit interrupt before the
end writes a byte and starts no frame. -/
theorem sbusy_step {s s' : SlaveSys} {op : HOp} {o : List HOut} {L : Nat} (hb : SBusy L s) (hi : ∀ m i, op ≠ .main (.init m i))
    (h : slaveSysStep cfg s op = .ok (s', o)) :
    (op.isTx = false → SBusy L s' ∧ s'.cur = s.cur ∧ o = []) ∧
    (op.isTx = true → s.cur + 1 < L → SBusy L s' ∧ s'.cur = s.cur + 1 ∧ ∃ b, o = [.tdr b]) := by
  cases op with
  | main op =>
    refine ⟨fun _ => ?_, fun h => nomatch h⟩
    simp only [slaveSysStep] at h
    split at h
    · simp only [Except.ok.injEq, Prod.mk.injEq] at h; rw [← h.1, ← h.2]; exact ⟨hb, rfl, rfl⟩
    · rename_i hm
      obtain ⟨⟨l, o1⟩, h1, h2⟩ := bind_ok h
      have key : l.st = .transmitting ∧ l.txf = .set ∧ o1 = [] := by
        by_cases hp : op = .poll
        · subst hp
          simp only [slaveStep, slavePoll, hb.st] at h1
          rw [slaveTransmitting_busy (by rw [hb.txf]; decide)] at h1
          simp only [Except.ok.injEq, Prod.mk.injEq] at h1
          rw [← h1.1, ← h1.2]; exact ⟨hb.st, hb.txf, rfl⟩
        · obtain ⟨a1, -, -, -, -, -, -, -, -, -, -, a2⟩ := slaveStep_frame h1 hp (fun m i e => hi m i (by rw [e]))
          refine ⟨a1.trans hb.st, ?_, slaveStep_out h1 hp⟩
          rcases a2 with e | ⟨e, -⟩
          · exact e.trans hb.txf
          · subst e; exact absurd (.inr rfl) hm
      rw [key.2.2] at h2
      simp only [slaveSends, Except.ok.injEq, Prod.mk.injEq] at h2
      rw [← h2.1, ← h2.2]
      exact ⟨⟨key.1, key.2.1, hb.last, hb.cur⟩, rfl, rfl⟩
  | rto =>
    refine ⟨fun _ => ?_, fun h => nomatch h⟩
    simp only [slaveSysStep, Except.ok.injEq, Prod.mk.injEq] at h; rw [← h.1, ← h.2]
    exact ⟨⟨hb.st, hb.txf, hb.last, hb.cur⟩, rfl, rfl⟩
  | timer =>
    refine ⟨fun _ => ?_, fun h => nomatch h⟩
    simp only [slaveSysStep] at h
    obtain ⟨⟨l, o1⟩, h1, h2⟩ := bind_ok h
    obtain ⟨a1, -, -, -, -, -, -, -, -, -, -, a2⟩ := slaveStep_frame h1 (by simp) (by simp)
    simp only [pure_eq, Except.ok.injEq, Prod.mk.injEq] at h2
    rw [← h2.1, ← h2.2]
    refine ⟨⟨a1.trans hb.st, ?_, hb.last, hb.cur⟩, rfl, rfl⟩
    rcases a2 with e | ⟨e, -⟩
    · exact e.trans hb.txf
    · cases e
  | usart rx t =>
    simp only [slaveSysStep] at h
    obtain ⟨s1, h1, h⟩ := bind_ok h
    obtain ⟨⟨s2, o2⟩, h2, h⟩ := bind_ok h
    obtain ⟨s3, h3, h⟩ := bind_ok h
    simp only [pure_eq, Except.ok.injEq, Prod.mk.injEq] at h
    rw [← h.1, ← h.2]
    obtain ⟨-, a2, a3, -⟩ := irqRx_frame h1
    obtain ⟨a4, a5⟩ := irqRx_lib h1
    obtain ⟨-, c2, c3, -⟩ := irqRto_frame h3
    obtain ⟨c4, c5⟩ := irqRto_lib h3
    have hcl := hb.cur
    have hla := hb.last
    constructor
    · intro ht
      have ht : t = false := ht
      subst ht
      simp only [slaveIrqTx, Bool.false_eq_true, if_false, Except.ok.injEq, Prod.mk.injEq] at h2
      rw [← h2.1] at c2 c3 c4 c5
      simp only at c2 c3 c4 c5
      refine ⟨⟨by rw [c4, a4, hb.st], by rw [c5, a5, hb.txf], by omega, by omega⟩, by omega, h2.2.symm⟩
    · intro ht hL
      have ht : t = true := ht
      subst ht
      simp only [slaveIrqTx, if_true] at h2
      rw [if_pos (by omega)] at h2
      obtain ⟨b, _, h2⟩ := bind_ok h2
      simp only [pure_eq, Except.ok.injEq, Prod.mk.injEq] at h2
      rw [← h2.1] at c2 c3 c4 c5
      simp only at c2 c3 c4 c5
      exact ⟨⟨by rw [c4, a4, hb.st], by rw [c5, a5, hb.txf], by omega, by omega⟩, by omega, b, h2.2.symm⟩

theorem Spec.DeviceTimed.Exec.noInit (hx : y.Exec cfg id) (n : Nat) (m : Mode) (i : U8) : y.op n ≠ .main (.init m i) :=
  fun h => hx.main n _ h

/-- A device that has nothing left to send writes nothing, unless it is given a new frame. -/
theorem sys_unsent {s s' : SlaveSys} {op : HOp} {o : List HOut} (h : slaveSysStep cfg s op = .ok (s', o)) (hc : s.cur = s.last)
    (hf : ∀ f, .send f ∉ o) : o = [] ∧ s'.cur = s'.last := by
  cases op with
  | main op =>
    simp only [slaveSysStep] at h
    split at h
    · simp only [Except.ok.injEq, Prod.mk.injEq] at h; rw [← h.1, ← h.2]; exact ⟨rfl, hc⟩
    · obtain ⟨⟨l, o1⟩, h1, h2⟩ := bind_ok h
      cases o1 with
      | nil =>
        simp only [slaveSends, Except.ok.injEq, Prod.mk.injEq] at h2
        rw [← h2.1, ← h2.2]
        exact ⟨rfl, hc⟩
      | cons a os =>
        cases a with
        | send f =>
          simp only [slaveSends] at h2
          obtain ⟨⟨s1, o2⟩, -, h2⟩ := bind_ok h2
          obtain ⟨⟨s2, o3⟩, -, h2⟩ := bind_ok h2
          simp only [pure_eq, Except.ok.injEq, Prod.mk.injEq] at h2
          exact absurd (show HOut.send f ∈ o by rw [← h2.2]; simp) (hf f)
  | rto => simp only [slaveSysStep, Except.ok.injEq, Prod.mk.injEq] at h; rw [← h.1, ← h.2]; exact ⟨rfl, hc⟩
  | timer =>
    simp only [slaveSysStep] at h
    obtain ⟨⟨l, o1⟩, h1, h⟩ := bind_ok h
    simp only [pure_eq, Except.ok.injEq, Prod.mk.injEq] at h; rw [← h.1, ← h.2]; exact ⟨rfl, hc⟩
  | usart rx t =>
    simp only [slaveSysStep] at h
    obtain ⟨s1, h1, h⟩ := bind_ok h
    obtain ⟨⟨s2, o2⟩, h2, h⟩ := bind_ok h
    obtain ⟨s3, h3, h⟩ := bind_ok h
    simp only [pure_eq, Except.ok.injEq, Prod.mk.injEq] at h
    obtain ⟨_, a2, a3, a4⟩ := irqRx_frame h1
    obtain ⟨b1, b2, b3⟩ := irqTx_done h2 (by rw [a2, a3, hc])
    obtain ⟨_, c2, c3, c4⟩ := irqRto_frame h3
    rw [← h.1, ← h.2]
    exact ⟨b1, by rw [c2, c3, b2]⟩

theorem slave_unsent (hx : y.Exec cfg id) {w : Nat} (hc : (y.st w).cur = (y.st w).last) (n : Nat) :
    (∀ i, w ≤ i → i < w + n → ¬ y.Sends i) → (∀ i, w ≤ i → i < w + n → y.out i = []) ∧ (y.st (w + n)).cur = (y.st (w + n)).last := by
  induction n with
  | zero => exact fun _ => ⟨fun i _ _ => by omega, hc⟩
  | succ n ih =>
    intro hn
    obtain ⟨i1, i2⟩ := ih fun i a b => hn i a (by omega)
    obtain ⟨j1, j2⟩ := sys_unsent (hx.step (w + n)) i2 fun f hf => hn (w + n) (by omega) (by omega) ⟨f, hf⟩
    refine ⟨fun i a b => ?_, j2⟩
    by_cases h : i = w + n
    · subst h; exact j1
    · exact i1 i a (by omega)

/-- The transmission of a frame: `z` writes its last byte, `w` reports the end. -/
theorem slave_chain (hx : y.Exec cfg id) {e : Nat} (htx : ∀ n b, y.Writes n b → ∃ m rx, n < m ∧ y.op m = .usart rx true ∧ y.time m ≤ y.time n + e)
    {p : Nat} {F : List U8} (hs : DevSends y p F) (hF : 1 ≤ F.length) :
    ∃ z w, p ≤ z ∧ z < w ∧ (∃ b, y.Writes z b) ∧ (y.op w).isTx = true ∧ y.time w ≤ y.time z + e ∧ y.time z ≤ y.time p + (F.length - 1) * e ∧
      (∀ n b, p ≤ n → n ≤ w → y.Writes n b → n ≤ z) ∧ (∀ n, p < n → n ≤ w → ¬ y.Sends n) ∧
      (∀ n b, p ≤ n → n < z → y.Writes n b → ∃ m b', n < m ∧ m ≤ z ∧ y.Writes m b' ∧ ∀ i b', n < i → i < m → ¬ y.Writes i b') ∧
      ((∀ k, p < k → k ≤ w → ¬ y.Byte k) → F.length ≤ (y.seg (p + 1) (w + 1)).count (.usart none true)) ∧
      (y.st w).cur = (y.st w).last ∧
      ∀ n b, p ≤ n → n < z → y.Writes n b → ∃ m b', n < m ∧ m ≤ z ∧ y.Writes m b' ∧ (∀ i b', n < i → i < m → ¬ y.Writes i b') ∧
        y.time m ≤ y.time n + e := by
  obtain ⟨b0, hout⟩ := hs.out
  have hbz : SBusy F.length (y.st (p + 1)) := ⟨hs.st, hs.txf, hs.last, by rw [hs.cur]; exact Nat.zero_le _⟩
  have stay : ∀ n, SBusy F.length (y.st n) → ¬ (y.op n).isTx = true → SBusy F.length (y.st (n + 1)) ∧ (y.st (n + 1)).cur = (y.st n).cur ∧
      ¬ ∃ b, y.Writes n b := by
    intro n hb ht
    obtain ⟨h1, h2, h3⟩ := (sbusy_step hb (hx.noInit n) (hx.step n)).1 (by simpa using ht)
    refine ⟨h1, h2, ?_⟩
    rintro ⟨b, hb⟩
    unfold DeviceTimed.Writes at hb
    rw [h3] at hb; cases hb
  have move : ∀ n, SBusy F.length (y.st n) → (y.op n).isTx = true → (y.st n).cur + 1 < F.length → SBusy F.length (y.st (n + 1)) ∧
      (y.st (n + 1)).cur = (y.st n).cur + 1 ∧ ∃ b, y.Writes n b := by
    intro n hb ht hL
    obtain ⟨h1, h2, b, h3⟩ := (sbusy_step hb (hx.noInit n) (hx.step n)).2 ht hL
    exact ⟨h1, h2, b, by unfold DeviceTimed.Writes; rw [h3]; exact List.mem_cons_self ..⟩
  obtain ⟨z, w, z1, z2, z3, z4, z5, z6, z7, z8, z9, z10⟩ := tx_chain (T := fun n => (y.op n).isTx = true) (W := fun n => ∃ b, y.Writes n b)
    (busy := fun n => SBusy F.length (y.st n)) (cur := fun n => (y.st n).cur) (time := y.time) (e := e) (L := F.length) (a := p)
    (fun m n h => hx.time_le h) ⟨b0, by unfold DeviceTimed.Writes; rw [hout]; simp⟩ hbz hs.cur hF
    (fun n ⟨b, hb⟩ => by
      obtain ⟨m, rx, m1, m2, m3⟩ := htx n b hb
      exact ⟨m, m1, by rw [m2]; rfl, m3⟩) stay move
  have hW : ∀ n, p ≤ n → n ≤ w → (∃ b, y.Writes n b) → n ≤ z := by
    intro n n1 n2 hn
    refine Classical.byContradiction fun h => ?_
    by_cases hnw : n = w
    · subst hnw
      obtain ⟨b, hb⟩ := hn
      have h1 := hx.step n
      have hbw := z6 n (by omega) (Nat.le_refl _)
      have hc : (y.st n).cur = (y.st n).last := by have := hbw.last; omega
      cases ho : y.op n with
      | usart rx t =>
        rw [ho] at h1
        simp only [slaveSysStep] at h1
        obtain ⟨s1, k1, h1⟩ := bind_ok h1
        obtain ⟨⟨s2, o2⟩, k2, h1⟩ := bind_ok h1
        obtain ⟨s3, k3, h1⟩ := bind_ok h1
        simp only [pure_eq, Except.ok.injEq, Prod.mk.injEq] at h1
        obtain ⟨-, a2, a3, -⟩ := irqRx_frame k1
        obtain ⟨e1, -⟩ := irqTx_done k2 (by omega)
        unfold DeviceTimed.Writes at hb
        rw [← h1.2, e1] at hb; cases hb
      | main op => rw [ho] at z4; cases z4
      | rto => rw [ho] at z4; cases z4
      | timer => rw [ho] at z4; cases z4
    · exact (z7 n (by omega) (by omega)).1 hn
  have hpace : ∀ n b, p ≤ n → n < z → y.Writes n b → ∃ m b', n < m ∧ m ≤ z ∧ y.Writes m b' ∧ (∀ i b', n < i → i < m → ¬ y.Writes i b') ∧
      y.time m ≤ y.time n + e := by
    intro n b n1 n2 hn
    obtain ⟨m, m1, m2, ⟨b', m3⟩, m4, m5⟩ := z10 n n1 n2 ⟨b, hn⟩
    exact ⟨m, b', m1, m2, m3, fun i b'' i1 i2 hi => m4 i i1 i2 ⟨b'', hi⟩, m5⟩
  refine ⟨z, w, z1, z2, z3, z4, z8, z9, fun n b n1 n2 hn => hW n n1 n2 ⟨b, hn⟩, ?_, ?_, ?_,
    by have := (z6 w (by omega) (Nat.le_refl _)).last; omega, hpace⟩
  · rintro n n1 n2 ⟨f, hf⟩
    have hb := z6 n n1 n2
    by_cases ht : (y.op n).isTx = true
    · have hsp := hx.step n
      cases ho : y.op n with
      | usart rx t =>
        rw [ho] at hsp
        simp only [slaveSysStep] at hsp
        obtain ⟨s1, k1, hsp⟩ := bind_ok hsp
        obtain ⟨⟨s2, o2⟩, k2, hsp⟩ := bind_ok hsp
        obtain ⟨s3, k3, hsp⟩ := bind_ok hsp
        simp only [pure_eq, Except.ok.injEq, Prod.mk.injEq] at hsp
        rw [← hsp.2] at hf
        unfold slaveIrqTx at k2
        repeat' split at k2
        · obtain ⟨b, _, k2⟩ := bind_ok k2
          simp only [pure_eq, Except.ok.injEq, Prod.mk.injEq] at k2
          rw [← k2.2] at hf; simp at hf
        · obtain ⟨⟨l, o1⟩, _, k2⟩ := bind_ok k2
          simp only [pure_eq, Except.ok.injEq, Prod.mk.injEq] at k2
          rw [← k2.2] at hf; cases hf
        · simp only [Except.ok.injEq, Prod.mk.injEq] at k2
          rw [← k2.2] at hf; cases hf
      | main op => rw [ho] at ht; cases ht
      | rto => rw [ho] at ht; cases ht
      | timer => rw [ho] at ht; cases ht
    · obtain ⟨-, -, h3⟩ := (sbusy_step hb (hx.noInit n) (hx.step n)).1 (by simpa using ht)
      rw [h3] at hf; cases hf
  · intro n b n1 n2 hn
    obtain ⟨m, b', m1, m2, m3, m4, -⟩ := hpace n b n1 n2 hn
    exact ⟨m, b', m1, m2, m3, m4⟩
  · intro hnb
    have hop : ∀ k, p < k → k ≤ w → (y.op k).isTx = true → y.op k = .usart none true := by
      intro k k1 k2 ht
      have hnb := hnb k k1 k2
      cases ho : y.op k with
      | usart rx t =>
        rw [ho] at ht
        have ht : t = true := ht
        subst ht
        cases rx with
        | none => rfl
        | some b => exact absurd ⟨b, true, ho⟩ hnb
      | main op => rw [ho] at ht; cases ht
      | rto => rw [ho] at ht; cases ht
      | timer => rw [ho] at ht; cases ht
    have cnt : ∀ k, p + 1 + k ≤ w → (y.st (p + 1 + k)).cur ≤ (y.seg (p + 1) (p + 1 + k)).count (.usart none true) := by
      intro k
      induction k with
      | zero => intro _; rw [Nat.add_zero, hs.cur]; exact Nat.zero_le _
      | succ k ih =>
        intro hk
        have hb := z6 (p + 1 + k) (by omega) (by omega)
        have hi := ih (by omega)
        rw [show p + 1 + (k + 1) = p + 1 + k + 1 by omega, y.seg_split (show p + 1 ≤ p + 1 + k by omega) (show p + 1 + k ≤ p + 1 + k + 1 by omega),
          List.count_append, y.seg_one]
        by_cases ht : (y.op (p + 1 + k)).isTx = true
        · have hb' := z6 (p + 1 + k + 1) (by omega) (by omega)
          rw [hop _ (by omega) (by omega) ht, List.count_singleton_self]
          by_cases hlt : (y.st (p + 1 + k)).cur + 1 < F.length
          · have := (move _ hb ht hlt).2.1
            omega
          · have := hb'.cur
            have := hb'.last
            omega
        · have := (stay _ hb ht).2.1
          omega
    have hw := cnt (w - (p + 1)) (by omega)
    rw [show p + 1 + (w - (p + 1)) = w by omega] at hw
    rw [y.seg_split (show p + 1 ≤ w by omega) (show w ≤ w + 1 by omega), List.count_append, y.seg_one, hop w (by omega) (Nat.le_refl _) z4,
      List.count_singleton_self]
    omega

end

end Modbus
