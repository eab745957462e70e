import Verif.Spec.TimedBus
import Verif.Proofs.DeviceTimed

/-! Generic lemmas about transmissions: the transmit interrupts of a frame follow each other, and the bytes received are those written. -/

namespace Modbus

open Spec

/-- The transmit interrupts of a frame of `L` bytes that starts with event `a`: `z` writes the last byte, `w` reports the end. -/
theorem tx_chain {T W busy : Nat → Prop} {cur time : Nat → Nat} {e L a : Nat} (mono : ∀ m n, m ≤ n → time m ≤ time n) (hW : W a)
    (hb : busy (a + 1)) (hc : cur (a + 1) = 0) (hL : 1 ≤ L)
    (next : ∀ n, W n → ∃ m, n < m ∧ T m ∧ time m ≤ time n + e)
    (stay : ∀ n, busy n → ¬ T n → busy (n + 1) ∧ cur (n + 1) = cur n ∧ ¬ W n)
    (move : ∀ n, busy n → T n → cur n + 1 < L → busy (n + 1) ∧ cur (n + 1) = cur n + 1 ∧ W n) :
    ∃ z w, a ≤ z ∧ z < w ∧ W z ∧ T w ∧ cur w + 1 = L ∧ (∀ n, a < n → n ≤ w → busy n) ∧ (∀ n, z < n → n < w → ¬ W n ∧ ¬ T n) ∧
      time w ≤ time z + e ∧ time z ≤ time a + (L - 1) * e ∧
      ∀ n, a ≤ n → n < z → W n → ∃ m, n < m ∧ m ≤ z ∧ W m ∧ (∀ i, n < i → i < m → ¬ W i) ∧ time m ≤ time n + e := by
  have run : ∀ {z w : Nat}, z < w → busy (z + 1) → (∀ n, z < n → n < w → ¬ T n) → ∀ k, z + 1 + k ≤ w →
      busy (z + 1 + k) ∧ cur (z + 1 + k) = cur (z + 1) ∧ ∀ n, z < n → n < z + 1 + k → ¬ W n := by
    intro z w hzw hbz hT k
    induction k with
    | zero => exact fun _ => ⟨hbz, rfl, fun n n1 n2 => by omega⟩
    | succ k ih =>
      intro hk
      obtain ⟨i1, i2, i3⟩ := ih (by omega)
      obtain ⟨j1, j2, j3⟩ := stay _ i1 (hT _ (by omega) (by omega))
      refine ⟨j1, j2.trans i2, fun n n1 n2 => ?_⟩
      by_cases h : n = z + 1 + k
      · rw [h]; exact j3
      · exact i3 n n1 (by omega)
  have hnext : ∀ z, W z → busy (z + 1) → ∃ w, z < w ∧ T w ∧ time w ≤ time z + e ∧ cur w = cur (z + 1) ∧
      (∀ n, z < n → n ≤ w → busy n) ∧ ∀ n, z < n → n < w → ¬ W n ∧ ¬ T n := by
    intro z hz hbz
    obtain ⟨m, m1, m2, m3⟩ := next z hz
    obtain ⟨w, w1, w2, w3, w4⟩ := first_from T (show z + 1 ≤ m from m1) m2
    have hr := fun k hk => run (show z < w by omega) hbz (fun n n1 n2 => w4 n n1 n2) k hk
    refine ⟨w, by omega, w3, ?_, ?_, ?_, ?_⟩
    · have := mono w m w2; omega
    · have := (hr (w - (z + 1)) (by omega)).2.1
      rwa [show z + 1 + (w - (z + 1)) = w by omega] at this
    · intro n n1 n2
      have := (hr (n - (z + 1)) (by omega)).1
      rwa [show z + 1 + (n - (z + 1)) = n by omega] at this
    · intro n n1 n2
      exact ⟨(hr (w - (z + 1)) (by omega)).2.2 n n1 (by omega), w4 n n1 n2⟩
  have step : ∀ j, j < L → ∃ z, a ≤ z ∧ W z ∧ cur (z + 1) = j ∧ (∀ n, a < n → n ≤ z + 1 → busy n) ∧ time z ≤ time a + j * e ∧
      ∀ n, a ≤ n → n < z → W n → ∃ m, n < m ∧ m ≤ z ∧ W m ∧ (∀ i, n < i → i < m → ¬ W i) ∧ time m ≤ time n + e := by
    intro j
    induction j with
    | zero =>
      intro _
      exact ⟨a, Nat.le_refl _, hW, hc, fun n n1 n2 => by rw [show n = a + 1 by omega]; exact hb, by omega, fun n n1 n2 => by omega⟩
    | succ j ih =>
      intro hj
      obtain ⟨z, z1, z2, z3, z4, z5, z6⟩ := ih (by omega)
      obtain ⟨w, w1, w2, w3, w4, w5, w6⟩ := hnext z z2 (z4 _ (by omega) (Nat.le_refl _))
      obtain ⟨j1, j2, j3⟩ := move w (w5 w w1 (Nat.le_refl _)) w2 (by omega)
      refine ⟨w, by omega, j3, by omega, ?_, ?_, ?_⟩
      · intro n n1 n2
        by_cases h1 : n ≤ z + 1
        · exact z4 n n1 h1
        · by_cases h2 : n ≤ w
          · exact w5 n (by omega) h2
          · rw [show n = w + 1 by omega]; exact j1
      · rw [Nat.succ_mul]; omega
      · intro n n1 n2 hn
        by_cases h1 : n < z
        · obtain ⟨m, m1, m2, m3, m4⟩ := z6 n n1 h1 hn
          exact ⟨m, m1, by omega, m3, m4⟩
        · have : n = z := by
            apply Classical.byContradiction
            intro h
            exact (w6 n (by omega) n2).1 hn
          subst this
          exact ⟨w, w1, Nat.le_refl _, j3, fun i i1 i2 => (w6 i i1 i2).1, w3⟩
  obtain ⟨z, z1, z2, z3, z4, z5, z6⟩ := step (L - 1) (by omega)
  obtain ⟨w, w1, w2, w3, w4, w5, w6⟩ := hnext z z2 (z4 _ (by omega) (Nat.le_refl _))
  refine ⟨z, w, z1, w1, z2, w2, by omega, ?_, w6, w3, z5, z6⟩
  intro n n1 n2
  by_cases h1 : n ≤ z
  · exact z4 n n1 (by omega)
  · exact w5 n (by omega) n2

/-- What is received is what was written. -/
theorem transfer {W R : Nat → List U8} {via : Nat → Nat} {a e : Nat} (arrives : ∀ n, W n ≠ [] → R (via n) = W n)
    (order : ∀ n n', n < n' → W n ≠ [] → W n' ≠ [] → via n < via n') (len : Nat) : ∀ {m : Nat}, e ≤ m →
    (∀ n, a ≤ n → n < a + len → W n ≠ [] → e ≤ via n ∧ via n < m) →
    (∀ k, e ≤ k → k < m → R k ≠ [] → ∃ n, a ≤ n ∧ n < a + len ∧ W n ≠ [] ∧ via n = k) →
    (List.range' e (m - e)).flatMap R = (List.range' a len).flatMap W := by
  induction len with
  | zero =>
    intro m hem _ h2
    have : (List.range' e (m - e)).flatMap R = [] := by
      rw [List.flatMap_eq_nil_iff]
      intro k hk
      have := List.mem_range'_1.1 hk
      apply Classical.byContradiction
      intro hR
      obtain ⟨n, n1, n2, -⟩ := h2 k this.1 (by omega) hR
      omega
    rw [this]; rfl
  | succ len ih =>
    intro m hem h1 h2
    rw [List.range'_concat, List.flatMap_append]
    simp only [Nat.one_mul, List.flatMap_cons, List.flatMap_nil, List.append_nil]
    by_cases hW : W (a + len) = []
    · rw [hW, List.append_nil]
      refine ih hem (fun n n1 n2 => h1 n n1 (by omega)) (fun k k1 k2 k3 => ?_)
      obtain ⟨n, n1, n2, n3, n4⟩ := h2 k k1 k2 k3
      have : n ≠ a + len := fun h => n3 (h ▸ hW)
      exact ⟨n, n1, by omega, n3, n4⟩
    · obtain ⟨v1, v2⟩ := h1 (a + len) (by omega) (by omega) hW
      have hs : List.range' e (m - e) = List.range' e (via (a + len) - e) ++ via (a + len) :: List.range' (via (a + len) + 1) (m - (via (a + len) + 1)) := by
        have e1 : m - e = (via (a + len) - e) + (m - via (a + len)) := by omega
        rw [e1, ← List.range'_append_1, show e + (via (a + len) - e) = via (a + len) by omega]
        congr 1
        obtain ⟨q, hq⟩ : ∃ q, m - via (a + len) = q + 1 := ⟨m - via (a + len) - 1, by omega⟩
        rw [hq, List.range'_succ, show m - (via (a + len) + 1) = q by omega]
      have hlast : (List.range' (via (a + len) + 1) (m - (via (a + len) + 1))).flatMap R = [] := by
        rw [List.flatMap_eq_nil_iff]
        intro k hk
        have hk := List.mem_range'_1.1 hk
        apply Classical.byContradiction
        intro hR
        obtain ⟨n, n1, n2, n3, n4⟩ := h2 k (by omega) (by omega) hR
        by_cases h : n = a + len
        · subst h; omega
        · have := order n (a + len) (by omega) n3 hW
          omega
      rw [hs, List.flatMap_append, List.flatMap_cons, hlast, List.append_nil, arrives _ hW, ih v1 ?_ ?_]
      · intro n n1 n2 hn
        exact ⟨(h1 n n1 (by omega) hn).1, order _ _ (by omega) hn hW⟩
      · intro k k1 k2 hR
        obtain ⟨n, n1, n2, n3, n4⟩ := h2 k k1 (by omega) hR
        have : n ≠ a + len := by rintro rfl; omega
        exact ⟨n, n1, by omega, n3, n4⟩

end Modbus
