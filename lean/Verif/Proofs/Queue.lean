import Verif.Model.Queue
import Verif.Proofs.Basic

/-! The ring buffer represents a list. -/

namespace Modbus

variable {α : Type}

/-- `q` (capacity `n`) holds exactly the non-NULL pointers of `l`, oldest first. -/
structure Queue.Rep (n : Nat) (q : Queue α) (l : List α) : Prop where
  tail_lt : q.tail.toNat < n
  head_eq : q.head.toNat = (q.tail.toNat + l.length) % n
  items_eq : q.items.toNat = l.length
  len_le : l.length ≤ n
  slots : ∀ i (h : i < l.length), q.arr ((q.tail.toNat + i) % n) = some l[i]

theorem ring_add {t k n : Nat} (ht : t < n) (hk : k ≤ n) :
    (t + k) % n = if t + k < n then t + k else t + k - n := by
  split
  · exact Nat.mod_eq_of_lt (by assumption)
  · rw [Nat.mod_eq_sub_mod (by omega)]
    exact Nat.mod_eq_of_lt (by omega)

theorem Queue.init_rep (n : Nat) (hn : 0 < n) (q : Queue α) : q.init.Rep n [] := by
  refine ⟨by simpa [Queue.init], by simp [Queue.init], by simp [Queue.init], by simp, ?_⟩
  intro i h; simp at h

theorem Queue.zero_rep (n : Nat) (hn : 0 < n) : (Queue.zero : Queue α).Rep n [] := by
  refine ⟨by simpa [Queue.zero], by simp [Queue.zero], by simp [Queue.zero], by simp, ?_⟩
  intro i h; simp at h

theorem Queue.Rep.head_tail {n : Nat} {q : Queue α} {l : List α} (h : q.Rep n l) :
    q.head = q.tail ↔ l.length = 0 ∨ l.length = n := by
  have h1 := h.head_eq
  have h2 := h.tail_lt
  have h3 := h.len_le
  rw [ring_add h2 h3] at h1
  constructor
  · intro e
    rw [e] at h1
    split at h1 <;> omega
  · intro e
    apply BitVec.eq_of_toNat_eq
    split at h1 <;> omega

theorem Queue.Rep.push_full {n : Nat} {q : Queue α} {l : List α} (h : q.Rep n l)
    (hl : l.length = n) (d : Option α) : q.push n d = .ok (q, d) := by
  have h2 := h.tail_lt
  unfold Queue.push
  rw [if_neg (by omega), if_pos (h.head_tail.2 (.inr hl)), if_pos (by rw [h.items_eq, hl])]

theorem Queue.Rep.push_ok {n : Nat} {q : Queue α} {l : List α} (h : q.Rep n l) (hn : n ≤ 255)
    (hl : l.length < n) (x : α) : ∃ q', q.push n (some x) = .ok (q', none) ∧ q'.Rep n (l ++ [x]) := by
  have h1 := h.head_eq
  have h2 := h.tail_lt
  have h3 := h.items_eq
  have hh : q.head.toNat < n := by rw [h1]; exact Nat.mod_lt _ (by omega)
  refine ⟨{ q with arr := fun j => if j = q.head.toNat then some x else q.arr j, items := q.items + 1, head := BitVec.ofNat 8 ((q.head.toNat + 1) % n) }, ?_, ?_⟩
  · unfold Queue.push
    rw [if_neg (by omega)]
    simp only [slotWr, if_pos hh]
    split
    · rw [if_neg (by omega)]; rfl
    · rfl
  · have hm := Nat.mod_lt (q.head.toNat + 1) (show n > 0 by omega)
    refine ⟨h2, ?_, ?_, ?_, ?_⟩
    · show (BitVec.ofNat 8 ((q.head.toNat + 1) % n)).toNat = _
      rw [BitVec.toNat_ofNat, Nat.mod_eq_of_lt (by omega), h1, Nat.mod_add_mod]
      simp [Nat.add_assoc]
    · show (q.items + 1).toNat = _
      rw [BitVec.toNat_add, h3]
      simp; omega
    · simp; omega
    · intro i hi
      simp at hi
      show (if (q.tail.toNat + i) % n = q.head.toNat then some x else q.arr ((q.tail.toNat + i) % n)) = _
      rw [h1, ring_add h2 (by omega), ring_add h2 (by omega)]
      by_cases hil : i < l.length
      · have hs := h.slots i hil
        rw [ring_add h2 (by omega)] at hs
        rw [if_neg (by split <;> split <;> omega), hs, List.getElem_append_left hil]
      · obtain rfl : i = l.length := by omega
        rw [if_pos rfl]
        simp

theorem Queue.Rep.pop_nil {n : Nat} {q : Queue α} (h : q.Rep n []) : q.pop n = .ok (none, q) := by
  unfold Queue.pop
  rw [if_pos]
  refine ⟨h.head_tail.2 (.inl rfl), ?_⟩
  apply BitVec.eq_of_toNat_eq
  rw [h.items_eq]; rfl

theorem Queue.Rep.pop_cons {n : Nat} {q : Queue α} {x : α} {l : List α} (h : q.Rep n (x :: l)) (hn : n ≤ 255) :
    ∃ q', q.pop n = .ok (some x, q') ∧ q'.Rep n l := by
  have h1 := h.head_eq
  have h2 := h.tail_lt
  have h3 := h.items_eq
  have h4 := h.len_le
  simp only [List.length_cons] at h1 h3 h4
  have hs := h.slots 0 (by simp)
  rw [Nat.add_zero, Nat.mod_eq_of_lt h2] at hs
  simp at hs
  refine ⟨{ q with arr := fun j => if j = q.tail.toNat then none else q.arr j, items := q.items - 1, tail := BitVec.ofNat 8 ((q.tail.toNat + 1) % n) }, ?_, ?_⟩
  · unfold Queue.pop
    rw [if_neg]
    · simp only [slotRd, slotWr, if_pos h2, ok_bind, hs]
      rw [if_neg (by omega)]; rfl
    · rintro ⟨-, h0⟩
      rw [h0] at h3; simp at h3
  · have hm := Nat.mod_lt (q.tail.toNat + 1) (show n > 0 by omega)
    have ht : (BitVec.ofNat 8 ((q.tail.toNat + 1) % n)).toNat = (q.tail.toNat + 1) % n := by
      rw [BitVec.toNat_ofNat, Nat.mod_eq_of_lt (by omega)]
    refine ⟨by show (BitVec.ofNat 8 _).toNat < n; omega, ?_, ?_, by omega, ?_⟩
    · show q.head.toNat = ((BitVec.ofNat 8 ((q.tail.toNat + 1) % n)).toNat + _) % n
      rw [ht, Nat.mod_add_mod, h1]
      congr 1; omega
    · show (q.items - 1).toNat = _
      rw [BitVec.toNat_sub, h3]
      simp; omega
    · intro i hi
      show (if ((BitVec.ofNat 8 ((q.tail.toNat + 1) % n)).toNat + i) % n = q.tail.toNat then none
        else q.arr (((BitVec.ofNat 8 ((q.tail.toNat + 1) % n)).toNat + i) % n)) = _
      rw [ht, Nat.mod_add_mod, show q.tail.toNat + 1 + i = q.tail.toNat + (i + 1) by omega]
      have := h.slots (i + 1) (by simp; omega)
      rw [this, ring_add h2 (by omega), if_neg (by split <;> omega)]
      simp

theorem Queue.Rep.available {n : Nat} {q : Queue α} {l : List α} (h : q.Rep n l) :
    q.available = !l.isEmpty := by
  have h3 := h.items_eq
  unfold Queue.available
  cases l with
  | nil =>
    have : q.head = q.tail := h.head_tail.2 (.inl rfl)
    simp [this] at h3 ⊢; omega
  | cons x l =>
    simp at h3 ⊢
    right; omega

end Modbus
