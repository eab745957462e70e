import Verif.Model.SlavePdu
import Verif.Proofs.Rtu
import Verif.Spec.Protocol

/-! Generic helper lemmas: loops, 16 bit values, packing. -/

namespace Modbus

open Spec

@[simp] theorem ok_bind {α β : Type} (a : α) (f : α → C β) : ((Except.ok a : C α) >>= f) = f a := rfl
@[simp] theorem error_bind {α β : Type} (e : UB) (f : α → C β) :
    ((Except.error e : C α) >>= f) = .error e := rfl
@[simp] theorem pure_eq {α : Type} (a : α) : (pure a : C α) = .ok a := rfl

/-- Outcome of a loop described by an invariant. -/
def CtlP {σ ρ : Type} (N : σ → Prop) (B : σ → Prop) (R : ρ → Prop) : Ctl σ ρ → Prop
  | .next s => N s
  | .brk s => B s
  | .ret r => R r

theorem forLoop_inv {σ ρ : Type} {body : Nat → σ → C (Ctl σ ρ)} (Inv : Nat → σ → Prop) (B : σ → Prop)
    (R : ρ → Prop) (n i : Nat) (s : σ)
    (hstep : ∀ k s, i ≤ k → k < i + n → Inv k s →
      ∃ c, body k s = .ok c ∧ CtlP (Inv (k + 1)) B R c)
    (h0 : Inv i s) : ∃ c, forLoop body n i s = .ok c ∧ CtlP (Inv (i + n)) B R c := by
  induction n generalizing i s with
  | zero => exact ⟨_, rfl, h0⟩
  | succ n ih =>
    obtain ⟨c, hc, hp⟩ := hstep i s (Nat.le_refl _) (by omega) h0
    cases c with
    | next s' =>
      have := ih (i + 1) s' (fun k s h1 h2 h3 => hstep k s (by omega) (by omega) h3) hp
      rw [show i + 1 + n = i + (n + 1) by omega] at this
      obtain ⟨c, hc', hp'⟩ := this
      exact ⟨c, by simp [forLoop, hc, hc'], hp'⟩
    | brk s' => exact ⟨.brk s', by simp [forLoop, hc], hp⟩
    | ret r => exact ⟨.ret r, by simp [forLoop, hc], hp⟩

theorem u16of_toNat (hi lo : U8) : (u16of hi lo).toNat = word hi lo := by
  unfold u16of word
  have h1 : (hi.setWidth 16 <<< 8 : U16).toNat = hi.toNat * 256 := by
    simp only [BitVec.toNat_shiftLeft, BitVec.toNat_setWidth, Nat.shiftLeft_eq]
    omega
  have h2 : (lo.setWidth 16 : U16).toNat = lo.toNat := by
    simp only [BitVec.toNat_setWidth]; omega
  rw [BitVec.toNat_or, h1, h2, show hi.toNat * 256 = hi.toNat <<< 8 by simp [Nat.shiftLeft_eq],
    ← Nat.shiftLeft_add_eq_or_of_lt (show lo.toNat < 2 ^ 8 by omega)]

theorem word_lt (hi lo : U8) : word hi lo < 65536 := by
  unfold word; omega

theorem hiByte_eq (v : U16) : hiByte v = BitVec.ofNat 8 (v.toNat / 256) := by
  apply BitVec.eq_of_toNat_eq
  simp [hiByte, Nat.shiftRight_eq_div_pow]

theorem loByte_eq (v : U16) : loByte v = BitVec.ofNat 8 v.toNat := by
  unfold loByte
  rw [show (0xFF : U16) = 0x00FF from rfl, lo_mask]
  apply BitVec.eq_of_toNat_eq
  simp

theorem beBytes_eq (v : U16) : beBytes v.toNat = [hiByte v, loByte v] := by
  simp [beBytes, hiByte_eq, loByte_eq]

theorem beBytes_word (hi lo : U8) : beBytes (word hi lo) = [hi, lo] := by
  have h1 := hi.isLt
  have h2 := lo.isLt
  simp only [beBytes, word]
  congr 1
  · apply BitVec.eq_of_toNat_eq
    simp only [BitVec.toNat_ofNat]; omega
  · congr 1
    apply BitVec.eq_of_toNat_eq
    simp only [BitVec.toNat_ofNat]; omega

theorem readU16_ok (b : Buf) {i : Nat} (h : i + 1 < 256) : readU16 b i = .ok (u16of (b i) (b (i + 1))) := by
  simp [readU16, rd_ok b (show i < 256 by omega), rd_ok b h]

theorem writeU16_ok (b : Buf) {i : Nat} (v : U16) (h : i + 1 < 256) :
    writeU16 b i v = .ok ((b.set i (hiByte v)).set (i + 1) (loByte v)) := by
  simp [writeU16, wr_ok _ _ (show i < 256 by omega), wr_ok _ _ h]

theorem coilDinByteCount_toNat (q : U16) (h : q.toNat ≤ 2000) :
    (coilDinByteCount q).toNat = (q.toNat + 7) / 8 := by
  unfold coilDinByteCount
  simp only
  split
  · rw [BitVec.toNat_add]; simp; omega
  · simp; omega

theorem clearLoop_ok (b : Buf) (base n i : Nat) (h : base + i + n ≤ 256) :
    ∃ b', clearLoop b base n i = .ok b' ∧
      ∀ j, b' j = if base + i ≤ j ∧ j < base + i + n then 0 else b j := by
  induction n generalizing b i with
  | zero =>
    refine ⟨b, rfl, fun j => ?_⟩
    rw [if_neg (by omega)]
  | succ n ih =>
    obtain ⟨b', hb, hj⟩ := ih (b.set (base + i) 0) (i + 1) (by omega)
    refine ⟨b', by rw [clearLoop, wr_ok b _ (show base + i < 256 by omega)]; exact hb, fun j => ?_⟩
    rw [hj j, Buf.set_apply]
    by_cases h1 : j = base + i
    · subst h1
      rw [if_neg (by omega), if_pos rfl, if_pos (by omega)]
    · rw [if_neg h1]
      by_cases h2 : base + (i + 1) ≤ j ∧ j < base + (i + 1) + n
      · rw [if_pos h2, if_pos (by omega)]
      · rw [if_neg h2, if_neg (by omega)]

theorem clearStatusBytes_ok (b : Buf) (base n : Nat) (h : base + n ≤ 256) (hn : n < 256) :
    ∃ b', clearStatusBytes b base n = .ok b' ∧ ∀ j, b' j = if base ≤ j ∧ j < base + n then 0 else b j := by
  unfold clearStatusBytes
  rw [if_neg (by omega)]
  simpa using clearLoop_ok b base n 0 (by omega)

/-! Packing. -/

theorem packBits_length (vals : List Bool) : (packBits vals).length = (vals.length + 7) / 8 := by
  simp [packBits]

theorem packByte_getLsbD (f : Nat → Bool) (j : Nat) (hj : j < 8) :
    (BitVec.ofNat 8 (((List.range 8).map fun j => if f j then 2 ^ j else 0).sum)).getLsbD j = f j := by
  have key : ∀ b0 b1 b2 b3 b4 b5 b6 b7 : Bool, ∀ j : Fin 8,
    (BitVec.ofNat 8 ((if b0 then 1 else 0) + ((if b1 then 2 else 0) + ((if b2 then 4 else 0) +
      ((if b3 then 8 else 0) + ((if b4 then 16 else 0) + ((if b5 then 32 else 0) +
      ((if b6 then 64 else 0) + (if b7 then 128 else 0))))))))).getLsbD j.val =
    [b0, b1, b2, b3, b4, b5, b6, b7].getD j.val false := by decide +kernel
  have := key (f 0) (f 1) (f 2) (f 3) (f 4) (f 5) (f 6) (f 7) ⟨j, hj⟩
  have e : (List.range 8) = [0, 1, 2, 3, 4, 5, 6, 7] := by decide
  rw [e]
  simp only [List.map_cons, List.map_nil, List.sum_cons, List.sum_nil, Nat.reducePow, Nat.add_zero]
  rw [this]
  have : j = 0 ∨ j = 1 ∨ j = 2 ∨ j = 3 ∨ j = 4 ∨ j = 5 ∨ j = 6 ∨ j = 7 := by omega
  rcases this with rfl | rfl | rfl | rfl | rfl | rfl | rfl | rfl <;> rfl

theorem packBits_getElem (vals : List Bool) (k : Nat) (hk : k < (packBits vals).length) (j : Nat) (hj : j < 8) :
    (packBits vals)[k].getLsbD j = vals.getD (8 * k + j) false := by
  simp only [packBits, List.getElem_map, List.getElem_range]
  exact packByte_getLsbD (fun j => vals.getD (8 * k + j) false) j hj

theorem u8_ext {a b : U8} (h : ∀ j, j < 8 → a.getLsbD j = b.getLsbD j) : a = b := by
  ext i hi
  simpa [← BitVec.getLsbD_eq_getElem] using h i hi

theorem shiftedBit (b : Bool) (k j : Nat) (hk : k < 8) (hj : j < 8) :
    (BitVec.ofInt 8 ((if b then (1 : Int) else 0) * 2 ^ k)).getLsbD j = (b && decide (j = k)) := by
  have : ∀ b : Bool, ∀ k j : Fin 8,
    (BitVec.ofInt 8 ((if b then (1 : Int) else 0) * 2 ^ k.val)).getLsbD j.val = (b && decide (j.val = k.val)) := by
    decide +kernel
  exact this b ⟨k, hk⟩ ⟨j, hj⟩

theorem maskBit (x : U8) (k : Nat) (hk : k < 8) : (x &&& BitVec.ofNat 8 (2 ^ k) ≠ 0) ↔ x.getLsbD k = true := by
  have : ∀ x : U8, ∀ k : Fin 8, (x &&& BitVec.ofNat 8 (2 ^ k.val) ≠ 0) ↔ x.getLsbD k.val = true := by
    decide +kernel
  exact this x ⟨k, hk⟩

end Modbus
