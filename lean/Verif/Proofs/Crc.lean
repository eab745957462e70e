import Verif.Model.Rtu
import Verif.Spec.Crc

/-! Helper lemmas about the CRC: the table is right, the register is linear and injective. -/

namespace Modbus

open Spec

theorem crcTable_length : crcTable.length = 256 := by decide +kernel

theorem shift1_zero : shift1 0 = 0 := by decide

theorem shift1_eq (r : U16) :
    shift1 r = (r >>> 1) ^^^ (if r.getLsbD 0 then 0xA001#16 else 0#16) := by
  unfold shift1; split <;> simp

theorem ushr_xor (a b : U16) (n : Nat) : (a ^^^ b) >>> n = (a >>> n) ^^^ (b >>> n) := by
  ext i; simp

theorem xor_swap4 {w : Nat} (a b c d : BitVec w) : (a ^^^ b) ^^^ (c ^^^ d) = (a ^^^ c) ^^^ (b ^^^ d) := by
  ac_rfl

theorem shift1_xor (a b : U16) : shift1 (a ^^^ b) = shift1 a ^^^ shift1 b := by
  rw [shift1_eq, shift1_eq, shift1_eq, ushr_xor, BitVec.getLsbD_xor]
  cases a.getLsbD 0 <;> cases b.getLsbD 0 <;> simp only [Bool.xor_false, Bool.xor_true, Bool.not_true,
    Bool.not_false, if_true, if_false, Bool.false_eq_true, BitVec.xor_zero]
  · rw [BitVec.xor_assoc]
  · ac_rfl
  · rw [xor_swap4, BitVec.xor_self, BitVec.xor_zero]

theorem shift1_eq_zero {r : U16} (h : shift1 r = 0) : r = 0 := by
  rw [shift1_eq] at h
  cases h0 : r.getLsbD 0
  · rw [h0] at h
    simp at h
    ext i hi
    rcases i with _ | i
    · simpa [← BitVec.getLsbD_eq_getElem] using h0
    · have := congrArg (fun x : U16 => x.getLsbD i) h
      simp [Nat.add_comm 1 i] at this
      simpa [← BitVec.getLsbD_eq_getElem] using this
  · rw [h0] at h
    have := congrArg (fun x : U16 => x.getLsbD 15) h
    simp at this

/-- `n` zero bits fed. -/
def shiftN : Nat → U16 → U16
  | 0, r => r
  | n + 1, r => shiftN n (shift1 r)

theorem shiftN_succ' (n : Nat) (r : U16) : shiftN (n + 1) r = shift1 (shiftN n r) := by
  induction n generalizing r with
  | zero => rfl
  | succ n ih => rw [shiftN, ih]; rfl

theorem shiftN_add (m n : Nat) (r : U16) : shiftN (m + n) r = shiftN n (shiftN m r) := by
  induction n with
  | zero => rfl
  | succ n ih => rw [← Nat.add_assoc, shiftN_succ', shiftN_succ', ih]

theorem shiftN_xor (n : Nat) (a b : U16) : shiftN n (a ^^^ b) = shiftN n a ^^^ shiftN n b := by
  induction n generalizing a b with
  | zero => rfl
  | succ n ih => rw [shiftN, shift1_xor, ih]; rfl

theorem shiftN_zero (n : Nat) : shiftN n 0 = 0 := by
  induction n with
  | zero => rfl
  | succ n ih => rw [shiftN, shift1_zero, ih]

theorem shiftN_eq_zero {n : Nat} {r : U16} (h : shiftN n r = 0) : r = 0 := by
  induction n generalizing r with
  | zero => exact h
  | succ n ih => exact shift1_eq_zero (ih h)

theorem xor_eq_zero {w : Nat} {a b : BitVec w} (h : a ^^^ b = 0#w) : a = b := by
  have : a ^^^ b ^^^ b = 0#w ^^^ b := by rw [h]
  simpa [BitVec.xor_assoc] using this

theorem shiftN_inj {n : Nat} {a b : U16} (h : shiftN n a = shiftN n b) : a = b := by
  apply xor_eq_zero
  apply shiftN_eq_zero (n := n)
  rw [shiftN_xor, h]; simp

/-- A bit as a register value. -/
def bit16 (c : Bool) : U16 := if c then 1#16 else 0#16

theorem feed_cons (r : U16) (c : Bool) (cs : List Bool) :
    feed r (c :: cs) = feed (shift1 (r ^^^ bit16 c)) cs := rfl

theorem feed_append (r : U16) (xs ys : List Bool) : feed r (xs ++ ys) = feed (feed r xs) ys := by
  simp [feed]

theorem bit16_xor (a b : Bool) : bit16 (a ^^ b) = bit16 a ^^^ bit16 b := by
  cases a <;> cases b <;> decide

/-- The register is linear in initial value and data. -/
theorem feed_xor (r s : U16) (xs ys : List Bool) (h : xs.length = ys.length) :
    feed (r ^^^ s) (List.zipWith xor xs ys) = feed r xs ^^^ feed s ys := by
  induction xs generalizing r s ys with
  | nil => cases ys with
    | nil => rfl
    | cons => simp at h
  | cons x xs ih => cases ys with
    | nil => simp at h
    | cons y ys =>
      simp only [List.zipWith_cons_cons, feed_cons]
      rw [bit16_xor, xor_swap4, shift1_xor, ih _ _ _ (by simpa using h)]

theorem feed_zeros (r : U16) (n : Nat) : feed r (List.replicate n false) = shiftN n r := by
  induction n generalizing r with
  | zero => rfl
  | succ n ih =>
    rw [List.replicate_succ, feed_cons, ih]
    simp [bit16, shiftN]

theorem zipWith_xor_false (xs : List Bool) :
    List.zipWith xor (List.replicate xs.length false) xs = xs := by
  induction xs with
  | nil => rfl
  | cons x xs ih => simp [List.replicate_succ, ih]

theorem feed_split (r : U16) (xs : List Bool) : feed r xs = shiftN xs.length r ^^^ feed 0 xs := by
  have := feed_xor r 0 (List.replicate xs.length false) xs (by simp)
  rw [zipWith_xor_false] at this
  simpa [feed_zeros] using this

theorem bitsOf_length (b : U8) : (bitsOf b).length = 8 := rfl

theorem byte_table : ∀ b : U8,
    feed 0 (bitsOf b) = crcTable.getD b.toNat 0 ∧
    shiftN 8 (b.setWidth 16) = crcTable.getD b.toNat 0 ∧
    shiftN 8 (b.setWidth 16 <<< 8) = b.setWidth 16 := by decide +kernel

theorem split16 (r : U16) :
    r = ((r >>> 8).setWidth 8 : U8).setWidth 16 <<< 8 ^^^ (r.setWidth 8 : U8).setWidth 16 := by
  ext i hi
  simp only [BitVec.getElem_xor, BitVec.getElem_shiftLeft, BitVec.getElem_setWidth,
    BitVec.getLsbD_setWidth, BitVec.getLsbD_ushiftRight]
  by_cases h : i < 8
  · simp [h, ← BitVec.getLsbD_eq_getElem]
  · have e : 8 + (i - 8) = i := by omega
    simp [h, e, show i - 8 < 8 by omega, ← BitVec.getLsbD_eq_getElem]

theorem ushr8 (r : U16) : r >>> 8 = ((r >>> 8).setWidth 8 : U8).setWidth 16 := by
  ext i hi
  simp only [BitVec.getElem_ushiftRight, BitVec.getElem_setWidth,
    BitVec.getLsbD_setWidth, BitVec.getLsbD_ushiftRight]
  by_cases h : i < 8
  · simp [h]
  · simp [h, BitVec.getLsbD_of_ge r (8 + i) (by omega)]

/-- The table step equals eight bit steps. -/
theorem crcByte_eq (r : U16) (b : U8) : crcByte r b = feed r (bitsOf b) := by
  rw [feed_split, bitsOf_length]
  have hb := byte_table b
  have hl := byte_table (r.setWidth 8)
  have hh := byte_table ((r >>> 8).setWidth 8)
  have hx := byte_table (b ^^^ r.setWidth 8)
  conv => rhs; rw [split16 r, shiftN_xor, hh.2.2, ← ushr8, hb.1, ← hb.2.1, BitVec.xor_assoc, ← shiftN_xor]
  unfold crcByte
  congr 1
  simp only
  rw [← hx.2.1, BitVec.setWidth_xor, BitVec.xor_comm (b.setWidth 16)]

theorem foldl_crcByte (r : U16) (bs : List U8) : bs.foldl crcByte r = feed r (bitsOfList bs) := by
  induction bs generalizing r with
  | nil => rfl
  | cons b bs ih =>
    rw [List.foldl_cons, ih, crcByte_eq]
    simp [bitsOfList, feed_append]

theorem crcList_eq (bs : List U8) : crcList bs = crc16 bs := foldl_crcByte _ _

theorem Buf.bytes_succ (b : Buf) (pos n : Nat) :
    b.bytes pos (n + 1) = b pos :: b.bytes (pos + 1) n := by
  simp only [Buf.bytes, List.range_succ_eq_map, List.map_cons, Nat.add_zero, List.map_map, List.cons.injEq, true_and]
  apply List.map_congr_left
  intro i _
  simp; congr 1; omega

theorem crcLoop_eq (b : Buf) (n pos : Nat) (r : U16) (h : pos + n ≤ 256) :
    crcLoop b n pos r = .ok ((b.bytes pos n).foldl crcByte r) := by
  induction n generalizing pos r with
  | zero => rfl
  | succ n ih =>
    rw [crcLoop, Buf.bytes_succ]
    have : pos < 256 := by omega
    simp only [rd, this, if_true, bind, Except.bind]
    rw [ih _ _ (by omega)]
    rfl

theorem calculateCRC_eq (b : Buf) (n : Nat) (h : n ≤ 256) :
    calculateCRC b n = .ok (crc16 (b.bytes 0 n)) := by
  rw [calculateCRC, crcLoop_eq _ _ _ _ (by omega), foldl_crcByte]; rfl

/-- Feeding two bytes. -/
theorem feed_two (r : U16) (a b : U8) :
    feed r (bitsOf a ++ bitsOf b) = shiftN 16 (r ^^^ (a.setWidth 16 ^^^ b.setWidth 16 <<< 8)) := by
  have ha := byte_table a
  have hb := byte_table b
  rw [feed_append, feed_split _ (bitsOf b), feed_split _ (bitsOf a), bitsOf_length, bitsOf_length,
    ha.1, hb.1, ← ha.2.1, ← hb.2.1, shiftN_add 8 8, shiftN_xor 8, shiftN_xor 8,
    shiftN_xor 8 (a.setWidth 16), hb.2.2, ← shiftN_xor, ← shiftN_xor, BitVec.xor_assoc]

theorem feed_two_zero (r : U16) (a b : U8) :
    feed r (bitsOf a ++ bitsOf b) = 0 ↔ a = r.setWidth 8 ∧ b = (r >>> 8).setWidth 8 := by
  rw [feed_two]
  constructor
  · intro h
    have := xor_eq_zero (shiftN_eq_zero h)
    subst this
    constructor
    · ext i hi
      simp
    · ext i hi
      simp [hi]
      simp [show i < 16 by omega, show 8 + i < 16 by omega]
  · rintro ⟨rfl, rfl⟩
    conv => lhs; rw [BitVec.xor_comm (BitVec.setWidth 16 _), ← split16 r]
    rw [BitVec.xor_self]
    exact shiftN_zero 16

theorem crc16_append (bs : List U8) (a b : U8) :
    crc16 (bs ++ [a, b]) = feed (crc16 bs) (bitsOf a ++ bitsOf b) := by
  simp [crc16, bitsOfList, feed_append]

/-- No byte string shorter than two bytes has CRC zero. -/
theorem crc16_short : crc16 [] ≠ 0 ∧ ∀ b : U8, crc16 [b] ≠ 0 := by decide +kernel

theorem crc16_eq_zero_iff (f : List U8) : crc16 f = 0 ↔ CrcCorrect f := by
  constructor
  · intro h
    have hl : 2 ≤ f.length := by
      match f, h with
      | [], h => exact absurd h crc16_short.1
      | [b], h => exact absurd h (crc16_short.2 b)
      | _ :: _ :: _, _ => simp
    obtain ⟨body, a, b, rfl⟩ : ∃ body a b, f = body ++ [a, b] := by
      refine ⟨f.take (f.length - 2), f[f.length - 2], f[f.length - 1], ?_⟩
      conv => lhs; rw [← List.take_append_drop (f.length - 2) f]
      congr 1
      apply List.ext_getElem
      · simp; omega
      · intro i h1 h2
        simp at h2
        simp only [List.getElem_drop]
        have : i = 0 ∨ i = 1 := by omega
        rcases this with rfl | rfl
        · simp
        · simp; congr 1; omega
    rw [crc16_append, feed_two_zero] at h
    exact ⟨body, by rw [h.1, h.2]⟩
  · rintro ⟨body, rfl⟩
    rw [crc16_append, feed_two_zero]; simp

/-! Error detection. -/

theorem bitsOfList_length (f : List U8) : (bitsOfList f).length = 8 * f.length := by
  induction f with
  | nil => rfl
  | cons a f ih =>
    simp only [bitsOfList, List.flatMap_cons, List.length_append, bitsOf_length, List.length_cons] at *
    omega

theorem feed_err (f g : List U8) (h : f.length = g.length) (hf : crc16 f = 0) :
    crc16 g = feed 0 (errBits f g) := by
  have := feed_xor 0xFFFF#16 0xFFFF#16 (bitsOfList f) (bitsOfList g)
    (by simp [bitsOfList_length, h])
  unfold errBits
  rw [BitVec.xor_self] at this
  rw [BitVec.ofNat_eq_ofNat, this]
  show _ = crc16 f ^^^ crc16 g
  rw [hf]; simp

/-- xor of the lowest `n` register bits. -/
def parityN : Nat → U16 → Bool
  | 0, _ => false
  | n + 1, r => parityN n r ^^ r.getLsbD n

/-- xor of all register bits. -/
def parity (r : U16) : Bool := parityN 16 r

theorem parityN_xor (n : Nat) (a b : U16) : parityN n (a ^^^ b) = (parityN n a ^^ parityN n b) := by
  induction n with
  | zero => rfl
  | succ n ih => simp only [parityN, ih, BitVec.getLsbD_xor, Bool.xor_assoc, Bool.xor_left_comm (parityN n b)]

theorem parity_xor (a b : U16) : parity (a ^^^ b) = (parity a ^^ parity b) := parityN_xor _ _ _

theorem parityN_ushr (n : Nat) (r : U16) :
    (r.getLsbD 0 ^^ parityN n (r >>> 1)) = parityN (n + 1) r := by
  induction n with
  | zero => simp [parityN]
  | succ n ih =>
    rw [parityN, ← Bool.xor_assoc, ih, parityN.eq_def (n + 1 + 1)]
    simp [Nat.add_comm 1 n]

theorem parity_shift1 (r : U16) : parity (shift1 r) = parity r := by
  rw [shift1_eq, parity_xor]
  have h1 : (r.getLsbD 0 ^^ parity (r >>> 1)) = parity r := by
    rw [parity, parityN_ushr, parityN]
    simp [parity]
  rw [← h1]
  cases r.getLsbD 0
  · simp [parity, parityN]
  · have : parity (0xA001#16) = true := by decide
    simp [this]

theorem parity_feed (r : U16) (e : List Bool) :
    parity (feed r e) = (parity r ^^ decide (e.count true % 2 = 1)) := by
  induction e generalizing r with
  | nil => simp [feed]
  | cons c e ih =>
    rw [feed_cons, ih, parity_shift1, parity_xor, List.count_cons]
    have : parity (bit16 c) = c := by cases c <;> decide
    rw [this]
    cases c
    · simp
    · simp only [beq_self_eq_true, if_true, Bool.xor_assoc]
      congr 1
      rcases Nat.mod_two_eq_zero_or_one (e.count true) with h | h
      · simp [h, Nat.add_mod]
      · simp [h, Nat.add_mod]

/-- Value of up to 16 bits, first bit least significant. -/
def bitsVal : List Bool → U16
  | [] => 0
  | c :: cs => bit16 c ^^^ (bitsVal cs <<< 1)

theorem getLsbD_bit16 (c : Bool) (i : Nat) : (bit16 c).getLsbD i = (decide (i = 0) && c) := by
  cases c <;> simp [bit16] 

theorem getLsbD_bitsVal (cs : List Bool) (i : Nat) (hi : i < 16) :
    (bitsVal cs).getLsbD i = cs.getD i false := by
  induction cs generalizing i with
  | nil => simp [bitsVal]
  | cons c cs ih =>
    simp only [bitsVal, BitVec.getLsbD_xor, getLsbD_bit16, BitVec.getLsbD_shiftLeft]
    rcases i with _ | i
    · simp
    · simp [ih i (by omega), hi]

theorem shift1_shl (v : U16) (h : v.getLsbD 15 = false) : shift1 (v <<< 1) = v := by
  rw [shift1_eq]
  have : (v <<< 1).getLsbD 0 = false := by simp
  rw [this]
  simp
  ext i hi
  simp [Nat.add_comm 1 i]
  by_cases h15 : i = 15
  · subst h15; simp [← BitVec.getLsbD_eq_getElem, h]
  · rw [BitVec.getLsbD_eq_getElem hi]
    have : i + 1 < 16 := by omega
    simp [this]

theorem feed_short (r : U16) (cs : List Bool) (h : cs.length ≤ 16) :
    feed r cs = shiftN cs.length (r ^^^ bitsVal cs) := by
  induction cs generalizing r with
  | nil => simp [feed, shiftN, bitsVal]
  | cons c cs ih =>
    simp at h
    rw [feed_cons, ih _ (by omega), List.length_cons, shiftN, bitsVal, ← BitVec.xor_assoc,
      shift1_xor (r ^^^ bit16 c), shift1_shl]
    rw [getLsbD_bitsVal _ _ (by omega)]
    simp; rw [List.getElem?_eq_none (by omega)]; rfl

theorem feed_short_ne (cs : List Bool) (h : cs.length ≤ 16) (hc : true ∈ cs) : feed 0 cs ≠ 0 := by
  intro h0
  rw [feed_short _ _ h] at h0
  have := shiftN_eq_zero h0
  obtain ⟨i, hi, e⟩ := List.getElem_of_mem hc
  have h2 := congrArg (fun x : U16 => x.getLsbD i) this
  simp [getLsbD_bitsVal _ _ (show i < 16 by omega), List.getElem?_eq_getElem hi, e] at h2

theorem feed_burst (i j : Nat) (w : List Bool) (h : w.length ≤ 16) (hc : true ∈ w) :
    feed 0 (List.replicate i false ++ w ++ List.replicate j false) ≠ 0 := by
  rw [feed_append, feed_append, feed_zeros, feed_zeros, shiftN_zero]
  intro h0
  exact feed_short_ne w h hc (shiftN_eq_zero h0)

theorem exists_two_of_count (e : List Bool) (h : e.count true = 2) :
    ∃ i d j, e = List.replicate i false ++ true :: (List.replicate d false ++ true :: List.replicate j false) := by
  have key : ∀ e : List Bool, e.count true = 0 → e = List.replicate e.length false := by
    intro e he
    apply List.eq_replicate_of_mem
    intro b hb
    cases b
    · rfl
    · exact absurd hb (List.count_eq_zero.mp he)
  have one : ∀ e : List Bool, e.count true = 1 →
      ∃ d j, e = List.replicate d false ++ true :: List.replicate j false := by
    intro e
    induction e with
    | nil => simp
    | cons c e ih =>
      intro he
      cases c
      · simp at he
        obtain ⟨d, j, rfl⟩ := ih he
        exact ⟨d + 1, j, by simp [List.replicate_succ]⟩
      · simp at he
        exact ⟨0, e.length, by simpa using key e (by simpa using he)⟩
  induction e with
  | nil => simp at h
  | cons c e ih =>
    cases c
    · simp at h
      obtain ⟨i, d, j, rfl⟩ := ih h
      exact ⟨i + 1, d, j, by simp [List.replicate_succ]⟩
    · simp at h
      obtain ⟨d, j, rfl⟩ := one e h
      exact ⟨0, d, j, by simp⟩

theorem burst_split (e : List Bool) (p : Nat)
    (h : ∀ k, e.getD k false = true → p ≤ k ∧ k < p + 16) (hne : true ∈ e) :
    ∃ i j w, e = List.replicate i false ++ w ++ List.replicate j false ∧ w.length ≤ 16 ∧ true ∈ w := by
  have h1 : e.take p = List.replicate (e.take p).length false := by
    apply List.eq_replicate_of_mem
    intro b hb
    obtain ⟨i, hi, rfl⟩ := List.getElem_of_mem hb
    have hi' : i < p ∧ i < e.length := by simp at hi; omega
    cases hv : (e.take p)[i] with
    | false => rfl
    | true =>
      have := h i (by
        rw [List.getD_eq_getElem?_getD, List.getElem?_eq_getElem hi'.2]
        simpa using hv)
      omega
  have h2 : (e.drop p).drop 16 = List.replicate ((e.drop p).drop 16).length false := by
    apply List.eq_replicate_of_mem
    intro b hb
    obtain ⟨i, hi, rfl⟩ := List.getElem_of_mem hb
    cases hv : ((e.drop p).drop 16)[i] with
    | false => rfl
    | true =>
      simp at hi
      have := h (p + 16 + i) (by
        rw [List.getD_eq_getElem?_getD, List.getElem?_eq_getElem (by omega)]
        simpa [Nat.add_assoc, Nat.add_comm, Nat.add_left_comm] using hv)
      omega
  have h3 : e = e.take p ++ (e.drop p).take 16 ++ (e.drop p).drop 16 := by
    rw [List.append_assoc, List.take_append_drop, List.take_append_drop]
  refine ⟨(e.take p).length, ((e.drop p).drop 16).length, (e.drop p).take 16, ?_, ?_, ?_⟩
  · rw [← h1, ← h2]; exact h3
  · simp; omega
  · rw [h3, h1, h2] at hne
    simpa using hne

/-- `shift1^d 1 ≠ 1` for `d = 1..n`, computed. -/
def orbitFree : Nat → U16 → Bool
  | 0, _ => true
  | n + 1, r => let r' := shift1 r; (r' != 1) && orbitFree n r'

theorem orbitFree_spec (n : Nat) (r : U16) (h : orbitFree n r = true) (d : Nat) (h1 : 1 ≤ d) (h2 : d ≤ n) :
    shiftN d r ≠ 1 := by
  induction n generalizing r d with
  | zero => omega
  | succ n ih =>
    simp only [orbitFree, Bool.and_eq_true, bne_iff_ne] at h
    rcases d with _ | d
    · omega
    · rcases Nat.eq_zero_or_pos d with rfl | hd
      · exact h.1
      · exact ih _ h.2 d hd (by omega)

theorem orbit_2048 : orbitFree 2048 1 = true := by decide +kernel

theorem feed_two_flips (i d j : Nat) (hd : d < 2048) :
    feed 0 (List.replicate i false ++ true :: (List.replicate d false ++ true :: List.replicate j false)) ≠ 0 := by
  rw [feed_append, feed_zeros, shiftN_zero, feed_cons, feed_append, feed_zeros, feed_cons, feed_zeros]
  intro h0
  have h1 := xor_eq_zero (shift1_eq_zero (shiftN_eq_zero h0))
  have h2 : shiftN (d + 1) 1 = 1 := by
    rw [shiftN]; simpa [bit16] using h1
  exact orbitFree_spec 2048 1 orbit_2048 (d + 1) (by omega) (by omega) h2

end Modbus
