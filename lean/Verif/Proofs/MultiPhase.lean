import Verif.Spec.MultiBus
import Verif.Proofs.BusChain

/-! A transmission on a line with several stations. -/

namespace Modbus

open Spec

section
variable {δ : Type} {c0 c s t15 t35 lat e L : Nat} {N : δ → Station} {via : δ → δ → Nat → Nat} {st q : δ → Nat} {S : δ} {a z : Nat}

/-- Station `S` transmits a frame with the bytes written from event `a` to event `z`. Station `d` is watched from event `st d` on; of what it writes, that from
event `q d` on counts. Until time `L` nobody writes without a reason. -/
structure Phase (c0 c s t15 t35 lat e L : Nat) (N : δ → Station) (via : δ → δ → Nat → Nat) (st q : δ → Nat) (S : δ) (a z : Nat) : Prop where
  med : Medium c0 c s t15 N via
  mono : ∀ d m n, m ≤ n → (N d).time m ≤ (N d).time n
  qS : ∀ n b, q S ≤ n → (N S).writes n b → a ≤ n
  az : a ≤ z
  wz : ∃ b, (N S).writes z b
  next : ∀ n b, a ≤ n → n < z → (N S).writes n b → ∃ m b', n < m ∧ m ≤ z ∧ (N S).writes m b' ∧ (∀ i b', n < i → i < m → ¬ (N S).writes i b') ∧
    (N S).time m ≤ (N S).time n + e
  inner : ∀ n, a < n → n ≤ z → ¬ (N S).sends n
  src : ∀ l d n b, d ≠ l → (N d).writes n b → n < q d → via d l n < st l
  old : ∀ d n b, d ≠ S → n < q d → (N d).writes n b → (N d).time n + c ≤ (N S).time a
  into : ∀ l n b, S ≠ l → a ≤ n → n ≤ z → (N S).writes n b → ¬ Clash c N S n → st l ≤ via S l n
  cause : ∀ l m, (N l).timer m → st l ≤ m → ∃ k b, st l ≤ k ∧ k < m ∧ (N l).gets k b ∧ (N l).time k + t35 ≤ (N l).time m ∧
    ∀ i b, k < i → i < m → ¬ (N l).gets i b
  must : ∀ l k b, (N l).gets k b → ∃ n, k < n ∧ ((∃ b, (N l).gets n b) ∨ (N l).timer n) ∧ (N l).time n ≤ (N l).time k + t35 + lat
  excl : ∀ l m b, (N l).timer m → ¬ (N l).gets m b
  one : ∀ l k b b', (N l).gets k b → (N l).gets k b' → b = b'
  why : ∀ d n b, d ≠ S → q d ≤ n → (N d).writes n b → L ≤ (N d).time n ∨ ∃ m, st d ≤ m ∧ m < n ∧ (N d).timer m
  t15t : t15 < t35
  meet : e + c ≤ c0 + t35
  fast : (N S).time z + c ≤ L

/-- Where a byte comes from. -/
theorem Phase.source (P : Phase c0 c s t15 t35 lat e L N via st q S a z) {l : δ} {k : Nat} {b : U8} (hk : st l ≤ k) (hb : (N l).gets k b) :
    ∃ d n b', d ≠ l ∧ (N d).writes n b' ∧ via d l n = k ∧ (N d).time n + c0 ≤ (N l).time k ∧ q d ≤ n := by
  obtain ⟨d, n, b', h1, h2, h3, h4, -⟩ := P.med.only l k b hb
  refine ⟨d, n, b', h1, h2, h3, h4, ?_⟩
  refine Classical.byContradiction fun h => ?_
  have := P.src l d n b' h1 h2 (by omega)
  omega

theorem Phase.lt_of_time (P : Phase c0 c s t15 t35 lat e L N via st q S a z) {l : δ} {m n : Nat} (h : (N l).time m < (N l).time n) : m < n := by
  refine Classical.byContradiction fun h' => ?_
  have := P.mono l n m (by omega)
  omega

/-- No clash so far with what others write. -/
theorem Phase.clear_if (P : Phase c0 c s t15 t35 lat e L N via st q S a z) {n : Nat} (h1 : a ≤ n) (h2 : n ≤ z)
    (h : ∀ d n' b, d ≠ S → q d ≤ n' → (N d).writes n' b → (∃ m, st d ≤ m ∧ m < n' ∧ (N d).timer m) → (N d).time n' < (N S).time n + c → False) :
    ¬ Clash c N S n := by
  rintro ⟨d, n', b', g1, g2, g3, g4⟩
  rcases Nat.lt_or_ge n' (q d) with h' | h'
  · have := P.old d n' b' g1 h' g2
    have := P.mono S a n h1
    omega
  · rcases P.why d n' b' g1 h' g2 with g | g
    · have := P.mono S n z h2
      have := P.fast
      omega
    · exact h d n' b' g1 h' g2 g g3

/-- Nobody has 3.5 characters of silence before the end of the transmission. -/
theorem Phase.timer_late (P : Phase c0 c s t15 t35 lat e L N via st q S a z) (t : Nat) : ∀ l m, (N l).time m = t → (N l).timer m → st l ≤ m →
    (N S).time z + c0 + t35 ≤ (N l).time m ∨ L ≤ (N l).time m := by
  induction t using Nat.strongRecOn with
  | ind t ih =>
    intro l m ht hm hst
    refine Classical.byContradiction fun hcon => ?_
    have c1 : ¬ (N S).time z + c0 + t35 ≤ (N l).time m := fun h => hcon (.inl h)
    have c2 : ¬ L ≤ (N l).time m := fun h => hcon (.inr h)
    have hmeet := P.meet
    have ht15 := P.t15t
    obtain ⟨k, b, k1, k2, k3, k4, k5⟩ := P.cause l m hm hst
    obtain ⟨d, n, b', g1, g2, g3, g4, g5⟩ := P.source k1 k3
    have hrec : ∀ d' n', d' ≠ S → (∃ m', st d' ≤ m' ∧ m' < n' ∧ (N d').timer m') → (N d').time n' < (N l).time m →
        (N S).time z + c0 + t35 ≤ (N d').time n' ∨ L ≤ (N d').time n' := by
      rintro d' n' - ⟨m', m1, m2, m3⟩ hlt
      have h1 := P.mono d' m' n' (by omega)
      rcases ih ((N d').time m') (by omega) d' m' rfl m3 m1 with h | h
      · exact .inl (by omega)
      · exact .inr (by omega)
    by_cases hd : d = S
    · subst hd
      replace g5 := P.qS n b' g5 g2
      rcases Nat.lt_or_ge n z with hz | hz
      · obtain ⟨n', b'', n1, n2, n3, n4, n5⟩ := P.next n b' g5 hz g2
        have hnn := P.mono d n n' (by omega)
        have hnz := P.mono d n' z n2
        have clr : ∀ n0, a ≤ n0 → n0 ≤ n' → ¬ Clash c N d n0 := by
          intro n0 h0 h0'
          have hn0 := P.mono d n0 n' h0'
          refine P.clear_if h0 (by omega) fun d' n'' b0 j1 j2 j3 j4 j5 => ?_
          rcases Nat.lt_or_ge ((N d').time n'') ((N l).time m) with h | h
          · have := P.fast
            rcases hrec d' n'' j1 j4 h with h' | h' <;> omega
          · omega
        have o := P.med.order d l n n' b' b'' g1 n1 g2 n3 (clr n g5 (by omega)) (clr n' (by omega) (Nat.le_refl _))
        have tg := P.med.together d l n n' b' b'' g1 n1 g2 n3 n4 (P.inner n' (by omega) n2) (clr n g5 (by omega)) (clr n' (by omega) (Nat.le_refl _))
        have ar := (P.med.arrives d l n' b'' g1 n3 (clr n' (by omega) (Nat.le_refl _))).1
        rw [g3] at o tg
        exact k5 _ _ o (P.lt_of_time (l := l) (by omega)) ar
      · have := P.mono d z n hz
        omega
    · rcases P.why d n b' hd g5 g2 with h | h
      · omega
      · rcases hrec d n hd h (by omega) with h' | h' <;> omega

/-- What others write comes after the transmission. -/
theorem Phase.write_late (P : Phase c0 c s t15 t35 lat e L N via st q S a z) {d : δ} {n : Nat} {b : U8} (hd : d ≠ S) (hq : q d ≤ n) (hb : (N d).writes n b) :
    (N S).time z + c0 + t35 ≤ (N d).time n ∨ L ≤ (N d).time n := by
  rcases P.why d n b hd hq hb with h | ⟨m, m1, m2, m3⟩
  · exact .inr h
  · have := P.mono d m n (by omega)
    rcases P.timer_late _ d m rfl m3 m1 with h | h
    · exact .inl (by omega)
    · exact .inr (by omega)

/-- The transmission meets nothing else. -/
theorem Phase.clear (P : Phase c0 c s t15 t35 lat e L N via st q S a z) {n : Nat} (h1 : a ≤ n) (h2 : n ≤ z) : ¬ Clash c N S n := by
  refine P.clear_if h1 h2 fun d n' b g1 g2 g3 _ g4 => ?_
  have := P.mono S n z h2
  have := P.fast
  have := P.meet
  rcases P.write_late g1 g2 g3 with h | h <;> omega

/-- A later transmission of the same station has a reason, too. -/
def WhyS (L : Nat) (N : δ → Station) (st : δ → Nat) (S : δ) (z : Nat) : Prop :=
  ∀ n b, z < n → (N S).writes n b → L ≤ (N S).time n ∨ ∃ m, st S ≤ m ∧ m < n ∧ (N S).timer m

theorem Phase.timer_after (P : Phase c0 c s t15 t35 lat e L N via st q S a z) (hS : WhyS L N st S z) {l' : δ} (hl' : S ≠ l') (t : Nat) :
    ∀ l m, (N l).time m = t → (N l).timer m → st l ≤ m → (N l').time (via S l' z) + t35 ≤ (N l).time m + s ∨ L ≤ (N l).time m := by
  induction t using Nat.strongRecOn with
  | ind t ih =>
    intro l m ht hm hst
    have ht15 := P.t15t
    obtain ⟨bz, hbz⟩ := P.wz
    obtain ⟨k, b, k1, k2, k3, k4, k5⟩ := P.cause l m hm hst
    obtain ⟨d, n, b', g1, g2, g3, g4, g5⟩ := P.source k1 k3
    have hrec : (∃ m', st d ≤ m' ∧ m' < n ∧ (N d).timer m') →
        (N l').time (via S l' z) + t35 ≤ (N l).time m + s ∨ L ≤ (N l).time m := by
      rintro ⟨m', m1, m2, m3⟩
      have h1 := P.mono d m' n (by omega)
      rcases ih ((N d).time m') (by omega) d m' rfl m3 m1 with h | h
      · exact .inl (by omega)
      · exact .inr (by omega)
    by_cases hd : d = S
    · subst hd
      replace g5 := P.qS n b' g5 g2
      rcases Nat.lt_trichotomy n z with hz | hz | hz
      · exfalso
        obtain ⟨n', b'', n1, n2, n3, n4, n5⟩ := P.next n b' g5 hz g2
        have o := P.med.order d l n n' b' b'' g1 n1 g2 n3 (P.clear g5 (by omega)) (P.clear (by omega) n2)
        have tg := P.med.together d l n n' b' b'' g1 n1 g2 n3 n4 (P.inner n' (by omega) n2) (P.clear g5 (by omega)) (P.clear (by omega) n2)
        have ar := (P.med.arrives d l n' b'' g1 n3 (P.clear (by omega) n2)).1
        rw [g3] at o tg
        exact k5 _ _ o (P.lt_of_time (l := l) (by omega)) ar
      · subst hz
        have := P.med.skew d l l' n bz g1 hl' hbz (P.clear P.az (Nat.le_refl _))
        rw [g3] at this
        exact .inl (by omega)
      · rcases hS n b' hz g2 with h | h
        · exact .inr (by omega)
        · exact hrec h
    · rcases P.why d n b' hd g5 g2 with h | h
      · exact .inr (by omega)
      · exact hrec h

/-- Whatever is written later. -/
theorem Phase.write_after (P : Phase c0 c s t15 t35 lat e L N via st q S a z) (hS : WhyS L N st S z) {l' d : δ} (hl' : S ≠ l') {n : Nat} {b : U8}
    (hq : q d ≤ n) (hz : d = S → z < n) (hb : (N d).writes n b) : (N l').time (via S l' z) + t35 ≤ (N d).time n + s ∨ L ≤ (N d).time n := by
  have h : L ≤ (N d).time n ∨ ∃ m, st d ≤ m ∧ m < n ∧ (N d).timer m := by
    by_cases hd : d = S
    · subst hd; exact hS n b (hz rfl) hb
    · exact P.why d n b hd hq hb
  rcases h with h | ⟨m, m1, m2, m3⟩
  · exact .inr h
  · have := P.mono d m n (by omega)
    rcases P.timer_after hS hl' _ d m rfl m3 m1 with h | h
    · exact .inl (by omega)
    · exact .inr (by omega)

/-- The frame has come in completely at station `l`, with its timer event `m`. -/
structure Got (c0 c s t15 t35 lat L : Nat) (N : δ → Station) (via : δ → δ → Nat → Nat) (st : δ → Nat) (S : δ) (a z : Nat) (l : δ) (m : Nat) : Prop where
  ge : st l ≤ via S l z
  lt : via S l z < m
  byte : ∃ b, (N l).gets (via S l z) b
  timer : (N l).timer m
  first : ∀ k, st l ≤ k → k < m → ¬ (N l).timer k
  early : (N l).time (via S l z) + t35 ≤ (N l).time m
  soon : (N l).time m ≤ (N l).time (via S l z) + t35 + lat
  tail : ∀ k b, via S l z < k → k < m → ¬ (N l).gets k b
  left : ∀ k b, st l ≤ k → k < via S l z → (N l).gets k b → ∃ k' b', k < k' ∧ k' ≤ via S l z ∧ (N l).gets k' b' ∧ (N l).time k' < (N l).time k + t15
  after : ∀ k b, m < k → (N l).gets k b → (N l).time (via S l z) + t35 + c0 ≤ (N l).time k + s ∨ L + c0 ≤ (N l).time k
  all : ∀ n b, a ≤ n → n ≤ z → (N S).writes n b → (N l).gets (via S l n) b ∧ st l ≤ via S l n ∧ via S l n ≤ via S l z
  just : ∀ k b, st l ≤ k → k < m → (N l).gets k b → ∃ n, a ≤ n ∧ n ≤ z ∧ (N S).writes n b ∧ via S l n = k
  lo : (N S).time z + c0 ≤ (N l).time (via S l z)
  hi : (N l).time (via S l z) ≤ (N S).time z + c
  order : ∀ n n' b b', a ≤ n → n < n' → n' ≤ z → (N S).writes n b → (N S).writes n' b' → via S l n < via S l n'
  near : ∀ l', S ≠ l' → (N l').time (via S l' z) ≤ (N l).time (via S l z) + s

theorem Phase.got (P : Phase c0 c s t15 t35 lat e L N via st q S a z) (hS : WhyS L N st S z) {l : δ} (hl : S ≠ l) (hturn : s + lat < c0)
    (hL : (N S).time z + c + t35 + lat < L) : ∃ m, Got c0 c s t15 t35 lat L N via st S a z l m := by
  obtain ⟨bz, hbz⟩ := P.wz
  have ht15 := P.t15t
  have hcz := P.clear P.az (Nat.le_refl z)
  obtain ⟨kb, kl1, kl2⟩ := P.med.arrives S l z bz hl hbz hcz
  have hge := P.into l z bz hl P.az (Nat.le_refl _) hbz hcz
  have horder : ∀ n n' b b', a ≤ n → n < n' → n' ≤ z → (N S).writes n b → (N S).writes n' b' → via S l n < via S l n' := by
    intro n n' b b' h1 h2 h3 h4 h5
    exact P.med.order S l n n' b b' hl h2 h4 h5 (P.clear h1 (by omega)) (P.clear (by omega) h3)
  have hle : ∀ n b, a ≤ n → n ≤ z → (N S).writes n b → via S l n ≤ via S l z := by
    intro n b h1 h2 h3
    by_cases h : n = z
    · subst h; exact Nat.le_refl _
    · exact Nat.le_of_lt (horder n z b bz h1 (by omega) (Nat.le_refl _) h3 hbz)
  -- bytes of others come late
  have late : ∀ k b, st l ≤ k → (N l).gets k b → (∃ n, a ≤ n ∧ n ≤ z ∧ (N S).writes n b ∧ via S l n = k) ∨
      (N l).time (via S l z) + t35 + c0 ≤ (N l).time k + s ∨ L + c0 ≤ (N l).time k := by
    intro k b k1 k2
    obtain ⟨d, n, b', g1, g2, g3, g4, g5⟩ := P.source k1 k2
    by_cases hd : d = S ∧ n ≤ z
    · obtain ⟨rfl, hn⟩ := hd
      replace g5 := P.qS n b' g5 g2
      left
      have := (P.med.arrives d l n b' g1 g2 (P.clear g5 hn)).1
      rw [g3] at this
      have := P.one l k b b' k2 this
      subst this
      exact ⟨n, g5, hn, g2, g3⟩
    · right
      rcases P.write_after hS hl g5 (fun h => by refine Classical.byContradiction fun h' => hd ⟨h, by omega⟩) g2 with h | h
      · exact .inl (by omega)
      · exact .inr (by omega)
  obtain ⟨n0, n1, n2, n3⟩ := P.must l _ _ kb
  have hn0 : (N l).timer n0 := by
    rcases n2 with ⟨b, hb⟩ | h
    · exfalso
      rcases late n0 b (by omega) hb with ⟨n, g1, g2, g3, g4⟩ | h | h
      · have := hle n b g1 g2 g3
        omega
      · omega
      · omega
    · exact h
  have hfirst : ∃ m, st l ≤ m ∧ m ≤ n0 ∧ (N l).timer m ∧ ∀ j, st l ≤ j → j < m → ¬ (N l).timer j := by
    have key : ∀ len, (∃ m, st l ≤ m ∧ m < st l + len ∧ (N l).timer m) →
        ∃ m, st l ≤ m ∧ m < st l + len ∧ (N l).timer m ∧ ∀ j, st l ≤ j → j < m → ¬ (N l).timer j := by
      intro len
      induction len with
      | zero => rintro ⟨m, h1, h2, -⟩; omega
      | succ len ih =>
        intro hex
        by_cases h : ∃ m, st l ≤ m ∧ m < st l + len ∧ (N l).timer m
        · obtain ⟨m, h1, h2, h3, h4⟩ := ih h
          exact ⟨m, h1, by omega, h3, h4⟩
        · obtain ⟨m, h1, h2, h3⟩ := hex
          exact ⟨m, h1, h2, h3, fun j j1 j2 j3 => h ⟨j, j1, by omega, j3⟩⟩
    obtain ⟨m, h1, h2, h3, h4⟩ := key (n0 + 1 - st l) ⟨n0, by omega, by omega, hn0⟩
    exact ⟨m, h1, by omega, h3, h4⟩
  obtain ⟨m, m1, m2, m3, m4⟩ := hfirst
  have hmt := P.mono l m n0 m2
  have left : ∀ k b, st l ≤ k → k < via S l z → (N l).gets k b →
      ∃ k' b', k < k' ∧ k' ≤ via S l z ∧ (N l).gets k' b' ∧ (N l).time k' < (N l).time k + t15 := by
    intro k b k1 k2 k3
    rcases late k b k1 k3 with ⟨n, g1, g2, g3, g4⟩ | h | h
    · have hnz : n < z := by
        refine Classical.byContradiction fun h => ?_
        have : n = z := by omega
        subst this; omega
      obtain ⟨n', b'', l1, l2, l3, l4, l5⟩ := P.next n b g1 hnz g3
      have tg := P.med.together S l n n' b b'' hl l1 g3 l3 l4 (P.inner n' (by omega) l2) (P.clear g1 (by omega)) (P.clear (by omega) l2)
      have o := horder n n' b b'' g1 l1 l2 g3 l3
      rw [g4] at tg o
      exact ⟨via S l n', b'', o, hle n' b'' (by omega) l2 l3, (P.med.arrives S l n' b'' hl l3 (P.clear (by omega) l2)).1, tg⟩
    · have := P.mono l k (via S l z) (by omega); omega
    · have := P.mono l k (via S l z) (by omega); omega
  obtain ⟨k, b, k1, k2, k3, k4, k5⟩ := P.cause l m m3 m1
  have hkz : k = via S l z := by
    rcases late k b k1 k3 with ⟨n, g1, g2, g3, g4⟩ | h | h
    · rcases Nat.lt_trichotomy k (via S l z) with h | h | h
      · obtain ⟨k', b', l1, l2, l3, l4⟩ := left k b k1 h k3
        exact absurd l3 (k5 k' b' l1 (P.lt_of_time (l := l) (by omega)))
      · exact h
      · have := hle n b g1 g2 g3
        omega
    · omega
    · omega
  subst hkz
  refine ⟨m, hge, k2, ⟨bz, kb⟩, m3, m4, k4, by omega, k5, left, ?_, ?_, ?_, kl1, kl2, horder, fun l' hl' => P.med.skew S l l' z bz hl hl' hbz hcz⟩
  · intro k b k1 k2
    rcases late k b (by omega) k2 with ⟨n, g1, g2, g3, g4⟩ | h
    · have := hle n b g1 g2 g3
      omega
    · exact h
  · intro n b h1 h2 h3
    exact ⟨(P.med.arrives S l n b hl h3 (P.clear h1 h2)).1, P.into l n b hl h1 h2 h3 (P.clear h1 h2), hle n b h1 h2 h3⟩
  · intro k b k1 k2 k3
    rcases late k b k1 k3 with h | h | h
    · exact h
    · have := P.mono l k m (by omega); omega
    · have := P.mono l k m (by omega); omega

/-- The bytes that came in are those that were written. -/
theorem Got.frame {l : δ} {m : Nat} (G : Got c0 c s t15 t35 lat L N via st S a z l m) {R W : Nat → List U8}
    (hR : ∀ k b, (N l).gets k b → R k = [b]) (hR' : ∀ k, R k ≠ [] → ∃ b, (N l).gets k b)
    (hW : ∀ n b, a ≤ n → n ≤ z → (N S).writes n b → W n = [b]) (hW' : ∀ n, W n ≠ [] → ∃ b, (N S).writes n b) :
    (List.range' (st l) (m - st l)).flatMap R = (List.range' a (z + 1 - a)).flatMap W := by
  have h1 := G.ge
  have h2 := G.lt
  let W' : Nat → List U8 := fun n => if a ≤ n ∧ n ≤ z then W n else []
  have hin : ∀ n, W' n ≠ [] → a ≤ n ∧ n ≤ z ∧ W' n = W n ∧ ∃ b, (N S).writes n b := by
    intro n hn
    by_cases h : a ≤ n ∧ n ≤ z
    · have e : W' n = W n := if_pos h
      rw [e] at hn
      exact ⟨h.1, h.2, e, hW' n hn⟩
    · have e : W' n = [] := if_neg h
      exact absurd e hn
  have e : (List.range' a (z + 1 - a)).flatMap W = (List.range' a (z + 1 - a)).flatMap W' := by
    unfold List.flatMap
    congr 1
    refine List.map_congr_left fun n hn => ?_
    have := List.mem_range'_1.1 hn
    exact (if_pos (show a ≤ n ∧ n ≤ z by omega)).symm
  rw [e]
  refine transfer (via := via S l) (fun n hn => ?_) (fun n n' h hn hn' => ?_) (z + 1 - a) (show st l ≤ m by omega) (fun n n1 n2 hn => ?_)
    (fun k k1 k2 hk => ?_)
  · obtain ⟨g1, g2, g3, b, g4⟩ := hin n hn
    rw [g3, hW n b g1 g2 g4]
    exact hR _ _ (G.all n b g1 g2 g4).1
  · obtain ⟨g1, g2, g3, b, g4⟩ := hin n hn
    obtain ⟨g1', g2', g3', b', g4'⟩ := hin n' hn'
    exact G.order n n' b b' g1 h g2' g4 g4'
  · obtain ⟨g1, g2, g3, b, g4⟩ := hin n hn
    have := (G.all n b g1 g2 g4).2
    omega
  · obtain ⟨b, hb⟩ := hR' k hk
    obtain ⟨n, n1, n2, n3, n4⟩ := G.just k b k1 k2 hb
    refine ⟨n, n1, by omega, ?_, n4⟩
    show (if a ≤ n ∧ n ≤ z then W n else []) ≠ []
    rw [if_pos ⟨n1, n2⟩, hW n b n1 n2 n3]
    simp

/-- Nobody but station `M` writes without a reason. -/
structure Rest (c0 c s t15 t35 : Nat) (N : δ → Station) (via : δ → δ → Nat → Nat) (st q : δ → Nat) (M : δ) : Prop where
  med : Medium c0 c s t15 N via
  mono : ∀ d m n, m ≤ n → (N d).time m ≤ (N d).time n
  src : ∀ l d n b, d ≠ l → (N d).writes n b → n < q d → via d l n < st l
  cause : ∀ l m, l ≠ M → (N l).timer m → st l ≤ m → ∃ k b, st l ≤ k ∧ k < m ∧ (N l).gets k b ∧ (N l).time k + t35 ≤ (N l).time m
  why : ∀ d n b, d ≠ M → q d ≤ n → (N d).writes n b → ∃ m, st d ≤ m ∧ m < n ∧ (N d).timer m
  pos : 0 < t35

theorem Rest.write {M : δ} (P : Rest c0 c s t15 t35 N via st q M) (t : Nat) : ∀ d n b, (N d).time n = t → d ≠ M → q d ≤ n → (N d).writes n b →
    ∃ n' b', q M ≤ n' ∧ (N M).writes n' b' ∧ (N M).time n' + c0 + t35 ≤ (N d).time n := by
  have hpos := P.pos
  induction t using Nat.strongRecOn with
  | ind t ih =>
    intro d n b ht hd hq hb
    obtain ⟨m, m1, m2, m3⟩ := P.why d n b hd hq hb
    obtain ⟨k, b', k1, k2, k3, k4⟩ := P.cause d m hd m3 m1
    obtain ⟨d', n', b'', g1, g2, g3, g4, -⟩ := P.med.only d k b' k3
    have hq' : q d' ≤ n' := by
      refine Classical.byContradiction fun h => ?_
      have := P.src d d' n' b'' g1 g2 (by omega)
      omega
    have hm := P.mono d m n (by omega)
    by_cases h : d' = M
    · subst h
      exact ⟨n', b'', hq', g2, by omega⟩
    · obtain ⟨n0, b0, h1, h2, h3⟩ := ih _ (show (N d').time n' < t by omega) d' n' b'' rfl h hq' g2
      exact ⟨n0, b0, h1, h2, by omega⟩

theorem Rest.byte {M : δ} (P : Rest c0 c s t15 t35 N via st q M) {l : δ} {k : Nat} {b : U8} (hk : st l ≤ k) (hb : (N l).gets k b) :
    ∃ n' b', q M ≤ n' ∧ (N M).writes n' b' ∧ (N M).time n' + c0 ≤ (N l).time k ∧ (l = M → (N M).time n' + c0 + t35 ≤ (N l).time k) := by
  obtain ⟨d', n', b'', g1, g2, g3, g4, -⟩ := P.med.only l k b hb
  have hq' : q d' ≤ n' := by
    refine Classical.byContradiction fun h => ?_
    have := P.src l d' n' b'' g1 g2 (by omega)
    omega
  by_cases h : d' = M
  · subst h
    exact ⟨n', b'', hq', g2, by omega, fun h => absurd h.symm g1⟩
  · obtain ⟨n0, b0, h1, h2, h3⟩ := P.write _ d' n' b'' rfl h hq' g2
    exact ⟨n0, b0, h1, h2, by omega, fun _ => by omega⟩

end

end Modbus
