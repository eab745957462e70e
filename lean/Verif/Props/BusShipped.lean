import Verif.Props.BusRequests
import Verif.Props.DriverTiming

/-! **C76**: the shipped configuration and the example driver's timer settings meet the conditions of C74 and C75, at every baud rate from 9600 up.

The unit of time is one millionth of a bit time, so that a bit is `10^6` and a microsecond is `baud` units. -/

namespace Modbus

open Spec

/-- The times of two example boards at `baud` bit/s: the silences as programmed into receiver timeout (bits) and timer (period `arr + 1` microseconds);
interrupts are served within 50 microseconds; main loops poll at least every 450 microseconds; the tick comes every millisecond, give or take 50
microseconds; the next transmit interrupt comes a character after a byte was written, the byte arrives after two characters at most. Characters have 11
bits. -/
def boardTimes (baud rtor arr : Nat) : BusTimes where
  t15 := rtor * 1000000
  t35 := (arr + 1) * baud
  lat := 50 * baud
  Pm := 450 * baud
  Ps := 450 * baud
  D := 1050 * baud
  d := 950 * baud
  e := 11000000 + 50 * baud
  c := 22000000 + 50 * baud

/-- **C76**: the times fit; a round takes at most 627 ms, a timeout at most 1357 ms. -/
theorem C76_board_times_fit (baud : BitVec 32) (h : 9600 ≤ baud.toNat) :
    ∃ arr, arrValue baud = .ok arr ∧ (boardTimes baud.toNat (rtorValue baud).toNat arr.toNat).Fit Config.default.respTimeout ∧
      (boardTimes baud.toNat (rtorValue baud).toNat arr.toNat).round ≤ 627000 * baud.toNat ∧
      (boardTimes baud.toNat (rtorValue baud).toNat arr.toNat).most Config.default.respTimeout ≤ 1357000 * baud.toNat := by
  have hT : Config.default.respTimeout = 1000 := rfl
  rw [hT]
  have main : ∀ (r a B : Nat), 9600 ≤ B → r * 1000000 + 100 * B + 450 * B < (a + 1) * B → 900 * B < (a + 1) * B → 11000000 + 500 * B < (a + 1) * B →
      (a + 1) * B ≤ 4011 * B → (boardTimes B r a).Fit 1000 ∧ (boardTimes B r a).round ≤ 627000 * B ∧ (boardTimes B r a).most 1000 ≤ 1357000 * B := by
    intro r a B hB h1 h2 h3 h4
    have hr : (boardTimes B r a).round = 2 * (256 * (11000000 + 50 * B) + (22000000 + 50 * B) + (a + 1) * B + 50 * B + 450 * B) + 450 * B := rfl
    have hm : (boardTimes B r a).most 1000 = max (boardTimes B r a).round (256 * (11000000 + 50 * B) + 2 * (450 * B) + (1000 - 1) * (1050 * B)) := rfl
    have hle : (boardTimes B r a).round ≤ 627000 * B := by rw [hr]; omega
    refine ⟨⟨?_, ?_, ?_, ?_, ?_, ?_⟩, hle, ?_⟩
    · show r * 1000000 + 2 * (50 * B) + 450 * B < (a + 1) * B; omega
    · show 2 * (450 * B) < (a + 1) * B; omega
    · show 11000000 + 50 * B + 450 * B < (a + 1) * B; omega
    · show 11000000 + 50 * B + 450 * B < (a + 1) * B; omega
    · show 2 * (450 * B) < 950 * B; omega
    · show (boardTimes B r a).round < (1000 - 2) * (950 * B); omega
    · rw [hm]; omega
  by_cases hl : baud.toNat ≤ 19200
  · obtain ⟨arr, h1, h2, -⟩ := C53_t35_low baud (by omega) hl
    obtain ⟨arr', k1, k2⟩ := arr_low (baud := baud) (by omega) hl
    rw [h1] at k1
    obtain rfl := Except.ok.inj k1
    refine ⟨arr, h1, ?_⟩
    have hr := rtor_low hl
    have ha : arr.toNat ≤ 4010 := by
      rw [k2]
      have : 4 ≤ baud.toNat / 2400 := by omega
      exact Nat.le_trans (Nat.div_le_div_left this (by omega)) (by decide)
    have h4 : (arr.toNat + 1) * baud.toNat ≤ 4011 * baud.toNat := Nat.mul_le_mul_right _ (by omega)
    have hr' : (rtorValue baud).toNat = 17 := by rw [hr]; rfl
    rw [hr']
    exact main _ _ _ h (by omega) (by omega) (by omega) h4
  · have hh : 19200 < baud.toNat := by omega
    have ha := C53_t35_high baud hh
    refine ⟨1750, ha, ?_⟩
    have h1 := (C53_t15_any baud hh).2
    have e : (1750 : BitVec 32).toNat = 1750 := rfl
    rw [e]
    refine main _ _ _ h ?_ ?_ ?_ ?_ <;> omega

/-- **C76**: on slower lines two frames of 256 characters do not fit into the shipped response timeout, whatever the silences. -/
theorem C76_slow_lines (baud rtor arr : Nat) (h : baud ≤ 5940) : ¬ (boardTimes baud rtor arr).Fit Config.default.respTimeout := by
  intro hf
  have h1 : (boardTimes baud rtor arr).round < (1000 - 2) * (950 * baud) := hf.timeout
  have hr : (boardTimes baud rtor arr).round =
    2 * (256 * (11000000 + 50 * baud) + (22000000 + 50 * baud) + (arr + 1) * baud + 50 * baud + 450 * baud) + 450 * baud := rfl
  generalize (arr + 1) * baud = z at hr
  omega

/-- **C76**: two example boards with the shipped configuration. -/
theorem C76_boards_on_the_bus (baud : BitVec 32) (hb : 9600 ≤ baud.toNat) {arr : BitVec 32} (ha : arrValue baud = .ok arr) {id : U8} {x : MDeviceTimed}
    {y : DeviceTimed} (B : TimedBus Config.default Config.default id (boardTimes baud.toNat (rtorValue baud).toNat arr.toNat) x y) :
    ∃ P : Nat → Nat,
      (∀ p, y.Sends p → ∃ a r, .lib (.send (reqFrame r)) ∈ x.out a ∧ reqSlave r = id ∧ P a = p) ∧
      (∀ a a' r r', a < a' → .lib (.send (reqFrame r)) ∈ x.out a → .lib (.send (reqFrame r')) ∈ x.out a' → reqSlave r = id → reqSlave r' = id → P a < P a') ∧
      (∀ k, (y.st (k + 1)).lib.mem ≠ (y.st k).lib.mem → y.Sends k ∨ ∃ op : SOp, y.op k = .main op ∧ isAppOp op = true) ∧
      ∀ n, ∃ m, n ≤ m ∧ x.time m ≤ x.time n + 6800000 * baud.toNat ∧
        ∀ q, m < q → ∃ (done : List BusTx) (cur : Option (MReq × Nat)) (queued : List MReq),
          Transactions 0 (mainTrace (x.trace q)) (done.map BusTx.tx) cur queued ∧
          accepted (mainTrace (x.trace n)) <+: done.map (fun d => d.tx.req) ∧
          (∀ d ∈ done, d.stop < q ∧ d.Ok Config.default.limits id x y P) ∧ done.Pairwise fun d d' => d.stop < d'.start := by
  obtain ⟨arr', h1, h2, -, h4⟩ := C76_board_times_fit baud hb
  rw [ha] at h1
  obtain rfl := Except.ok.inj h1
  obtain ⟨P, p1, p2, p3, p4⟩ := C75_every_request_on_the_bus (by exact ⟨by decide, by decide, by decide⟩) (by decide) B h2
  refine ⟨P, p1, p2, p3, fun n => ?_⟩
  obtain ⟨m, m1, m2, m3⟩ := p4 n
  refine ⟨m, m1, Nat.le_trans m2 ?_, m3⟩
  have hN : Config.default.queueItems = 5 := rfl
  have hP : (boardTimes baud.toNat (rtorValue baud).toNat arr.toNat).Pm = 450 * baud.toNat := rfl
  rw [hN, hP]
  omega

end Modbus
