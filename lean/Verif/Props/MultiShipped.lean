import Verif.Props.MultiRequests
import Verif.Props.BusShipped

/-! **C87**: the example boards with the shipped configuration on a line with several slaves. -/

namespace Modbus

open Spec

/-- The times of the example boards (`boardTimes`) with slaves that poll at least every `P` microseconds. -/
def lineTimes (baud rtor arr P : Nat) : BusTimes := { boardTimes baud rtor arr with Ps := P * baud }

/-- **C87**, what holds: if two polls and 60 microseconds (interrupt latency, and 10 microseconds between the moments two boards hear a byte) are shorter
than ten bits on the line, the times fit, at every baud rate from 9600 up. -/
theorem C87_board_times_fit_partial (baud : BitVec 32) (h : 9600 ≤ baud.toNat) (P : Nat) (hP : (60 + 2 * P) * baud.toNat < 10000000) :
    ∃ arr, arrValue baud = .ok arr ∧
      (lineTimes baud.toNat (rtorValue baud).toNat arr.toNat P).FitLine 10000000 (10 * baud.toNat) Config.default.respTimeout ∧
      (lineTimes baud.toNat (rtorValue baud).toNat arr.toNat P).most Config.default.respTimeout ≤ 1357000 * baud.toNat := by
  obtain ⟨arr, h1, hf, hr, hm⟩ := C76_board_times_fit baud h
  refine ⟨arr, h1, ?_⟩
  have h23 : 23000000 + 100 * baud.toNat ≤ (arr.toNat + 1) * baud.toNat := by
    by_cases hl : baud.toNat ≤ 19200
    · obtain ⟨arr', k1, k2, -⟩ := C53_t35_low baud (by omega) hl
      rw [h1] at k1
      obtain rfl := Except.ok.inj k1
      omega
    · have k := C53_t35_high baud (by omega)
      rw [h1] at k
      obtain rfl := Except.ok.inj k
      have e : (1750 : BitVec 32).toNat = 1750 := rfl
      rw [e]
      omega
  generalize baud.toNat = B at *
  generalize (rtorValue baud).toNat = r at *
  generalize arr.toNat = a at *
  have f1 : r * 1000000 + 2 * (50 * B) + 450 * B < (a + 1) * B := hf.silence
  have f2 : 2 * (450 * B) < (a + 1) * B := hf.slave
  have f3 : 11000000 + 50 * B + 450 * B < (a + 1) * B := hf.txSlave
  have f5 : 2 * (450 * B) < 950 * B := hf.tick
  have f6 : 2 * (256 * (11000000 + 50 * B) + (22000000 + 50 * B) + (a + 1) * B + 50 * B + 450 * B) + 450 * B < (1000 - 2) * (950 * B) := hf.timeout
  have f7 : max (2 * (256 * (11000000 + 50 * B) + (22000000 + 50 * B) + (a + 1) * B + 50 * B + 450 * B) + 450 * B)
    (256 * (11000000 + 50 * B) + 2 * (450 * B) + (1000 - 1) * (1050 * B)) ≤ 1357000 * B := hm
  have hr : 2 * (256 * (11000000 + 50 * B) + (22000000 + 50 * B) + (a + 1) * B + 50 * B + 450 * B) + 450 * B ≤ 627000 * B := hr
  rw [Nat.add_mul, Nat.mul_assoc] at hP
  refine ⟨⟨⟨f1, ?_, ?_, f3, f5, ?_⟩, ?_, ?_⟩, ?_⟩
  · show 2 * (P * B) < (a + 1) * B; omega
  · show 11000000 + 50 * B + P * B < (a + 1) * B; omega
  · show 2 * (256 * (11000000 + 50 * B) + (22000000 + 50 * B) + (a + 1) * B + 50 * B + P * B) + 450 * B < (1000 - 2) * (950 * B); omega
  · show 10 * B + 50 * B + 2 * (P * B) < 10000000; omega
  · show 11000000 + 50 * B + (22000000 + 50 * B) ≤ 10000000 + (a + 1) * B; omega
  · show max (2 * (256 * (11000000 + 50 * B) + (22000000 + 50 * B) + (a + 1) * B + 50 * B + P * B) + 450 * B)
      (256 * (11000000 + 50 * B) + 2 * (450 * B) + (1000 - 1) * (1050 * B)) ≤ 1357000 * B
    omega

/-- **C87**, what holds: example boards with the shipped configuration on a line with several slaves. -/
theorem C87_boards_on_the_line_partial {ι : Type} (baud : BitVec 32) (hb : 9600 ≤ baud.toNat) {P0 : Nat} (hP : (60 + 2 * P0) * baud.toNat < 10000000)
    {arr : BitVec 32} (ha : arrValue baud = .ok arr) {id : ι → U8} {x : MDeviceTimed} {y : ι → DeviceTimed}
    (B : TimedLine Config.default (fun _ => Config.default) id (lineTimes baud.toNat (rtorValue baud).toNat arr.toNat P0) 10000000 (10 * baud.toNat) x y) :
    ∃ P : Nat → Nat,
      (∀ i p, (y i).Sends p → ∃ a r, .lib (.send (reqFrame r)) ∈ x.out a ∧ id i = reqSlave r ∧ P a = p) ∧
      (∀ a a' r r' i, a < a' → .lib (.send (reqFrame r)) ∈ x.out a → .lib (.send (reqFrame r')) ∈ x.out a' → id i = reqSlave r → id i = reqSlave r' →
        P a < P a') ∧
      (∀ i k, ((y i).st (k + 1)).lib.mem ≠ ((y i).st k).lib.mem → (y i).Sends k ∨ ∃ op : SOp, (y i).op k = .main op ∧ isAppOp op = true) ∧
      ∀ n, ∃ m, n ≤ m ∧ x.time m ≤ x.time n + 6800000 * baud.toNat ∧
        ∀ q, m < q → ∃ (done : List BusTx) (cur : Option (MReq × Nat)) (queued : List MReq),
          Transactions 0 (mainTrace (x.trace q)) (done.map BusTx.tx) cur queued ∧
          accepted (mainTrace (x.trace n)) <+: done.map (fun d => d.tx.req) ∧
          (∀ d ∈ done, d.stop < q ∧ d.OnLine (fun _ => Config.default.limits) id x y P) ∧ done.Pairwise fun d d' => d.stop < d'.start := by
  obtain ⟨arr', h1, h2, h4⟩ := C87_board_times_fit_partial baud hb P0 hP
  rw [ha] at h1
  obtain rfl := Except.ok.inj h1
  obtain ⟨P, p1, p2, p3, p4⟩ := C86_every_request_on_the_line (by exact ⟨by decide, by decide, by decide⟩) (fun _ => by decide) B h2
  refine ⟨P, p1, p2, p3, fun n => ?_⟩
  obtain ⟨m, m1, m2, m3⟩ := p4 n
  refine ⟨m, m1, Nat.le_trans m2 ?_, m3⟩
  have hN : Config.default.queueItems = 5 := rfl
  have hPm : (lineTimes baud.toNat (rtorValue baud).toNat arr.toNat P0).Pm = 450 * baud.toNat := rfl
  rw [hN, hPm]
  omega

end Modbus
