import Verif.Proofs.LineTable
import Verif.Props.MultiShipped

/-! **C87**: an execution at 115200 baud with main loops of 450 microseconds, in which a slave executes a part of another slave's response. -/

namespace Modbus

open Spec

/-- The master's application reads four holding registers of slave 9. -/
def lvReq : MReq := .readHoldingReg 0 4 9

/-- The master: when, what happens, what is put out. -/
def lvMaster : List (Nat × HMOp × List HMOut) := [
  (0, .main (.request lvReq), [.lib (.ret .sendToQueue)]), (10000000, .main .poll, [.lib (.send [9, 3, 0, 0, 0, 4, 69, 65]), .tdr 9]),
  (21000000, .usart none true, [.tdr 3]), (32000000, .usart none true, [.tdr 0]), (43000000, .usart none true, [.tdr 0]),
  (50000000, .main .poll, []), (54000000, .usart none true, [.tdr 0]), (65000000, .usart none true, [.tdr 4]),
  (76000000, .usart none true, [.tdr 69]), (87000000, .usart none true, [.tdr 65]), (98000000, .usart none true, []),
  (100000000, .main .poll, []), (115000000, .main .tick, []), (150000000, .main .poll, []), (200000000, .main .poll, []),
  (230000000, .main .tick, []), (250000000, .main .poll, []), (300000000, .main .poll, []), (311400000, .usart (some 9) false, []),
  (322400000, .usart (some 3) false, []), (333400000, .usart (some 8) false, []), (344400000, .usart (some 247) false, []),
  (345000000, .main .tick, []), (350000000, .main .poll, []), (355400000, .usart (some 225) false, []), (366400000, .usart (some 10) false, []),
  (377400000, .usart (some 6) false, []), (388400000, .usart (some 0) false, []), (399400000, .usart (some 7) false, []),
  (400000000, .main .poll, []), (410400000, .usart (some 170) false, []), (421400000, .usart (some 187) false, []),
  (432400000, .usart (some 7) false, []), (443400000, .usart (some 163) false, []), (450000000, .main .poll, []), (460000000, .main .tick, []),
  (500000000, .main .poll, []), (542400000, .rto, []), (542600000, .usart none false, []), (550000000, .main .poll, []),
  (575000000, .main .tick, []), (600000000, .main .poll, []), (645400000, .timer, []),
  (645600000, .main .poll, [.lib (.event (.hregRead 9 0 63457)), .lib (.event (.hregRead 9 1 2566)), .lib (.event (.hregRead 9 2 7)), .lib (.event (.hregRead 9 3 43707))]),
  (650000000, .main .poll, []), (658000000, .usart (some 10) false, []), (669000000, .usart (some 6) false, []),
  (680000000, .usart (some 0) false, []), (690000000, .main .tick, []), (691000000, .usart (some 7) false, []), (700000000, .main .poll, []),
  (702000000, .usart (some 170) false, []), (713000000, .usart (some 187) false, []), (724000000, .usart (some 7) false, []),
  (735000000, .usart (some 163) false, []), (750000000, .main .poll, []), (800000000, .main .poll, []), (805000000, .main .tick, []),
  (834000000, .rto, []), (834200000, .usart none false, []), (850000000, .main .poll, []), (900000000, .main .poll, []),
  (920000000, .main .tick, []), (937000000, .timer, []), (950000000, .main .poll, []), (1000000000, .main .poll, []),
  (1035000000, .main .tick, [])]

/-- Slave 9. -/
def lvSlave : List (Nat × HOp × List HOut) := [
  (5000000, .main .poll, []), (21000000, .usart (some 9) false, []), (32000000, .usart (some 3) false, []),
  (43000000, .usart (some 0) false, []), (54000000, .usart (some 0) false, []), (55000000, .main .poll, []),
  (65000000, .usart (some 0) false, []), (76000000, .usart (some 4) false, []), (87000000, .usart (some 69) false, []),
  (98000000, .usart (some 65) false, []), (105000000, .main .poll, []), (155000000, .main .poll, []), (197000000, .rto, []),
  (197200000, .usart none false, []), (300000000, .timer, []), (300200000, .main .poll, []),
  (300400000, .main .poll, [.send [9, 3, 8, 247, 225, 10, 6, 0, 7, 170, 187, 7, 163], .tdr 9]), (305000000, .main .poll, []),
  (311400000, .usart none true, [.tdr 3]), (322400000, .usart none true, [.tdr 8]), (333400000, .usart none true, [.tdr 247]),
  (344400000, .usart none true, [.tdr 225]), (355000000, .main .poll, []), (355400000, .usart none true, [.tdr 10]),
  (366400000, .usart none true, [.tdr 6]), (377400000, .usart none true, [.tdr 0]), (388400000, .usart none true, [.tdr 7]),
  (399400000, .usart none true, [.tdr 170]), (405000000, .main .poll, []), (410400000, .usart none true, [.tdr 187]),
  (421400000, .usart none true, [.tdr 7]), (432400000, .usart none true, [.tdr 163]), (443400000, .usart none true, []),
  (455000000, .main .poll, []), (505000000, .main .poll, []), (555000000, .main .poll, []), (605000000, .main .poll, []),
  (655000000, .main .poll, []), (658000000, .usart (some 10) false, []), (669000000, .usart (some 6) false, []),
  (680000000, .usart (some 0) false, []), (691000000, .usart (some 7) false, []), (702000000, .usart (some 170) false, []),
  (705000000, .main .poll, []), (713000000, .usart (some 187) false, []), (724000000, .usart (some 7) false, []),
  (735000000, .usart (some 163) false, []), (755000000, .main .poll, []), (805000000, .main .poll, []), (834000000, .rto, []),
  (834200000, .usart none false, []), (937000000, .timer, []), (955000000, .main .poll, []), (1005000000, .main .poll, []),
  (1055000000, .main .poll, [])]

/-- Slave 10. -/
def lvOther : List (Nat × HOp × List HOut) := [
  (10000000, .main .poll, []), (21000000, .usart (some 9) false, []), (32000000, .usart (some 3) false, []),
  (43000000, .usart (some 0) false, []), (54000000, .usart (some 0) false, []), (60000000, .main .poll, []),
  (65000000, .usart (some 0) false, []), (76000000, .usart (some 4) false, []), (87000000, .usart (some 69) false, []),
  (98000000, .usart (some 65) false, []), (110000000, .main .poll, []), (160000000, .main .poll, []), (197000000, .rto, []),
  (197200000, .usart none false, []), (300000000, .timer, []), (310000000, .main .poll, []), (311400000, .usart (some 9) false, []),
  (322400000, .usart (some 3) false, []), (333400000, .usart (some 8) false, []), (344400000, .usart (some 247) false, []),
  (355400000, .usart (some 225) false, []), (360000000, .main .poll, []), (366400000, .usart (some 10) false, []),
  (377400000, .usart (some 6) false, []), (388400000, .usart (some 0) false, []), (399400000, .usart (some 7) false, []),
  (410000000, .main .poll, []), (410400000, .usart (some 170) false, []), (421400000, .usart (some 187) false, []),
  (432400000, .usart (some 7) false, []), (443400000, .usart (some 163) false, []), (460000000, .main .poll, []), (510000000, .main .poll, []),
  (542400000, .rto, []), (542600000, .usart none false, []), (645400000, .timer, []), (646000000, .main .poll, []),
  (647000000, .main .poll, [.send [10, 6, 0, 7, 170, 187, 7, 163], .tdr 10]), (658000000, .usart none true, [.tdr 6]),
  (660000000, .main .poll, []), (669000000, .usart none true, [.tdr 0]), (680000000, .usart none true, [.tdr 7]),
  (691000000, .usart none true, [.tdr 170]), (702000000, .usart none true, [.tdr 187]), (710000000, .main .poll, []),
  (713000000, .usart none true, [.tdr 7]), (724000000, .usart none true, [.tdr 163]), (735000000, .usart none true, []),
  (760000000, .main .poll, []), (810000000, .main .poll, []), (860000000, .main .poll, []), (910000000, .main .poll, []),
  (960000000, .main .poll, []), (1010000000, .main .poll, [])]

/-- Where what is written is heard. -/
def lvVia : Option Bool → Option Bool → List Nat
  | none, some false => [0, 1, 2, 3, 4, 0, 6, 7, 8, 9]
  | none, some true => [0, 1, 2, 3, 4, 0, 6, 7, 8, 9]
  | some false, none => [0, 0, 0, 0, 0, 0, 0, 0, 0, 0, 0, 0, 0, 0, 0, 0, 18, 0, 19, 20, 21, 24, 0, 25, 26, 27, 28, 30, 0, 31, 32, 33]
  | some false, some true => [0, 0, 0, 0, 0, 0, 0, 0, 0, 0, 0, 0, 0, 0, 0, 0, 16, 0, 17, 18, 19, 20, 0, 22, 23, 24, 25, 27, 0, 28, 29, 30]
  | some true, none => [0, 0, 0, 0, 0, 0, 0, 0, 0, 0, 0, 0, 0, 0, 0, 0, 0, 0, 0, 0, 0, 0, 0, 0, 0, 0, 0, 0, 0, 0, 0, 0, 0, 0, 0, 0, 0, 45, 46, 0, 47, 49, 51, 52, 0, 53, 54]
  | some true, some false => [0, 0, 0, 0, 0, 0, 0, 0, 0, 0, 0, 0, 0, 0, 0, 0, 0, 0, 0, 0, 0, 0, 0, 0, 0, 0, 0, 0, 0, 0, 0, 0, 0, 0, 0, 0, 0, 38, 39, 0, 40, 41, 42, 44, 0, 45, 46]
  | _, _ => []

/-- The events at which something is written. -/
def lvW : Option Bool → List Nat
  | none => [1, 2, 3, 4, 6, 7, 8, 9]
  | some false => [16, 18, 19, 20, 21, 23, 24, 25, 26, 27, 29, 30, 31]
  | some true => [37, 38, 40, 41, 42, 43, 45, 46]

def lvM : MTab := { req := lvReq, head := lvMaster, T := 115000000, o1 := 10000000, o2 := 55000000, o3 := 100000000 }

/-- The registers of slave 9: the last three read like a request to slave 10 to write a register, and the first one makes the checksum right. -/
def lvMem : AppMem := { sampleMem with regs := fun p => if p = 0 then 0xF7E1 else if p = 1 then 0x0A06 else if p = 2 then 7 else 0xAABB }

def lvA : STab := { id := 9, mem := lvMem, head := lvSlave, gap := 50000000 }

def lvB : STab := { id := 10, mem := sampleMem, head := lvOther, gap := 50000000 }

def lv : LTab := { m := lvM, s := fun i => if i then lvB else lvA, via := lvVia, w := lvW }

theorem lvA_good : lvA.Good 99000000 201715200 5760000 51840000 16760000 := by
  constructor <;> decide +kernel

theorem lvB_good : lvB.Good 99000000 201715200 5760000 51840000 16760000 := by
  constructor <;> decide +kernel

theorem lvM_good : lvM.Good 99000000 201715200 5760000 51840000 120960000 109440000 16760000 := by
  constructor
  case data => trivial
  all_goals decide +kernel

theorem lv_good : lv.Good 10000000 27760000 1152000 99000000 := by
  constructor <;> decide +kernel

/-- A frame is handed to the driver. -/
def isSendOut : HMOut → Bool
  | .lib (.send _) => true
  | _ => false

theorem lv_line : TimedLine Config.default (fun _ => Config.default) (fun i => (lv.s i).id)
    (boardTimes (115200 : BitVec 32).toNat (rtorValue 115200).toNat (1750 : BitVec 32).toNat) 10000000 (10 * (115200 : BitVec 32).toNat) lv.m.dev lv.devs := by
  have hr : (rtorValue 115200).toNat = 99 := by decide +kernel
  have hT : boardTimes (115200 : BitVec 32).toNat (rtorValue 115200).toNat (1750 : BitVec 32).toNat =
      ⟨99000000, 201715200, 5760000, 51840000, 51840000, 120960000, 109440000, 16760000, 27760000⟩ := by rw [hr]; rfl
  rw [hT]
  refine LTab.line lvM_good (fun i => ?_) lv_good (by decide)
  cases i
  · exact lvA_good
  · exact lvB_good

theorem lv_frame : reqFrame lvReq = [9, 3, 0, 0, 0, 4, 69, 65] := by decide +kernel

/-- All the master hands to its driver is that request. -/
theorem lv_sends (a : Nat) (f : List U8) (h : HMOut.lib (.send f) ∈ lvM.out a) : f = reqFrame lvReq := by
  have key : ∀ a, a < lvM.len → ∀ o ∈ lvM.out a, isSendOut o = true → o = .lib (.send [9, 3, 0, 0, 0, 4, 69, 65]) := by decide +kernel
  by_cases ha : a < lvM.len
  · have e : f = [9, 3, 0, 0, 0, 4, 69, 65] := MOut.send.inj (HMOut.lib.inj (key a ha _ h rfl))
    rw [lv_frame]
    exact e
  · rw [(MTab.tail (show lvM.len ≤ a by omega)).2.1] at h
    cases h

/-- **C87**, violation: all times are those of the example boards at 115200 baud (with which a line with a single slave works, `C76_boards_on_the_bus`); main
loops poll every 450 microseconds. All the master ever transmits is a request to slave 9 to read registers. Slave 9 answers correctly; slave 10, which
discards the request only after five bytes of the answer have come in, takes the rest of it for a request to write its register 7, executes it and
answers. -/
theorem C87_slow_loop_violated : ∃ (x : MDeviceTimed) (y : Bool → DeviceTimed) (id : Bool → U8),
    arrValue 115200 = .ok 1750 ∧
    TimedLine Config.default (fun _ => Config.default) id (boardTimes (115200 : BitVec 32).toNat (rtorValue 115200).toNat (1750 : BitVec 32).toNat) 10000000
      (10 * (115200 : BitVec 32).toNat) x y ∧
    (∀ a f, .lib (.send f) ∈ x.out a → f = reqFrame (.readHoldingReg 0 4 9)) ∧ (∃ a, .lib (.send (reqFrame (.readHoldingReg 0 4 9))) ∈ x.out a) ∧
    (∀ n op, (y true).op n = .main op → op = .poll) ∧ id true = 10 ∧
    ∃ p, (y true).Sends p ∧ ((y true).st p).lib.mem.regs 7 = 1007 ∧ ((y true).st (p + 1)).lib.mem.regs 7 = 0xAABB := by
  refine ⟨lv.m.dev, lv.devs, fun i => (lv.s i).id, rfl, lv_line, fun a f h => ?_, ⟨1, ?_⟩, fun n op h => ?_, rfl, 37, ⟨_, List.mem_cons_self⟩, ?_, ?_⟩
  · exact lv_sends a f h
  · rw [show MReq.readHoldingReg 0 4 9 = lvReq from rfl, lv_frame]
    exact List.mem_cons_self
  · have h : lvB.op n = .main op := h
    by_cases hn : n < lvB.len
    · rcases lvB_good.main n hn with e | e
      · rw [h] at e; cases e; rfl
      · rw [h] at e; cases e
    · rw [(STab.tail (show lvB.len ≤ n by omega)).1] at h; cases h; rfl
  · decide +kernel
  · decide +kernel

end Modbus
