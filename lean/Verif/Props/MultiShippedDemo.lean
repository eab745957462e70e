import Verif.Proofs.LineTable
import Verif.Props.MultiShipped

/-! **C87**: an execution of three example boards at 9600 baud in which a register of slave 9 is written. -/

namespace Modbus

open Spec

/-- The master: when, what happens, what is put out. -/
def lpMaster : List (Nat × HMOp × List HMOut) := [
  (0, .main (.request bdReq), [.lib (.ret .sendToQueue)]), (2000000, .main .poll, [.lib (.send bdFrame), .tdr 9]), (5000000, .main .tick, []),
  (6000000, .main .poll, []), (10000000, .main .poll, []), (13000000, .usart none true, [.tdr 6]), (14000000, .main .poll, []),
  (14600000, .main .tick, []), (18000000, .main .poll, []), (22000000, .main .poll, []), (24000000, .usart none true, [.tdr 0]),
  (24200000, .main .tick, []), (26000000, .main .poll, []), (30000000, .main .poll, []), (33800000, .main .tick, []),
  (34000000, .main .poll, []), (35000000, .usart none true, [.tdr 7]), (38000000, .main .poll, []), (42000000, .main .poll, []),
  (43400000, .main .tick, []), (46000000, .usart none true, [.tdr 170]), (46000000, .main .poll, []), (50000000, .main .poll, []),
  (53000000, .main .tick, []), (54000000, .main .poll, []), (57000000, .usart none true, [.tdr 187]), (58000000, .main .poll, []),
  (62000000, .main .poll, []), (62600000, .main .tick, []), (66000000, .main .poll, []), (68000000, .usart none true, [.tdr 7]),
  (70000000, .main .poll, []), (72200000, .main .tick, []), (74000000, .main .poll, []), (78000000, .main .poll, []),
  (79000000, .usart none true, [.tdr 144]), (81800000, .main .tick, []), (82000000, .main .poll, []), (86000000, .main .poll, []),
  (90000000, .usart none true, []), (90000000, .main .poll, []), (91400000, .main .tick, []), (94000000, .main .poll, []),
  (98000000, .main .poll, []), (101000000, .main .tick, []), (102000000, .main .poll, []), (106000000, .main .poll, []),
  (110000000, .main .poll, []), (110600000, .main .tick, []), (114000000, .main .poll, []), (118000000, .main .poll, []),
  (120200000, .main .tick, []), (122000000, .main .poll, []), (126000000, .main .poll, []), (129800000, .main .tick, []),
  (130000000, .main .poll, []), (134000000, .main .poll, []), (138000000, .main .poll, []), (139400000, .main .tick, []),
  (140000000, .usart (some 9) false, []), (142000000, .main .poll, []), (146000000, .main .poll, []), (149000000, .main .tick, []),
  (150000000, .main .poll, []), (151000000, .usart (some 6) false, []), (154000000, .main .poll, []), (158000000, .main .poll, []),
  (158600000, .main .tick, []), (162000000, .usart (some 0) false, []), (162000000, .main .poll, []), (166000000, .main .poll, []),
  (168200000, .main .tick, []), (170000000, .main .poll, []), (173000000, .usart (some 7) false, []), (174000000, .main .poll, []),
  (177800000, .main .tick, []), (178000000, .main .poll, []), (182000000, .main .poll, []), (184000000, .usart (some 170) false, []),
  (186000000, .main .poll, []), (187400000, .main .tick, []), (190000000, .main .poll, []), (194000000, .main .poll, []),
  (195000000, .usart (some 187) false, []), (197000000, .main .tick, []), (198000000, .main .poll, []), (202000000, .main .poll, []),
  (206000000, .usart (some 7) false, []), (206000000, .main .poll, []), (206600000, .main .tick, []), (210000000, .main .poll, []),
  (214000000, .main .poll, []), (216200000, .main .tick, []), (217000000, .usart (some 144) false, []), (218000000, .main .poll, []),
  (222000000, .main .poll, []), (225800000, .main .tick, []), (226000000, .main .poll, []), (230000000, .main .poll, []),
  (233900000, .main .poll, []), (234000000, .rto, []), (234200000, .usart none false, []), (235400000, .main .tick, []),
  (238000000, .main .poll, []), (242000000, .main .poll, []), (245000000, .main .tick, []), (246000000, .main .poll, []),
  (250000000, .main .poll, []), (254000000, .main .poll, []), (254600000, .main .tick, []), (255600000, .timer, []),
  (255800000, .main .poll, [.lib (.event (.hregWrite 9 7 1))]), (258000000, .main .poll, []), (262000000, .main .poll, []),
  (264200000, .main .tick, [])]

/-- Slave 9. -/
def lpSlave : List (Nat × HOp × List HOut) := [
  (1500000, .main .poll, []), (5500000, .main .poll, []), (9500000, .main .poll, []), (13000000, .usart (some 9) false, []),
  (13500000, .main .poll, []), (17500000, .main .poll, []), (21500000, .main .poll, []), (24000000, .usart (some 6) false, []),
  (25500000, .main .poll, []), (29500000, .main .poll, []), (33500000, .main .poll, []), (35000000, .usart (some 0) false, []),
  (37500000, .main .poll, []), (41500000, .main .poll, []), (45500000, .main .poll, []), (46000000, .usart (some 7) false, []),
  (49500000, .main .poll, []), (53500000, .main .poll, []), (57000000, .usart (some 170) false, []), (57500000, .main .poll, []),
  (61500000, .main .poll, []), (65500000, .main .poll, []), (68000000, .usart (some 187) false, []), (69500000, .main .poll, []),
  (73500000, .main .poll, []), (77500000, .main .poll, []), (79000000, .usart (some 7) false, []), (81500000, .main .poll, []),
  (85500000, .main .poll, []), (89500000, .main .poll, []), (90000000, .usart (some 144) false, []), (93500000, .main .poll, []),
  (97500000, .main .poll, []), (101500000, .main .poll, []), (105500000, .main .poll, []), (107000000, .rto, []),
  (107200000, .usart none false, []), (128600000, .timer, []), (128800000, .main .poll, []), (129000000, .main .poll, [.send bdFrame, .tdr 9]),
  (129500000, .main .poll, []), (133500000, .main .poll, []), (137500000, .main .poll, []), (140000000, .usart none true, [.tdr 6]),
  (141500000, .main .poll, []), (145500000, .main .poll, []), (149500000, .main .poll, []), (151000000, .usart none true, [.tdr 0]),
  (153500000, .main .poll, []), (157500000, .main .poll, []), (161500000, .main .poll, []), (162000000, .usart none true, [.tdr 7]),
  (165500000, .main .poll, []), (169500000, .main .poll, []), (173000000, .usart none true, [.tdr 170]), (173500000, .main .poll, []),
  (177500000, .main .poll, []), (181500000, .main .poll, []), (184000000, .usart none true, [.tdr 187]), (185500000, .main .poll, []),
  (189500000, .main .poll, []), (193500000, .main .poll, []), (195000000, .usart none true, [.tdr 7]), (197500000, .main .poll, []),
  (201500000, .main .poll, []), (205500000, .main .poll, []), (206000000, .usart none true, [.tdr 144]), (209500000, .main .poll, []),
  (213500000, .main .poll, []), (217000000, .usart none true, []), (217500000, .main .poll, []), (221500000, .main .poll, []),
  (225500000, .main .poll, []), (229500000, .main .poll, []), (233500000, .main .poll, []), (237500000, .main .poll, []),
  (241500000, .main .poll, []), (245500000, .main .poll, []), (249500000, .main .poll, []), (253500000, .main .poll, []),
  (257500000, .main .poll, []), (261500000, .main .poll, []), (265500000, .main .poll, [])]

/-- Slave 10. -/
def lpOther : List (Nat × HOp × List HOut) := [
  (2500000, .main .poll, []), (6500000, .main .poll, []), (10500000, .main .poll, []), (13000000, .usart (some 9) false, []),
  (14500000, .main .poll, []), (18500000, .main .poll, []), (22500000, .main .poll, []), (24000000, .usart (some 6) false, []),
  (26500000, .main .poll, []), (30500000, .main .poll, []), (34500000, .main .poll, []), (35000000, .usart (some 0) false, []),
  (38500000, .main .poll, []), (42500000, .main .poll, []), (46000000, .usart (some 7) false, []), (46500000, .main .poll, []),
  (50500000, .main .poll, []), (54500000, .main .poll, []), (57000000, .usart (some 170) false, []), (58500000, .main .poll, []),
  (62500000, .main .poll, []), (66500000, .main .poll, []), (68000000, .usart (some 187) false, []), (70500000, .main .poll, []),
  (74500000, .main .poll, []), (78500000, .main .poll, []), (79000000, .usart (some 7) false, []), (82500000, .main .poll, []),
  (86500000, .main .poll, []), (90000000, .usart (some 144) false, []), (90500000, .main .poll, []), (94500000, .main .poll, []),
  (98500000, .main .poll, []), (102500000, .main .poll, []), (106500000, .main .poll, []), (107000000, .rto, []),
  (107200000, .usart none false, []), (128600000, .timer, []), (130500000, .main .poll, []), (134500000, .main .poll, []),
  (138500000, .main .poll, []), (140000000, .usart (some 9) false, []), (142500000, .main .poll, []), (146500000, .main .poll, []),
  (150500000, .main .poll, []), (151000000, .usart (some 6) false, []), (154500000, .main .poll, []), (158500000, .main .poll, []),
  (162000000, .usart (some 0) false, []), (162500000, .main .poll, []), (166500000, .main .poll, []), (170500000, .main .poll, []),
  (173000000, .usart (some 7) false, []), (174500000, .main .poll, []), (178500000, .main .poll, []), (182500000, .main .poll, []),
  (184000000, .usart (some 170) false, []), (186500000, .main .poll, []), (190500000, .main .poll, []), (194500000, .main .poll, []),
  (195000000, .usart (some 187) false, []), (198500000, .main .poll, []), (202500000, .main .poll, []), (206000000, .usart (some 7) false, []),
  (206500000, .main .poll, []), (210500000, .main .poll, []), (214500000, .main .poll, []), (217000000, .usart (some 144) false, []),
  (218500000, .main .poll, []), (222500000, .main .poll, []), (226500000, .main .poll, []), (230500000, .main .poll, []), (234000000, .rto, []),
  (234200000, .usart none false, []), (255600000, .timer, []), (258500000, .main .poll, []), (262500000, .main .poll, [])]

/-- Where what is written is heard. -/
def lpVia : Option Bool → Option Bool → List Nat
  | none, some false => [0, 3, 0, 0, 0, 7, 0, 0, 0, 0, 11, 0, 0, 0, 0, 0, 15, 0, 0, 0, 18, 0, 0, 0, 0, 22, 0, 0, 0, 0, 26, 0, 0, 0, 0, 30]
  | none, some true => [0, 3, 0, 0, 0, 7, 0, 0, 0, 0, 11, 0, 0, 0, 0, 0, 14, 0, 0, 0, 18, 0, 0, 0, 0, 22, 0, 0, 0, 0, 26, 0, 0, 0, 0, 29]
  | some false, none => [0, 0, 0, 0, 0, 0, 0, 0, 0, 0, 0, 0, 0, 0, 0, 0, 0, 0, 0, 0, 0, 0, 0, 0, 0, 0, 0, 0, 0, 0, 0, 0, 0, 0, 0, 0, 0, 0, 0, 59, 0,
      0, 0, 64, 0, 0, 0, 68, 0, 0, 0, 73, 0, 0, 78, 0, 0, 0, 83, 0, 0, 0, 87, 0, 0, 0, 93]
  | some false, some true => [0, 0, 0, 0, 0, 0, 0, 0, 0, 0, 0, 0, 0, 0, 0, 0, 0, 0, 0, 0, 0, 0, 0, 0, 0, 0, 0, 0, 0, 0, 0, 0, 0, 0, 0, 0, 0, 0, 0, 41,
      0, 0, 0, 45, 0, 0, 0, 48, 0, 0, 0, 52, 0, 0, 56, 0, 0, 0, 60, 0, 0, 0, 63, 0, 0, 0, 67]
  | _, _ => []

/-- The events at which something is written. -/
def lpW : Option Bool → List Nat
  | none => [1, 5, 10, 16, 20, 25, 30, 35]
  | some false => [39, 43, 47, 51, 54, 58, 62, 66]
  | some true => []

def lpM : MTab := { req := bdReq, head := lpMaster, T := 9600000, o1 := 1000000, o2 := 5000000, o3 := 9000000 }

def lpA : STab := { id := 9, mem := sampleMem, head := lpSlave, gap := 4000000 }

def lpB : STab := { id := 10, mem := sampleMem, head := lpOther, gap := 4000000 }

def lp : LTab := { m := lpM, s := fun i => if i then lpB else lpA, via := lpVia, w := lpW }

theorem lpA_good : lpA.Good 17000000 38505600 480000 4320000 11480000 := by
  constructor <;> decide +kernel

theorem lpB_good : lpB.Good 17000000 38505600 480000 4320000 11480000 := by
  constructor <;> decide +kernel

theorem lpM_good : lpM.Good 17000000 38505600 480000 4320000 10080000 9120000 11480000 := by
  constructor
  case data => trivial
  all_goals decide +kernel

theorem lp_good : lp.Good 10000000 22480000 96000 17000000 := by
  constructor <;> decide +kernel

theorem lp_line : TimedLine Config.default (fun _ => Config.default) (fun i => (lp.s i).id)
    (lineTimes (9600 : BitVec 32).toNat (rtorValue 9600).toNat (4010 : BitVec 32).toNat 450) 10000000 (10 * (9600 : BitVec 32).toNat) lp.m.dev lp.devs := by
  have hr : (rtorValue 9600).toNat = 17 := by decide +kernel
  have hT : lineTimes (9600 : BitVec 32).toNat (rtorValue 9600).toNat (4010 : BitVec 32).toNat 450 =
      ⟨17000000, 38505600, 480000, 4320000, 4320000, 10080000, 9120000, 11480000, 22480000⟩ := by rw [hr]; rfl
  rw [hT]
  refine LTab.line lpM_good (fun i => ?_) lp_good (by decide)
  cases i
  · exact lpA_good
  · exact lpB_good

theorem lp_before : ((lp.devs false).st 39).lib.mem.regs 7 = 1007 := by decide +kernel

theorem lp_after : ((lp.devs false).st 40).lib.mem.regs 7 = 0xAABB := by decide +kernel

theorem lp_answers : (lp.devs false).Sends 39 := ⟨bdFrame, List.mem_cons_self⟩

theorem lp_arr : arrValue 9600 = .ok 4010 := rfl

theorem lp_asks : HMOut.lib (.send (reqFrame bdReq)) ∈ lp.m.dev.out 1 := by
  rw [← bd_frame]; exact List.mem_cons_self

/-- **C87**: the hypotheses of what holds are met at 9600 baud with main loops of 450 microseconds. -/
theorem line_boards_demo : arrValue 9600 = .ok 4010 ∧ (60 + 2 * 450) * (9600 : BitVec 32).toNat < 10000000 ∧
    TimedLine Config.default (fun _ => Config.default) (fun i => (lp.s i).id)
      (lineTimes (9600 : BitVec 32).toNat (rtorValue 9600).toNat (4010 : BitVec 32).toNat 450) 10000000 (10 * (9600 : BitVec 32).toNat) lp.m.dev lp.devs ∧
    (∃ a, .lib (.send (reqFrame bdReq)) ∈ lp.m.dev.out a) ∧ (lp.devs false).Sends 39 ∧ ((lp.devs false).st 39).lib.mem.regs 7 = 1007 ∧
    ((lp.devs false).st 40).lib.mem.regs 7 = 0xAABB :=
  ⟨lp_arr, by decide, lp_line, ⟨1, lp_asks⟩, lp_answers, lp_before, lp_after⟩

end Modbus
