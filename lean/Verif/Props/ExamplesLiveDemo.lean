import Verif.Props.ExamplesLive
import Verif.Props.BusShippedDemo

/-! **C95**: an execution of the two example programs on two boards at 115200 baud: the slave registers its data, the master waits 300 ms and makes a round
of requests, all of which are carried out and reported. -/

namespace Modbus

open Spec

/-- The master from its first round on: when (in bit times), what happens, what is put out. -/
def xlmTab : List (Nat × HMOp × List HMOut) := [
  (34505, .main (.request (.readCoils 1 1 1)), [.lib (.ret .sendToQueue)]),
  (34505, .main (.request (.readHoldingReg 1 1 1)), [.lib (.ret .sendToQueue)]),
  (34505, .main (.request (.writeSingleCoil 0 1 false)), [.lib (.ret .sendToQueue)]),
  (34505, .main (.request (.writeSingleReg 0 1 0)), [.lib (.ret .sendToQueue)]),
  (34520, .main .poll, [.lib (.send [1, 1, 0, 1, 0, 1, 172, 10]), .tdr 1]),
  (34531, .usart none true, [.tdr 1]),
  (34542, .usart none true, [.tdr 0]),
  (34553, .usart none true, [.tdr 1]),
  (34560, .main .poll, []),
  (34564, .usart none true, [.tdr 0]),
  (34575, .usart none true, [.tdr 1]),
  (34586, .usart none true, [.tdr 172]),
  (34597, .usart none true, [.tdr 10]),
  (34600, .main .poll, []),
  (34608, .usart none true, []),
  (34615, .main .tick, []),
  (34635, .main .poll, []),
  (34675, .main .poll, []),
  (34715, .main .poll, []),
  (34730, .main .tick, []),
  (34750, .main .poll, []),
  (34790, .main .poll, []),
  (34830, .main .poll, []),
  (34845, .main .tick, []),
  (34865, .main .poll, []),
  (34891, .usart (some 1) false, []),
  (34902, .usart (some 1) false, []),
  (34905, .main .poll, []),
  (34913, .usart (some 1) false, []),
  (34924, .usart (some 0) false, []),
  (34935, .usart (some 81) false, []),
  (34945, .main .poll, []),
  (34946, .usart (some 136) false, []),
  (34960, .main .tick, []),
  (34980, .main .poll, []),
  (35020, .main .poll, []),
  (35045, .rto, []),
  (35046, .usart none false, []),
  (35060, .main .poll, []),
  (35075, .main .tick, []),
  (35095, .main .poll, []),
  (35135, .main .poll, []),
  (35148, .timer, []),
  (35175, .main .poll, [.lib (.event (.coilRead 1 1 false))]),
  (35190, .main .tick, []),
  (35210, .main .poll, [.lib (.send [1, 3, 0, 1, 0, 1, 213, 202]), .tdr 1]),
  (35221, .usart none true, [.tdr 3]),
  (35232, .usart none true, [.tdr 0]),
  (35243, .usart none true, [.tdr 1]),
  (35250, .main .poll, []),
  (35254, .usart none true, [.tdr 0]),
  (35265, .usart none true, [.tdr 1]),
  (35276, .usart none true, [.tdr 213]),
  (35287, .usart none true, [.tdr 202]),
  (35290, .main .poll, []),
  (35298, .usart none true, []),
  (35305, .main .tick, []),
  (35325, .main .poll, []),
  (35365, .main .poll, []),
  (35405, .main .poll, []),
  (35420, .main .tick, []),
  (35440, .main .poll, []),
  (35480, .main .poll, []),
  (35520, .main .poll, []),
  (35535, .main .tick, []),
  (35555, .main .poll, []),
  (35571, .usart (some 1) false, []),
  (35582, .usart (some 3) false, []),
  (35593, .usart (some 2) false, []),
  (35595, .main .poll, []),
  (35604, .usart (some 7) false, []),
  (35615, .usart (some 210) false, []),
  (35626, .usart (some 58) false, []),
  (35635, .main .poll, []),
  (35637, .usart (some 41) false, []),
  (35650, .main .tick, []),
  (35670, .main .poll, []),
  (35710, .main .poll, []),
  (35736, .rto, []),
  (35737, .usart none false, []),
  (35750, .main .poll, []),
  (35765, .main .tick, []),
  (35785, .main .poll, []),
  (35825, .main .poll, []),
  (35839, .timer, []),
  (35865, .main .poll, [.lib (.event (.hregRead 1 1 2002))]),
  (35880, .main .tick, []),
  (35900, .main .poll, [.lib (.send [1, 5, 0, 0, 0, 0, 205, 202]), .tdr 1]),
  (35911, .usart none true, [.tdr 5]),
  (35922, .usart none true, [.tdr 0]),
  (35933, .usart none true, [.tdr 0]),
  (35940, .main .poll, []),
  (35944, .usart none true, [.tdr 0]),
  (35955, .usart none true, [.tdr 0]),
  (35966, .usart none true, [.tdr 205]),
  (35977, .usart none true, [.tdr 202]),
  (35980, .main .poll, []),
  (35988, .usart none true, []),
  (35995, .main .tick, []),
  (36015, .main .poll, []),
  (36055, .main .poll, []),
  (36095, .main .poll, []),
  (36110, .main .tick, []),
  (36130, .main .poll, []),
  (36170, .main .poll, []),
  (36210, .main .poll, []),
  (36225, .main .tick, []),
  (36245, .main .poll, []),
  (36251, .usart (some 1) false, []),
  (36262, .usart (some 5) false, []),
  (36273, .usart (some 0) false, []),
  (36284, .usart (some 0) false, []),
  (36285, .main .poll, []),
  (36295, .usart (some 0) false, []),
  (36306, .usart (some 0) false, []),
  (36317, .usart (some 205) false, []),
  (36325, .main .poll, []),
  (36328, .usart (some 202) false, []),
  (36340, .main .tick, []),
  (36360, .main .poll, []),
  (36400, .main .poll, []),
  (36427, .rto, []),
  (36428, .usart none false, []),
  (36440, .main .poll, []),
  (36455, .main .tick, []),
  (36475, .main .poll, []),
  (36515, .main .poll, []),
  (36530, .timer, []),
  (36555, .main .poll, [.lib (.event (.coilWrite 1 0 1))]),
  (36570, .main .tick, []),
  (36590, .main .poll, [.lib (.send [1, 6, 0, 0, 0, 0, 137, 202]), .tdr 1]),
  (36601, .usart none true, [.tdr 6]),
  (36612, .usart none true, [.tdr 0]),
  (36623, .usart none true, [.tdr 0]),
  (36630, .main .poll, []),
  (36634, .usart none true, [.tdr 0]),
  (36645, .usart none true, [.tdr 0]),
  (36656, .usart none true, [.tdr 137]),
  (36667, .usart none true, [.tdr 202]),
  (36670, .main .poll, []),
  (36678, .usart none true, []),
  (36685, .main .tick, []),
  (36705, .main .poll, []),
  (36745, .main .poll, []),
  (36785, .main .poll, []),
  (36800, .main .tick, []),
  (36820, .main .poll, []),
  (36860, .main .poll, []),
  (36900, .main .poll, []),
  (36915, .main .tick, []),
  (36935, .main .poll, []),
  (36971, .usart (some 1) false, []),
  (36975, .main .poll, []),
  (36982, .usart (some 6) false, []),
  (36993, .usart (some 0) false, []),
  (37004, .usart (some 0) false, []),
  (37015, .usart (some 0) false, []),
  (37015, .main .poll, []),
  (37026, .usart (some 0) false, []),
  (37030, .main .tick, []),
  (37037, .usart (some 137) false, []),
  (37048, .usart (some 202) false, []),
  (37050, .main .poll, []),
  (37090, .main .poll, []),
  (37130, .main .poll, []),
  (37145, .main .tick, []),
  (37147, .rto, []),
  (37148, .usart none false, []),
  (37165, .main .poll, []),
  (37205, .main .poll, []),
  (37245, .main .poll, []),
  (37250, .timer, []),
  (37260, .main .tick, []),
  (37280, .main .poll, [.lib (.event (.hregWrite 1 0 1))]),
  (37320, .main .poll, []),
  (37360, .main .poll, []),
  (37375, .main .tick, []),
  (37395, .main .poll, []),
  (37435, .main .poll, []),
  (37475, .main .poll, []),
  (37490, .main .tick, [])]

/-- The slave from then on. -/
def xlsTab : List (Nat × HOp × List HOut) := [
  (34520, .main .poll, []),
  (34531, .usart (some 1) false, []),
  (34542, .usart (some 1) false, []),
  (34553, .usart (some 0) false, []),
  (34560, .main .poll, []),
  (34564, .usart (some 1) false, []),
  (34575, .usart (some 0) false, []),
  (34586, .usart (some 1) false, []),
  (34597, .usart (some 172) false, []),
  (34600, .main .poll, []),
  (34608, .usart (some 10) false, []),
  (34640, .main .poll, []),
  (34680, .main .poll, []),
  (34707, .rto, []),
  (34708, .usart none false, []),
  (34810, .timer, []),
  (34840, .main .poll, []),
  (34880, .main .poll, [.send [1, 1, 1, 0, 81, 136], .tdr 1]),
  (34891, .usart none true, [.tdr 1]),
  (34902, .usart none true, [.tdr 1]),
  (34913, .usart none true, [.tdr 0]),
  (34920, .main .poll, []),
  (34924, .usart none true, [.tdr 81]),
  (34935, .usart none true, [.tdr 136]),
  (34946, .usart none true, []),
  (34960, .main .poll, []),
  (35000, .main .poll, []),
  (35040, .main .poll, []),
  (35080, .main .poll, []),
  (35120, .main .poll, []),
  (35160, .main .poll, []),
  (35200, .main .poll, []),
  (35221, .usart (some 1) false, []),
  (35232, .usart (some 3) false, []),
  (35240, .main .poll, []),
  (35243, .usart (some 0) false, []),
  (35254, .usart (some 1) false, []),
  (35265, .usart (some 0) false, []),
  (35276, .usart (some 1) false, []),
  (35280, .main .poll, []),
  (35287, .usart (some 213) false, []),
  (35298, .usart (some 202) false, []),
  (35320, .main .poll, []),
  (35360, .main .poll, []),
  (35397, .rto, []),
  (35398, .usart none false, []),
  (35500, .timer, []),
  (35520, .main .poll, []),
  (35560, .main .poll, [.send [1, 3, 2, 7, 210, 58, 41], .tdr 1]),
  (35571, .usart none true, [.tdr 3]),
  (35582, .usart none true, [.tdr 2]),
  (35593, .usart none true, [.tdr 7]),
  (35600, .main .poll, []),
  (35604, .usart none true, [.tdr 210]),
  (35615, .usart none true, [.tdr 58]),
  (35626, .usart none true, [.tdr 41]),
  (35637, .usart none true, []),
  (35640, .main .poll, []),
  (35680, .main .poll, []),
  (35720, .main .poll, []),
  (35760, .main .poll, []),
  (35800, .main .poll, []),
  (35840, .main .poll, []),
  (35880, .main .poll, []),
  (35911, .usart (some 1) false, []),
  (35920, .main .poll, []),
  (35922, .usart (some 5) false, []),
  (35933, .usart (some 0) false, []),
  (35944, .usart (some 0) false, []),
  (35955, .usart (some 0) false, []),
  (35960, .main .poll, []),
  (35966, .usart (some 0) false, []),
  (35977, .usart (some 205) false, []),
  (35988, .usart (some 202) false, []),
  (36000, .main .poll, []),
  (36040, .main .poll, []),
  (36080, .main .poll, []),
  (36087, .rto, []),
  (36088, .usart none false, []),
  (36190, .timer, []),
  (36200, .main .poll, []),
  (36240, .main .poll, [.send [1, 5, 0, 0, 0, 0, 205, 202], .tdr 1]),
  (36251, .usart none true, [.tdr 5]),
  (36262, .usart none true, [.tdr 0]),
  (36273, .usart none true, [.tdr 0]),
  (36280, .main .poll, []),
  (36284, .usart none true, [.tdr 0]),
  (36295, .usart none true, [.tdr 0]),
  (36306, .usart none true, [.tdr 205]),
  (36317, .usart none true, [.tdr 202]),
  (36320, .main .poll, []),
  (36328, .usart none true, []),
  (36360, .main .poll, []),
  (36400, .main .poll, []),
  (36440, .main .poll, []),
  (36480, .main .poll, []),
  (36520, .main .poll, []),
  (36560, .main .poll, []),
  (36600, .main .poll, []),
  (36601, .usart (some 1) false, []),
  (36612, .usart (some 6) false, []),
  (36623, .usart (some 0) false, []),
  (36634, .usart (some 0) false, []),
  (36640, .main .poll, []),
  (36645, .usart (some 0) false, []),
  (36656, .usart (some 0) false, []),
  (36667, .usart (some 137) false, []),
  (36678, .usart (some 202) false, []),
  (36680, .main .poll, []),
  (36720, .main .poll, []),
  (36760, .main .poll, []),
  (36777, .rto, []),
  (36778, .usart none false, []),
  (36880, .timer, []),
  (36920, .main .poll, []),
  (36960, .main .poll, [.send [1, 6, 0, 0, 0, 0, 137, 202], .tdr 1]),
  (36971, .usart none true, [.tdr 6]),
  (36982, .usart none true, [.tdr 0]),
  (36993, .usart none true, [.tdr 0]),
  (37000, .main .poll, []),
  (37004, .usart none true, [.tdr 0]),
  (37015, .usart none true, [.tdr 0]),
  (37026, .usart none true, [.tdr 137]),
  (37037, .usart none true, [.tdr 202]),
  (37040, .main .poll, []),
  (37048, .usart none true, []),
  (37080, .main .poll, []),
  (37120, .main .poll, []),
  (37160, .main .poll, []),
  (37200, .main .poll, []),
  (37240, .main .poll, []),
  (37280, .main .poll, []),
  (37320, .main .poll, []),
  (37360, .main .poll, []),
  (37400, .main .poll, []),
  (37440, .main .poll, []),
  (37480, .main .poll, [])]

/-- Which of the master's events write a byte, and where the byte arrives. -/
def xlmW : List (Nat × Nat) := [(1204, 944), (1205, 945), (1206, 946), (1207, 948), (1209, 949), (1210, 950), (1211, 951), (1212, 953), (1245, 975), (1246, 976), (1247, 978), (1248, 979), (1250, 980), (1251, 981), (1252, 983), (1253, 984), (1287, 1007), (1288, 1009), (1289, 1010), (1290, 1011), (1292, 1012), (1293, 1014), (1294, 1015), (1295, 1016), (1330, 1042), (1331, 1043), (1332, 1044), (1333, 1045), (1335, 1047), (1336, 1048), (1337, 1049), (1338, 1050)]

/-- Which of the slave's events write a byte, and where the byte arrives. -/
def xlsW : List (Nat × Nat) := [(960, 1225), (961, 1226), (962, 1228), (963, 1229), (965, 1230), (966, 1232), (991, 1266), (992, 1267), (993, 1268), (994, 1270), (996, 1271), (997, 1272), (998, 1274), (1024, 1308), (1025, 1309), (1026, 1310), (1027, 1311), (1029, 1313), (1030, 1314), (1031, 1315), (1032, 1317), (1058, 1351), (1059, 1353), (1060, 1354), (1061, 1355), (1063, 1356), (1064, 1358), (1065, 1360), (1066, 1361)]


/-! ### The events -/

def xlIdle (i : Nat) : MOp := if i % 4 = 3 then .tick else .poll

def xlIdleTime (i : Nat) : Nat := 115 * (i / 4) + (if i % 4 = 3 then 115 else 20 + 40 * (i % 4))

def xlmAt (k : Nat) : Nat × HMOp × List HMOut := xlmTab.getD k (0, .timer, [])

def xlsAt (k : Nat) : Nat × HOp × List HOut := xlsTab.getD k (0, .timer, [])

def xlmOp (n : Nat) : HMOp := if n < 1200 then .main (xlIdle n) else if n < 1381 then (xlmAt (n - 1200)).2.1 else .main (xlIdle (n - 1381))

def xlmOut (n : Nat) : List HMOut := if n < 1200 then [] else if n < 1381 then (xlmAt (n - 1200)).2.2 else []

def xlmTime (n : Nat) : Nat :=
  (if n < 1200 then xlIdleTime n else if n < 1381 then (xlmAt (n - 1200)).1 else 37490 + xlIdleTime (n - 1381)) * 1000000

def xlsOp (n : Nat) : HOp :=
  if n < 81 then .main (xRegistrations.getD n .poll) else if n < 943 then .main .poll else if n < 1080 then (xlsAt (n - 943)).2.1 else .main .poll

def xlsOut (n : Nat) : List HOut := if n < 943 then [] else if n < 1080 then (xlsAt (n - 943)).2.2 else []

def xlsTime (n : Nat) : Nat :=
  (if n < 81 then 0 else if n < 943 then 40 * (n - 80) else if n < 1080 then (xlsAt (n - 943)).1 else 37480 + 40 * (n - 1079)) * 1000000

/-! ### Running tables -/

/-- One event, with the outputs expected. -/
def xlmG (s : MasterSys) (a : HMOp × List HMOut) : Option MasterSys := match masterSysStep Config.default s a.1 with
  | .ok r => if r.2 = a.2 then some r.1 else none
  | .error _ => none

def xlsG (s : SlaveSys) (a : HOp × List HOut) : Option SlaveSys := match slaveSysStep Config.default s a.1 with
  | .ok r => if r.2 = a.2 then some r.1 else none
  | .error _ => none

def xlRun {S A : Type} (g : S → A → Option S) : S → List A → Option S
  | s, [] => some s
  | s, a :: as => (g s a).bind fun s' => xlRun g s' as

theorem xlRun_append {S A : Type} {g : S → A → Option S} (a b : List A) : ∀ s, xlRun g s (a ++ b) = (xlRun g s a).bind fun s' => xlRun g s' b := by
  induction a with
  | nil => intro s; rfl
  | cons x a ih =>
    intro s
    show (g s x).bind _ = ((g s x).bind _).bind _
    cases g s x with
    | none => rfl
    | some s1 => exact ih s1

theorem xl_chain {S A : Type} {g : S → A → Option S} {s0 : S} {a : Nat → A} (h : ∀ n, ∃ m, n ≤ m ∧ (xlRun g s0 ((List.range m).map a)).isSome = true) :
    ∃ st : Nat → S, (∀ n, xlRun g s0 ((List.range n).map a) = some (st n)) ∧ ∀ n, g (st n) (a n) = some (st (n + 1)) := by
  have h1 : ∀ n, ∃ s, xlRun g s0 ((List.range n).map a) = some s := by
    intro n
    obtain ⟨m, hm, hs⟩ := h n
    obtain ⟨d, rfl⟩ := Nat.exists_eq_add_of_le hm
    rw [List.range_add, List.map_append, xlRun_append] at hs
    cases hx : xlRun g s0 ((List.range n).map a) with
    | none => rw [hx] at hs; cases hs
    | some s => exact ⟨s, rfl⟩
  obtain ⟨st, hst⟩ := Classical.axiomOfChoice h1
  refine ⟨st, hst, fun n => ?_⟩
  have h2 := hst (n + 1)
  rw [List.range_succ, List.map_append, xlRun_append, hst n] at h2
  cases hx : g (st n) (a n) with
  | none =>
    have h2 : ((g (st n) (a n)).bind fun s' => some s') = some (st (n + 1)) := h2
    rw [hx] at h2; cases h2
  | some s =>
    have h2 : ((g (st n) (a n)).bind fun s' => some s') = some (st (n + 1)) := h2
    rw [hx] at h2; exact h2

theorem xlmG_step {s s' : MasterSys} {a : HMOp × List HMOut} (h : xlmG s a = some s') : masterSysStep Config.default s a.1 = .ok (s', a.2) := by
  unfold xlmG at h
  split at h
  · rename_i r hr
    split at h
    · rename_i e; cases h; rw [hr, ← e]
    · cases h
  · cases h

theorem xlsG_step {s s' : SlaveSys} {a : HOp × List HOut} (h : xlsG s a = some s') : slaveSysStep Config.default s a.1 = .ok (s', a.2) := by
  unfold xlsG at h
  split at h
  · rename_i r hr
    split at h
    · rename_i e; cases h; rw [hr, ← e]
    · cases h
  · cases h

/-- The state of the master after its initialisation. -/
def xlm0 : MasterSys := match masterSysStep Config.default MasterSys.powerOn (.main (.init .rtu)) with
  | .ok r => r.1
  | .error _ => MasterSys.powerOn

def xls0 : SlaveSys := match slaveSysStep Config.default (SlaveSys.powerOn xInitMem) (.main (.init .rtu 1)) with
  | .ok r => r.1
  | .error _ => SlaveSys.powerOn xInitMem

/-- The state of the slave after the registrations. -/
def xls81 : SlaveSys := (xlRun xlsG xls0 (xRegistrations.map fun op => (.main op, []))).getD xls0

theorem xlm_init : masterSysStep Config.default MasterSys.powerOn (.main (.init .rtu)) = .ok (xlm0, []) := by
  have h : (match masterSysStep Config.default MasterSys.powerOn (.main (.init .rtu)) with | .ok r => decide (r.2 = []) | .error _ => false) = true := by
    decide +kernel
  unfold xlm0
  split at h
  · rename_i r hr
    rw [hr]
    simp only [decide_eq_true_eq] at h
    rw [← h]
  · cases h

theorem xls_init : slaveSysStep Config.default (SlaveSys.powerOn xInitMem) (.main (.init .rtu 1)) = .ok (xls0, []) := rfl

theorem xlm0_at : xlm0.lib.st = .idle ∧ xlm0.lib.txQ.available = false ∧ xlm0.rtof = false ∧ xlm0.lib.timer = 0 := by decide +kernel

theorem xlm_table : (match xlRun xlmG xlm0 (xlmTab.map Prod.snd) with
    | some s => decide (s.lib.st = .idle) && !s.lib.txQ.available && !s.rtof
    | none => false) = true := by decide +kernel

theorem xls_regs : (xlRun xlsG xls0 (xRegistrations.map fun op => (HOp.main op, []))).isSome = true := by decide +kernel

theorem xls81_at : xls81.lib.st = .idle ∧ xls81.lib.t15 = .cleared ∧ xls81.rtof = false := by decide +kernel

theorem xls_table : (match xlRun xlsG xls81 (xlsTab.map Prod.snd) with
    | some s => decide (s.lib.st = .idle) && decide (s.lib.t15 = .cleared) && !s.rtof
    | none => false) = true := by decide +kernel

/-! ### The executions -/

theorem xlm_poll {s : MasterSys} {m : MOp} (h : s.lib.st = .idle ∧ s.lib.txQ.available = false ∧ s.rtof = false) (hm : m = .poll ∨ m = .tick) :
    ∃ s', xlmG s (.main m, []) = some s' ∧ s'.lib.st = .idle ∧ s'.lib.txQ.available = false ∧ s'.rtof = false := by
  obtain ⟨s', h1, h2⟩ := md_idle (cfg := Config.default) h.1 h.2.1 h.2.2 (op := .main m) (by rcases hm with rfl | rfl <;> simp)
  exact ⟨s', by simp [xlmG, h1], h2⟩

theorem xlIdle_cases (i : Nat) : xlIdle i = .poll ∨ xlIdle i = .tick := by
  unfold xlIdle
  split <;> simp

theorem xlm_idles (f : Nat → Nat) (j : Nat) : ∀ {s : MasterSys}, s.lib.st = .idle ∧ s.lib.txQ.available = false ∧ s.rtof = false →
    (xlRun xlmG s ((List.range j).map fun i => (HMOp.main (xlIdle (f i)), ([] : List HMOut)))).isSome = true := by
  suffices ∀ {s : MasterSys}, s.lib.st = .idle ∧ s.lib.txQ.available = false ∧ s.rtof = false →
      ∃ s', xlRun xlmG s ((List.range j).map fun i => (HMOp.main (xlIdle (f i)), ([] : List HMOut))) = some s' ∧
        s'.lib.st = .idle ∧ s'.lib.txQ.available = false ∧ s'.rtof = false by
    intro s h
    obtain ⟨s', h1, -⟩ := this h
    rw [h1]; rfl
  induction j with
  | zero => intro s h; exact ⟨s, rfl, h⟩
  | succ j ih =>
    intro s h
    obtain ⟨s1, h1, h2⟩ := ih h
    obtain ⟨s2, h3, h4⟩ := xlm_poll h2 (xlIdle_cases (f j))
    refine ⟨s2, ?_, h4⟩
    rw [List.range_succ, List.map_append, xlRun_append, h1]
    show (xlmG s1 (.main (xlIdle (f j)), [])).bind (fun s' => some s') = _
    rw [h3]; rfl

/-- Before the first round nothing changes. -/
theorem xlm_stand (j : Nat) : xlRun xlmG xlm0 ((List.range j).map fun i => (HMOp.main (xlIdle i), ([] : List HMOut))) = some xlm0 := by
  obtain ⟨h1, h2, -, h4⟩ := xlm0_at
  have step : ∀ m, m = .poll ∨ m = .tick → xlmG xlm0 (.main m, []) = some xlm0 := by
    rintro m (rfl | rfl)
    · simp only [xlmG, masterSysStep, masterStep, masterPoll, h1, masterIdle, h2]; rfl
    · simp only [xlmG, masterSysStep, masterStep, h4, ok_bind]; rfl
  induction j with
  | zero => rfl
  | succ j ih =>
    rw [List.range_succ, List.map_append, xlRun_append, ih]
    show (xlmG xlm0 (.main (xlIdle j), [])).bind (fun s' => some s') = _
    rw [step _ (xlIdle_cases j)]; rfl

theorem xlm_slice1 : (List.range 1200).map (fun n => (xlmOp n, xlmOut n)) = (List.range 1200).map fun i => (HMOp.main (xlIdle i), ([] : List HMOut)) := by
  apply List.map_congr_left
  intro n hn
  have := List.mem_range.1 hn
  simp only [xlmOp, xlmOut, if_pos this]

theorem xlm_slice2 : (List.range 181).map (fun k => (xlmOp (1200 + k), xlmOut (1200 + k))) = xlmTab.map Prod.snd := by decide +kernel

theorem xlm_slice3 (j : Nat) : (List.range j).map (fun k => (xlmOp (1200 + 181 + k), xlmOut (1200 + 181 + k))) =
    (List.range j).map fun i => (HMOp.main (xlIdle i), ([] : List HMOut)) := by
  apply List.map_congr_left
  intro n _
  simp only [xlmOp, xlmOut]
  rw [if_neg (by omega), if_neg (by omega), if_neg (by omega), if_neg (by omega), show 1200 + 181 + n - 1381 = n by omega]

theorem xl_range {A : Type} (f : Nat → A) (a b : Nat) : (List.range (a + b)).map f = (List.range a).map f ++ (List.range b).map fun k => f (a + k) := by
  rw [List.range_add, List.map_append, List.map_map]; rfl

theorem xl_slice {S A : Type} {g : S → A → Option S} {f : Nat → A} {a b : Nat} {s s1 s2 : S} {l : List A}
    (h1 : xlRun g s ((List.range a).map f) = some s1) (e : ((List.range b).map fun k => f (a + k)) = l) (h2 : xlRun g s1 l = some s2) :
    xlRun g s ((List.range (a + b)).map f) = some s2 := by
  rw [xl_range, xlRun_append, h1, e]; exact h2

theorem xlm_chain : ∃ st : Nat → MasterSys, (∀ n, xlRun xlmG xlm0 ((List.range n).map fun n => (xlmOp n, xlmOut n)) = some (st n)) ∧
    ∀ n, xlmG (st n) (xlmOp n, xlmOut n) = some (st (n + 1)) := by
  refine xl_chain fun n => ⟨1200 + 181 + n, by omega, ?_⟩
  have h1 : xlRun xlmG xlm0 ((List.range 1200).map fun n => (xlmOp n, xlmOut n)) = some xlm0 := by rw [xlm_slice1]; exact xlm_stand 1200
  have h := xlm_table
  cases hs : xlRun xlmG xlm0 (xlmTab.map Prod.snd) with
  | none => rw [hs] at h; cases h
  | some s =>
    rw [hs] at h
    simp only [Bool.and_eq_true, decide_eq_true_eq, Bool.not_eq_true'] at h
    have h2 := xl_slice h1 xlm_slice2 hs
    obtain ⟨s', h3⟩ := Option.isSome_iff_exists.1 (xlm_idles id n ⟨h.1.1, h.1.2, h.2⟩)
    rw [xl_slice h2 (xlm_slice3 n) h3]; rfl

noncomputable def xlmSt : Nat → MasterSys := Classical.choose xlm_chain

theorem xls_poll {s : SlaveSys} (h : s.lib.st = .idle ∧ s.lib.t15 = .cleared ∧ s.rtof = false) : xlsG s (.main .poll, []) = some s := by
  simp [xlsG, rest_poll h.1 h.2.1 h.2.2]

theorem xls_polls (j : Nat) {s : SlaveSys} (h : s.lib.st = .idle ∧ s.lib.t15 = .cleared ∧ s.rtof = false) :
    xlRun xlsG s ((List.range j).map fun _ => (HOp.main .poll, ([] : List HOut))) = some s := by
  induction j with
  | zero => rfl
  | succ j ih =>
    rw [List.range_succ, List.map_append, xlRun_append, ih]
    show (xlsG s (.main .poll, [])).bind (fun s' => some s') = _
    rw [xls_poll h]; rfl

theorem xls_slice1 : (List.range 81).map (fun n => (xlsOp n, xlsOut n)) = xRegistrations.map fun op => (HOp.main op, []) := by decide +kernel

theorem xls_slice2 : (List.range 862).map (fun k => (xlsOp (81 + k), xlsOut (81 + k))) = (List.range 862).map fun _ => (HOp.main .poll, ([] : List HOut)) := by
  apply List.map_congr_left
  intro n hn
  have := List.mem_range.1 hn
  simp only [xlsOp, xlsOut]
  rw [if_neg (by omega), if_pos (by omega), if_pos (by omega)]

theorem xls_slice3 : (List.range 137).map (fun k => (xlsOp (81 + 862 + k), xlsOut (81 + 862 + k))) = xlsTab.map Prod.snd := by decide +kernel

theorem xls_slice4 (j : Nat) : (List.range j).map (fun k => (xlsOp (81 + 862 + 137 + k), xlsOut (81 + 862 + 137 + k))) =
    (List.range j).map fun _ => (HOp.main .poll, ([] : List HOut)) := by
  apply List.map_congr_left
  intro n _
  simp only [xlsOp, xlsOut]
  rw [if_neg (by omega), if_neg (by omega), if_neg (by omega), if_neg (by omega), if_neg (by omega)]

theorem xls_chain : ∃ st : Nat → SlaveSys, (∀ n, xlRun xlsG xls0 ((List.range n).map fun n => (xlsOp n, xlsOut n)) = some (st n)) ∧
    ∀ n, xlsG (st n) (xlsOp n, xlsOut n) = some (st (n + 1)) := by
  refine xl_chain fun n => ⟨81 + 862 + 137 + n, by omega, ?_⟩
  have h0 : xlRun xlsG xls0 (xRegistrations.map fun op => (HOp.main op, [])) = some xls81 := by
    have h := xls_regs
    unfold xls81
    cases hx : xlRun xlsG xls0 (xRegistrations.map fun op => (HOp.main op, [])) with
    | none => rw [hx] at h; cases h
    | some s => rfl
  have h1 : xlRun xlsG xls0 ((List.range 81).map fun n => (xlsOp n, xlsOut n)) = some xls81 := by rw [xls_slice1]; exact h0
  have h2 := xl_slice h1 xls_slice2 (xls_polls 862 xls81_at)
  have h := xls_table
  cases hs : xlRun xlsG xls81 (xlsTab.map Prod.snd) with
  | none => rw [hs] at h; cases h
  | some s =>
    rw [hs] at h
    simp only [Bool.and_eq_true, decide_eq_true_eq, Bool.not_eq_true'] at h
    have h3 := xl_slice h2 xls_slice3 hs
    rw [xl_slice h3 (xls_slice4 n) (xls_polls n ⟨h.1.1, h.1.2, h.2⟩)]; rfl

noncomputable def xlsSt : Nat → SlaveSys := Classical.choose xls_chain

/-- The two executions. -/
noncomputable def xlm : MDeviceTimed := { op := xlmOp, time := xlmTime, st := xlmSt, out := xlmOut }
noncomputable def xls : DeviceTimed := { op := xlsOp, time := xlsTime, st := xlsSt, out := xlsOut }

theorem xlm_step (n : Nat) : masterSysStep Config.default (xlmSt n) (xlmOp n) = .ok (xlmSt (n + 1), xlmOut n) :=
  xlmG_step ((Classical.choose_spec xlm_chain).2 n)

theorem xlm_start : xlmSt 0 = xlm0 := (Option.some.inj ((Classical.choose_spec xlm_chain).1 0)).symm

theorem xls_step (n : Nat) : slaveSysStep Config.default (xlsSt n) (xlsOp n) = .ok (xlsSt (n + 1), xlsOut n) :=
  xlsG_step ((Classical.choose_spec xls_chain).2 n)

theorem xls_start : xlsSt 0 = xls0 := (Option.some.inj ((Classical.choose_spec xls_chain).1 0)).symm

/-! ### What happens where -/

theorem xlm_out {n : Nat} (h : n < 1200 ∨ 1381 ≤ n) : xlmOut n = [] ∧ (xlmOp n = .main .poll ∨ xlmOp n = .main .tick) := by
  unfold xlmOut xlmOp
  rcases h with h | h
  · rw [if_pos h, if_pos h]
    exact ⟨rfl, (xlIdle_cases n).imp (by rintro h; rw [h]) (by rintro h; rw [h])⟩
  · rw [if_neg (by omega), if_neg (by omega), if_neg (by omega), if_neg (by omega)]
    exact ⟨rfl, (xlIdle_cases (n - 1381)).imp (by rintro h; rw [h]) (by rintro h; rw [h])⟩

theorem xls_out {n : Nat} (h : n < 943 ∨ 1080 ≤ n) : xlsOut n = [] ∧ ∃ op, xlsOp n = .main op := by
  unfold xlsOut xlsOp
  rcases h with h | h
  · rw [if_pos h]
    split
    · exact ⟨rfl, _, rfl⟩
    · exact ⟨rfl, _, rfl⟩
  · rw [if_neg (by omega), if_neg (by omega), if_neg (by omega), if_neg (by omega), if_neg (by omega)]
    exact ⟨rfl, _, rfl⟩

/-- An event that is not one of the main program's is in the table. -/
theorem xlm_in {n : Nat} (h : ∀ op, xlmOp n ≠ .main op) : ∃ k, k < 181 ∧ n = 1200 + k := by
  have : ¬ (n < 1200 ∨ 1381 ≤ n) := fun hn => by
    rcases (xlm_out hn).2 with e | e <;> exact h _ e
  exact ⟨n - 1200, by omega, by omega⟩

theorem xls_in {n : Nat} (h : ∀ op, xlsOp n ≠ .main op) : ∃ k, k < 137 ∧ n = 943 + k := by
  have : ¬ (n < 943 ∨ 1080 ≤ n) := fun hn => by
    obtain ⟨-, op, e⟩ := xls_out hn
    exact h _ e
  exact ⟨n - 943, by omega, by omega⟩

theorem xlm_gets {n : Nat} {b : U8} : xlm.Gets n b ↔ mrxOf (xlmOp n) = some b := by
  show (∃ t, xlmOp n = .usart (some b) t) ↔ _
  cases xlmOp n <;> simp [mrxOf]

theorem xls_gets {n : Nat} {b : U8} : xls.Gets n b ↔ srxOf (xlsOp n) = some b := by
  show (∃ t, xlsOp n = .usart (some b) t) ↔ _
  cases xlsOp n <;> simp [srxOf]

theorem xl_mtdr {l : List HMOut} {b : U8} : .tdr b ∈ l ↔ b ∈ mtdr l := by
  unfold mtdr
  rw [List.mem_filterMap]
  constructor
  · exact fun h => ⟨_, h, rfl⟩
  · rintro ⟨o, ho, he⟩
    cases o with
    | tdr c => cases he; exact ho
    | _ => cases he

theorem xl_stdr {l : List HOut} {b : U8} : .tdr b ∈ l ↔ b ∈ stdr l := by
  unfold stdr
  rw [List.mem_filterMap]
  constructor
  · exact fun h => ⟨_, h, rfl⟩
  · rintro ⟨o, ho, he⟩
    cases o with
    | tdr c => cases he; exact ho
    | _ => cases he

theorem xlm_byte {n : Nat} : xlm.Byte n ↔ mrxOf (xlmOp n) ≠ none := by
  constructor
  · rintro ⟨b, t, h⟩
    rw [xlm_gets.1 ⟨t, h⟩]; simp
  · intro h
    cases hb : mrxOf (xlmOp n) with
    | none => exact absurd hb h
    | some b => obtain ⟨t, h⟩ := xlm_gets.2 hb; exact ⟨b, t, h⟩

theorem xls_byte {n : Nat} : xls.Byte n ↔ srxOf (xlsOp n) ≠ none := by
  constructor
  · rintro ⟨b, t, h⟩
    rw [xls_gets.1 ⟨t, h⟩]; simp
  · intro h
    cases hb : srxOf (xlsOp n) with
    | none => exact absurd hb h
    | some b => obtain ⟨t, h⟩ := xls_gets.2 hb; exact ⟨b, t, h⟩

theorem xlm_byte_in {n : Nat} (h : mrxOf (xlmOp n) ≠ none) : ∃ k, k < 181 ∧ n = 1200 + k := xlm_in fun op e => h (by rw [e]; rfl)

theorem xls_byte_in {n : Nat} (h : srxOf (xlsOp n) ≠ none) : ∃ k, k < 137 ∧ n = 943 + k := xls_in fun op e => h (by rw [e]; rfl)

theorem xlm_time_idle {n : Nat} (h : n < 1200) : xlmTime n = (115 * (n / 4) + (if n % 4 = 3 then 115 else 20 + 40 * (n % 4))) * 1000000 := by
  unfold xlmTime xlIdleTime
  rw [if_pos h]

theorem xlm_time_tail {n : Nat} (h : 1381 ≤ n) :
    xlmTime n = (37490 + (115 * ((n - 1381) / 4) + (if (n - 1381) % 4 = 3 then 115 else 20 + 40 * ((n - 1381) % 4)))) * 1000000 := by
  unfold xlmTime xlIdleTime
  rw [if_neg (by omega), if_neg (by omega)]

theorem xls_time_regs {n : Nat} (h : n < 81) : xlsTime n = 0 := by
  unfold xlsTime
  rw [if_pos h]

theorem xls_time_idle {n : Nat} (h : 81 ≤ n) (h2 : n < 943) : xlsTime n = 40 * (n - 80) * 1000000 := by
  unfold xlsTime
  rw [if_neg (by omega), if_pos h2]

theorem xls_time_tail {n : Nat} (h : 1080 ≤ n) : xlsTime n = (37480 + 40 * (n - 1079)) * 1000000 := by
  unfold xlsTime
  rw [if_neg (by omega), if_neg (by omega), if_neg (by omega)]

theorem xlm_op_idle {n : Nat} (h : n < 1200) : xlmOp n = if n % 4 = 3 then .main .tick else .main .poll := by
  unfold xlmOp xlIdle
  rw [if_pos h]
  split <;> rfl

theorem xlm_op_tail {n : Nat} (h : 1381 ≤ n) : xlmOp n = if (n - 1381) % 4 = 3 then .main .tick else .main .poll := by
  unfold xlmOp xlIdle
  rw [if_neg (by omega), if_neg (by omega)]
  split <;> rfl

theorem xls_op_poll {n : Nat} (h : 81 ≤ n ∧ n < 943 ∨ 1080 ≤ n) : xlsOp n = .main .poll := by
  unfold xlsOp
  rw [if_neg (by omega)]
  split
  · rfl
  · rw [if_neg (by omega)]

/-! ### The master's device -/

theorem xlm_mono (n : Nat) : xlmTime n ≤ xlmTime (n + 1) := by
  by_cases h1 : n + 1 < 1200
  · rw [xlm_time_idle (by omega), xlm_time_idle h1]
    apply Nat.mul_le_mul_right
    split <;> split <;> omega
  · by_cases h2 : n < 1381
    · have key : ∀ k, k < 182 → xlmTime (1199 + k) ≤ xlmTime (1199 + k + 1) := by decide +kernel
      have := key (n - 1199) (by omega)
      rwa [show 1199 + (n - 1199) = n by omega] at this
    · rw [xlm_time_tail (by omega), xlm_time_tail (by omega)]
      apply Nat.mul_le_mul_right
      split <;> split <;> omega

theorem xlm_exec : xlm.Exec Config.default := by
  refine ⟨?_, xlm_step, fun n op h => ?_, xlm_mono⟩
  · show masterSysStep Config.default MasterSys.powerOn (.main (.init .rtu)) = .ok (xlmSt 0, [])
    rw [xlm_start]; exact xlm_init
  · have h : xlmOp n = .main op := h
    by_cases hn : n < 1200 ∨ 1381 ≤ n
    · rcases (xlm_out hn).2 with e | e <;> (rw [h] at e; cases e; trivial)
    · have key : ∀ k, k < 181 → xlmOp (1200 + k) = .main .poll ∨ xlmOp (1200 + k) = .main .tick ∨
          (∃ r ∈ exampleRound false 0, xlmOp (1200 + k) = .main (.request r)) ∨ mainOp? (xlmOp (1200 + k)) = none := by decide +kernel
      have k := key (n - 1200) (by omega)
      rw [show 1200 + (n - 1200) = n by omega] at k
      rcases k with e | e | ⟨r, hr, e⟩ | e
      · rw [h] at e; cases e; trivial
      · rw [h] at e; cases e; trivial
      · rw [h] at e; cases e
        simp only [exampleRound, List.mem_cons, List.not_mem_nil, or_false] at hr
        rcases hr with rfl | rfl | rfl | rfl <;> (intro _; trivial)
      · rw [h] at e; cases e

theorem xlm_rto {n : Nat} (h : xlmOp n = .rto) : ∃ k, k < 181 ∧ n = 1200 + k := xlm_in fun op e => by rw [h] at e; cases e

theorem xlm_timer {n : Nat} (h : xlmOp n = .timer) : ∃ k, k < 181 ∧ n = 1200 + k := xlm_in fun op e => by rw [h] at e; cases e

theorem xlm_hardware : xlm.Hardware 99000000 201715200 5760000 := by
  refine ⟨?_, ?_, ?_, ?_, ?_, ?_⟩
  · intro n hn
    have hn := xlm_byte.1 hn
    obtain ⟨k, hk, rfl⟩ := xlm_byte_in hn
    have key : ∀ k, k < 181 → mrxOf (xlmOp (1200 + k)) ≠ none → ∃ d, d < 24 ∧ (mrxOf (xlmOp (1200 + k + 1 + d)) ≠ none ∨ xlmOp (1200 + k + 1 + d) = .rto) ∧
      xlmTime (1200 + k + 1 + d) ≤ xlmTime (1200 + k) + 99000000 + 5760000 := by decide +kernel
    obtain ⟨d, -, d1, d2⟩ := key k hk hn
    exact ⟨_, by omega, d1.imp xlm_byte.2 (fun h => h), d2⟩
  · intro n hn
    have hn : xlmOp n = .rto := hn
    obtain ⟨k, hk, rfl⟩ := xlm_rto hn
    have key : ∀ k, k < 181 → xlmOp (1200 + k) = .rto → ∃ d, d < 24 ∧ d < 1200 + k ∧ mrxOf (xlmOp (1200 + k - (d + 1))) ≠ none ∧
      xlmTime (1200 + k - (d + 1)) + 99000000 ≤ xlmTime (1200 + k) ∧
      ∀ j, j < d → mrxOf (xlmOp (1200 + k - (j + 1))) = none ∧ xlmOp (1200 + k - (j + 1)) ≠ .rto := by decide +kernel
    obtain ⟨d, -, d0, d1, d2, d3⟩ := key k hk hn
    refine ⟨_, by omega, xlm_byte.2 d1, d2, fun j j1 j2 => ?_⟩
    have := d3 (1200 + k - j - 1) (by omega)
    rw [show 1200 + k - (1200 + k - j - 1 + 1) = j by omega] at this
    exact ⟨fun h => xlm_byte.1 h this.1, this.2⟩
  · intro n hn
    have hn := xlm_byte.1 hn
    obtain ⟨k, hk, rfl⟩ := xlm_byte_in hn
    have key : ∀ k, k < 181 → mrxOf (xlmOp (1200 + k)) ≠ none → ∃ d, d < 24 ∧ (mrxOf (xlmOp (1200 + k + 1 + d)) ≠ none ∨ xlmOp (1200 + k + 1 + d) = .timer) ∧
      xlmTime (1200 + k + 1 + d) ≤ xlmTime (1200 + k) + 201715200 + 5760000 := by decide +kernel
    obtain ⟨d, -, d1, d2⟩ := key k hk hn
    exact ⟨_, by omega, d1.imp xlm_byte.2 (fun h => h), d2⟩
  · intro n hn
    have hn : xlmOp n = .timer := hn
    obtain ⟨k, hk, rfl⟩ := xlm_timer hn
    have key : ∀ k, k < 181 → xlmOp (1200 + k) = .timer → ∃ d, d < 24 ∧ d < 1200 + k ∧ mrxOf (xlmOp (1200 + k - (d + 1))) ≠ none ∧
      xlmTime (1200 + k - (d + 1)) + 201715200 ≤ xlmTime (1200 + k) ∧
      ∀ j, j < d → mrxOf (xlmOp (1200 + k - (j + 1))) = none ∧ xlmOp (1200 + k - (j + 1)) ≠ .timer := by decide +kernel
    obtain ⟨d, -, d0, d1, d2, d3⟩ := key k hk hn
    refine ⟨_, by omega, xlm_byte.2 d1, d2, fun j j1 j2 => ?_⟩
    have := d3 (1200 + k - j - 1) (by omega)
    rw [show 1200 + k - (1200 + k - j - 1 + 1) = j by omega] at this
    exact ⟨fun h => xlm_byte.1 h this.1, this.2⟩
  · intro n hn
    have hn : xlmOp n = .rto := hn
    obtain ⟨k, hk, rfl⟩ := xlm_rto hn
    have key : ∀ k, k < 181 → xlmOp (1200 + k) = .rto → xlmOp (1200 + k + 1) = .usart none false ∧ xlmTime (1200 + k + 1) ≤ xlmTime (1200 + k) + 5760000 := by
      decide +kernel
    obtain ⟨d1, d2⟩ := key k hk hn
    exact ⟨_, none, false, by omega, d1, d2⟩
  · intro n op h hm
    obtain ⟨r, r1, r2, r3⟩ := rtof_back xlm_exec n h
    have r2 : xlmOp r = .rto := r2
    obtain ⟨k, hk, rfl⟩ := xlm_rto r2
    have key : ∀ k, k < 181 → xlmOp (1200 + k) = .rto → xlmOp (1200 + k + 1) = .usart none false := by decide +kernel
    have d := key k hk r2
    by_cases hn : n = 1200 + k + 1
    · subst hn
      have hm : xlmOp (1200 + k + 1) = .main op := hm
      rw [hm] at d; cases d
    · exact r3 (1200 + k + 1) (by omega) (by omega) none false d

/-! ### The slave's device -/

theorem xls_mono (n : Nat) : xlsTime n ≤ xlsTime (n + 1) := by
  by_cases h1 : n < 81
  · rw [xls_time_regs h1]; exact Nat.zero_le _
  by_cases h2 : n + 1 < 943
  · rw [xls_time_idle (by omega) (by omega), xls_time_idle (by omega) h2]
    omega
  · by_cases h3 : n < 1080
    · have key : ∀ k, k < 138 → xlsTime (942 + k) ≤ xlsTime (942 + k + 1) := by decide +kernel
      have := key (n - 942) (by omega)
      rwa [show 942 + (n - 942) = n by omega] at this
    · rw [xls_time_tail (by omega), xls_time_tail (by omega)]
      omega

theorem xls_main_reg {n : Nat} (h : n < 81) : ∃ op ∈ xRegistrations, xlsOp n = .main op := by
  have hl : n < xRegistrations.length := by rw [show xRegistrations.length = 81 by decide +kernel]; exact h
  refine ⟨xRegistrations[n], List.getElem_mem hl, ?_⟩
  unfold xlsOp
  rw [if_pos h]
  simp [List.getD, List.getElem?_eq_getElem hl]

theorem xls_exec : xls.Exec Config.default 1 := by
  refine ⟨⟨xInitMem, ?_⟩, xls_step, fun n op h => ?_, xls_mono⟩
  · show _ = Except.ok (xlsSt 0, [])
    rw [xls_start]; exact xls_init
  · have h : xlsOp n = .main op := h
    by_cases h1 : n < 81
    · obtain ⟨op', ho, e⟩ := xls_main_reg h1
      rw [h] at e; cases e
      have key : ∀ op ∈ xRegistrations, (match op with
        | .register t a _ => decide (a.toNat < (match t with
          | .coils => Config.default.coilsQty | .dins => Config.default.dinQty | .inregs => Config.default.inregQty | .hregs => Config.default.hregQty))
        | _ => false) = true := by decide +kernel
      have := key op ho
      cases op with
      | register t a p => exact of_decide_eq_true this
      | _ => cases this
    · by_cases hn : n < 943 ∨ 1080 ≤ n
      · rw [xls_op_poll (by omega)] at h
        cases h; trivial
      · have key : ∀ k, k < 137 → xlsOp (943 + k) = .main .poll ∨ isMainOp (xlsOp (943 + k)) = false := by decide +kernel
        have k := key (n - 943) (by omega)
        rw [show 943 + (n - 943) = n by omega] at k
        rcases k with e | e
        · rw [h] at e; cases e; trivial
        · rw [h] at e; cases e

theorem xls_rto {n : Nat} (h : xlsOp n = .rto) : ∃ k, k < 137 ∧ n = 943 + k := xls_in fun op e => by rw [h] at e; cases e

theorem xls_timer {n : Nat} (h : xlsOp n = .timer) : ∃ k, k < 137 ∧ n = 943 + k := xls_in fun op e => by rw [h] at e; cases e

/-- RTOF of the slave: set by the hardware, cleared by the timer's handler. -/
def xlRtof (b : Bool) : HOp → Bool
  | .rto => true
  | .timer => false
  | _ => b

theorem xls_rtof (n : Nat) : (xlsSt (n + 1)).rtof = xlRtof (xlsSt n).rtof (xlsOp n) := by
  have e : ∀ {s s' : SlaveSys} {op : HOp} {o : List HOut}, slaveSysStep Config.default s op = .ok (s', o) → s'.rtof = xlRtof s.rtof op := by
    intro s s' op o h
    have e := xsys_rtof h
    cases op <;> exact e
  exact e (xls_step n)

theorem xls_rtof_back (n : Nat) : (xlsSt n).rtof = true → ∃ r, r < n ∧ xlsOp r = .rto ∧ ∀ j, r < j → j < n → xlsOp j ≠ .timer := by
  induction n with
  | zero => intro h; rw [xls_start] at h; cases h
  | succ n ih =>
    intro h
    rw [xls_rtof] at h
    have go : xlsOp n ≠ .timer → (xlsSt n).rtof = true → ∃ r, r < n + 1 ∧ xlsOp r = .rto ∧ ∀ j, r < j → j < n + 1 → xlsOp j ≠ .timer := by
      intro h1 h2
      obtain ⟨r, r1, r2, r3⟩ := ih h2
      refine ⟨r, by omega, r2, fun j j1 j2 => ?_⟩
      by_cases hj : j = n
      · rw [hj]; exact h1
      · exact r3 j j1 (by omega)
    cases ho : xlsOp n with
    | rto => exact ⟨n, by omega, ho, fun j j1 j2 => by omega⟩
    | timer => rw [ho] at h; cases h
    | main op => rw [ho] at h; exact go (by simp [ho]) h
    | usart a b => rw [ho] at h; exact go (by simp [ho]) h

theorem xls_rtof_fwd (r e : Nat) (h : xlsOp r = .rto) : (∀ j, j < e → xlsOp (r + 1 + j) ≠ .timer) → (xlsSt (r + 1 + e)).rtof = true := by
  induction e with
  | zero => intro _; rw [Nat.add_zero, xls_rtof, h]; rfl
  | succ e ih =>
    intro hj
    have ih := ih fun j h1 => hj j (by omega)
    rw [← Nat.add_assoc, xls_rtof]
    have := hj e (by omega)
    cases ho : xlsOp (r + 1 + e) with
    | timer => exact absurd ho this
    | rto => rfl
    | main op => exact ih
    | usart a b => exact ih

theorem xls_hardware : xls.Hardware 99000000 201715200 5760000 := by
  refine ⟨?_, ?_, ?_, ?_, ?_, ?_, by omega⟩
  · intro n hn
    have hn := xls_byte.1 hn
    obtain ⟨k, hk, rfl⟩ := xls_byte_in hn
    have key : ∀ k, k < 137 → srxOf (xlsOp (943 + k)) ≠ none → ∃ d, d < 24 ∧ (srxOf (xlsOp (943 + k + 1 + d)) ≠ none ∨ xlsOp (943 + k + 1 + d) = .rto) ∧
      xlsTime (943 + k + 1 + d) ≤ xlsTime (943 + k) + 99000000 + 5760000 := by decide +kernel
    obtain ⟨d, -, d1, d2⟩ := key k hk hn
    exact ⟨_, by omega, d1.imp xls_byte.2 (fun h => h), d2⟩
  · intro n hn
    have hn : xlsOp n = .rto := hn
    obtain ⟨k, hk, rfl⟩ := xls_rto hn
    have key : ∀ k, k < 137 → xlsOp (943 + k) = .rto → ∃ d, d < 24 ∧ d < 943 + k ∧ srxOf (xlsOp (943 + k - (d + 1))) ≠ none ∧
      xlsTime (943 + k - (d + 1)) + 99000000 ≤ xlsTime (943 + k) ∧
      ∀ j, j < d → srxOf (xlsOp (943 + k - (j + 1))) = none ∧ xlsOp (943 + k - (j + 1)) ≠ .rto := by decide +kernel
    obtain ⟨d, -, d0, d1, d2, d3⟩ := key k hk hn
    refine ⟨_, by omega, xls_byte.2 d1, d2, fun j j1 j2 => ?_⟩
    have := d3 (943 + k - j - 1) (by omega)
    rw [show 943 + k - (943 + k - j - 1 + 1) = j by omega] at this
    exact ⟨fun h => xls_byte.1 h this.1, this.2⟩
  · intro n hn
    have hn := xls_byte.1 hn
    obtain ⟨k, hk, rfl⟩ := xls_byte_in hn
    have key : ∀ k, k < 137 → srxOf (xlsOp (943 + k)) ≠ none → ∃ d, d < 24 ∧ (srxOf (xlsOp (943 + k + 1 + d)) ≠ none ∨ xlsOp (943 + k + 1 + d) = .timer) ∧
      xlsTime (943 + k + 1 + d) ≤ xlsTime (943 + k) + 201715200 + 5760000 := by decide +kernel
    obtain ⟨d, -, d1, d2⟩ := key k hk hn
    exact ⟨_, by omega, d1.imp xls_byte.2 (fun h => h), d2⟩
  · intro n hn
    have hn : xlsOp n = .timer := hn
    obtain ⟨k, hk, rfl⟩ := xls_timer hn
    have key : ∀ k, k < 137 → xlsOp (943 + k) = .timer → ∃ d, d < 24 ∧ d < 943 + k ∧ srxOf (xlsOp (943 + k - (d + 1))) ≠ none ∧
      xlsTime (943 + k - (d + 1)) + 201715200 ≤ xlsTime (943 + k) ∧
      ∀ j, j < d → srxOf (xlsOp (943 + k - (j + 1))) = none ∧ xlsOp (943 + k - (j + 1)) ≠ .timer := by decide +kernel
    obtain ⟨d, -, d0, d1, d2, d3⟩ := key k hk hn
    refine ⟨_, by omega, xls_byte.2 d1, d2, fun j j1 j2 => ?_⟩
    have := d3 (943 + k - j - 1) (by omega)
    rw [show 943 + k - (943 + k - j - 1 + 1) = j by omega] at this
    exact ⟨fun h => xls_byte.1 h this.1, this.2⟩
  · intro n hn
    have hn : xlsOp n = .rto := hn
    obtain ⟨k, hk, rfl⟩ := xls_rto hn
    have key : ∀ k, k < 137 → xlsOp (943 + k) = .rto → xlsOp (943 + k + 1) = .usart none false ∧ xlsTime (943 + k + 1) ≤ xlsTime (943 + k) + 5760000 := by
      decide +kernel
    obtain ⟨d1, d2⟩ := key k hk hn
    exact ⟨_, none, false, by omega, d1, d2⟩
  · intro n op h hm
    obtain ⟨r, r1, r2, r3⟩ := xls_rtof_back n h
    obtain ⟨k, hk, rfl⟩ := xls_rto r2
    have key : ∀ k, k < 137 → xlsOp (943 + k) = .rto → ∃ d, d < 24 ∧ xlsOp (943 + k + 1 + d) = .timer ∧ ∀ j, j < d + 1 → isMainOp (xlsOp (943 + k + 1 + j)) = false := by
      decide +kernel
    obtain ⟨d, -, d1, d2⟩ := key k hk r2
    have hm : xlsOp n = .main op := hm
    by_cases hn : n ≤ 943 + k + 1 + d
    · have := d2 (n - (943 + k + 1)) (by omega)
      rw [show 943 + k + 1 + (n - (943 + k + 1)) = n by omega, hm] at this
      cases this
    · exact r3 _ (by omega) (by omega) d1

/-! ### The line -/

/-- The writing events of the master, and where the bytes arrive. -/
def xlVia (l : List (Nat × Nat)) (n : Nat) : Nat := match l.find? fun p => p.1 == n with
  | some p => p.2
  | none => 0

theorem xlm_writes {n : Nat} {b : U8} (h : xlm.Writes n b) : n ∈ xlmW.map Prod.fst ∧ b ∈ mtdr (xlmOut n) := by
  have h1 := xl_mtdr.1 (show .tdr b ∈ xlmOut n from h)
  refine ⟨?_, h1⟩
  by_cases hn : n < 1200 ∨ 1381 ≤ n
  · rw [(xlm_out hn).1] at h1; cases h1
  · have key : ∀ k, k < 181 → mtdr (xlmOut (1200 + k)) ≠ [] → 1200 + k ∈ xlmW.map Prod.fst := by decide +kernel
    have := key (n - 1200) (by omega)
    rw [show 1200 + (n - 1200) = n by omega] at this
    exact this fun e => by rw [e] at h1; cases h1

theorem xls_writes {n : Nat} {b : U8} (h : xls.Writes n b) : n ∈ xlsW.map Prod.fst ∧ b ∈ stdr (xlsOut n) := by
  have h1 := xl_stdr.1 (show .tdr b ∈ xlsOut n from h)
  refine ⟨?_, h1⟩
  by_cases hn : n < 943 ∨ 1080 ≤ n
  · rw [(xls_out hn).1] at h1; cases h1
  · have key : ∀ k, k < 137 → stdr (xlsOut (943 + k)) ≠ [] → 943 + k ∈ xlsW.map Prod.fst := by decide +kernel
    have := key (n - 943) (by omega)
    rw [show 943 + (n - 943) = n by omega] at this
    exact this fun e => by rw [e] at h1; cases h1

/-- Something is handed to the driver. -/
def xlmSends (n : Nat) : Bool := (xlmOut n).any fun o => match o with
  | .lib (.send _) => true
  | _ => false

def xlsSends (n : Nat) : Bool := (xlsOut n).any fun o => match o with
  | .send _ => true
  | _ => false

theorem xlm_sends {n : Nat} (h : xlmSends n = true) : xlm.Sends n := by
  obtain ⟨o, ho, h⟩ := List.any_eq_true.1 h
  split at h
  · exact ⟨_, ho⟩
  · cases h

theorem xls_sends {n : Nat} (h : xlsSends n = true) : xls.Sends n := by
  obtain ⟨o, ho, h⟩ := List.any_eq_true.1 h
  split at h
  · exact ⟨_, ho⟩
  · cases h

theorem xl_down : Line 27760000 99000000 xlm.Writes xlm.Sends xlm.time xls.Gets xls.time (xlVia xlmW) := by
  refine ⟨?_, ?_, ?_, ?_⟩
  · intro n b h
    obtain ⟨h1, h2⟩ := xlm_writes h
    have key : ∀ n ∈ xlmW.map Prod.fst, ∀ b ∈ mtdr (xlmOut n), srxOf (xlsOp (xlVia xlmW n)) = some b ∧ xlmTime n ≤ xlsTime (xlVia xlmW n) ∧
      xlsTime (xlVia xlmW n) ≤ xlmTime n + 27760000 := by decide +kernel
    obtain ⟨k1, k2, k3⟩ := key n h1 b h2
    exact ⟨xls_gets.2 k1, k2, k3⟩
  · intro n n' b b' hn h h'
    have key : ∀ n ∈ xlmW.map Prod.fst, ∀ n' ∈ xlmW.map Prod.fst, n < n' → xlVia xlmW n < xlVia xlmW n' := by decide +kernel
    exact key n (xlm_writes h).1 n' (xlm_writes h').1 hn
  · intro k b h
    have h := xls_gets.1 h
    obtain ⟨k, hk, rfl⟩ := xls_byte_in (n := k) (by rw [h]; simp)
    have key : ∀ k, k < 137 → ∀ b ∈ (srxOf (xlsOp (943 + k))).toList, ∃ n ∈ xlmW.map Prod.fst, b ∈ mtdr (xlmOut n) ∧ xlVia xlmW n = 943 + k := by decide +kernel
    obtain ⟨n, -, n1, n2⟩ := key k hk b (by rw [h]; exact List.mem_singleton.2 rfl)
    exact ⟨n, xl_mtdr.2 n1, n2⟩
  · intro n n' b b' hn h h' hb hf
    have key : ∀ n ∈ xlmW.map Prod.fst, ∀ n' ∈ xlmW.map Prod.fst, n < n' → xlmSends n' = true ∨ (∃ i ∈ xlmW.map Prod.fst, n < i ∧ i < n' ∧ mtdr (xlmOut i) ≠ []) ∨
      xlsTime (xlVia xlmW n') < xlsTime (xlVia xlmW n) + 99000000 := by decide +kernel
    rcases key n (xlm_writes h).1 n' (xlm_writes h').1 hn with e | ⟨i, -, i1, i2, i3⟩ | e
    · exact absurd (xlm_sends e) hf
    · obtain ⟨c, hc⟩ := List.exists_mem_of_ne_nil _ i3
      exact absurd (xl_mtdr.2 hc) (hb i c i1 i2)
    · exact e

theorem xl_up : Line 27760000 99000000 xls.Writes xls.Sends xls.time xlm.Gets xlm.time (xlVia xlsW) := by
  refine ⟨?_, ?_, ?_, ?_⟩
  · intro n b h
    obtain ⟨h1, h2⟩ := xls_writes h
    have key : ∀ n ∈ xlsW.map Prod.fst, ∀ b ∈ stdr (xlsOut n), mrxOf (xlmOp (xlVia xlsW n)) = some b ∧ xlsTime n ≤ xlmTime (xlVia xlsW n) ∧
      xlmTime (xlVia xlsW n) ≤ xlsTime n + 27760000 := by decide +kernel
    obtain ⟨k1, k2, k3⟩ := key n h1 b h2
    exact ⟨xlm_gets.2 k1, k2, k3⟩
  · intro n n' b b' hn h h'
    have key : ∀ n ∈ xlsW.map Prod.fst, ∀ n' ∈ xlsW.map Prod.fst, n < n' → xlVia xlsW n < xlVia xlsW n' := by decide +kernel
    exact key n (xls_writes h).1 n' (xls_writes h').1 hn
  · intro k b h
    have h := xlm_gets.1 h
    obtain ⟨k, hk, rfl⟩ := xlm_byte_in (n := k) (by rw [h]; simp)
    have key : ∀ k, k < 181 → ∀ b ∈ (mrxOf (xlmOp (1200 + k))).toList, ∃ n ∈ xlsW.map Prod.fst, b ∈ stdr (xlsOut n) ∧ xlVia xlsW n = 1200 + k := by decide +kernel
    obtain ⟨n, -, n1, n2⟩ := key k hk b (by rw [h]; exact List.mem_singleton.2 rfl)
    exact ⟨n, xl_stdr.2 n1, n2⟩
  · intro n n' b b' hn h h' hb hf
    have key : ∀ n ∈ xlsW.map Prod.fst, ∀ n' ∈ xlsW.map Prod.fst, n < n' → xlsSends n' = true ∨ (∃ i ∈ xlsW.map Prod.fst, n < i ∧ i < n' ∧ stdr (xlsOut i) ≠ []) ∨
      xlmTime (xlVia xlsW n') < xlmTime (xlVia xlsW n) + 99000000 := by decide +kernel
    rcases key n (xls_writes h).1 n' (xls_writes h').1 hn with e | ⟨i, -, i1, i2, i3⟩ | e
    · exact absurd (xls_sends e) hf
    · obtain ⟨c, hc⟩ := List.exists_mem_of_ne_nil _ i3
      exact absurd (xl_stdr.2 hc) (hb i c i1 i2)
    · exact e

/-! ### The bus -/

theorem xlm_polls (n : Nat) : ∃ m, n < m ∧ xlmOp m = .main .poll ∧ xlmTime m ≤ xlmTime n + 51840000 := by
  by_cases h1 : n + 2 < 1200
  · by_cases h3 : (n + 1) % 4 = 3
    · refine ⟨n + 2, by omega, ?_, ?_⟩
      · rw [xlm_op_idle h1, if_neg (by omega)]
      · rw [xlm_time_idle h1, xlm_time_idle (by omega), if_neg (by omega), if_neg (by omega)]; omega
    · refine ⟨n + 1, by omega, ?_, ?_⟩
      · rw [xlm_op_idle (by omega), if_neg h3]
      · rw [xlm_time_idle (by omega), xlm_time_idle (by omega), if_neg h3]
        split <;> omega
  · by_cases h2 : n < 1381
    · have key : ∀ k, k < 183 → ∃ d, d < 24 ∧ xlmOp (1198 + k + 1 + d) = .main .poll ∧ xlmTime (1198 + k + 1 + d) ≤ xlmTime (1198 + k) + 51840000 := by decide +kernel
      obtain ⟨d, -, d1, d2⟩ := key (n - 1198) (by omega)
      rw [show 1198 + (n - 1198) = n by omega] at d1 d2
      exact ⟨_, by omega, d1, d2⟩
    · by_cases h3 : (n + 1 - 1381) % 4 = 3
      · refine ⟨n + 2, by omega, ?_, ?_⟩
        · rw [xlm_op_tail (by omega), if_neg (by omega)]
        · rw [xlm_time_tail (by omega), xlm_time_tail (by omega), if_neg (by omega), if_neg (by omega)]; omega
      · refine ⟨n + 1, by omega, ?_, ?_⟩
        · rw [xlm_op_tail (by omega), if_neg h3]
        · rw [xlm_time_tail (by omega), xlm_time_tail (by omega), if_neg h3]
          split <;> omega

theorem xls_pollsIn (n : Nat) (hr : (xlsSt (n + 1)).rtof = false) : ∃ m, n < m ∧ xlsTime m ≤ xlsTime n + 51840000 ∧ (xlsOp m = .main .poll ∨ xlsOp m = .rto) := by
  by_cases h0 : n < 81
  · refine ⟨81, by omega, ?_, .inl (xls_op_poll (by omega))⟩
    rw [xls_time_regs h0, xls_time_idle (by omega) (by omega)]; omega
  by_cases h1 : n + 1 < 943
  · refine ⟨n + 1, by omega, ?_, .inl (xls_op_poll (by omega))⟩
    rw [xls_time_idle (by omega) (by omega), xls_time_idle (by omega) (by omega)]; omega
  · by_cases h2 : n < 1080
    · have key : ∀ k, k < 138 → (∃ d, d < 24 ∧ xlsTime (942 + k + 1 + d) ≤ xlsTime (942 + k) + 51840000 ∧
          (xlsOp (942 + k + 1 + d) = .main .poll ∨ xlsOp (942 + k + 1 + d) = .rto)) ∨
          ∃ e, e < 24 ∧ e < 942 + k ∧ xlsOp (942 + k - e) = .rto ∧ ∀ j, j < e → xlsOp (942 + k - e + 1 + j) ≠ .timer := by decide +kernel
      have k := key (n - 942) (by omega)
      rw [show 942 + (n - 942) = n by omega] at k
      rcases k with ⟨d, -, d1, d2⟩ | ⟨e, -, e0, e1, e2⟩
      · exact ⟨_, by omega, d1, d2⟩
      · have := xls_rtof_fwd _ e e1 e2
        rw [show n - e + 1 + e = n + 1 by omega, hr] at this
        cases this
    · refine ⟨n + 1, by omega, ?_, .inl (xls_op_poll (by omega))⟩
      rw [xls_time_tail (by omega), xls_time_tail (by omega)]; omega

theorem xlm_ticks (n : Nat) : ∃ m, n < m ∧ xlmOp m = .main .tick ∧ xlmTime m ≤ xlmTime n + 120960000 := by
  by_cases h1 : n < 1199
  · have h2 : 4 * ((n + 1) / 4) + 3 < 1200 := by omega
    refine ⟨4 * ((n + 1) / 4) + 3, by omega, ?_, ?_⟩
    · rw [xlm_op_idle h2, if_pos (by omega)]
    · rw [xlm_time_idle h2, xlm_time_idle (by omega), if_pos (by omega)]
      split <;> omega
  · by_cases h2 : n < 1381
    · have key : ∀ k, k < 182 → ∃ d, d < 32 ∧ xlmOp (1199 + k + 1 + d) = .main .tick ∧ xlmTime (1199 + k + 1 + d) ≤ xlmTime (1199 + k) + 120960000 := by decide +kernel
      obtain ⟨d, -, d1, d2⟩ := key (n - 1199) (by omega)
      rw [show 1199 + (n - 1199) = n by omega] at d1 d2
      exact ⟨_, by omega, d1, d2⟩
    · refine ⟨1381 + 4 * ((n - 1381 + 1) / 4) + 3, by omega, ?_, ?_⟩
      · rw [xlm_op_tail (by omega), if_pos (by omega)]
      · rw [xlm_time_tail (by omega), xlm_time_tail (by omega), if_pos (by omega)]
        split <;> omega

/-- Ticks come at multiples of 115 bit times, and nothing else at the same time after them. -/
theorem xlm_tick_at {n : Nat} (h : xlmOp n = .main .tick) : xlmTime n % 115000000 = 0 ∧ xlmTime n < xlmTime (n + 1) := by
  by_cases h1 : n < 1199
  · rw [xlm_op_idle (by omega)] at h
    split at h
    · rename_i h4
      rw [xlm_time_idle (by omega), xlm_time_idle (by omega), if_pos h4, if_neg (by omega)]
      omega
    · cases h
  · by_cases h2 : n < 1381
    · have key : ∀ k, k < 182 → xlmOp (1199 + k) = .main .tick → xlmTime (1199 + k) % 115000000 = 0 ∧ xlmTime (1199 + k) < xlmTime (1199 + k + 1) := by decide +kernel
      have k := key (n - 1199) (by omega)
      rw [show 1199 + (n - 1199) = n by omega] at k
      exact k h
    · rw [xlm_op_tail (by omega)] at h
      split at h
      · rename_i h4
        have e1 : xlmTime n = (37490 + (115 * ((n - 1381) / 4) + 115)) * 1000000 := by rw [xlm_time_tail (by omega), if_pos h4]
        have e2 : xlmTime (n + 1) = (37490 + (115 * ((n + 1 - 1381) / 4) + (20 + 40 * ((n + 1 - 1381) % 4)))) * 1000000 := by
          rw [xlm_time_tail (by omega), if_neg (by omega)]
        omega
      · cases h

theorem xl_tdr : (∀ n ∈ xlmW.map Prod.fst, ∃ d, d < 24 ∧ xlmOp (n + 1 + d) = .usart none true ∧ xlmTime (n + 1 + d) ≤ xlmTime n + 16760000) ∧
    ∀ n ∈ xlsW.map Prod.fst, ∃ d, d < 24 ∧ xlsOp (n + 1 + d) = .usart none true ∧ xlsTime (n + 1 + d) ≤ xlsTime n + 16760000 := by decide +kernel

theorem xl_bus : TimedBus Config.default Config.default 1 (boardTimes (115200 : BitVec 32).toNat (rtorValue 115200).toNat (1750 : BitVec 32).toNat) xlm xls := by
  have hr : (rtorValue 115200).toNat = 99 := by decide +kernel
  have hT : boardTimes (115200 : BitVec 32).toNat (rtorValue 115200).toNat (1750 : BitVec 32).toNat =
      ⟨99000000, 201715200, 5760000, 51840000, 51840000, 120960000, 109440000, 16760000, 27760000⟩ := by rw [hr]; rfl
  rw [hT]
  refine ⟨xlm_exec, xls_exec, xlm_hardware, xls_hardware, xlm_polls, xls_pollsIn, xlm_ticks, ?_, ?_, ?_, ⟨_, xl_down⟩, ⟨_, xl_up⟩⟩
  · intro m n hmn h1 h2
    have t1 := xlm_tick_at h1
    have t2 := xlm_tick_at h2
    have t3 := xlm_exec.time_le (show m + 1 ≤ n from hmn)
    have t3 : xlmTime (m + 1) ≤ xlmTime n := t3
    show xlmTime m + 109440000 ≤ xlmTime n
    omega
  · intro n b h
    obtain ⟨d, -, d1, d2⟩ := xl_tdr.1 n (xlm_writes h).1
    exact ⟨_, none, by omega, d1, d2⟩
  · intro n b h
    obtain ⟨d, -, d1, d2⟩ := xl_tdr.2 n (xls_writes h).1
    exact ⟨_, none, by omega, d1, d2⟩

end Modbus
