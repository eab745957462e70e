import Verif.Spec.DeviceStatements
import Verif.Proofs.DeviceTimed
import Verif.Proofs.MasterHist

/-! Statement by statement: the simulation of an interrupted poll by an atomic one, step by step. -/

set_option linter.unusedSimpArgs false

namespace Modbus

open Spec

/-- The statement at which the atomic poll takes place. -/
def linPt (d : SlaveDev) : Bool :=
  match d.pc with
  | .idTest => decide (d.sys.lib.t15 ≠ .set)
  | .mrF2 => decide (d.sys.lib.ferr ≠ .cleared)
  | .mrT2 => decide (d.sys.lib.t35 ≠ .set)
  | .trTest => decide (d.sys.lib.txf ≠ .cleared)
  | .anCur => decide (d.sys.lib.respLen.toNat = 0)
  | .idRecv | .drT35 | .anTdr | .trReq | .dfReq => true
  | _ => false

/-- A frame has been received and nothing is wrong with it so far. -/
structure Good (a : SlaveSys) : Prop where
  rtof : a.rtof = false
  st : a.lib.st = .msgReceived
  ferr : a.lib.ferr = .cleared
  t35 : a.lib.t35 = .set

/-- A bad frame has been received. -/
structure Bad (a : SlaveSys) : Prop where
  rtof : a.rtof = false
  st : a.lib.st = .msgReceived
  ferr : a.lib.ferr = .set
  t35 : a.lib.t35 = .set

/-- How the state `d` inside a poll relates to the state `a` of the execution with atomic polls. -/
def Sim (cfg : Config) (d : SlaveDev) (a : SlaveSys) : Prop :=
  match d.pc with
  | .out | .enter => d.sys = a
  | .idTest => d.sys = a ∧ a.lib.st = .idle
  | .idClear => d.sys = a ∧ a.rtof = false ∧ a.lib.st = .idle ∧ a.lib.t15 = .set
  | .idRecv => d.sys = { a with lib := { a.lib with t15 := .cleared } } ∧ a.rtof = false ∧ a.lib.st = .idle ∧ a.lib.t15 = .set
  | .idErr => a = { d.sys with lib := { d.sys.lib with ferr := .set, st := .msgReceived } } ∧ a.rtof = false
  | .idSt => a = { d.sys with lib := { d.sys.lib with st := .msgReceived } } ∧ a.rtof = false
  | .mrF1 => d.sys = a ∧ a.rtof = false ∧ a.lib.st = .msgReceived
  | .mrT1 => d.sys = a ∧ a.rtof = false ∧ a.lib.st = .msgReceived ∧ a.lib.ferr = .set
  | .mrF2 => d.sys = a ∧ a.rtof = false ∧ a.lib.st = .msgReceived ∧ (a.lib.ferr = .set → a.lib.t35 ≠ .set)
  | .mrT2 => d.sys = a ∧ a.rtof = false ∧ a.lib.st = .msgReceived ∧ a.lib.ferr = .cleared
  | .drLen => d.sys = a ∧ Bad a
  | .drSt => d.sys = { a with lib := { a.lib with reqLen := 0 } } ∧ Bad a
  | .drErr => d.sys = { a with lib := { a.lib with reqLen := 0, st := .idle } } ∧ Bad a
  | .drT35 => d.sys = { a with lib := { a.lib with reqLen := 0, st := .idle, ferr := .cleared } } ∧ Bad a
  | .anParse => d.sys = a ∧ Good a
  | .anFrame => Good a ∧ ∃ l, slaveParse cfg a.lib = .ok l ∧ d.sys = { a with lib := l }
  | .anCur => Good a ∧ ∃ l l', slaveParse cfg a.lib = .ok l ∧ slaveFrame l = .ok l' ∧ d.sys = { a with lib := l' }
  | .anLast => Good a ∧ ∃ l l' o, slaveParse cfg a.lib = .ok l ∧ slaveFrame l = .ok l' ∧ slaveDriverSend l' = .ok o ∧ 0 < l'.respLen.toNat ∧
      d.sys = { a with lib := l', cur := 0 }
  | .anTdr => Good a ∧ ∃ l l' o, slaveParse cfg a.lib = .ok l ∧ slaveFrame l = .ok l' ∧ slaveDriverSend l' = .ok o ∧ 0 < l'.respLen.toNat ∧
      d.sys = { a with lib := l', cur := 0, last := l'.respLen.toNat - 1 }
  | .anTxeie | .anTxf => a = { d.sys with lib := { d.sys.lib with txf := .set, st := .transmitting, t35 := .cleared } } ∧ a.rtof = false
  | .anSt => a = { d.sys with lib := { d.sys.lib with st := .transmitting, t35 := .cleared } } ∧ a.rtof = false
  | .anT35 => a = { d.sys with lib := { d.sys.lib with t35 := .cleared } } ∧ a.rtof = false ∧ a.lib.st = .transmitting
  | .trTest => d.sys = a ∧ a.lib.st = .transmitting
  | .trSt => d.sys = a ∧ a.rtof = false ∧ a.lib.st = .transmitting ∧ a.lib.txf = .cleared
  | .trResp => d.sys = { a with lib := { a.lib with st := .idle } } ∧ a.rtof = false ∧ a.lib.st = .transmitting ∧ a.lib.txf = .cleared
  | .trReq => d.sys = { a with lib := { a.lib with st := .idle, respLen := 0 } } ∧ a.rtof = false ∧ a.lib.st = .transmitting ∧ a.lib.txf = .cleared
  | _ => False

theorem main_poll {cfg : Config} {a : SlaveSys} (hr : a.rtof = false) :
    slaveSysStep cfg a (.main .poll) = (do let (l, o) ← slavePoll cfg a.lib; slaveSends { a with lib := l } o) := by
  have hm : ¬ (a.rtof = true ∨ SOp.poll.isMain = false) := by
    rw [hr]; rintro (h | h) <;> cases h
  simp only [slaveSysStep, if_neg hm, slaveStep]

theorem main_poll_quiet {cfg : Config} {a : SlaveSys} {l : Slave} (hr : a.rtof = false) (hp : slavePoll cfg a.lib = .ok (l, [])) :
    slaveSysStep cfg a (.main .poll) = .ok ({ a with lib := l }, []) := by
  rw [main_poll hr, hp]; rfl

variable {cfg : Config} {d d' : SlaveDev} {a : SlaveSys} {o : List HOut}


theorem stmt_lin {e : Bool} {s : SlaveSys} {pc : SPc} {D : SlaveDev} {O : List HOut} (hD : D.sys.rtof = false) (hlin : linPt ⟨s, pc, e⟩ = true)
    (h : slaveStmt cfg ⟨s, pc, e⟩ = .ok (d', o)) (hs : slaveStmt cfg ⟨s, pc, e⟩ = .ok (D, O))
    (hS : ∃ a', slaveSysStep cfg a (.main .poll) = .ok (a', O) ∧ Sim cfg D a') :
    d'.sys.rtof = false ∧
      if linPt ⟨s, pc, e⟩ = true then ∃ a', slaveSysStep cfg a (.main .poll) = .ok (a', o) ∧ Sim cfg d' a' else o = [] ∧ Sim cfg d' a := by
  rw [hs] at h
  obtain ⟨rfl, rfl⟩ := Prod.mk.inj (Except.ok.inj h)
  rw [if_pos hlin]
  exact ⟨hD, hS⟩

theorem stmt_nolin {e : Bool} {s : SlaveSys} {pc : SPc} {D : SlaveDev} (hD : D.sys.rtof = false) (hlin : linPt ⟨s, pc, e⟩ = false)
    (h : slaveStmt cfg ⟨s, pc, e⟩ = .ok (d', o)) (hs : slaveStmt cfg ⟨s, pc, e⟩ = .ok (D, []))
    (hS : Sim cfg D a) :
    d'.sys.rtof = false ∧
      if linPt ⟨s, pc, e⟩ = true then ∃ a', slaveSysStep cfg a (.main .poll) = .ok (a', o) ∧ Sim cfg d' a' else o = [] ∧ Sim cfg d' a := by
  rw [hs] at h
  obtain ⟨rfl, rfl⟩ := Prod.mk.inj (Except.ok.inj h)
  rw [hlin, if_neg (by decide)]
  exact ⟨hD, rfl, hS⟩

theorem stmt_idRecv {s : SlaveSys} {e : Bool} {q : C Ret} (hm : s.lib.msgPtr = true) (hq : rtuRecv s.lib.reqData s.lib.reqLen s.lib.id = q) :
    slaveStmt cfg ⟨s, .idRecv, e⟩ = (q >>= fun r => .ok (⟨s, if r ≠ RET_OK then .idErr else .idSt, e⟩, [])) := by
  subst hq
  simp only [slaveStmt, if_pos hm]

/-- One statement: at the distinguished one the atomic poll takes place, at the others nothing happens. -/
theorem sim_stmt (hS : Sim cfg d a) (hr : d.sys.rtof = false) (hl : Live a.lib) (hu : a.lib.st ≠ .unknown) (hp : d.pc ≠ .out)
    (h : slaveStmt cfg d = .ok (d', o)) :
    d'.sys.rtof = false ∧ if linPt d = true then ∃ a', slaveSysStep cfg a (.main .poll) = .ok (a', o) ∧ Sim cfg d' a' else o = [] ∧ Sim cfg d' a := by
  obtain ⟨s, pc, e⟩ := d
  have hr : s.rtof = false := hr
  cases pc with
  | out => exact absurd rfl hp
  | enter =>
    have hs : s = a := hS
    subst hs
    cases hst : s.lib.st with
    | idle =>
      refine stmt_nolin (D := ⟨s, .idTest, e⟩) hr rfl h ?_ ⟨rfl, hst⟩
      simp only [slaveStmt, hst]
    | msgReceived =>
      refine stmt_nolin (D := ⟨s, .mrF1, e⟩) hr rfl h ?_ ⟨rfl, hr, hst⟩
      simp only [slaveStmt, hst]
    | transmitting =>
      refine stmt_nolin (D := ⟨s, .trTest, e⟩) hr rfl h ?_ ⟨rfl, hst⟩
      simp only [slaveStmt, hst]
    | unknown => exact absurd hst hu
  | idTest =>
    obtain ⟨hs, hst⟩ : s = a ∧ a.lib.st = .idle := hS
    subst hs
    by_cases ht : s.lib.t15 = .set
    · refine stmt_nolin (D := ⟨s, .idClear, e⟩) hr (by simp [linPt, ht]) h ?_ ⟨rfl, hr, hst, ht⟩
      simp only [slaveStmt, ht, if_true]
    · refine stmt_lin (D := ⟨s, .out, e⟩) hr (by simp [linPt, ht]) h (O := []) ?_ ⟨s, ?_, rfl⟩
      · simp only [slaveStmt, ht, if_false]
      · exact main_poll_quiet hr (by simp only [slavePoll, hst]; exact slaveIdle_noT15 _ ht)
  | idClear =>
    obtain ⟨hs, h1, h2, h3⟩ : s = a ∧ a.rtof = false ∧ a.lib.st = .idle ∧ a.lib.t15 = .set := hS
    subst hs
    exact stmt_nolin (D := ⟨{ s with lib := { s.lib with t15 := .cleared } }, .idRecv, e⟩) hr rfl h rfl ⟨rfl, h1, h2, h3⟩
  | idRecv =>
    obtain ⟨hs, h1, h2, h3⟩ : s = { a with lib := { a.lib with t15 := .cleared } } ∧ a.rtof = false ∧ a.lib.st = .idle ∧ a.lib.t15 = .set := hS
    subst hs
    cases hq : rtuRecv a.lib.reqData a.lib.reqLen a.lib.id with
    | error u =>
      have : slaveStmt cfg ⟨{ a with lib := { a.lib with t15 := .cleared } }, .idRecv, e⟩ = .error u := by
        exact stmt_idRecv (s := { a with lib := { a.lib with t15 := .cleared } }) (q := .error u) hl.msgPtr hq
      rw [this] at h; cases h
    | ok r =>
      have hpoll : slaveSysStep cfg a (.main .poll) =
          .ok ({ a with lib := { a.lib with t15 := .cleared, ferr := if r ≠ RET_OK then .set else a.lib.ferr, st := .msgReceived } }, []) :=
        main_poll_quiet h1 (by simp only [slavePoll, h2, slaveIdle, h3, hl.msgPtr, if_true, hq]; rfl)
      refine stmt_lin (D := ⟨{ a with lib := { a.lib with t15 := .cleared } }, if r ≠ RET_OK then .idErr else .idSt, e⟩) hr rfl h (O := []) ?_
        ⟨_, hpoll, ?_⟩
      · exact stmt_idRecv (s := { a with lib := { a.lib with t15 := .cleared } }) (q := .ok r) hl.msgPtr hq
      · by_cases hr' : r ≠ RET_OK
        · simp only [if_pos hr']; exact ⟨rfl, h1⟩
        · simp only [if_neg hr']; exact ⟨rfl, h1⟩
  | idErr =>
    obtain ⟨hs, h1⟩ : a = { s with lib := { s.lib with ferr := .set, st := .msgReceived } } ∧ a.rtof = false := hS
    subst hs
    exact stmt_nolin (D := ⟨{ s with lib := { s.lib with ferr := .set } }, .idSt, e⟩) hr rfl h rfl ⟨rfl, h1⟩
  | idSt =>
    obtain ⟨hs, h1⟩ : a = { s with lib := { s.lib with st := .msgReceived } } ∧ a.rtof = false := hS
    subst hs
    exact stmt_nolin (D := ⟨{ s with lib := { s.lib with st := .msgReceived } }, .out, e⟩) hr rfl h rfl rfl
  | mrF1 =>
    obtain ⟨hs, h1, h2⟩ : s = a ∧ a.rtof = false ∧ a.lib.st = .msgReceived := hS
    subst hs
    by_cases ht : s.lib.ferr = .set
    · refine stmt_nolin (D := ⟨s, .mrT1, e⟩) hr rfl h ?_ ⟨rfl, hr, h2, ht⟩
      simp only [slaveStmt, ht, if_true]
    · refine stmt_nolin (D := ⟨s, .mrF2, e⟩) hr rfl h ?_ ⟨rfl, hr, h2, fun h => absurd h ht⟩
      simp only [slaveStmt, ht, if_false]
  | mrT1 =>
    obtain ⟨hs, h1, h2, h3⟩ : s = a ∧ a.rtof = false ∧ a.lib.st = .msgReceived ∧ a.lib.ferr = .set := hS
    subst hs
    by_cases ht : s.lib.t35 = .set
    · refine stmt_nolin (D := ⟨s, .drLen, e⟩) hr rfl h ?_ ⟨rfl, hr, h2, h3, ht⟩
      simp only [slaveStmt, ht, if_true]
    · refine stmt_nolin (D := ⟨s, .mrF2, e⟩) hr rfl h ?_ ⟨rfl, hr, h2, fun _ => ht⟩
      simp only [slaveStmt, ht, if_false]
  | mrF2 =>
    obtain ⟨hs, h1, h2, h3⟩ : s = a ∧ a.rtof = false ∧ a.lib.st = .msgReceived ∧ (a.lib.ferr = .set → a.lib.t35 ≠ .set) := hS
    subst hs
    by_cases ht : s.lib.ferr = .cleared
    · refine stmt_nolin (D := ⟨s, .mrT2, e⟩) hr (by simp [linPt, ht]) h ?_ ⟨rfl, hr, h2, ht⟩
      simp only [slaveStmt, ht, if_true]
    · refine stmt_lin (D := ⟨s, .out, e⟩) hr (by simp [linPt, ht]) h (O := []) ?_ ⟨s, ?_, rfl⟩
      · simp only [slaveStmt, ht, if_false]
      · refine main_poll_quiet hr ?_
        simp only [slavePoll, h2, slaveMsgReceived]
        rw [if_neg (fun h => h3 h.1 h.2), if_neg (fun h => ht h.1)]
  | mrT2 =>
    obtain ⟨hs, h1, h2, h3⟩ : s = a ∧ a.rtof = false ∧ a.lib.st = .msgReceived ∧ a.lib.ferr = .cleared := hS
    subst hs
    by_cases ht : s.lib.t35 = .set
    · refine stmt_nolin (D := ⟨s, .anParse, e⟩) hr (by simp [linPt, ht]) h ?_ ⟨rfl, hr, h2, h3, ht⟩
      simp only [slaveStmt, ht, if_true]
    · refine stmt_lin (D := ⟨s, .out, e⟩) hr (by simp [linPt, ht]) h (O := []) ?_ ⟨s, ?_, rfl⟩
      · simp only [slaveStmt, ht, if_false]
      · exact main_poll_quiet hr (by simp only [slavePoll, h2]; exact slaveMsgReceived_wait cfg ht)
  | drLen =>
    obtain ⟨hs, h1⟩ : s = a ∧ Bad a := hS
    subst hs
    refine stmt_nolin (D := ⟨{ s with lib := { s.lib with reqLen := 0 } }, .drSt, e⟩) hr rfl h ?_ ⟨rfl, h1⟩
    simp only [slaveStmt, slaveReqLen0, hl.msgPtr, if_true]; rfl
  | drSt =>
    obtain ⟨hs, h1⟩ : s = { a with lib := { a.lib with reqLen := 0 } } ∧ Bad a := hS
    subst hs
    exact stmt_nolin (D := ⟨{ a with lib := { a.lib with reqLen := 0, st := .idle } }, .drErr, e⟩) hr rfl h rfl ⟨rfl, h1⟩
  | drErr =>
    obtain ⟨hs, h1⟩ : s = { a with lib := { a.lib with reqLen := 0, st := .idle } } ∧ Bad a := hS
    subst hs
    exact stmt_nolin (D := ⟨{ a with lib := { a.lib with reqLen := 0, st := .idle, ferr := .cleared } }, .drT35, e⟩) hr rfl h rfl ⟨rfl, h1⟩
  | drT35 =>
    obtain ⟨hs, h1⟩ : s = { a with lib := { a.lib with reqLen := 0, st := .idle, ferr := .cleared } } ∧ Bad a := hS
    subst hs
    refine stmt_lin (D := ⟨{ a with lib := { a.lib with reqLen := 0, st := .idle, ferr := .cleared, t35 := .cleared } }, .out, e⟩) hr rfl h
      (O := []) rfl ⟨_, main_poll_quiet h1.rtof (l := { a.lib with reqLen := 0, st := .idle, ferr := .cleared, t35 := .cleared }) ?_, rfl⟩
    simp only [slavePoll, h1.st]
    exact slaveMsgReceived_drop cfg hl.msgPtr h1.ferr h1.t35
  | anParse =>
    obtain ⟨hs, h1⟩ : s = a ∧ Good a := hS
    subst hs
    cases hq : slaveParse cfg s.lib with
    | error u =>
      have : slaveStmt cfg ⟨s, .anParse, e⟩ = .error u := by simp only [slaveStmt, hq]; rfl
      rw [this] at h; cases h
    | ok l =>
      refine stmt_nolin (D := ⟨{ s with lib := l }, .anFrame, e⟩) hr rfl h ?_ ⟨h1, l, hq, rfl⟩
      simp only [slaveStmt, hq]; rfl
  | anFrame =>
    obtain ⟨h1, l, h2, hs⟩ : Good a ∧ ∃ l, slaveParse cfg a.lib = .ok l ∧ s = { a with lib := l } := hS
    subst hs
    cases hq : slaveFrame l with
    | error u =>
      have : slaveStmt cfg ⟨{ a with lib := l }, .anFrame, e⟩ = .error u := by simp only [slaveStmt, hq]; rfl
      rw [this] at h; cases h
    | ok l' =>
      refine stmt_nolin (D := ⟨{ a with lib := l' }, .anCur, e⟩) hr rfl h ?_ ⟨h1, l, l', h2, hq, rfl⟩
      simp only [slaveStmt, hq]; rfl
  | anCur =>
    obtain ⟨h1, l, l', h2, h3, hs⟩ : Good a ∧ ∃ l l', slaveParse cfg a.lib = .ok l ∧ slaveFrame l = .ok l' ∧ s = { a with lib := l' } := hS
    subst hs
    cases hq : slaveDriverSend l' with
    | error u =>
      have : slaveStmt cfg ⟨{ a with lib := l' }, .anCur, e⟩ = .error u := by simp only [slaveStmt, hq]; rfl
      rw [this] at h; cases h
    | ok o1 =>
      by_cases h0 : 0 < l'.respLen.toNat
      · refine stmt_nolin (D := ⟨{ a with lib := l', cur := 0 }, .anLast, e⟩) hr (by simp only [linPt, decide_eq_false_iff_not]; omega) h ?_ ⟨h1, l, l', o1, h2, h3, hq, h0, rfl⟩
        simp only [slaveStmt, hq, ok_bind, if_pos h0]
      · refine stmt_lin (D := ⟨{ a with lib := l' }, .anTxf, e⟩) hr (by simp only [linPt, decide_eq_true_eq]; omega) h (O := [.send []]) ?_ ⟨_, ?_, rfl, h1.rtof⟩
        · simp only [slaveStmt, hq, ok_bind, if_neg h0]
        · have ho1 : o1 = [.send []] := by
            simp only [slaveDriverSend] at hq
            repeat' split at hq
            all_goals cases hq
            rw [show l'.respLen.toNat = 0 by omega]; rfl
          rw [main_poll h1.rtof]
          simp only [slavePoll, h1.st, slaveMsgReceived, h1.ferr, h1.t35]
          rw [if_neg (fun h => nomatch h.1), if_pos ⟨trivial, trivial⟩, h2]
          simp only [ok_bind, h3, hq, pure_eq, ho1, slaveSends, slaveUsartSend, if_neg h0]
          rfl
  | anLast =>
    obtain ⟨h1, l, l', o1, h2, h3, h4, h5, hs⟩ : Good a ∧ ∃ l l' o, slaveParse cfg a.lib = .ok l ∧ slaveFrame l = .ok l' ∧
      slaveDriverSend l' = .ok o ∧ 0 < l'.respLen.toNat ∧ s = { a with lib := l', cur := 0 } := hS
    subst hs
    exact stmt_nolin (D := ⟨{ a with lib := l', cur := 0, last := l'.respLen.toNat - 1 }, .anTdr, e⟩) hr rfl h rfl ⟨h1, l, l', o1, h2, h3, h4, h5, rfl⟩
  | anTdr =>
    obtain ⟨h1, l, l', o1, h2, h3, h4, h5, hs⟩ : Good a ∧ ∃ l l' o, slaveParse cfg a.lib = .ok l ∧ slaveFrame l = .ok l' ∧
      slaveDriverSend l' = .ok o ∧ 0 < l'.respLen.toNat ∧ s = { a with lib := l', cur := 0, last := l'.respLen.toNat - 1 } := hS
    subst hs
    refine stmt_lin (D := ⟨{ a with lib := l', cur := 0, last := l'.respLen.toNat - 1 }, .anTxeie, e⟩) hr rfl h
      (O := [.send (l'.resp.bytes 0 l'.respLen.toNat), .tdr (l'.resp 0)]) ?_ ⟨_, ?_, rfl, h1.rtof⟩
    · simp only [slaveStmt, rd_ok l'.resp (show 0 < 256 by decide), ok_bind]
    · have ho1 : o1 = [.send (l'.resp.bytes 0 l'.respLen.toNat)] := by
        simp only [slaveDriverSend] at h4
        repeat' split at h4
        all_goals cases h4
        rfl
      rw [main_poll h1.rtof]
      simp only [slavePoll, h1.st, slaveMsgReceived, h1.ferr, h1.t35]
      rw [if_neg (fun h => nomatch h.1), if_pos ⟨trivial, trivial⟩, h2]
      simp only [ok_bind, h3, h4, pure_eq, ho1, slaveSends, slaveUsartSend, if_pos h5, rd_ok l'.resp (show 0 < 256 by decide)]
      rfl
  | anTxeie =>
    obtain ⟨hs, h1⟩ : a = { s with lib := { s.lib with txf := .set, st := .transmitting, t35 := .cleared } } ∧ a.rtof = false := hS
    subst hs
    exact stmt_nolin (D := ⟨s, .anTxf, true⟩) hr rfl h rfl ⟨rfl, h1⟩
  | anTxf =>
    obtain ⟨hs, h1⟩ : a = { s with lib := { s.lib with txf := .set, st := .transmitting, t35 := .cleared } } ∧ a.rtof = false := hS
    subst hs
    exact stmt_nolin (D := ⟨{ s with lib := { s.lib with txf := .set } }, .anSt, e⟩) hr rfl h rfl ⟨rfl, h1⟩
  | anSt =>
    obtain ⟨hs, h1⟩ : a = { s with lib := { s.lib with st := .transmitting, t35 := .cleared } } ∧ a.rtof = false := hS
    subst hs
    exact stmt_nolin (D := ⟨{ s with lib := { s.lib with st := .transmitting } }, .anT35, e⟩) hr rfl h rfl ⟨rfl, h1, rfl⟩
  | anT35 =>
    obtain ⟨hs, h1, -⟩ : a = { s with lib := { s.lib with t35 := .cleared } } ∧ a.rtof = false ∧ a.lib.st = .transmitting := hS
    subst hs
    exact stmt_nolin (D := ⟨{ s with lib := { s.lib with t35 := .cleared } }, .out, e⟩) hr rfl h rfl rfl
  | trTest =>
    obtain ⟨hs, h1⟩ : s = a ∧ a.lib.st = .transmitting := hS
    subst hs
    by_cases ht : s.lib.txf = .cleared
    · refine stmt_nolin (D := ⟨s, .trSt, e⟩) hr (by simp [linPt, ht]) h ?_ ⟨rfl, hr, h1, ht⟩
      simp only [slaveStmt, ht, if_true]
    · refine stmt_lin (D := ⟨s, .out, e⟩) hr (by simp [linPt, ht]) h (O := []) ?_ ⟨s, ?_, rfl⟩
      · simp only [slaveStmt, ht, if_false]
      · exact main_poll_quiet hr (by simp only [slavePoll, h1, slaveTransmitting, if_neg ht])
  | trSt =>
    obtain ⟨hs, h1, h2, h3⟩ : s = a ∧ a.rtof = false ∧ a.lib.st = .transmitting ∧ a.lib.txf = .cleared := hS
    subst hs
    exact stmt_nolin (D := ⟨{ s with lib := { s.lib with st := .idle } }, .trResp, e⟩) hr rfl h rfl ⟨rfl, h1, h2, h3⟩
  | trResp =>
    obtain ⟨hs, h1, h2, h3⟩ : s = { a with lib := { a.lib with st := .idle } } ∧ a.rtof = false ∧ a.lib.st = .transmitting ∧ a.lib.txf = .cleared := hS
    subst hs
    refine stmt_nolin (D := ⟨{ a with lib := { a.lib with st := .idle, respLen := 0 } }, .trReq, e⟩) hr rfl h ?_ ⟨rfl, h1, h2, h3⟩
    simp only [slaveStmt, slaveRespLen0, hl.msgPtr, if_true]; rfl
  | trReq =>
    obtain ⟨hs, h1, h2, h3⟩ : s = { a with lib := { a.lib with st := .idle, respLen := 0 } } ∧ a.rtof = false ∧ a.lib.st = .transmitting ∧
      a.lib.txf = .cleared := hS
    subst hs
    refine stmt_lin (D := ⟨{ a with lib := { a.lib with st := .idle, respLen := 0, reqLen := 0 } }, .out, e⟩) hr rfl h (O := []) ?_
      ⟨_, main_poll_quiet h1 (l := { a.lib with st := .idle, respLen := 0, reqLen := 0 }) ?_, rfl⟩
    · simp only [slaveStmt, slaveReqLen0, hl.msgPtr, if_true]; rfl
    · simp only [slavePoll, h2, slaveTransmitting, h3, hl.msgPtr, if_true]
  | dfSt | dfT15 | dfT35 | dfErr | dfTx | dfResp | dfReq => exact absurd hS id

/-! ### Interrupts -/

/-- Something happens on the line: a byte, 1.5 or 3.5 characters of silence. -/
def onLine : HOp → Bool
  | .usart (some _) _ | .rto | .timer => true
  | _ => false

theorem lib_irq {l l' : Slave} {op : SOp} {o : List SOut} (h : slaveStep cfg l op = .ok (l', o)) (hp : op ≠ .poll) (hi : ∀ m i, op ≠ .init m i) :
    l'.st = l.st ∧ l'.subscribed = l.subscribed ∧ (op ≠ .t15 → l'.t15 = l.t15) ∧ (op ≠ .txDone → l'.txf = l.txf) ∧ (l'.txf = l.txf ∨ l'.txf = .cleared) := by
  obtain ⟨h1, -, -, -, -, -, -, h2, -, h3, -, h4⟩ := slaveStep_frame h hp hi
  refine ⟨h1, h2, fun h => ?_, fun h => ?_, ?_⟩
  · rcases h3 with e | ⟨e, -⟩
    · exact e
    · exact absurd e h
  · rcases h4 with e | ⟨e, -⟩
    · exact e
    · exact absurd e h
  · rcases h4 with e | ⟨-, e⟩
    · exact .inl e
    · exact .inr e

theorem hirqRx_keeps {s s' : SlaveSys} {rx : Option U8} (h : slaveIrqRx cfg s rx = .ok s') :
    s'.lib.st = s.lib.st ∧ s'.lib.txf = s.lib.txf ∧ s'.lib.t15 = s.lib.t15 := by
  cases rx with
  | none => cases h; exact ⟨rfl, rfl, rfl⟩
  | some b =>
    simp only [slaveIrqRx] at h
    obtain ⟨⟨l, o1⟩, j1, h⟩ := bind_ok h
    obtain ⟨e1, -, e2, e3, -⟩ := lib_irq j1 (by simp) (by simp)
    have e2 := e2 (by simp)
    have e3 := e3 (by simp)
    split at h
    · obtain ⟨⟨l2, o2⟩, j2, h⟩ := bind_ok h
      obtain ⟨f1, -, f2, f3, -⟩ := lib_irq j2 (by simp) (by simp)
      have f2 := f2 (by simp)
      have f3 := f3 (by simp)
      simp only [pure_eq, Except.ok.injEq] at h
      subst h
      exact ⟨f1.trans e1, f3.trans e3, f2.trans e2⟩
    · simp only [pure_eq, Except.ok.injEq] at h
      subst h
      exact ⟨e1, e3, e2⟩

theorem hirqTx_keeps {s s' : SlaveSys} {t : Bool} {o : List HOut} (h : slaveIrqTx cfg s t = .ok (s', o)) :
    s'.lib.st = s.lib.st ∧ ((t = true → s.cur < s.last) → s'.lib.txf = s.lib.txf) ∧ (s'.lib.txf = s.lib.txf ∨ s'.lib.txf = .cleared) ∧
      s'.lib.t15 = s.lib.t15 := by
  simp only [slaveIrqTx] at h
  repeat' split at h
  · obtain ⟨b, -, h⟩ := bind_ok h
    simp only [pure_eq, Except.ok.injEq, Prod.mk.injEq] at h
    obtain ⟨rfl, -⟩ := h
    exact ⟨rfl, fun _ => rfl, .inl rfl, rfl⟩
  · rename_i ht hlt
    obtain ⟨⟨l2, o2⟩, j2, h⟩ := bind_ok h
    obtain ⟨f1, -, f2, -, f3⟩ := lib_irq j2 (by simp) (by simp)
    simp only [pure_eq, Except.ok.injEq, Prod.mk.injEq] at h
    obtain ⟨rfl, -⟩ := h
    exact ⟨f1, fun h => absurd (h ht) hlt, f3, f2 (by simp)⟩
  · simp only [Except.ok.injEq, Prod.mk.injEq] at h
    obtain ⟨rfl, -⟩ := h
    exact ⟨rfl, fun _ => rfl, .inl rfl, rfl⟩

theorem hirqRto_keeps {s s' : SlaveSys} (h : slaveIrqRto cfg s = .ok s') :
    s'.lib.st = s.lib.st ∧ s'.lib.txf = s.lib.txf ∧ (s'.lib.t15 = s.lib.t15 ∨ s.rtof = true) := by
  simp only [slaveIrqRto] at h
  split at h
  · rename_i hr
    obtain ⟨⟨l2, o2⟩, j2, h⟩ := bind_ok h
    obtain ⟨f1, -, -, f3, -⟩ := lib_irq j2 (by simp) (by simp)
    simp only [pure_eq, Except.ok.injEq] at h
    subst h
    exact ⟨f1, f3 (by simp), .inr hr⟩
  · simp only [Except.ok.injEq] at h
    subst h; exact ⟨rfl, rfl, .inl rfl⟩

theorem hirq_keeps {s s' : SlaveSys} {h : HOp} {o : List HOut} (hn : ∀ op, h ≠ .main op) (hs : slaveSysStep cfg s h = .ok (s', o)) :
    s'.lib.st = s.lib.st ∧ ((∀ rx, h = .usart rx true → s.cur < s.last) → s'.lib.txf = s.lib.txf) ∧
      (s'.lib.txf = s.lib.txf ∨ s'.lib.txf = .cleared) ∧ (s'.lib.t15 = s.lib.t15 ∨ s.rtof = true) := by
  cases h with
  | main op => exact absurd rfl (hn op)
  | rto =>
    simp only [slaveSysStep, Except.ok.injEq, Prod.mk.injEq] at hs
    obtain ⟨rfl, -⟩ := hs
    exact ⟨rfl, fun _ => rfl, .inl rfl, .inl rfl⟩
  | timer =>
    simp only [slaveSysStep] at hs
    obtain ⟨⟨l2, o2⟩, j2, hs⟩ := bind_ok hs
    obtain ⟨f1, -, f2, f3, f4⟩ := lib_irq j2 (by simp) (by simp)
    simp only [pure_eq, Except.ok.injEq, Prod.mk.injEq] at hs
    obtain ⟨rfl, -⟩ := hs
    exact ⟨f1, fun _ => f3 (by simp), f4, .inl (f2 (by simp))⟩
  | usart rx t =>
    simp only [slaveSysStep] at hs
    obtain ⟨s1, k1, hs⟩ := bind_ok hs
    obtain ⟨⟨s2, o2⟩, k2, hs⟩ := bind_ok hs
    obtain ⟨s3, k3, hs⟩ := bind_ok hs
    simp only [pure_eq, Except.ok.injEq, Prod.mk.injEq] at hs
    obtain ⟨rfl, rfl⟩ := hs
    obtain ⟨a1, a2, a3⟩ := hirqRx_keeps k1
    obtain ⟨g0, g1, g2, -⟩ := irqRx_frame k1
    obtain ⟨b1, b2, b3, b4⟩ := hirqTx_keeps k2
    have b0 := irqTx_frame k2
    obtain ⟨c1, c2, c3⟩ := hirqRto_keeps k3
    refine ⟨by rw [c1, b1, a1], fun h => ?_, ?_, ?_⟩
    · rw [c2, b2 (fun ht => by rw [g1, g2]; exact h rx (by rw [ht])), a2]
    · rw [c2, ← a2]; exact b3
    · rcases c3 with e | e
      · left; rw [e, b4, a3]
      · right; rw [← g0, ← b0]; exact e

theorem usart_nothing {s : SlaveSys} (hr : s.rtof = false) : slaveSysStep cfg s (.usart none false) = .ok (s, []) := by
  simp only [slaveSysStep, slaveIrqRx, slaveIrqTx, ok_bind, pure_eq, Bool.false_eq_true, if_false]
  simp only [slaveIrqRto, hr, ok_bind, Bool.false_eq_true, if_false]

theorem usart_next {s : SlaveSys} (hr : s.rtof = false) (hc : s.cur < s.last) :
    slaveSysStep cfg s (.usart none true) = (rd s.lib.resp (s.cur + 1) >>= fun b => .ok ({ s with cur := s.cur + 1 }, [.tdr b])) := by
  simp only [slaveSysStep, slaveIrqRx, slaveIrqTx, if_pos hc, ok_bind, pure_eq, if_true]
  cases rd s.lib.resp (s.cur + 1) with
  | error u => rfl
  | ok b => simp only [ok_bind, slaveIrqRto, hr]; rfl

theorem usart_end {s : SlaveSys} (hr : s.rtof = false) (hc : ¬ s.cur < s.last) (hsub : s.lib.subscribed = true) :
    slaveSysStep cfg s (.usart none true) = .ok ({ s with lib := { s.lib with txf := .cleared } }, []) := by
  simp only [slaveSysStep, slaveIrqRx, slaveIrqTx, if_neg hc, ok_bind, pure_eq, if_true, slaveStep, if_pos hsub]
  simp only [slaveIrqRto, hr]; rfl

/-- One interrupt. -/
theorem sim_irq {h : HOp} (hS : Sim cfg d a) (hrr : d.sys.rtof = a.rtof) (hl : Live a.lib) (hn : ∀ op, h ≠ .main op)
    (hq : onLine h = true → a.rtof = true ∨ a.lib.st = .idle ∧ a.lib.t15 ≠ .set)
    (ht : ∀ t, h = .usart none t → d.sys.rtof = true ∨ d.txeie = true) (hE : d.txeie = true → a.lib.txf = .set)
    (hJ : a.lib.txf = .set → a.lib.st = .transmitting)
    (hw : d.pc = .anTxeie ∨ d.pc = .anTxf → h = .usart none true → d.sys.cur < d.sys.last) (hs : slaveDevIrq cfg d h = .ok (d', o)) :
    d'.pc = d.pc ∧ ∃ a', slaveSysStep cfg a h = .ok (a', o) ∧ Sim cfg d' a' ∧ (d'.txeie = true → a'.lib.txf = .set) := by
  obtain ⟨s, pc, e⟩ := d
  simp only [slaveDevIrq] at hs
  obtain ⟨⟨s', o'⟩, h1, hs⟩ := bind_ok hs
  simp only [pure_eq, Except.ok.injEq, Prod.mk.injEq] at hs
  obtain ⟨rfl, rfl⟩ := hs
  refine ⟨rfl, ?_⟩
  dsimp only at *
  -- positions where an interrupt is harmless because the two states are the same
  have same : s = a → (∀ a', slaveSysStep cfg a h = .ok (a', o') → Sim cfg ⟨s', pc, (txeAfter h e s)⟩ a') → ∃ a', slaveSysStep cfg a h = .ok (a', o') ∧ Sim cfg ⟨s', pc, (txeAfter h e s)⟩ a' ∧ ((txeAfter h e s) = true → a'.lib.txf = .set) := by
    intro hsa hk
    subst hsa
    refine ⟨s', h1, hk _ h1, fun he => ?_⟩
    have he' : e = true ∧ ∀ rx, h = .usart rx true → s.cur < s.last := by
      cases h with
      | usart rx t =>
        cases t with
        | true =>
          have := Bool.and_eq_true_iff.1 he
          exact ⟨this.1, fun _ _ => of_decide_eq_true this.2⟩
        | false => exact ⟨he, fun _ h => nomatch h⟩
      | _ => exact ⟨he, fun _ h => nomatch h⟩
    rw [(hirq_keeps hn h1).2.1 he'.2]
    exact hE he'.1
  -- positions at which no interrupt can arrive
  have none_ : a.rtof = false → (a.lib.st = .msgReceived ∨ a.lib.st = .idle ∧ a.lib.t15 = .set ∨ a.lib.st = .transmitting ∧ a.lib.txf = .cleared) → False := by
    intro hr hb
    have hno : onLine h = false := by
      cases ho : onLine h with
      | false => rfl
      | true =>
        rcases hq ho with h | ⟨h, h'⟩
        · rw [hr] at h; cases h
        · rcases hb with hb | ⟨-, hb⟩ | ⟨hb, -⟩
          · rw [hb] at h; cases h
          · exact absurd hb h'
          · rw [hb] at h; cases h
    cases h with
    | main op => exact hn op rfl
    | rto => cases hno
    | timer => cases hno
    | usart rx t =>
      cases rx with
      | some b => cases hno
      | none =>
        rcases ht t rfl with h | h
        · rw [hrr, hr] at h; cases h
        · have h2 := hE h
          have h3 := hJ h2
          rcases hb with hb | ⟨hb, -⟩ | ⟨-, hb⟩
          · rw [hb] at h3; cases h3
          · rw [hb] at h3; cases h3
          · rw [hb] at h2; cases h2
  -- positions after the start of a transmission
  have tx : a.rtof = false → a.lib.st = .transmitting → ∃ t, h = .usart none t := by
    intro hr hb
    cases h with
    | main op => exact absurd rfl (hn op)
    | rto =>
      rcases hq rfl with h | ⟨h, -⟩
      · rw [hr] at h; cases h
      · rw [hb] at h; cases h
    | timer =>
      rcases hq rfl with h | ⟨h, -⟩
      · rw [hr] at h; cases h
      · rw [hb] at h; cases h
    | usart rx t =>
      cases rx with
      | none => exact ⟨t, rfl⟩
      | some b =>
        rcases hq rfl with h | ⟨h, -⟩
        · rw [hr] at h; cases h
        · rw [hb] at h; cases h
  have mid : ∀ (f : Slave → Slave), (∀ l, (f l).resp = l.resp) → a = { s with lib := f s.lib } → a.rtof = false → a.lib.st = .transmitting →
      (∀ l, (f l).subscribed = l.subscribed) →
      (∀ s'' : SlaveSys, s''.rtof = false → s''.lib = s.lib → Sim cfg ⟨s'', pc, (txeAfter h e s)⟩ { s'' with lib := f s''.lib }) →
      (h = .usart none true → ¬ s.cur < s.last → Sim cfg ⟨{ s with lib := { s.lib with txf := .cleared } }, pc, false⟩
        { s with lib := { f s.lib with txf := .cleared } }) →
      ∃ a', slaveSysStep cfg a h = .ok (a', o') ∧ Sim cfg ⟨s', pc, (txeAfter h e s)⟩ a' ∧ ((txeAfter h e s) = true → a'.lib.txf = .set) := by
    intro f f1 ha hr hst f2 k1 k2
    have hrs : s.rtof = false := by rw [hrr, hr]
    obtain ⟨t, rfl⟩ := tx hr hst
    have hsub : s.lib.subscribed = true := by rw [← f2 s.lib]; have := hl.sub; rw [ha] at this; exact this
    cases t with
    | false =>
      rw [usart_nothing hrs] at h1
      obtain ⟨rfl, rfl⟩ := Prod.mk.inj (Except.ok.inj h1)
      refine ⟨a, usart_nothing hr, ?_, fun he => hE he⟩
      rw [ha]; exact k1 s hrs rfl
    | true =>
      by_cases hc : s.cur < s.last
      · rw [usart_next hrs hc] at h1
        obtain ⟨b, hb, h1⟩ := bind_ok h1
        obtain ⟨rfl, rfl⟩ := Prod.mk.inj (Except.ok.inj h1)
        refine ⟨{ a with cur := a.cur + 1 }, ?_, ?_, fun he => hE (Bool.and_eq_true_iff.1 he).1⟩
        · rw [usart_next hr (by rw [ha]; exact hc), ha]
          show (rd (f s.lib).resp (s.cur + 1) >>= _) = _
          rw [f1, hb]; rfl
        · rw [ha]
          exact k1 { s with cur := s.cur + 1 } hrs rfl
      · rw [usart_end hrs hc hsub] at h1
        obtain ⟨rfl, rfl⟩ := Prod.mk.inj (Except.ok.inj h1)
        refine ⟨{ a with lib := { a.lib with txf := .cleared } }, usart_end hr (by rw [ha]; exact hc) hl.sub, ?_, fun he => ?_⟩
        · have he : txeAfter (.usart none true) e s = false := by
            show (e && decide (s.cur < s.last)) = false
            rw [decide_eq_false hc, Bool.and_false]
          rw [ha, he]
          exact k2 rfl hc
        · exact absurd (of_decide_eq_true (Bool.and_eq_true_iff.1 he).2) hc
  cases pc with
  | out | enter => exact same hS (fun a' h' => by
      have hs : s = a := hS
      subst hs; rw [h1] at h'; exact (Prod.mk.inj (Except.ok.inj h')).1)
  | idTest | trTest =>
    refine same hS.1 (fun a' h' => ?_)
    have hs : s = a := hS.1
    subst hs
    rw [h1] at h'
    have e1 := (Prod.mk.inj (Except.ok.inj h')).1
    exact ⟨e1, by rw [← e1, (hirq_keeps hn h1).1]; exact hS.2⟩
  | idClear | idRecv => exact (none_ hS.2.1 (.inr (.inl hS.2.2))).elim
  | idErr | idSt =>
    refine (none_ hS.2 (.inl ?_)).elim
    rw [hS.1]
  | mrF1 => exact (none_ hS.2.1 (.inl hS.2.2)).elim
  | mrT1 | mrF2 | mrT2 => exact (none_ hS.2.1 (.inl hS.2.2.1)).elim
  | drLen | drSt | drErr | drT35 | anParse => exact (none_ hS.2.rtof (.inl hS.2.st)).elim
  | anFrame | anCur | anLast | anTdr => exact (none_ hS.1.rtof (.inl hS.1.st)).elim
  | anTxeie | anTxf =>
    refine mid (fun l => { l with txf := .set, st := .transmitting, t35 := .cleared }) (fun _ => rfl) hS.1 hS.2 (by rw [hS.1]) (fun _ => rfl)
      (fun s'' hr _ => ⟨rfl, hr⟩) (fun h hc => absurd (hw (by first | exact .inl rfl | exact .inr rfl) h) hc)
  | anSt =>
    refine mid (fun l => { l with st := .transmitting, t35 := .cleared }) (fun _ => rfl) hS.1 hS.2 (by rw [hS.1]) (fun _ => rfl)
      (fun s'' hr _ => ⟨rfl, hr⟩) (fun h hc => ⟨rfl, by rw [← hS.2, hS.1]⟩)
  | anT35 =>
    obtain ⟨k1, k2, k3⟩ := hS
    dsimp only at k1
    refine mid (fun l => { l with t35 := .cleared }) (fun _ => rfl) k1 k2 k3 (fun _ => rfl)
      (fun s'' hr hl => ⟨rfl, hr, ?_⟩) (fun h hc => ⟨rfl, by rw [← k2, k1], ?_⟩)
    · rw [← k3, k1]; show s''.lib.st = s.lib.st; rw [hl]
    · rw [← k3, k1]
  | trSt | trResp | trReq => exact (none_ hS.2.1 (.inr (.inr hS.2.2))).elim
  | dfSt | dfT15 | dfT35 | dfErr | dfTx | dfResp | dfReq => exact absurd hS id

end Modbus
