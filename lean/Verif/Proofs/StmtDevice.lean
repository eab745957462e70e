import Verif.Proofs.StmtSim

/-! Statement by statement: whole executions. -/

set_option linter.unusedSimpArgs false

namespace Modbus

open Spec

section
variable {cfg : Config} {id : U8} {t15 t35 lat P X : Nat}

/-! ### The device with atomic polls -/

/-- The library's state is one of the three, and a transmission under way means `transmitting`. -/
structure Modes (l : Slave) : Prop where
  known : l.st ≠ .unknown
  busy : l.txf = .set → l.st = .transmitting

theorem sends_lib (o : List SOut) : ∀ {s s' : SlaveSys} {out : List HOut}, slaveSends s o = .ok (s', out) → s'.lib = s.lib := by
  induction o with
  | nil => intro s s' out h; simp only [slaveSends, Except.ok.injEq, Prod.mk.injEq] at h; rw [← h.1]
  | cons a o ih =>
    intro s s' out h
    cases a with
    | send f =>
      simp only [slaveSends] at h
      obtain ⟨⟨s1, o1⟩, h1, h⟩ := bind_ok h
      obtain ⟨⟨s2, o2⟩, h2, h3⟩ := bind_ok h
      simp only [pure_eq, Except.ok.injEq, Prod.mk.injEq] at h3
      rw [← h3.1, ih h2]
      simp only [slaveUsartSend] at h1
      split at h1
      · obtain ⟨b, -, h1⟩ := bind_ok h1
        simp only [pure_eq, Except.ok.injEq, Prod.mk.injEq] at h1
        rw [← h1.1]
      · simp only [pure_eq, Except.ok.injEq, Prod.mk.injEq] at h1
        rw [← h1.1]

theorem main_step {s s' : SlaveSys} {op : SOp} {o : List HOut} (h : slaveSysStep cfg s (.main op) = .ok (s', o)) :
    s' = s ∧ o = [] ∨ s.rtof = false ∧ op.isMain = true ∧ ∃ o1, slaveStep cfg s.lib op = .ok (s'.lib, o1) := by
  simp only [slaveSysStep] at h
  split at h
  · simp only [Except.ok.injEq, Prod.mk.injEq] at h
    exact .inl ⟨h.1.symm, h.2.symm⟩
  · rename_i hn
    right
    obtain ⟨⟨l, o1⟩, h1, h⟩ := bind_ok h
    refine ⟨by cases hr : s.rtof <;> simp_all, by cases hm : op.isMain <;> simp_all, o1, ?_⟩
    rw [sends_lib _ h]; exact h1

theorem modes_step (hc : cfg.WF) {s s' : SlaveSys} {op : HOp} {o : List HOut} (h : slaveSysStep cfg s op = .ok (s', o)) (hl : op.legal cfg)
    (hm : Modes s.lib) : Modes s'.lib := by
  by_cases hn : ∀ op', op ≠ .main op'
  · obtain ⟨h1, -, h2, -⟩ := hirq_keeps hn h
    refine ⟨by rw [h1]; exact hm.known, fun h => ?_⟩
    rw [h1]
    rcases h2 with e | e
    · exact hm.busy (by rw [← e]; exact h)
    · rw [e] at h; cases h
  · obtain ⟨op, rfl⟩ : ∃ op', op = .main op' := by
      apply Classical.byContradiction; intro h; exact hn (fun op' e => h ⟨op', e⟩)
    rcases main_step h with ⟨rfl, -⟩ | ⟨-, -, o1, h1⟩
    · exact hm
    · by_cases hp : op = .poll
      · subst hp
        have hr := slavePoll_inv cfg hc h1
        generalize s'.lib = l' at hr
        cases hr with
        | stay => exact hm
        | check a b =>
          refine ⟨by simp, fun h => ?_⟩
          have := hm.busy h
          rw [a] at this; cases this
        | drop a b c =>
          refine ⟨by simp, fun h => ?_⟩
          have := hm.busy h
          rw [a] at this; cases this
        | answer => exact ⟨by simp, fun _ => rfl⟩
        | done a b => exact ⟨by simp, fun h => by rw [b] at h; cases h⟩
        | dflt a => exact ⟨by simp, fun h => by cases h⟩
      · obtain ⟨e1, -, -, -, e2⟩ := lib_irq h1 hp (fun m i e => by subst e; exact hl)
        refine ⟨by rw [e1]; exact hm.known, fun h => ?_⟩
        rw [e1]
        rcases e2 with e | e
        · exact hm.busy (by rw [← e]; exact h)
        · rw [e] at h; cases h

/-- Between rest and the timer. -/
structure Open (s : SlaveSys) : Prop where
  st : s.lib.st = .idle
  t15 : s.rtof = true ∨ s.lib.t15 ≠ .set

theorem open_step {s s' : SlaveSys} {op : HOp} {o : List HOut} (h : slaveSysStep cfg s op = .ok (s', o)) (hl : op.legal cfg)
    (hop : op ≠ .timer) (hs : Open s) : Open s' := by
  have hrt := sysStep_rtof h
  rw [if_neg hop] at hrt
  by_cases hn : ∀ op', op ≠ .main op'
  · obtain ⟨h1, -, -, h2⟩ := hirq_keeps hn h
    refine ⟨by rw [h1, hs.st], ?_⟩
    rcases hs.t15 with e | e
    · left; rw [hrt]; split
      · rfl
      · exact e
    · rcases h2 with e' | e'
      · right; rw [e']; exact e
      · left; rw [hrt]; split
        · rfl
        · exact e'
  · obtain ⟨op, rfl⟩ : ∃ op', op = .main op' := by
      apply Classical.byContradiction; intro h; exact hn (fun op' e => h ⟨op', e⟩)
    rcases main_step h with ⟨rfl, -⟩ | ⟨hr, hma, o1, h1⟩
    · exact hs
    · have ht : s.lib.t15 ≠ .set := by
        rcases hs.t15 with e | e
        · rw [hr] at e; cases e
        · exact e
      by_cases hp : op = .poll
      · subst hp
        simp only [slaveStep, slavePoll, hs.st, slaveIdle_noT15 _ ht, Except.ok.injEq, Prod.mk.injEq] at h1
        exact ⟨by rw [← h1.1]; exact hs.st, .inr (by rw [← h1.1]; exact ht)⟩
      · obtain ⟨e1, -, e2, -⟩ := lib_irq h1 hp (fun m i e => by subst e; exact hl)
        refine ⟨by rw [e1]; exact hs.st, .inr ?_⟩
        rw [e2 (by rintro rfl; cases hma)]; exact ht

/-! ### The execution with atomic polls -/

/-- An application call that changes nothing. -/
def skipOp (s : SlaveSys) : HOp := .main (.appBool 0 (s.lib.mem.bools 0))

theorem skip_step {s : SlaveSys} : slaveSysStep cfg s (skipOp s) = .ok (s, []) := by
  cases hr : s.rtof with
  | true =>
    simp only [skipOp, slaveSysStep]
    rw [if_pos (.inl hr)]
  | false =>
    have hf : (fun q => if q = 0 then s.lib.mem.bools 0 else s.lib.mem.bools q) = s.lib.mem.bools := by
      funext q; split
      · rename_i h; rw [h]
      · rfl
    simp only [skipOp, slaveSysStep]
    rw [if_neg (by rw [hr]; rintro (h | h) <;> cases h)]
    simp only [slaveStep, hf, ok_bind, slaveSends]

def atomOp (ev : SDEv) (lin : Bool) (s : SlaveSys) : HOp :=
  match ev with
  | .irq h => h
  | .app op => .main op
  | .call => skipOp s
  | .stmt => if lin then .main .poll else skipOp s

def atomSt (cfg : Config) (x : StmtTimed) : Nat → SlaveSys
  | 0 => (x.st 0).sys
  | n + 1 => match slaveSysStep cfg (atomSt cfg x n) (atomOp (x.ev n) (linPt (x.st n)) (atomSt cfg x n)) with
    | .ok r => r.1
    | .error _ => atomSt cfg x n

def atomOut (cfg : Config) (x : StmtTimed) (n : Nat) : List HOut :=
  match slaveSysStep cfg (atomSt cfg x n) (atomOp (x.ev n) (linPt (x.st n)) (atomSt cfg x n)) with
  | .ok r => r.2
  | .error _ => []

/-- The execution with atomic polls. -/
def atom (cfg : Config) (x : StmtTimed) : DeviceTimed :=
  { op := fun n => atomOp (x.ev n) (linPt (x.st n)) (atomSt cfg x n), time := x.time, st := atomSt cfg x, out := atomOut cfg x }

theorem skip_legal (s : SlaveSys) : (skipOp s).legal cfg := trivial

variable {x : StmtTimed}

theorem app_legal (hx : x.Exec cfg id) {n : Nat} {op : SOp} (h : x.ev n = .app op) : HOp.legal cfg (.main op) := by
  have := hx.app n op h
  cases op with
  | register t a p => cases t <;> exact this
  | _ => first | exact this | trivial

theorem atom_legal (hx : x.Exec cfg id) (n : Nat) : ((atom cfg x).op n).legal cfg := by
  show (atomOp (x.ev n) _ _).legal cfg
  cases h : x.ev n with
  | irq h' =>
    cases h' with
    | main op => exact absurd h (hx.irq n op)
    | _ => trivial
  | app op => exact app_legal hx h
  | call => exact skip_legal _
  | stmt =>
    show (if _ then HOp.main .poll else _ : HOp).legal cfg
    split
    · trivial
    · exact skip_legal _

theorem atom_run (hc : cfg.WF) (hx : x.Exec cfg id) (n : Nat) : (∃ o, WInv (atomSt cfg x n) o) ∧ Modes (atomSt cfg x n).lib ∧
    slaveSysStep cfg (atomSt cfg x n) ((atom cfg x).op n) = .ok (atomSt cfg x (n + 1), atomOut cfg x n) := by
  have step : ∀ n, (∃ o, WInv (atomSt cfg x n) o) →
      slaveSysStep cfg (atomSt cfg x n) ((atom cfg x).op n) = .ok (atomSt cfg x (n + 1), atomOut cfg x n) ∧ ∃ o, WInv (atomSt cfg x (n + 1)) o := by
    rintro n ⟨o, ho⟩
    obtain ⟨s', o', h1, h2⟩ := ho.step hc _ (atom_legal hx n)
    have e1 : atomSt cfg x (n + 1) = s' := by
      have h1' : slaveSysStep cfg (atomSt cfg x n) (atomOp (x.ev n) (linPt (x.st n)) (atomSt cfg x n)) = .ok (s', o') := h1
      simp only [atomSt, h1']
    have e2 : atomOut cfg x n = o' := by
      have h1' : slaveSysStep cfg (atomSt cfg x n) (atomOp (x.ev n) (linPt (x.st n)) (atomSt cfg x n)) = .ok (s', o') := h1
      simp only [atomOut, h1']
    rw [e1, e2]
    exact ⟨h1, _, h2⟩
  induction n with
  | zero =>
    obtain ⟨m, s, h1, h2⟩ := hx.init
    obtain ⟨s', g1, g2, g3, -⟩ := hsync_after_init cfg m id
    have hs : s' = s := by rw [h1] at g1; exact ((Prod.mk.inj (Except.ok.inj g1)).1).symm
    have h0 : atomSt cfg x 0 = s := by show (x.st 0).sys = s; rw [h2]
    have hw : WInv (atomSt cfg x 0) [] := by
      rw [h0, ← hs]
      exact ⟨g2.sync.live, Nat.le_of_eq g2.cur, fun h => absurd h (by have := g2.cur; omega), .inl ⟨rfl, rfl, g2.cur⟩⟩
    refine ⟨⟨_, hw⟩, ?_, (step 0 ⟨_, hw⟩).1⟩
    rw [h0, ← hs]
    exact ⟨by rw [g2.sync.st]; simp, fun h => by rw [g2.txf] at h; cases h⟩
  | succ n ih =>
    obtain ⟨i1, i2, i3⟩ := ih
    obtain ⟨j1, j2⟩ := step n i1
    exact ⟨j2, modes_step hc i3 (atom_legal hx n) i2, (step (n + 1) j2).1⟩

theorem atom_exec (hc : cfg.WF) (hx : x.Exec cfg id) : (atom cfg x).Exec cfg id := by
  refine ⟨?_, fun n => (atom_run hc hx n).2.2, fun n op h => ?_, hx.mono⟩
  · obtain ⟨m, s, h1, h2⟩ := hx.init
    refine ⟨m, ?_⟩
    show _ = Except.ok ((x.st 0).sys, [])
    rw [h2]; exact h1
  · have : atomOp (x.ev n) (linPt (x.st n)) (atomSt cfg x n) = .main op := h
    cases he : x.ev n with
    | irq h' =>
      rw [he] at this
      have : h' = .main op := this
      subst this
      exact absurd he (hx.irq n op)
    | app op' =>
      rw [he] at this
      cases this
      have := hx.app n op he
      cases op <;> first | exact this | trivial
    | call => rw [he] at this; cases this; trivial
    | stmt =>
      rw [he] at this
      simp only [atomOp] at this
      split at this
      · cases this; trivial
      · cases this; trivial

/-! ### Positions -/

/-- The poll has not yet had its effect. -/
def SPc.pre : SPc → Bool
  | .out | .idErr | .idSt | .anTxeie | .anTxf | .anSt | .anT35 => false
  | _ => true

/-- One statement: RTOF stays, and the distinguished statement leads from before to after. -/
theorem stmt_region {d d' : SlaveDev} {o : List HOut} (h : slaveStmt cfg d = .ok (d', o)) :
    d'.sys.rtof = d.sys.rtof ∧
    if d.pc.pre = true then (if linPt d = true then d'.pc.pre = false else d'.pc.pre = true) else linPt d = false ∧ d'.pc.pre = false := by
  obtain ⟨s, pc, e⟩ := d
  cases pc <;> simp only [slaveStmt] at h
  case enter =>
    simp only [Except.ok.injEq, Prod.mk.injEq] at h
    obtain ⟨rfl, -⟩ := h
    refine ⟨rfl, ?_⟩
    cases hst : s.lib.st <;> rfl
  case idRecv =>
    split at h
    · obtain ⟨r, -, h⟩ := bind_ok h
      simp only [Except.ok.injEq, Prod.mk.injEq] at h
      obtain ⟨rfl, -⟩ := h
      refine ⟨rfl, ?_⟩
      show SPc.pre (if _ then _ else _) = false
      split <;> rfl
    · cases h
  case anCur =>
    obtain ⟨r, -, h⟩ := bind_ok h
    split at h
    · rename_i h0
      simp only [Except.ok.injEq, Prod.mk.injEq] at h
      obtain ⟨rfl, -⟩ := h
      refine ⟨rfl, ?_⟩
      have : linPt ⟨s, .anCur, e⟩ = false := by simp only [linPt, decide_eq_false_iff_not]; omega
      rw [this]; rfl
    · rename_i h0
      simp only [Except.ok.injEq, Prod.mk.injEq] at h
      obtain ⟨rfl, -⟩ := h
      refine ⟨rfl, ?_⟩
      have : linPt ⟨s, .anCur, e⟩ = true := by simp only [linPt, decide_eq_true_eq]; omega
      rw [this]; rfl
  case idTest =>
    simp only [Except.ok.injEq, Prod.mk.injEq] at h
    obtain ⟨rfl, -⟩ := h
    refine ⟨rfl, ?_⟩
    by_cases h0 : s.lib.t15 = .set <;> simp [linPt, h0, SPc.pre]
  case mrF2 =>
    simp only [Except.ok.injEq, Prod.mk.injEq] at h
    obtain ⟨rfl, -⟩ := h
    refine ⟨rfl, ?_⟩
    by_cases h0 : s.lib.ferr = .cleared <;> simp [linPt, h0, SPc.pre]
  case mrT2 =>
    simp only [Except.ok.injEq, Prod.mk.injEq] at h
    obtain ⟨rfl, -⟩ := h
    refine ⟨rfl, ?_⟩
    by_cases h0 : s.lib.t35 = .set <;> simp [linPt, h0, SPc.pre]
  case trTest =>
    simp only [Except.ok.injEq, Prod.mk.injEq] at h
    obtain ⟨rfl, -⟩ := h
    refine ⟨rfl, ?_⟩
    by_cases h0 : s.lib.txf = .cleared <;> simp [linPt, h0, SPc.pre]
  case mrF1 | mrT1 =>
    simp only [Except.ok.injEq, Prod.mk.injEq] at h
    obtain ⟨rfl, -⟩ := h
    refine ⟨rfl, ?_⟩
    show SPc.pre (if _ then _ else _) = true
    split <;> rfl
  case drLen | anParse | anFrame | anTdr | trResp | trReq | dfResp | dfReq =>
    obtain ⟨r, -, h⟩ := bind_ok h
    simp only [Except.ok.injEq, Prod.mk.injEq] at h
    obtain ⟨rfl, -⟩ := h
    exact ⟨rfl, rfl⟩
  all_goals
    simp only [Except.ok.injEq, Prod.mk.injEq] at h
    obtain ⟨rfl, -⟩ := h
    first
      | exact ⟨rfl, rfl⟩
      | exact ⟨rfl, rfl, rfl⟩

/-! ### Event by event -/

theorem stmt_step_rtof (hx : x.Exec cfg id) (n : Nat) :
    (x.st (n + 1)).sys.rtof = if x.ev n = .irq .rto then true else if x.ev n = .irq .timer then false else (x.st n).sys.rtof := by
  have h := hx.step n
  cases he : x.ev n with
  | call =>
    rw [he] at h
    simp only [slaveDevStep, Except.ok.injEq, Prod.mk.injEq] at h
    rw [if_neg (by simp), if_neg (by simp), ← h.1]
    split <;> rfl
  | stmt =>
    rw [he] at h
    rw [if_neg (by simp), if_neg (by simp)]
    simp only [slaveDevStep] at h
    split at h
    · simp only [Except.ok.injEq, Prod.mk.injEq] at h; rw [← h.1]
    · exact (stmt_region h).1
  | app op =>
    rw [he] at h
    rw [if_neg (by simp), if_neg (by simp)]
    simp only [slaveDevStep] at h
    split at h
    · simp only [Except.ok.injEq, Prod.mk.injEq] at h; rw [← h.1]
    · obtain ⟨⟨s', o'⟩, h1, h⟩ := bind_ok h
      simp only [pure_eq, Except.ok.injEq, Prod.mk.injEq] at h
      rw [← h.1]
      have := sysStep_rtof h1
      rwa [if_neg (by simp), if_neg (by simp)] at this
  | irq h' =>
    rw [he] at h
    have h : slaveDevIrq cfg (x.st n) h' = .ok (x.st (n + 1), x.out n) := by
      cases h' with
      | main op => exact absurd he (hx.irq n op)
      | _ => exact h
    simp only [slaveDevIrq] at h
    obtain ⟨⟨s', o'⟩, h1, h⟩ := bind_ok h
    simp only [pure_eq, Except.ok.injEq, Prod.mk.injEq] at h
    rw [← h.1]
    have := sysStep_rtof h1
    simp only [SDEv.irq.injEq]
    exact this

theorem atomOp_rto {ev : SDEv} {l : Bool} {s : SlaveSys} : atomOp ev l s = .rto ↔ ev = .irq .rto := by
  cases ev with
  | irq h => simp [atomOp]
  | app op => simp [atomOp]
  | call => simp [atomOp, skipOp]
  | stmt => cases l <;> simp [atomOp, skipOp]

theorem atomOp_timer {ev : SDEv} {l : Bool} {s : SlaveSys} : atomOp ev l s = .timer ↔ ev = .irq .timer := by
  cases ev with
  | irq h => simp [atomOp]
  | app op => simp [atomOp]
  | call => simp [atomOp, skipOp]
  | stmt => cases l <;> simp [atomOp, skipOp]

theorem atomOp_usart {ev : SDEv} {l : Bool} {s : SlaveSys} {rx : Option U8} {t : Bool} : atomOp ev l s = .usart rx t ↔ ev = .irq (.usart rx t) := by
  cases ev with
  | irq h => simp [atomOp]
  | app op => simp [atomOp]
  | call => simp [atomOp, skipOp]
  | stmt => cases l <;> simp [atomOp, skipOp]

theorem atom_rtof (hc : cfg.WF) (hx : x.Exec cfg id) (n : Nat) : (x.st n).sys.rtof = (atomSt cfg x n).rtof := by
  induction n with
  | zero => rfl
  | succ n ih =>
    rw [stmt_step_rtof hx]
    have := sysStep_rtof (atom_run hc hx n).2.2
    rw [this]
    have e1 : (atom cfg x).op n = .rto ↔ x.ev n = .irq .rto := atomOp_rto
    have e2 : (atom cfg x).op n = .timer ↔ x.ev n = .irq .timer := atomOp_timer
    simp only [e1, e2, ih]

theorem txCount_succ (x : StmtTimed) {a b : Nat} (h : a ≤ b) :
    x.txCount a (b + 1) = x.txCount a b + if x.ev b = .irq (.usart none true) then 1 else 0 := by
  unfold StmtTimed.txCount
  rw [show b + 1 - a = (b - a) + 1 by omega, List.range'_concat, List.map_append, List.count_append]
  congr 1
  simp only [List.map_cons, List.map_nil, Nat.one_mul, List.count_singleton, show a + (b - a) = b by omega, beq_iff_eq]

theorem txCount_self (x : StmtTimed) (a : Nat) : x.txCount a a = 0 := by
  unfold StmtTimed.txCount
  rw [Nat.sub_self]; rfl

/-- The two executions at event `n`. -/
structure DInv (cfg : Config) (x : StmtTimed) (n : Nat) : Prop where
  sim : Sim cfg (x.st n) (atomSt cfg x n)
  txe : (x.st n).txeie = true → (atomSt cfg x n).lib.txf = .set
  sent : (x.st n).pc = .anTxeie ∨ (x.st n).pc = .anTxf → ∃ s f, s < n ∧ .send f ∈ x.out s ∧ (∀ j, s < j → j ≤ n → x.InPoll j) ∧
    (f = [] ∨ (x.st n).sys.cur = x.txCount (s + 1) n ∧ (x.st n).sys.last + 1 = f.length)

/-- Events on the line come only at these moments. -/
def QuietAt (cfg : Config) (x : StmtTimed) (n : Nat) : Prop := ∀ h, x.ev n = .irq h → onLine h = true → (atomSt cfg x n).rtof = true ∨
  (atomSt cfg x n).lib.st = .idle ∧ (atomSt cfg x n).lib.t15 ≠ .set

theorem busy_poll (hc : cfg.WF) {s s' : SlaveSys} {o : List HOut} (hm : Modes s.lib) (hx : s.lib.txf = .set)
    (h : slaveSysStep cfg s (.main .poll) = .ok (s', o)) : s'.lib.txf = .set := by
  rcases main_step h with ⟨rfl, -⟩ | ⟨-, -, o1, h1⟩
  · exact hx
  · have hb := hm.busy hx
    have hr := slavePoll_inv cfg hc h1
    generalize s'.lib = l' at hr
    cases hr with
    | stay => exact hx
    | check a b => rw [hb] at a; cases a
    | drop a b c => rw [hb] at a; cases a
    | answer a => rfl
    | done a b => rw [hx] at b; cases b
    | dflt a => rw [hb] at a; cases a

/-- What a statement does to the transmit interrupt and the driver's pointers. -/
theorem stmt_txe {d d' : SlaveDev} {o : List HOut} (h : slaveStmt cfg d = .ok (d', o)) :
    (d'.txeie = true → d.txeie = true ∨ d.pc = .anTxeie) ∧
    (d'.pc = .anTxeie → d.pc = .anTdr ∧ d'.sys = d.sys ∧ .send (d.sys.lib.resp.bytes 0 d.sys.lib.respLen.toNat) ∈ o) ∧
    (d'.pc = .anTxf → (d.pc = .anTxeie ∧ d'.sys = d.sys) ∨ (d.pc = .anCur ∧ .send [] ∈ o)) := by
  obtain ⟨s, pc, e⟩ := d
  cases pc <;> simp only [slaveStmt] at h
  case enter =>
    simp only [Except.ok.injEq, Prod.mk.injEq] at h
    obtain ⟨rfl, -⟩ := h
    refine ⟨.inl, ?_⟩
    cases hst : s.lib.st <;> exact ⟨fun h => (by cases h), fun h => (by cases h)⟩
  case idRecv =>
    split at h
    · obtain ⟨r, -, h⟩ := bind_ok h
      simp only [Except.ok.injEq, Prod.mk.injEq] at h
      obtain ⟨rfl, -⟩ := h
      refine ⟨.inl, ?_⟩
      dsimp only
      split <;> exact ⟨fun h => (by cases h), fun h => (by cases h)⟩
    · cases h
  case anCur =>
    obtain ⟨r, -, h⟩ := bind_ok h
    split at h
    · simp only [Except.ok.injEq, Prod.mk.injEq] at h
      obtain ⟨rfl, -⟩ := h
      exact ⟨.inl, fun h => (by cases h), fun h => (by cases h)⟩
    · simp only [Except.ok.injEq, Prod.mk.injEq] at h
      obtain ⟨rfl, rfl⟩ := h
      exact ⟨.inl, fun h => (by cases h), fun h => .inr ⟨rfl, by simp⟩⟩
  case anTdr =>
    obtain ⟨r, -, h⟩ := bind_ok h
    simp only [Except.ok.injEq, Prod.mk.injEq] at h
    obtain ⟨rfl, rfl⟩ := h
    exact ⟨.inl, fun _ => ⟨rfl, rfl, by simp⟩, fun h => (by cases h)⟩
  case anTxeie =>
    simp only [Except.ok.injEq, Prod.mk.injEq] at h
    obtain ⟨rfl, rfl⟩ := h
    exact ⟨fun _ => .inr rfl, fun h => (by cases h), fun _ => .inl ⟨rfl, rfl⟩⟩
  case idTest | mrF2 | mrT2 | trTest | mrF1 | mrT1 =>
    simp only [Except.ok.injEq, Prod.mk.injEq] at h
    obtain ⟨rfl, -⟩ := h
    refine ⟨.inl, ?_⟩
    dsimp only
    split <;> exact ⟨fun h => (by cases h), fun h => (by cases h)⟩
  case drLen | anParse | anFrame | trResp | trReq | dfResp | dfReq =>
    obtain ⟨r, -, h⟩ := bind_ok h
    simp only [Except.ok.injEq, Prod.mk.injEq] at h
    obtain ⟨rfl, -⟩ := h
    exact ⟨.inl, fun h => (by cases h), fun h => (by cases h)⟩
  case out =>
    simp only [Except.ok.injEq, Prod.mk.injEq] at h
    obtain ⟨rfl, -⟩ := h
    exact ⟨.inl, fun h => (by cases h), fun h => (by cases h)⟩
  all_goals
    simp only [Except.ok.injEq, Prod.mk.injEq] at h
    obtain ⟨rfl, -⟩ := h
    exact ⟨.inl, fun h => (by cases h), fun h => (by cases h)⟩

theorem dinv_step (hc : cfg.WF) (hx : x.Exec cfg id) (hh : x.Hardware t15 t35 lat) (hp : x.Punctual P X) {n : Nat} (hi : DInv cfg x n)
    (hq : QuietAt cfg x n) : DInv cfg x (n + 1) ∧ atomOut cfg x n = x.out n := by
  obtain ⟨⟨w, hw⟩, hm, hy⟩ := atom_run hc hx n
  have hrr := atom_rtof hc hx n
  have h := hx.step n
  have hop : (atom cfg x).op n = atomOp (x.ev n) (linPt (x.st n)) (atomSt cfg x n) := rfl
  rw [hop] at hy
  have same : ∀ {a : SlaveSys} {o : List HOut}, slaveSysStep cfg (atomSt cfg x n) (atomOp (x.ev n) (linPt (x.st n)) (atomSt cfg x n)) = .ok (a, o) →
      atomSt cfg x (n + 1) = a ∧ atomOut cfg x n = o := by
    intro a o h
    rw [hy] at h
    exact Prod.mk.inj (Except.ok.inj h)
  cases he : x.ev n with
  | call =>
    have hpc : (x.st n).pc = .out := by
      have := hx.outside n (.inl he)
      unfold StmtTimed.InPoll at this
      exact Classical.not_not.1 this
    have hr : (x.st n).sys.rtof = false := by
      cases hr : (x.st n).sys.rtof with
      | false => rfl
      | true =>
        obtain ⟨h', e⟩ := hh.stalled n hr
        rw [he] at e; cases e
    rw [he] at h same
    simp only [slaveDevStep] at h
    rw [if_neg (by rw [hr, hpc]; simp)] at h
    simp only [Except.ok.injEq, Prod.mk.injEq] at h
    obtain ⟨a1, a2⟩ := same (show slaveSysStep cfg (atomSt cfg x n) (skipOp _) = _ from skip_step)
    have hs : (x.st n).sys = atomSt cfg x n := by
      have := hi.sim
      unfold Sim at this
      rw [hpc] at this
      exact this
    refine ⟨⟨?_, ?_, ?_⟩, by rw [a2, h.2]⟩
    · rw [a1, ← h.1]; exact hs
    · rw [a1, ← h.1]; exact hi.txe
    · rw [← h.1]; rintro (h | h) <;> cases h
  | stmt =>
    have hin := hx.inside n he
    have hr : (x.st n).sys.rtof = false := by
      cases hr : (x.st n).sys.rtof with
      | false => rfl
      | true =>
        obtain ⟨h', e⟩ := hh.stalled n hr
        rw [he] at e; cases e
    rw [he] at h same
    simp only [slaveDevStep, hr, Bool.false_eq_true, if_false] at h
    obtain ⟨b1, b2⟩ := sim_stmt hi.sim hr hw.live hm.known hin h
    obtain ⟨t1, t2, t3⟩ := stmt_txe h
    have hsent : (x.st (n + 1)).pc = .anTxeie ∨ (x.st (n + 1)).pc = .anTxf → ∃ s f, s < n + 1 ∧ .send f ∈ x.out s ∧
        (∀ j, s < j → j ≤ n + 1 → x.InPoll j) ∧ (f = [] ∨ (x.st (n + 1)).sys.cur = x.txCount (s + 1) (n + 1) ∧ (x.st (n + 1)).sys.last + 1 = f.length) := by
      intro hpc
      have hin' : x.InPoll (n + 1) := by
        unfold StmtTimed.InPoll
        rcases hpc with e | e <;> rw [e] <;> simp
      rcases hpc with e | e
      · obtain ⟨k1, k2, k3⟩ := t2 e
        refine ⟨n, _, Nat.lt_succ_self n, k3, fun j j1 j2 => ?_, .inr ?_⟩
        · have : j = n + 1 := by omega
          rw [this]; exact hin'
        · have hsim := hi.sim
          unfold Sim at hsim
          rw [k1] at hsim
          obtain ⟨-, l, l', o', -, -, -, h0, hd⟩ := hsim
          rw [k2, hd, txCount_self, Buf.bytes_length]
          exact ⟨rfl, by show l'.respLen.toNat - 1 + 1 = l'.respLen.toNat; omega⟩
      · rcases t3 e with ⟨k1, k2⟩ | ⟨k1, k2⟩
        · obtain ⟨s, f, s1, s2, s3, s4⟩ := hi.sent (.inl k1)
          refine ⟨s, f, by omega, s2, fun j j1 j2 => ?_, ?_⟩
          · by_cases hj : j = n + 1
            · rw [hj]; exact hin'
            · exact s3 j j1 (by omega)
          · rw [k2, txCount_succ x (show s + 1 ≤ n by omega), he]
            exact s4
        · refine ⟨n, _, Nat.lt_succ_self n, k2, fun j j1 j2 => ?_, .inl rfl⟩
          have : j = n + 1 := by omega
          rw [this]; exact hin'
    cases hl : linPt (x.st n) with
    | true =>
      rw [hl, if_pos rfl] at b2
      obtain ⟨a', c1, c2⟩ := b2
      rw [hl] at same
      obtain ⟨a1, a2⟩ := same c1
      refine ⟨⟨by rw [a1]; exact c2, fun ht => ?_, hsent⟩, a2⟩
      rcases t1 ht with e | e
      · rw [a1]; exact busy_poll hc hm (hi.txe e) c1
      · have : linPt (x.st n) = false := by unfold linPt; rw [e]
        rw [this] at hl; cases hl
    | false =>
      rw [hl, if_neg (by decide)] at b2
      rw [hl] at same
      obtain ⟨a1, a2⟩ := same (show slaveSysStep cfg (atomSt cfg x n) (skipOp _) = _ from skip_step)
      refine ⟨⟨by rw [a1]; exact b2.2, fun ht => ?_, hsent⟩, by rw [a2, b2.1]⟩
      rw [a1]
      rcases t1 ht with e | e
      · exact hi.txe e
      · have hsim := hi.sim
        unfold Sim at hsim
        rw [e] at hsim
        rw [hsim.1]
  | app op =>
    have hpc : (x.st n).pc = .out := by
      have := hx.outside n (.inr ⟨op, he⟩)
      unfold StmtTimed.InPoll at this
      exact Classical.not_not.1 this
    have happ := hx.app n op he
    rw [he] at h same
    simp only [slaveDevStep] at h
    rw [if_neg (by rw [hpc]; rintro (h | h); exact h rfl; subst h; exact happ)] at h
    obtain ⟨⟨s', o'⟩, h1, h⟩ := bind_ok h
    simp only [pure_eq, Except.ok.injEq, Prod.mk.injEq] at h
    have hs : (x.st n).sys = atomSt cfg x n := by
      have := hi.sim
      unfold Sim at this
      rw [hpc] at this
      exact this
    rw [hs] at h1
    obtain ⟨a1, a2⟩ := same h1
    refine ⟨⟨?_, ?_, ?_⟩, by rw [a2, h.2]⟩
    · rw [a1, ← h.1]
      unfold Sim
      rw [show (SlaveDev.mk s' (x.st n).pc (x.st n).txeie).pc = .out from hpc]
    · rw [a1, ← h.1]
      intro ht
      have := hi.txe ht
      rcases main_step h1 with ⟨rfl, -⟩ | ⟨-, -, o1, h2⟩
      · exact this
      · obtain ⟨-, -, -, e2, -⟩ := lib_irq h2 (by rintro rfl; exact happ) (by rintro m i rfl; exact happ)
        rw [e2 (by rintro rfl; exact happ)]; exact this
    · rw [← h.1]
      show (x.st n).pc = _ ∨ (x.st n).pc = _ → _
      rw [hpc]; rintro (h | h) <;> cases h
  | irq h' =>
    have hn : ∀ op, h' ≠ .main op := by
      rintro op rfl; exact hx.irq n op he
    rw [he] at h same
    have h : slaveDevIrq cfg (x.st n) h' = .ok (x.st (n + 1), x.out n) := by
      cases h' with
      | main op => exact absurd rfl (hn op)
      | _ => exact h
    have hwin : (x.st n).pc = .anTxeie ∨ (x.st n).pc = .anTxf → h' = .usart none true → (x.st n).sys.cur < (x.st n).sys.last := by
      intro hpc e
      obtain ⟨s, f, s1, s2, s3, s4⟩ := hi.sent hpc
      have := hp.slow s f n s2 s1 s3
      rw [txCount_succ x (show s + 1 ≤ n by omega), he, e, if_pos rfl] at this
      rcases s4 with rfl | ⟨s4, s5⟩
      · exact absurd this (Nat.not_lt_zero _)
      · omega
    obtain ⟨b1, a', b2, b3, b4⟩ := sim_irq hi.sim hrr hw.live hn (fun ho => hq h' he ho) (fun t e => hh.txeOnly n t (by rw [he, e])) hi.txe hm.busy hwin h
    obtain ⟨a1, a2⟩ := same b2
    refine ⟨⟨by rw [a1]; exact b3, fun ht => by rw [a1]; exact b4 ht, fun hpc => ?_⟩, a2⟩
    rw [b1] at hpc
    obtain ⟨s, f, s1, s2, s3, s4⟩ := hi.sent hpc
    refine ⟨s, f, by omega, s2, fun j j1 j2 => ?_, ?_⟩
    · by_cases hj : j = n + 1
      · rw [hj]
        unfold StmtTimed.InPoll
        rw [b1]
        rcases hpc with e | e <;> rw [e] <;> simp
      · exact s3 j j1 (by omega)
    · rcases s4 with rfl | ⟨s4, s5⟩
      · exact .inl rfl
      · right
        have hsim : (atomSt cfg x n).rtof = false ∧ (atomSt cfg x n).lib.st = .transmitting := by
          have := hi.sim
          unfold Sim at this
          rcases hpc with e | e
          · rw [e] at this; exact ⟨this.2, by rw [this.1]⟩
          · rw [e] at this; exact ⟨this.2, by rw [this.1]⟩
        have hno : onLine h' = false := by
          cases ho : onLine h' with
          | false => rfl
          | true =>
            rcases hq h' he ho with e | ⟨e, -⟩
            · rw [hsim.1] at e; cases e
            · rw [hsim.2] at e; cases e
        simp only [slaveDevIrq] at h
        obtain ⟨⟨s', o'⟩, h1, h⟩ := bind_ok h
        simp only [pure_eq, Except.ok.injEq, Prod.mk.injEq] at h
        rw [← h.1, txCount_succ x (show s + 1 ≤ n by omega), he]
        cases h' with
        | main op => exact absurd rfl (hn op)
        | rto => cases hno
        | timer => cases hno
        | usart rx t =>
          cases rx with
          | some b => cases hno
          | none =>
            have hr : (x.st n).sys.rtof = false := by rw [hrr, hsim.1]
            cases t with
            | false =>
              rw [usart_nothing hr] at h1
              obtain ⟨rfl, -⟩ := Prod.mk.inj (Except.ok.inj h1)
              exact ⟨s4, s5⟩
            | true =>
              rw [usart_next hr (hwin hpc rfl)] at h1
              obtain ⟨b, -, h1⟩ := bind_ok h1
              obtain ⟨rfl, -⟩ := Prod.mk.inj (Except.ok.inj h1)
              exact ⟨by show (x.st n).sys.cur + 1 = _; rw [s4]; rfl, s5⟩

/-! ### Polls -/

/-- Inside a poll: statements and interrupts, and interrupts leave the position alone. -/
theorem inside_step (hx : x.Exec cfg id) (hh : x.Hardware t15 t35 lat) {n : Nat} (hn : x.InPoll n) :
    (x.ev n = .stmt ∧ slaveStmt cfg (x.st n) = .ok (x.st (n + 1), x.out n)) ∨ (∃ h, x.ev n = .irq h) ∧ (x.st (n + 1)).pc = (x.st n).pc := by
  have h := hx.step n
  cases he : x.ev n with
  | call => exact absurd hn (hx.outside n (.inl he))
  | app op => exact absurd hn (hx.outside n (.inr ⟨op, he⟩))
  | stmt =>
    left
    have hr : (x.st n).sys.rtof = false := by
      cases hr : (x.st n).sys.rtof with
      | false => rfl
      | true =>
        obtain ⟨h', e⟩ := hh.stalled n hr
        rw [he] at e; cases e
    rw [he] at h
    simp only [slaveDevStep, hr, Bool.false_eq_true, if_false] at h
    exact ⟨rfl, h⟩
  | irq h' =>
    right
    rw [he] at h
    have h : slaveDevIrq cfg (x.st n) h' = .ok (x.st (n + 1), x.out n) := by
      cases h' with
      | main op => exact absurd he (hx.irq n op)
      | _ => exact h
    simp only [slaveDevIrq] at h
    obtain ⟨⟨s', o'⟩, h1, h⟩ := bind_ok h
    simp only [pure_eq, Except.ok.injEq, Prod.mk.injEq] at h
    exact ⟨⟨h', rfl⟩, by rw [← h.1]⟩

/-- The distinguished statements are where the atomic execution polls. -/
theorem atom_poll (hx : x.Exec cfg id) {n : Nat} : (atom cfg x).op n = .main .poll ↔ x.ev n = .stmt ∧ linPt (x.st n) = true := by
  show atomOp (x.ev n) (linPt (x.st n)) (atomSt cfg x n) = .main .poll ↔ _
  cases he : x.ev n with
  | irq h =>
    refine ⟨fun h' => ?_, fun h => by cases h.1⟩
    have : h = .main .poll := h'
    rw [this] at he
    exact absurd he (hx.irq n _)
  | app op =>
    refine ⟨fun h' => ?_, fun h => by cases h.1⟩
    cases h'
    exact (hx.app n _ he).elim
  | call => simp [atomOp, skipOp]
  | stmt => cases linPt (x.st n) <;> simp [atomOp, skipOp]

theorem poll_enter (hx : x.Exec cfg id) (hh : x.Hardware t15 t35 lat) {k : Nat} (h : x.ev k = .call) : (x.st (k + 1)).pc = .enter := by
  have hs := hx.step k
  have hpc := hx.outside k (.inl h)
  have hr : (x.st k).sys.rtof = false := by
    cases hr : (x.st k).sys.rtof with
    | false => rfl
    | true =>
      obtain ⟨h', e⟩ := hh.stalled k hr
      rw [h] at e; cases e
  rw [h] at hs
  simp only [slaveDevStep] at hs
  rw [if_neg (by rw [hr]; rintro (h | h); cases h; exact hpc h)] at hs
  simp only [Except.ok.injEq, Prod.mk.injEq] at hs
  rw [← hs.1]

/-- Before the distinguished statement the position is `pre`, afterwards it is not. -/
theorem region_steps (hx : x.Exec cfg id) (hh : x.Hardware t15 t35 lat) {a b : Nat} (h : a ≤ b) (hin : ∀ j, a ≤ j → j < b → x.InPoll j) :
    ((x.st a).pc.pre = false → (x.st b).pc.pre = false ∧ ∀ j, a ≤ j → j < b → (atom cfg x).op j ≠ .main .poll) ∧
    ((x.st a).pc.pre = true → (x.st b).pc.pre = true ∧ (∀ j, a ≤ j → j < b → (atom cfg x).op j ≠ .main .poll) ∨
      (x.st b).pc.pre = false ∧ ∃ n, a ≤ n ∧ n < b ∧ x.ev n = .stmt ∧ (atom cfg x).op n = .main .poll ∧
        ∀ n', a ≤ n' → n' < b → (atom cfg x).op n' = .main .poll → n' = n) := by
  induction h with
  | refl => exact ⟨fun h => ⟨h, fun j _ _ => by omega⟩, fun h => .inl ⟨h, fun j _ _ => by omega⟩⟩
  | @step b hab ih =>
    have hab : a ≤ b := hab
    obtain ⟨ih1, ih2⟩ := ih (fun j j1 j2 => hin j j1 (by omega))
    rcases inside_step hx hh (hin b hab (Nat.lt_succ_self b)) with ⟨e1, e2⟩ | ⟨⟨h', e1⟩, e2⟩
    · have hreg := (stmt_region e2).2
      constructor
      · intro h0
        obtain ⟨g1, g2⟩ := ih1 h0
        rw [g1, if_neg (by decide)] at hreg
        refine ⟨hreg.2, fun j j1 j2 => ?_⟩
        by_cases hj : j = b
        · rw [hj]; intro h
          rw [((atom_poll hx).1 h).2] at hreg; cases hreg.1
        · exact g2 j j1 (by omega)
      · intro h0
        rcases ih2 h0 with ⟨g1, g2⟩ | ⟨g1, n, n1, n2, n3, n4, n5⟩
        · rw [g1, if_pos rfl] at hreg
          cases hl : linPt (x.st b) with
          | true =>
            rw [hl, if_pos rfl] at hreg
            refine .inr ⟨hreg, b, hab, Nat.lt_succ_self b, e1, (atom_poll hx).2 ⟨e1, hl⟩, fun n' n1 n2 n3 => ?_⟩
            by_cases hn : n' = b
            · exact hn
            · exact absurd n3 (g2 n' n1 (by omega))
          | false =>
            rw [hl, if_neg (by decide)] at hreg
            refine .inl ⟨hreg, fun j j1 j2 => ?_⟩
            by_cases hj : j = b
            · rw [hj]; intro h
              rw [((atom_poll hx).1 h).2] at hl; cases hl
            · exact g2 j j1 (by omega)
        · rw [g1, if_neg (by decide)] at hreg
          refine .inr ⟨hreg.2, n, n1, by omega, n3, n4, fun n' m1 m2 m3 => ?_⟩
          by_cases hn : n' = b
          · rw [hn] at m3
            rw [((atom_poll hx).1 m3).2] at hreg; cases hreg.1
          · exact n5 n' m1 (by omega) m3
    · have hno : (atom cfg x).op b ≠ .main .poll := by
        intro h
        have := ((atom_poll hx).1 h).1
        rw [e1] at this; cases this
      rw [e2]
      constructor
      · intro h0
        obtain ⟨g1, g2⟩ := ih1 h0
        refine ⟨g1, fun j j1 j2 => ?_⟩
        by_cases hj : j = b
        · rw [hj]; exact hno
        · exact g2 j j1 (by omega)
      · intro h0
        rcases ih2 h0 with ⟨g1, g2⟩ | ⟨g1, n, n1, n2, n3, n4, n5⟩
        · refine .inl ⟨g1, fun j j1 j2 => ?_⟩
          by_cases hj : j = b
          · rw [hj]; exact hno
          · exact g2 j j1 (by omega)
        · refine .inr ⟨g1, n, n1, by omega, n3, n4, fun n' m1 m2 m3 => ?_⟩
          by_cases hn : n' = b
          · rw [hn] at m3; exact absurd m3 hno
          · exact n5 n' m1 (by omega) m3

theorem poll_once (hx : x.Exec cfg id) (hh : x.Hardware t15 t35 lat) {k m : Nat} (h : x.Poll k m) :
    ∃ n, k < n ∧ n ≤ m ∧ x.ev n = .stmt ∧ (atom cfg x).op n = .main .poll ∧ ∀ n', k < n' → n' ≤ m → (atom cfg x).op n' = .main .poll → n' = n := by
  have he := poll_enter hx hh h.call
  have hlt := h.lt
  rcases (region_steps hx hh (show k + 1 ≤ m + 1 by omega) (fun j j1 j2 => h.inside j (by omega) (by omega))).2 (by rw [he]; rfl) with
    ⟨g1, -⟩ | ⟨-, n, n1, n2, n3, n4, n5⟩
  · have : (x.st (m + 1)).pc = .out := Classical.not_not.1 h.over
    rw [this] at g1; cases g1
  · exact ⟨n, by omega, by omega, n3, n4, fun n' m1 m2 m3 => n5 n' (by omega) (by omega) m3⟩

/-! ### Whole executions -/

theorem atom_byte {n : Nat} : (atom cfg x).Byte n ↔ x.Byte n := by
  constructor
  · rintro ⟨b, t, h⟩; exact ⟨b, t, atomOp_usart.1 h⟩
  · rintro ⟨b, t, h⟩; exact ⟨b, t, atomOp_usart.2 h⟩

theorem atom_rto {n : Nat} : (atom cfg x).op n = .rto ↔ x.ev n = .irq .rto := atomOp_rto

theorem atom_timer {n : Nat} : (atom cfg x).op n = .timer ↔ x.ev n = .irq .timer := atomOp_timer

theorem atom_hardware (hc : cfg.WF) (hx : x.Exec cfg id) (hh : x.Hardware t15 t35 lat) : (atom cfg x).Hardware t15 t35 lat := by
  refine ⟨?_, ?_, ?_, ?_, ?_, ?_, hh.order⟩
  · intro k hk
    obtain ⟨n, n1, n2, n3⟩ := hh.rtoMust k (atom_byte.1 hk)
    exact ⟨n, n1, n2.imp atom_byte.2 atom_rto.2, n3⟩
  · intro n hn
    obtain ⟨k, k1, k2, k3, k4⟩ := hh.rtoOnly n (atom_rto.1 hn)
    exact ⟨k, k1, atom_byte.2 k2, k3, fun j j1 j2 => ⟨fun h => (k4 j j1 j2).1 (atom_byte.1 h), fun h => (k4 j j1 j2).2 (atom_rto.1 h)⟩⟩
  · intro k hk
    obtain ⟨n, n1, n2, n3⟩ := hh.timerMust k (atom_byte.1 hk)
    exact ⟨n, n1, n2.imp atom_byte.2 atom_timer.2, n3⟩
  · intro n hn
    obtain ⟨k, k1, k2, k3, k4⟩ := hh.timerOnly n (atom_timer.1 hn)
    exact ⟨k, k1, atom_byte.2 k2, k3, fun j j1 j2 => ⟨fun h => (k4 j j1 j2).1 (atom_byte.1 h), fun h => (k4 j j1 j2).2 (atom_timer.1 h)⟩⟩
  · intro n hn
    obtain ⟨m, rx, t, m1, m2, m3⟩ := hh.irq n (atom_rto.1 hn)
    exact ⟨m, rx, t, m1, atomOp_usart.2 m2, m3⟩
  · intro n op hr h
    have hr' : (x.st n).sys.rtof = true := by rw [atom_rtof hc hx]; exact hr
    obtain ⟨h', e⟩ := hh.stalled n hr'
    have h1 : atomOp (x.ev n) (linPt (x.st n)) (atomSt cfg x n) = .main op := h
    rw [e] at h1
    have h1 : h' = .main op := h1
    rw [h1] at e
    exact hx.irq n op e

theorem atom_polls (hc : cfg.WF) (hx : x.Exec cfg id) (hh : x.Hardware t15 t35 lat) (hp : x.Punctual P X) : DevPolls (atom cfg x) P := by
  intro n hr
  have hr' : (x.st (n + 1)).sys.rtof = false := by rw [atom_rtof hc hx]; exact hr
  obtain ⟨m, m1, m2, m3⟩ := hp.poll n hr'
  rcases m3 with e | ⟨k, k1, k2⟩
  · exact ⟨m, m1, m2, .inr (atom_rto.2 e)⟩
  · obtain ⟨l, l1, l2, -, l3, -⟩ := poll_once (cfg := cfg) hx hh k2
    have := (atom_exec hc hx).time_le l2
    exact ⟨l, by omega, Nat.le_trans this m2, .inl l3⟩

theorem atom_count (a b : Nat) : ((atom cfg x).seg a b).count (.usart none true) = x.txCount a b := by
  unfold DeviceTimed.seg StmtTimed.txCount
  rw [List.count_eq_countP, List.count_eq_countP, List.countP_map, List.countP_map]
  congr 1
  funext n
  have : (atom cfg x).op n = .usart none true ↔ x.ev n = .irq (.usart none true) := atomOp_usart
  by_cases h : x.ev n = .irq (.usart none true)
  · simp [Function.comp, h, this.2 h]
  · have h2 : (atom cfg x).op n ≠ .usart none true := fun e => h (this.1 e)
    show ((atom cfg x).op n == _) = (x.ev n == _)
    rw [beq_eq_false_iff_ne.2 h2, beq_eq_false_iff_ne.2 h]

theorem steps_up (hc : cfg.WF) (hx : x.Exec cfg id) (hh : x.Hardware t15 t35 lat) (hp : x.Punctual P X) {a b : Nat} (hab : a ≤ b)
    (ha : DInv cfg x a) (hq : ∀ n, a ≤ n → n < b → QuietAt cfg x n) : DInv cfg x b ∧ ∀ n, a ≤ n → n < b → atomOut cfg x n = x.out n := by
  induction hab with
  | refl => exact ⟨ha, fun n _ _ => by omega⟩
  | @step b hab ih =>
    have hab : a ≤ b := hab
    obtain ⟨i1, i2⟩ := ih (fun n n1 n2 => hq n n1 (by omega))
    obtain ⟨j1, j2⟩ := dinv_step hc hx hh hp i1 (hq b hab (Nat.lt_succ_self b))
    refine ⟨j1, fun n n1 n2 => ?_⟩
    by_cases hn : n = b
    · rw [hn]; exact j2
    · exact i2 n n1 (by omega)

theorem open_up (hc : cfg.WF) (hx : x.Exec cfg id) {a b : Nat} (hab : a ≤ b) (ha : HSync (atomSt cfg x a))
    (hn : ∀ k, a ≤ k → k < b → (atom cfg x).op k ≠ .timer) : Open (atomSt cfg x b) := by
  induction hab with
  | refl => exact ⟨ha.sync.st, .inr (by rw [ha.sync.t15]; simp)⟩
  | @step b hab ih =>
    have hab : a ≤ b := hab
    exact open_step (atom_run hc hx b).2.2 (atom_legal hx b) (hn b hab (Nat.lt_succ_self b)) (ih (fun k k1 k2 => hn k k1 (by omega)))

theorem Open.quiet {n : Nat} (h : Open (atomSt cfg x n)) : QuietAt cfg x n := fun _ _ _ => h.t15.imp (fun h => h) (fun h' => ⟨h.st, h'⟩)

theorem calm_quiet {n : Nat} (h : ¬ LineEv (atom cfg x) n) : QuietAt cfg x n := by
  intro e he ho
  exfalso
  apply h
  cases e with
  | main op => cases ho
  | rto => exact .inr (.inl (atom_rto.2 he))
  | timer => exact .inr (.inr (atom_timer.2 he))
  | usart rx t =>
    cases rx with
    | none => cases ho
    | some b => exact .inl (atom_byte.2 ⟨b, t, he⟩)

/-- After every timer event both executions come to rest together before anything else arrives. -/
theorem stmt_rest (hc : cfg.WF) (hx : x.Exec cfg id) (hh : x.Hardware t15 t35 lat) (hp : x.Punctual P X) (c : Nat) : DevStart (atom cfg x) c →
    ∃ e, c ≤ e ∧ (∀ k, c ≤ k → k < e → ¬ LineEv (atom cfg x) k) ∧ HSync ((atom cfg x).st e) ∧ ((atom cfg x).st e).lib.id = id ∧
      DInv cfg x e ∧ ∀ n, n < e → atomOut cfg x n = x.out n := by
  have hxa := atom_exec hc hx
  have hha := atom_hardware hc hx hh
  induction c using Nat.strongRecOn with
  | ind c ih =>
    intro hs
    by_cases h0 : c = 0
    · subst h0
      obtain ⟨m, hm⟩ := hxa.init
      obtain ⟨s, h1, h2, h3, _⟩ := hsync_after_init cfg m id
      rw [h1] at hm
      simp only [Except.ok.injEq, Prod.mk.injEq] at hm
      refine ⟨0, Nat.le_refl _, fun k _ h => by omega, by rw [← hm.1]; exact h2, by rw [← hm.1]; exact h3, ⟨?_, ?_, ?_⟩, fun n h => by omega⟩
      · obtain ⟨m, s, -, h2⟩ := hx.init
        unfold Sim
        rw [h2]
        show s = (x.st 0).sys
        rw [h2]
      · obtain ⟨m, s, -, h2⟩ := hx.init
        rw [h2]
        intro h; cases h
      · obtain ⟨m, s, -, h2⟩ := hx.init
        rw [h2]
        rintro (h | h) <;> cases h
    · have hm : (atom cfg x).op (c - 1) = .timer := by
        rcases hs with h | h
        · exact absurd h h0
        · exact h
      obtain ⟨c0, d1, d2, d3⟩ := dev_last_start (atom cfg x) (c - 1)
      obtain ⟨e0, f1, f2, f3, f4, f5, f6⟩ := ih c0 (by omega) d2
      have hem : e0 ≤ c - 1 := by
        apply Classical.byContradiction
        intro h
        exact f2 (c - 1) d1 (by omega) (.inr (.inr hm))
      have q1 : ∀ n, e0 ≤ n → n < c → QuietAt cfg x n := fun n n1 n2 =>
        (open_up hc hx n1 f3 (fun k k1 k2 => d3 k (by omega) (by omega))).quiet
      have hq : ∀ k, c - 1 < k → (atom cfg x).Byte k → (atom cfg x).time (c - 1) + 2 * P < (atom cfg x).time k :=
        fun k k1 hk => hp.quiet (c - 1) k k1 (atom_timer.1 hm) (atom_byte.1 hk)
      have htx : ∀ p, c - 1 < p → (atom cfg x).time p ≤ (atom cfg x).time (c - 1) + 2 * P →
          (∀ k, e0 ≤ k → k < p → (atom cfg x).out k = []) → DevTx (atom cfg x) P X p := by
        intro p p1 p2 _ F hF
        have hb : ∀ k, c - 1 < k → k ≤ p → ¬ (atom cfg x).Byte k := by
          intro k k1 k2 hk
          have h1 := hq k k1 hk
          have h2 := hxa.time_le k2
          omega
        have hl : ∀ k, c - 1 < k → k ≤ p → ¬ LineEv (atom cfg x) k := by
          rintro k k1 k2 (h | h | h)
          · exact hb k k1 k2 h
          · exact (hha.still hxa hm hb k1 k2).1 h
          · exact (hha.still hxa hm hb k1 k2).2 h
        obtain ⟨-, g⟩ := steps_up hc hx hh hp (show e0 ≤ p + 1 by omega) f5 (fun n n1 n2 => by
          by_cases h : n < c
          · exact q1 n n1 h
          · exact calm_quiet (hl n (by omega) (by omega)))
        obtain ⟨o, ho⟩ := hF.out
        have hmem : .send F ∈ x.out p := by
          rw [← g p (by omega) (Nat.lt_succ_self p)]
          show _ ∈ (atom cfg x).out p
          rw [ho]; simp
        obtain ⟨w, w1, w2, w3, w4⟩ := hp.tx p F hmem
        exact ⟨w, w1, w2, by rw [atom_count]; exact w3, fun k k1 k2 => w4 k k1 (atom_byte.1 k2)⟩
      obtain ⟨r, fb, ft, l1, p, e', _, _, _, _, _, g1, g2, _, _, _, g6, g7, g8, _⟩ :=
        dev_cycle hc hxa hha (atom_polls hc hx hh hp) hq htx d2 f1 f2 f3 f4 hem (fun k k1 k2 => d3 k (by omega) k2) hm
      obtain ⟨u1, u2⟩ := steps_up hc hx hh hp (show e0 ≤ e' by omega) f5 (fun n n1 n2 => by
        by_cases h : n < c
        · exact q1 n n1 h
        · exact calm_quiet (g8 n (by omega) (by omega)))
      refine ⟨e', by omega, fun k k1 k2 => g8 k (by omega) k2, g6, g7, u1, fun n hn => ?_⟩
      by_cases h : n < e0
      · exact f6 n h
      · exact u2 n (by omega) hn

theorem stmt_all (hc : cfg.WF) (hx : x.Exec cfg id) (hh : x.Hardware t15 t35 lat) (hp : x.Punctual P X) (n : Nat) :
    DInv cfg x n ∧ atomOut cfg x n = x.out n := by
  obtain ⟨c, c1, c2, c3⟩ := dev_last_start (atom cfg x) (n + 1)
  obtain ⟨e, e1, e2, e3, -, e5, e6⟩ := stmt_rest hc hx hh hp c c2
  by_cases h : n + 1 ≤ e
  · obtain ⟨c', k1, k2, k3⟩ := dev_last_start (atom cfg x) n
    obtain ⟨e', l1, l2, l3, -, l5, l6⟩ := stmt_rest hc hx hh hp c' k2
    refine ⟨?_, e6 n (by omega)⟩
    by_cases h' : e' ≤ n
    · exact (steps_up hc hx hh hp h' l5 (fun j j1 j2 => (open_up hc hx j1 l3 (fun k k1 k2 => k3 k (by omega) (by omega))).quiet)).1
    · -- the execution up to `n`, from the last rest before it
      by_cases hc0 : c' = 0
      · subst hc0
        obtain ⟨z1, z2, z3, z4, z5, z6, z7⟩ := stmt_rest hc hx hh hp 0 (.inl rfl)
        have h0 : DInv cfg x 0 := by
          refine ⟨?_, ?_, ?_⟩
          · obtain ⟨m, s, -, h2⟩ := hx.init
            unfold Sim
            rw [h2]
            show s = (x.st 0).sys
            rw [h2]
          · obtain ⟨m, s, -, h2⟩ := hx.init
            rw [h2]; intro h; cases h
          · obtain ⟨m, s, -, h2⟩ := hx.init
            rw [h2]; rintro (h | h) <;> cases h
        exact (steps_up hc hx hh hp (Nat.zero_le n) h0 (fun j j1 j2 => calm_quiet (l2 j j1 (by omega)))).1
      · have hm : (atom cfg x).op (c' - 1) = .timer := by
          rcases k2 with h | h
          · exact absurd h hc0
          · exact h
        obtain ⟨c0, d1, d2, d3⟩ := dev_last_start (atom cfg x) (c' - 1)
        obtain ⟨e0, f1, f2, f3, f4, f5, f6⟩ := stmt_rest hc hx hh hp c0 d2
        have hem : e0 ≤ c' - 1 := by
          apply Classical.byContradiction
          intro h
          exact f2 (c' - 1) d1 (by omega) (.inr (.inr hm))
        exact (steps_up hc hx hh hp (show e0 ≤ n by omega) f5 (fun j j1 j2 => by
          by_cases h : j < c'
          · exact (open_up hc hx j1 f3 (fun k k1 k2 => d3 k (by omega) (by omega))).quiet
          · exact calm_quiet (l2 j (by omega) (by omega)))).1
  · obtain ⟨u1, u2⟩ := steps_up hc hx hh hp (show e ≤ n + 1 by omega) e5
      (fun j j1 j2 => (open_up hc hx j1 e3 (fun k k1 k2 => c3 k (by omega) (by omega))).quiet)
    obtain ⟨v1, -⟩ := steps_up hc hx hh hp (show e ≤ n by omega) e5
      (fun j j1 j2 => (open_up hc hx j1 e3 (fun k k1 k2 => c3 k (by omega) (by omega))).quiet)
    exact ⟨v1, u2 n (by omega) (Nat.lt_succ_self n)⟩

end

end Modbus
