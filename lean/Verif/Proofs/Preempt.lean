import Verif.Model.Preempt
import Verif.Proofs.Basic

/-! Reduction of interrupted polls to atomic ones: generic lemmas and the slave. -/

namespace Modbus

section generic
variable {σ ω ε : Type}

theorem runInts_append (int : σ → ε → C σ) (s : σ) (a b : List ε) :
    runInts int s (a ++ b) = (runInts int s a >>= fun s => runInts int s b) := by
  induction a generalizing s with
  | nil => rfl
  | cons e a ih =>
    simp only [List.cons_append, runInts]
    cases h : int s e with
    | error u => rfl
    | ok s1 => exact ih s1

theorem runProg_pad1 (int : σ → ε → C σ) (p : Prog σ ω ε) (ints : List (List ε)) (s : σ) :
    runProg int p (ints ++ [[]]) s = runProg int p ints s := by
  induction p generalizing ints s with
  | done => simp [runProg]
  | step r f k ih =>
    cases ints with
    | nil => simp [runProg]
    | cons I Is => simp only [runProg, List.cons_append, List.headD_cons, List.tail_cons, ih]

theorem noRace_pad1 (int : σ → ε → C σ) (p : Prog σ ω ε) (ints : List (List ε)) (s : σ) :
    noRace int p (ints ++ [[]]) s ↔ noRace int p ints s := by
  induction p generalizing ints s with
  | done => simp [noRace]
  | step r f k ih =>
    cases ints with
    | nil => simp [noRace]
    | cons I Is => simp only [noRace, List.cons_append, List.headD_cons, List.tail_cons, ih]

/-- Interrupt lists may be assumed to be as long as we like. -/
theorem pad_ints (int : σ → ε → C σ) (p : Prog σ ω ε) (n : Nat) (ints : List (List ε)) (s : σ) :
    ∃ ints', n ≤ ints'.length ∧ ints'.flatten = ints.flatten ∧ runProg int p ints' s = runProg int p ints s ∧
      (noRace int p ints' s ↔ noRace int p ints s) := by
  induction n with
  | zero => exact ⟨ints, Nat.zero_le _, rfl, rfl, Iff.rfl⟩
  | succ n ih =>
    obtain ⟨i, h1, h2, h3, h4⟩ := ih
    refine ⟨i ++ [[]], by simp; omega, by simp [h2], ?_, ?_⟩
    · rw [runProg_pad1, h3]
    · rw [noRace_pad1, h4]

/-- The interrupts moved before the poll: those of kind `e` at positions below `cut e`. -/
def before (cut : ε → Nat) : List (List ε) → List ε
  | [] => []
  | I :: Is => I.filter (fun e => decide (0 < cut e)) ++ before (fun e => cut e - 1) Is

/-- The interrupts moved after the poll. -/
def after (cut : ε → Nat) : List (List ε) → List ε
  | [] => []
  | I :: Is => I.filter (fun e => !decide (0 < cut e)) ++ after (fun e => cut e - 1) Is

theorem filter_perm (p : ε → Bool) (l : List ε) : List.Perm (l.filter p ++ l.filter (fun e => !p e)) l := by
  induction l with
  | nil => simp
  | cons a l ih =>
    cases h : p a
    · simp only [List.filter_cons, h, Bool.not_false]
      exact (List.perm_middle).trans (List.Perm.cons a ih)
    · simp only [List.filter_cons, h, Bool.not_true]
      exact List.Perm.cons a ih

theorem before_after_perm (cut : ε → Nat) (ints : List (List ε)) :
    List.Perm (before cut ints ++ after cut ints) ints.flatten := by
  induction ints generalizing cut with
  | nil => simp [before, after]
  | cons I Is ih =>
    simp only [before, after, List.flatten_cons]
    have h1 := filter_perm (fun e => decide (0 < cut e)) I
    have h2 := ih (fun e => cut e - 1)
    refine List.Perm.trans ?_ (List.Perm.append h1 h2)
    simp only [List.append_assoc]
    refine List.Perm.append_left _ ?_
    rw [← List.append_assoc, ← List.append_assoc]
    exact List.Perm.append_right _ List.perm_append_comm

/-- Events of a kind with a common cut: those before are exactly the ones in the first `n` gaps. -/
theorem before_filter (cut : ε → Nat) (q : ε → Bool) (n : Nat) (hq : ∀ e, q e = true → cut e = n) (ints : List (List ε)) :
    (before cut ints).filter q = (ints.take n).flatten.filter q := by
  induction ints generalizing cut n with
  | nil => simp [before]
  | cons I Is ih =>
    have hih := ih (fun e => cut e - 1) (n - 1) (fun e he => by rw [hq e he])
    cases n with
    | zero =>
      simp only [before, List.filter_append, List.filter_filter, List.take_zero, List.flatten_nil, List.filter_nil]
      rw [hih]
      simp only [Nat.zero_sub, List.take_zero, List.flatten_nil, List.filter_nil, List.append_nil]
      apply List.filter_eq_nil_iff.mpr
      intro e _ h
      simp only [Bool.and_eq_true, decide_eq_true_eq] at h
      have := hq e h.1
      omega
    | succ n =>
      simp only [before, List.filter_append, List.filter_filter, List.take_succ_cons, List.flatten_cons]
      rw [hih]
      congr 1
      apply List.filter_congr
      intro e _
      cases hqe : q e
      · rfl
      · have := hq e hqe
        simp [this]

theorem after_filter (cut : ε → Nat) (q : ε → Bool) (n : Nat) (hq : ∀ e, q e = true → cut e = n) (ints : List (List ε)) :
    (after cut ints).filter q = (ints.drop n).flatten.filter q := by
  induction ints generalizing cut n with
  | nil => simp [after]
  | cons I Is ih =>
    have hih := ih (fun e => cut e - 1) (n - 1) (fun e he => by rw [hq e he])
    cases n with
    | zero =>
      simp only [after, List.filter_append, List.filter_filter, List.drop_zero, List.flatten_cons]
      rw [hih]
      simp only [Nat.zero_sub, List.drop_zero]
      congr 1
      apply List.filter_congr
      intro e _
      cases hqe : q e
      · rfl
      · have := hq e hqe
        simp [this]
    | succ n =>
      simp only [after, List.filter_append, List.filter_filter, List.drop_succ_cons]
      rw [hih]
      simp only [Nat.add_sub_cancel]
      have : I.filter (fun e => q e && !decide (0 < cut e)) = [] := by
        apply List.filter_eq_nil_iff.mpr
        intro e _ h
        simp only [Bool.and_eq_true, Bool.not_eq_true', decide_eq_false_iff_not] at h
        have := hq e h.1
        omega
      rw [this, List.nil_append]

theorem before_after_filter (cut : ε → Nat) (q : ε → Bool) (n : Nat) (hq : ∀ e, q e = true → cut e = n) (ints : List (List ε)) :
    (before cut ints ++ after cut ints).filter q = ints.flatten.filter q := by
  rw [List.filter_append, before_filter cut q n hq, after_filter cut q n hq, ← List.filter_append, ← List.flatten_append,
    List.take_append_drop]

end generic

/-! ### Slave: closed form of a list of interrupts -/

/-- Does the list contain the event? -/
def hasEv {ε : Type} [DecidableEq ε] (e : ε) (l : List ε) : Bool := decide (e ∈ l)

/-- A flag after `b` tells whether a callback has set it. -/
def mark (b : Bool) (f : Flag) : Flag := if b then .set else f

/-- A flag after `b` tells whether a callback has cleared it. -/
def unmark (b : Bool) (f : Flag) : Flag := if b then .cleared else f

@[simp] theorem mark_mark (a b : Bool) (f : Flag) : mark a (mark b f) = mark (b || a) f := by
  cases a <;> cases b <;> rfl
@[simp] theorem mark_set (a : Bool) : mark a .set = .set := by cases a <;> rfl
@[simp] theorem mark_true (f : Flag) : mark true f = .set := rfl
@[simp] theorem mark_false (f : Flag) : mark false f = f := rfl
@[simp] theorem unmark_unmark (a b : Bool) (f : Flag) : unmark a (unmark b f) = unmark (b || a) f := by
  cases a <;> cases b <;> rfl
@[simp] theorem unmark_cleared (a : Bool) : unmark a .cleared = .cleared := by cases a <;> rfl
@[simp] theorem unmark_false (f : Flag) : unmark false f = f := rfl
@[simp] theorem unmark_true (f : Flag) : unmark true f = .cleared := rfl

@[simp] theorem hasEv_append {ε : Type} [DecidableEq ε] (e : ε) (a b : List ε) : hasEv e (a ++ b) = (hasEv e a || hasEv e b) := by
  simp [hasEv]
@[simp] theorem hasEv_nil {ε : Type} [DecidableEq ε] (e : ε) : hasEv e ([] : List ε) = false := rfl

theorem hasEv_filter {ε : Type} [DecidableEq ε] (e : ε) (l : List ε) : hasEv e l = hasEv e (l.filter (fun x => decide (x = e))) := by
  simp [hasEv]

theorem hasEv_before {ε : Type} [DecidableEq ε] (cut : ε → Nat) (e : ε) (ints : List (List ε)) :
    hasEv e (before cut ints) = hasEv e (ints.take (cut e)).flatten := by
  rw [hasEv_filter, before_filter cut _ (cut e) (by simp), ← hasEv_filter]

theorem hasEv_after {ε : Type} [DecidableEq ε] (cut : ε → Nat) (e : ε) (ints : List (List ε)) :
    hasEv e (after cut ints) = hasEv e (ints.drop (cut e)).flatten := by
  rw [hasEv_filter, after_filter cut _ (cut e) (by simp), ← hasEv_filter]

/-- The received bytes among the interrupts. -/
def SEv.byte? : SEv → Option U8
  | .rxByte b => some b
  | _ => none

/-- The bytes received, in order. -/
def srx (l : List SEv) : List U8 := l.filterMap SEv.byte?

@[simp] theorem srx_append (a b : List SEv) : srx (a ++ b) = srx a ++ srx b := by simp [srx]
@[simp] theorem srx_nil : srx [] = [] := rfl

theorem srx_filter (l : List SEv) : srx l = srx (l.filter (fun e => e.byte?.isSome)) := by
  induction l with
  | nil => rfl
  | cons e l ih =>
    cases e <;> simp_all [srx, SEv.byte?, List.filterMap_cons, List.filter_cons]

/-- A cut that depends on the kind of the event only. -/
def scut (a b c d r : Nat) : SEv → Nat
  | .t15 => a
  | .t35 => b
  | .frameErr => c
  | .txDone => d
  | .rxByte _ => r

theorem srx_before (a b c d r : Nat) (ints : List (List SEv)) :
    srx (before (scut a b c d r) ints) = srx (ints.take r).flatten := by
  rw [srx_filter, before_filter _ _ r (by intro e; cases e <;> simp [SEv.byte?, scut]), ← srx_filter]

theorem srx_after (a b c d r : Nat) (ints : List (List SEv)) :
    srx (after (scut a b c d r) ints) = srx (ints.drop r).flatten := by
  rw [srx_filter, after_filter _ _ r (by intro e; cases e <;> simp [SEv.byte?, scut]), ← srx_filter]

/-- Bytes stored one after the other. -/
def rxRun : Buf × U8 → List U8 → Buf × U8
  | p, [] => p
  | p, b :: l => rxRun (p.1.set p.2.toNat b, p.2 + 1) l

theorem rxRun_append (p : Buf × U8) (a b : List U8) : rxRun p (a ++ b) = rxRun (rxRun p a) b := by
  induction a generalizing p with
  | nil => rfl
  | cons x a ih => exact ih _

@[simp] theorem rxRun_nest (p : Buf × U8) (a b : List U8) : rxRun ((rxRun p a).1, (rxRun p a).2) b = rxRun p (a ++ b) :=
  (rxRun_append p a b).symm

/-- The state after a list of interrupts. -/
def slaveAfter (s : Slave) (l : List SEv) : Slave :=
  { s with t15 := mark (hasEv .t15 l) s.t15, t35 := mark (hasEv .t35 l) s.t35, ferr := mark (hasEv .frameErr l) s.ferr,
           txf := unmark (hasEv .txDone l) s.txf,
           req := (rxRun (s.req, s.reqLen) (srx l)).1, reqLen := (rxRun (s.req, s.reqLen) (srx l)).2 }

theorem slaveStep_int (cfg : Config) (s : Slave) (h : s.subscribed = true) (e : SEv) :
    slaveStep cfg s e.op = .ok (slaveAfter s [e], []) := by
  cases s with
  | mk id st drv msgPtr dataSet subscribed req reqLen resp respLen t15 t35 ferr txf mem =>
  simp only at h
  subst h
  cases e with
  | rxByte b =>
    have hb : reqLen.toNat < rtuBufferSize := reqLen.isLt
    simp only [slaveStep, SEv.op, if_true, wr, if_pos hb]
    rfl
  | _ => rfl

theorem slaveInt_eq (cfg : Config) (s : Slave) (h : s.subscribed = true) (e : SEv) :
    slaveInt cfg s e = .ok (slaveAfter s [e]) := by
  rw [slaveInt, slaveStep_int cfg s h e]; rfl

theorem slaveAfter_append (s : Slave) (a b : List SEv) : slaveAfter (slaveAfter s a) b = slaveAfter s (a ++ b) := by
  simp [slaveAfter]

theorem slaveAfter_nil (s : Slave) : slaveAfter s [] = s := rfl

theorem runInts_slave (cfg : Config) (s : Slave) (h : s.subscribed = true) (l : List SEv) :
    runInts (slaveInt cfg) s l = .ok (slaveAfter s l) := by
  induction l generalizing s with
  | nil => rfl
  | cons e l ih =>
    simp only [runInts, slaveInt_eq cfg s h e]
    refine (ih (slaveAfter s [e]) h).trans ?_
    rw [slaveAfter_append]; rfl

/-- Prepend outputs to a result. -/
def addOut {σ ω : Type} (o : List ω) (r : C (σ × List ω)) : C (σ × List ω) :=
  match r with
  | .ok x => .ok (x.1, o ++ x.2)
  | .error u => .error u

@[simp] theorem addOut_nil {σ ω : Type} (r : C (σ × List ω)) : addOut [] r = r := by
  cases r <;> rfl
@[simp] theorem addOut_ok {σ ω : Type} (o o' : List ω) (s : σ) : addOut o (.ok (s, o')) = .ok (s, o ++ o') := rfl
@[simp] theorem addOut_error {σ ω : Type} (o : List ω) (u : UB) : addOut (σ := σ) o (.error u) = .error u := rfl
theorem okBind {α β : Type} (a : α) (f : α → C β) : ((Except.ok a : C α) >>= f) = f a := rfl
theorem errBind {α β : Type} (u : UB) (f : α → C β) : ((Except.error u : C α) >>= f) = .error u := rfl
theorem pureOk {α : Type} (a : α) : (pure a : C α) = .ok a := rfl

theorem srun_step' {cfg : Config} {s : Slave} (hs : s.subscribed = true) {α : Type} (r : Slave → SEv → Bool)
    (f : Slave → C (α × Slave × List SOut)) (k : α → SProg) (I : List SEv) (Is : List (List SEv)) :
    runProg (slaveInt cfg) (.step r f k) (I :: Is) s =
      (f (slaveAfter s I) >>= fun x => addOut x.2.2 (runProg (slaveInt cfg) (k x.1) Is x.2.1)) := by
  simp only [runProg, List.headD_cons, runInts_slave cfg s hs, List.tail_cons, okBind]
  cases f (slaveAfter s I) with
  | error u => rfl
  | ok x =>
    simp only [okBind]
    cases runProg (slaveInt cfg) (k x.1) Is x.2.1 <;> rfl

section srun
variable {cfg : Config} {id : U8} {st : SlaveSt} {drv mp ds : Bool} {req : Buf} {rl : U8} {resp : Buf} {pl : U8}
  {a b c d : Flag} {mem : AppMem}

theorem slaveAfter_mk (l : List SEv) :
    slaveAfter ⟨id, st, drv, mp, ds, true, req, rl, resp, pl, a, b, c, d, mem⟩ l =
      ⟨id, st, drv, mp, ds, true, (rxRun (req, rl) (srx l)).1, (rxRun (req, rl) (srx l)).2, resp, pl, mark (hasEv .t15 l) a,
        mark (hasEv .t35 l) b, mark (hasEv .frameErr l) c, unmark (hasEv .txDone l) d, mem⟩ := rfl

theorem srun_done (Is : List (List SEv)) :
    runProg (ω := SOut) (slaveInt cfg) .done Is ⟨id, st, drv, mp, ds, true, req, rl, resp, pl, a, b, c, d, mem⟩ =
      .ok (slaveAfter ⟨id, st, drv, mp, ds, true, req, rl, resp, pl, a, b, c, d, mem⟩ Is.flatten, []) := by
  simp only [runProg, runInts_slave cfg ⟨id, st, drv, mp, ds, true, req, rl, resp, pl, a, b, c, d, mem⟩ rfl]; rfl

theorem srun_step {α : Type} (r : Slave → SEv → Bool) (f : Slave → C (α × Slave × List SOut)) (k : α → SProg)
    (I : List SEv) (Is : List (List SEv)) :
    runProg (slaveInt cfg) (.step r f k) (I :: Is) ⟨id, st, drv, mp, ds, true, req, rl, resp, pl, a, b, c, d, mem⟩ =
      (f (slaveAfter ⟨id, st, drv, mp, ds, true, req, rl, resp, pl, a, b, c, d, mem⟩ I) >>= fun x =>
        addOut x.2.2 (runProg (slaveInt cfg) (k x.1) Is x.2.1)) := srun_step' rfl _ _ _ _ _

theorem srun_assign (f : Slave → Slave) (k : SProg) (I : List SEv) (Is : List (List SEv)) :
    runProg (slaveInt cfg) (assign f k) (I :: Is) ⟨id, st, drv, mp, ds, true, req, rl, resp, pl, a, b, c, d, mem⟩ =
      runProg (slaveInt cfg) k Is (f (slaveAfter ⟨id, st, drv, mp, ds, true, req, rl, resp, pl, a, b, c, d, mem⟩ I)) := by
  rw [assign, srun_step]
  exact addOut_nil _

theorem srun_assignC (f : Slave → C Slave) (k : SProg) (I : List SEv) (Is : List (List SEv)) :
    runProg (slaveInt cfg) (assignC f k) (I :: Is) ⟨id, st, drv, mp, ds, true, req, rl, resp, pl, a, b, c, d, mem⟩ =
      (f (slaveAfter ⟨id, st, drv, mp, ds, true, req, rl, resp, pl, a, b, c, d, mem⟩ I) >>= fun s1 => runProg (slaveInt cfg) k Is s1) := by
  rw [assignC, srun_step]
  cases f (slaveAfter ⟨id, st, drv, mp, ds, true, req, rl, resp, pl, a, b, c, d, mem⟩ I) with
  | error u => rfl
  | ok s1 => exact addOut_nil _

theorem srun_test (c' : Slave → Bool) (p q : SProg) (I : List SEv) (Is : List (List SEv)) :
    runProg (slaveInt cfg) (test c' p q) (I :: Is) ⟨id, st, drv, mp, ds, true, req, rl, resp, pl, a, b, c, d, mem⟩ =
      runProg (slaveInt cfg) (if c' (slaveAfter ⟨id, st, drv, mp, ds, true, req, rl, resp, pl, a, b, c, d, mem⟩ I) then p else q) Is
        (slaveAfter ⟨id, st, drv, mp, ds, true, req, rl, resp, pl, a, b, c, d, mem⟩ I) := by
  rw [test, srun_step]
  exact addOut_nil _

theorem snr_step {α : Type} (r : Slave → SEv → Bool) (f : Slave → C (α × Slave × List SOut)) (k : α → SProg)
    (I : List SEv) (Is : List (List SEv)) :
    noRace (slaveInt cfg) (.step r f k) (I :: Is) ⟨id, st, drv, mp, ds, true, req, rl, resp, pl, a, b, c, d, mem⟩ ↔
      (∀ e ∈ I, r ⟨id, st, drv, mp, ds, true, req, rl, resp, pl, a, b, c, d, mem⟩ e = false) ∧
      ∀ x, f (slaveAfter ⟨id, st, drv, mp, ds, true, req, rl, resp, pl, a, b, c, d, mem⟩ I) = .ok x → noRace (slaveInt cfg) (k x.1) Is x.2.1 := by
  simp only [noRace, List.headD_cons, runInts_slave cfg ⟨id, st, drv, mp, ds, true, req, rl, resp, pl, a, b, c, d, mem⟩ rfl, List.tail_cons]
  constructor
  · rintro ⟨h1, h2⟩
    exact ⟨h1, fun x hx => h2 _ x.1 x.2.1 x.2.2 rfl hx⟩
  · rintro ⟨h1, h2⟩
    refine ⟨h1, fun s1 a s2 o e hx => ?_⟩
    cases e
    exact h2 (a, s2, o) hx

theorem snr_assign (f : Slave → Slave) (k : SProg) (I : List SEv) (Is : List (List SEv)) :
    noRace (slaveInt cfg) (assign f k) (I :: Is) ⟨id, st, drv, mp, ds, true, req, rl, resp, pl, a, b, c, d, mem⟩ ↔
      noRace (slaveInt cfg) k Is (f (slaveAfter ⟨id, st, drv, mp, ds, true, req, rl, resp, pl, a, b, c, d, mem⟩ I)) := by
  rw [assign, snr_step]
  simp [free]

theorem snr_assignC (f : Slave → C Slave) (k : SProg) (I : List SEv) (Is : List (List SEv)) :
    noRace (slaveInt cfg) (assignC f k) (I :: Is) ⟨id, st, drv, mp, ds, true, req, rl, resp, pl, a, b, c, d, mem⟩ ↔
      ∀ s1, f (slaveAfter ⟨id, st, drv, mp, ds, true, req, rl, resp, pl, a, b, c, d, mem⟩ I) = .ok s1 → noRace (slaveInt cfg) k Is s1 := by
  rw [assignC, snr_step]
  cases f (slaveAfter ⟨id, st, drv, mp, ds, true, req, rl, resp, pl, a, b, c, d, mem⟩ I) with
  | error u => simp [free]
  | ok s1 => simp [free]

theorem snr_test (c' : Slave → Bool) (p q : SProg) (I : List SEv) (Is : List (List SEv)) :
    noRace (slaveInt cfg) (test c' p q) (I :: Is) ⟨id, st, drv, mp, ds, true, req, rl, resp, pl, a, b, c, d, mem⟩ ↔
      noRace (slaveInt cfg) (if c' (slaveAfter ⟨id, st, drv, mp, ds, true, req, rl, resp, pl, a, b, c, d, mem⟩ I) then p else q) Is (slaveAfter ⟨id, st, drv, mp, ds, true, req, rl, resp, pl, a, b, c, d, mem⟩ I) := by
  rw [test, snr_step]
  simp [free]

end srun

theorem slaveRun_ints (cfg : Config) (s : Slave) (h : s.subscribed = true) (l : List SEv) :
    slaveRun cfg s (l.map SEv.op) = .ok (slaveAfter s l, []) := by
  induction l generalizing s with
  | nil => rfl
  | cons e l ih =>
    have h1 := slaveStep_int cfg s h e
    simp only [List.map_cons, slaveRun, h1]
    have := ih (slaveAfter s [e]) h
    simp only [bind, Except.bind, this]
    rw [slaveAfter_append]; rfl

@[simp] theorem slaveAfter_st (s : Slave) (l) : (slaveAfter s l).st = s.st := rfl
@[simp] theorem slaveAfter_id (s : Slave) (l) : (slaveAfter s l).id = s.id := rfl
@[simp] theorem slaveAfter_drv (s : Slave) (l) : (slaveAfter s l).drv = s.drv := rfl
@[simp] theorem slaveAfter_msgPtr (s : Slave) (l) : (slaveAfter s l).msgPtr = s.msgPtr := rfl
@[simp] theorem slaveAfter_dataSet (s : Slave) (l) : (slaveAfter s l).dataSet = s.dataSet := rfl
@[simp] theorem slaveAfter_subscribed (s : Slave) (l) : (slaveAfter s l).subscribed = s.subscribed := rfl
@[simp] theorem slaveAfter_resp (s : Slave) (l) : (slaveAfter s l).resp = s.resp := rfl
@[simp] theorem slaveAfter_respLen (s : Slave) (l) : (slaveAfter s l).respLen = s.respLen := rfl
@[simp] theorem slaveAfter_mem (s : Slave) (l) : (slaveAfter s l).mem = s.mem := rfl
@[simp] theorem slaveAfter_t15 (s : Slave) (l) : (slaveAfter s l).t15 = mark (hasEv .t15 l) s.t15 := rfl
@[simp] theorem slaveAfter_t35 (s : Slave) (l) : (slaveAfter s l).t35 = mark (hasEv .t35 l) s.t35 := rfl
@[simp] theorem slaveAfter_ferr (s : Slave) (l) : (slaveAfter s l).ferr = mark (hasEv .frameErr l) s.ferr := rfl
@[simp] theorem slaveAfter_txf (s : Slave) (l) : (slaveAfter s l).txf = unmark (hasEv .txDone l) s.txf := rfl
@[simp] theorem slaveAfter_req (s : Slave) (l) : (slaveAfter s l).req = (rxRun (s.req, s.reqLen) (srx l)).1 := rfl
@[simp] theorem slaveAfter_reqLen (s : Slave) (l) : (slaveAfter s l).reqLen = (rxRun (s.req, s.reqLen) (srx l)).2 := rfl

theorem Slave.ext' {s t : Slave} (h1 : s.id = t.id) (h2 : s.st = t.st) (h3 : s.drv = t.drv) (h4 : s.msgPtr = t.msgPtr)
    (h5 : s.dataSet = t.dataSet) (h6 : s.subscribed = t.subscribed) (h7 : s.req = t.req) (h8 : s.reqLen = t.reqLen)
    (h9 : s.resp = t.resp) (h10 : s.respLen = t.respLen) (h11 : s.t15 = t.t15) (h12 : s.t35 = t.t35) (h13 : s.ferr = t.ferr)
    (h14 : s.txf = t.txf) (h15 : s.mem = t.mem) : s = t := by
  cases s; cases t; simp_all

end Modbus
