import Verif.Proofs.PreemptSlave

/-! Reduction of interrupted polls to atomic ones: the master, path by path. -/

set_option linter.unusedSimpArgs false

namespace Modbus

/-- The received byte, if the interrupt is one. -/
def MEv.byte? : MEv → Option U8
  | .rxByte b => some b
  | _ => none

/-- The bytes received, in order. -/
def mrx (l : List MEv) : List U8 := l.filterMap MEv.byte?

@[simp] theorem mrx_append (a b : List MEv) : mrx (a ++ b) = mrx a ++ mrx b := by simp [mrx]
@[simp] theorem mrx_nil : mrx [] = [] := rfl

theorem mrx_filter (l : List MEv) : mrx l = mrx (l.filter (fun e => e.byte?.isSome)) := by
  induction l with
  | nil => rfl
  | cons e l ih =>
    cases e <;> simp_all [mrx, MEv.byte?, List.filterMap_cons]

/-- A cut that depends on the kind of the event only. -/
def mcut (a b c d r t : Nat) : MEv → Nat
  | .t15 => a
  | .t35 => b
  | .frameErr => c
  | .txDone => d
  | .rxByte _ => r
  | .tick => t

theorem mrx_before (a b c d r t : Nat) (ints : List (List MEv)) :
    mrx (before (mcut a b c d r t) ints) = mrx (ints.take r).flatten := by
  rw [mrx_filter, before_filter _ _ r (by intro e; cases e <;> simp [MEv.byte?, mcut]), ← mrx_filter]

theorem mrx_after (a b c d r t : Nat) (ints : List (List MEv)) :
    mrx (after (mcut a b c d r t) ints) = mrx (ints.drop r).flatten := by
  rw [mrx_filter, after_filter _ _ r (by intro e; cases e <;> simp [MEv.byte?, mcut]), ← mrx_filter]

/-- The number of ticks. -/
def ticksOf (l : List MEv) : Nat := (l.filter (fun e => decide (e = .tick))).length

@[simp] theorem ticksOf_append (a b : List MEv) : ticksOf (a ++ b) = ticksOf a + ticksOf b := by simp [ticksOf]
@[simp] theorem ticksOf_nil : ticksOf [] = 0 := rfl

theorem ticksOf_before (a b c d r t : Nat) (ints : List (List MEv)) :
    ticksOf (before (mcut a b c d r t) ints) = ticksOf (ints.take t).flatten := by
  unfold ticksOf
  rw [before_filter _ _ t (by intro e; cases e <;> simp [mcut])]

theorem ticksOf_after (a b c d r t : Nat) (ints : List (List MEv)) :
    ticksOf (after (mcut a b c d r t) ints) = ticksOf (ints.drop t).flatten := by
  unfold ticksOf
  rw [after_filter _ _ t (by intro e; cases e <;> simp [mcut])]

/-- The messages after bytes have been received into the driver's target. -/
def rxMsgs (tgt : Option Nat) (ms : Nat → MMsg) (l : List U8) : Nat → MMsg :=
  match tgt with
  | none => ms
  | some i => fun j =>
    if j = i then { ms i with resp := (rxRun ((ms i).resp, (ms i).respLen) l).1, respLen := (rxRun ((ms i).resp, (ms i).respLen) l).2 }
    else ms j

@[simp] theorem rxMsgs_nil (tgt : Option Nat) (ms : Nat → MMsg) : rxMsgs tgt ms [] = ms := by
  cases tgt with
  | none => rfl
  | some i => funext j; by_cases h : j = i <;> simp [rxMsgs, rxRun, h]

@[simp] theorem rxMsgs_nest (tgt : Option Nat) (ms : Nat → MMsg) (a b : List U8) :
    rxMsgs tgt (rxMsgs tgt ms a) b = rxMsgs tgt ms (a ++ b) := by
  cases tgt with
  | none => rfl
  | some i => funext j; by_cases h : j = i <;> simp [rxMsgs, h]

@[simp] theorem rxMsgs_req (tgt : Option Nat) (ms : Nat → MMsg) (l : List U8) (j : Nat) : (rxMsgs tgt ms l j).req = (ms j).req := by
  cases tgt with
  | none => rfl
  | some i => by_cases h : j = i <;> simp [rxMsgs, h]

@[simp] theorem rxMsgs_reqLen (tgt : Option Nat) (ms : Nat → MMsg) (l : List U8) (j : Nat) :
    (rxMsgs tgt ms l j).reqLen = (ms j).reqLen := by
  cases tgt with
  | none => rfl
  | some i => by_cases h : j = i <;> simp [rxMsgs, h]

/-- The state after a list of interrupts. -/
def masterAfter (s : Master) (l : List MEv) : Master :=
  { s with t15 := mark (hasEv .t15 l) s.t15, t35 := mark (hasEv .t35 l) s.t35, ferr := mark (hasEv .frameErr l) s.ferr,
           txf := unmark (hasEv .txDone l) s.txf, timer := s.timer - ticksOf l, msgs := rxMsgs s.rxTarget s.msgs (mrx l) }

theorem masterStep_int (cfg : Config) (s : Master) (h : s.drv = true) (h' : s.dataSet = true) (e : MEv) :
    masterStep cfg s e.op = .ok (masterAfter s [e], []) := by
  cases s with
  | mk st drv fq tq ms ds mb tm rc a b c d f tgt =>
  simp only at h h'
  subst h; subst h'
  cases e with
  | rxByte x =>
    cases tgt with
    | none => rfl
    | some i =>
      have hb : (ms i).respLen.toNat < rtuBufferSize := (ms i).respLen.isLt
      simp only [masterStep, MEv.op, masterRx, if_true, wr, if_pos hb]
      have : setMsg ms i { ms i with resp := (ms i).resp.set (ms i).respLen.toNat x, respLen := (ms i).respLen + 1 } =
          rxMsgs (some i) ms [x] := by
        funext j; by_cases hj : j = i <;> simp [setMsg, rxMsgs, rxRun, hj]
      simp only [okBind, pureOk, this]
      rfl
  | tick =>
    simp only [masterStep, MEv.op, masterAfter]
    by_cases ht : tm = 0
    · subst ht; simp [hasEv, ticksOf, mrx, MEv.byte?, List.filterMap_cons]
    · simp [hasEv, ticksOf, mrx, MEv.byte?, List.filterMap_cons, ht]
  | _ => simp [masterStep, MEv.op, masterAfter, hasEv, ticksOf, mrx, MEv.byte?, List.filterMap_cons]

theorem masterInt_eq (cfg : Config) (s : Master) (h : s.drv = true) (h' : s.dataSet = true) (e : MEv) :
    masterInt cfg s e = .ok (masterAfter s [e]) := by
  rw [masterInt, masterStep_int cfg s h h' e]; rfl

theorem masterAfter_append (s : Master) (a b : List MEv) : masterAfter (masterAfter s a) b = masterAfter s (a ++ b) := by
  simp [masterAfter, Nat.sub_sub]

theorem runInts_master (cfg : Config) (s : Master) (h : s.drv = true) (h' : s.dataSet = true) (l : List MEv) :
    runInts (masterInt cfg) s l = .ok (masterAfter s l) := by
  induction l generalizing s with
  | nil => simp [runInts, masterAfter]
  | cons e l ih =>
    simp only [runInts, masterInt_eq cfg s h h' e]
    refine (ih (masterAfter s [e]) h h').trans ?_
    rw [masterAfter_append]; rfl

/-- The trace of a list of interrupts. -/
def intTrace (l : List MEv) : MTrace := l.map fun e => (e.op, [])

theorem masterRun_ints (cfg : Config) (s : Master) (h : s.drv = true) (h' : s.dataSet = true) (l : List MEv) :
    masterRun cfg s (l.map MEv.op) = .ok (masterAfter s l, intTrace l) := by
  induction l generalizing s with
  | nil => simp [masterRun, masterAfter, intTrace]
  | cons e l ih =>
    simp only [List.map_cons, masterRun, masterStep_int cfg s h h' e, okBind, ih (masterAfter s [e]) h h']
    rw [masterAfter_append]; rfl

section mrun
variable {cfg : Config} {st : MasterSt} {fq tq : Queue Nat} {ms : Nat → MMsg} {mb : Option Nat} {tm : Nat} {rc : U8}
  {a b c d e : Flag} {tgt : Option Nat}

theorem masterAfter_mk (l : List MEv) :
    masterAfter ⟨st, true, fq, tq, ms, true, mb, tm, rc, a, b, c, d, e, tgt⟩ l =
      ⟨st, true, fq, tq, rxMsgs tgt ms (mrx l), true, mb, tm - ticksOf l, rc, mark (hasEv .t15 l) a, mark (hasEv .t35 l) b,
        mark (hasEv .frameErr l) c, unmark (hasEv .txDone l) d, e, tgt⟩ := rfl

theorem mrun_done (Is : List (List MEv)) :
    runProg (ω := MOut) (masterInt cfg) .done Is ⟨st, true, fq, tq, ms, true, mb, tm, rc, a, b, c, d, e, tgt⟩ = .ok (masterAfter ⟨st, true, fq, tq, ms, true, mb, tm, rc, a, b, c, d, e, tgt⟩ Is.flatten, []) := by
  simp only [runProg, runInts_master cfg ⟨st, true, fq, tq, ms, true, mb, tm, rc, a, b, c, d, e, tgt⟩ rfl rfl]; rfl

theorem mrun_step {α : Type} (r : Master → MEv → Bool) (f : Master → C (α × Master × List MOut)) (k : α → MProg)
    (I : List MEv) (Is : List (List MEv)) :
    runProg (masterInt cfg) (.step r f k) (I :: Is) ⟨st, true, fq, tq, ms, true, mb, tm, rc, a, b, c, d, e, tgt⟩ =
      (f (masterAfter ⟨st, true, fq, tq, ms, true, mb, tm, rc, a, b, c, d, e, tgt⟩ I) >>= fun x => addOut x.2.2 (runProg (masterInt cfg) (k x.1) Is x.2.1)) := by
  simp only [runProg, List.headD_cons, runInts_master cfg ⟨st, true, fq, tq, ms, true, mb, tm, rc, a, b, c, d, e, tgt⟩ rfl rfl, List.tail_cons, okBind]
  cases f (masterAfter ⟨st, true, fq, tq, ms, true, mb, tm, rc, a, b, c, d, e, tgt⟩ I) with
  | error u => rfl
  | ok x =>
    simp only [okBind]
    cases runProg (masterInt cfg) (k x.1) Is x.2.1 <;> rfl

theorem mrun_assign (f : Master → Master) (k : MProg) (I : List MEv) (Is : List (List MEv)) :
    runProg (masterInt cfg) (assign f k) (I :: Is) ⟨st, true, fq, tq, ms, true, mb, tm, rc, a, b, c, d, e, tgt⟩ = runProg (masterInt cfg) k Is (f (masterAfter ⟨st, true, fq, tq, ms, true, mb, tm, rc, a, b, c, d, e, tgt⟩ I)) := by
  rw [assign, mrun_step]
  exact addOut_nil _

theorem mrun_assignC (f : Master → C Master) (k : MProg) (I : List MEv) (Is : List (List MEv)) :
    runProg (masterInt cfg) (assignC f k) (I :: Is) ⟨st, true, fq, tq, ms, true, mb, tm, rc, a, b, c, d, e, tgt⟩ = (f (masterAfter ⟨st, true, fq, tq, ms, true, mb, tm, rc, a, b, c, d, e, tgt⟩ I) >>= fun s1 => runProg (masterInt cfg) k Is s1) := by
  rw [assignC, mrun_step]
  cases f (masterAfter ⟨st, true, fq, tq, ms, true, mb, tm, rc, a, b, c, d, e, tgt⟩ I) with
  | error u => rfl
  | ok s1 => exact addOut_nil _

theorem mrun_test (c' : Master → Bool) (p q : MProg) (I : List MEv) (Is : List (List MEv)) :
    runProg (masterInt cfg) (test c' p q) (I :: Is) ⟨st, true, fq, tq, ms, true, mb, tm, rc, a, b, c, d, e, tgt⟩ =
      runProg (masterInt cfg) (if c' (masterAfter ⟨st, true, fq, tq, ms, true, mb, tm, rc, a, b, c, d, e, tgt⟩ I) then p else q) Is (masterAfter ⟨st, true, fq, tq, ms, true, mb, tm, rc, a, b, c, d, e, tgt⟩ I) := by
  rw [test, mrun_step]
  exact addOut_nil _

theorem mnr_step {α : Type} (r : Master → MEv → Bool) (f : Master → C (α × Master × List MOut)) (k : α → MProg)
    (I : List MEv) (Is : List (List MEv)) :
    noRace (masterInt cfg) (.step r f k) (I :: Is) ⟨st, true, fq, tq, ms, true, mb, tm, rc, a, b, c, d, e, tgt⟩ ↔
      (∀ x ∈ I, r ⟨st, true, fq, tq, ms, true, mb, tm, rc, a, b, c, d, e, tgt⟩ x = false) ∧ ∀ x, f (masterAfter ⟨st, true, fq, tq, ms, true, mb, tm, rc, a, b, c, d, e, tgt⟩ I) = .ok x → noRace (masterInt cfg) (k x.1) Is x.2.1 := by
  simp only [noRace, List.headD_cons, runInts_master cfg ⟨st, true, fq, tq, ms, true, mb, tm, rc, a, b, c, d, e, tgt⟩ rfl rfl, List.tail_cons]
  constructor
  · rintro ⟨h1, h2⟩
    exact ⟨h1, fun x hx => h2 _ x.1 x.2.1 x.2.2 rfl hx⟩
  · rintro ⟨h1, h2⟩
    refine ⟨h1, fun s1 a s2 o e hx => ?_⟩
    cases e
    exact h2 (a, s2, o) hx

theorem mnr_assign (f : Master → Master) (k : MProg) (I : List MEv) (Is : List (List MEv)) :
    noRace (masterInt cfg) (assign f k) (I :: Is) ⟨st, true, fq, tq, ms, true, mb, tm, rc, a, b, c, d, e, tgt⟩ ↔ noRace (masterInt cfg) k Is (f (masterAfter ⟨st, true, fq, tq, ms, true, mb, tm, rc, a, b, c, d, e, tgt⟩ I)) := by
  rw [assign, mnr_step]
  simp [free]

theorem mnr_assignC (f : Master → C Master) (k : MProg) (I : List MEv) (Is : List (List MEv)) :
    noRace (masterInt cfg) (assignC f k) (I :: Is) ⟨st, true, fq, tq, ms, true, mb, tm, rc, a, b, c, d, e, tgt⟩ ↔
      ∀ s1, f (masterAfter ⟨st, true, fq, tq, ms, true, mb, tm, rc, a, b, c, d, e, tgt⟩ I) = .ok s1 → noRace (masterInt cfg) k Is s1 := by
  rw [assignC, mnr_step]
  cases f (masterAfter ⟨st, true, fq, tq, ms, true, mb, tm, rc, a, b, c, d, e, tgt⟩ I) with
  | error u => simp [free]
  | ok s1 => simp [free]

theorem mnr_test (c' : Master → Bool) (p q : MProg) (I : List MEv) (Is : List (List MEv)) :
    noRace (masterInt cfg) (test c' p q) (I :: Is) ⟨st, true, fq, tq, ms, true, mb, tm, rc, a, b, c, d, e, tgt⟩ ↔
      noRace (masterInt cfg) (if c' (masterAfter ⟨st, true, fq, tq, ms, true, mb, tm, rc, a, b, c, d, e, tgt⟩ I) then p else q) Is (masterAfter ⟨st, true, fq, tq, ms, true, mb, tm, rc, a, b, c, d, e, tgt⟩ I) := by
  rw [test, mnr_step]
  simp [free]

end mrun

/-- What an interrupted poll amounts to: an atomic poll, or none, with every interrupt exactly once before or after it, bytes in
order. `polled` are the outputs of the poll. -/
def MAsAtomic (ints : List (List MEv)) (polled : List MOut) (ops : List MOp) (tr : MTrace) : Prop :=
  ∃ A B : List MEv,
    ((ops = A.map MEv.op ++ [.poll] ++ B.map MEv.op ∧ tr = intTrace A ++ [(MOp.poll, polled)] ++ intTrace B) ∨
      (ops = A.map MEv.op ++ B.map MEv.op ∧ polled = [] ∧ tr = intTrace A ++ intTrace B)) ∧
    (A ++ B).Perm ints.flatten ∧ mrx (A ++ B) = mrx ints.flatten

/-- The interrupted poll behaves as some atomic one. -/
def MReduces (cfg : Config) (s : Master) (ints : List (List MEv)) : Prop :=
  (∃ s' o ops tr, runProg (masterInt cfg) (masterPollP cfg) ints s = .ok (s', o) ∧ MAsAtomic ints o ops tr ∧
    masterRun cfg s ops = .ok (s', tr)) ∨
  (∃ u A B, runProg (masterInt cfg) (masterPollP cfg) ints s = .error u ∧ (A ++ B).Perm ints.flatten ∧
    mrx (A ++ B) = mrx ints.flatten ∧ masterRun cfg s (A.map MEv.op ++ [.poll] ++ B.map MEv.op) = .error u)

theorem masterRun_append' (cfg : Config) (s : Master) (a b : List MOp) :
    masterRun cfg s (a ++ b) = (masterRun cfg s a >>= fun x => masterRun cfg x.1 b >>= fun y => .ok (y.1, x.2 ++ y.2)) := by
  induction a generalizing s with
  | nil =>
    simp only [List.nil_append, masterRun, okBind]
    cases masterRun cfg s b <;> rfl
  | cons op a ih =>
    simp only [List.cons_append, masterRun]
    cases h : masterStep cfg s op with
    | error u => rfl
    | ok x =>
      simp only [okBind, ih]
      cases masterRun cfg x.1 a with
      | error u => rfl
      | ok y =>
        simp only [okBind, pureOk]
        cases masterRun cfg y.1 b with
        | error u => rfl
        | ok z => rfl

theorem mcut_bytes (cut : MEv → Nat) (ints : List (List MEv)) (a b c d r t : Nat) (h : cut = mcut a b c d r t) :
    mrx (before cut ints ++ after cut ints) = mrx ints.flatten := by
  subst h
  rw [mrx_append, mrx_before, mrx_after, ← mrx_append, ← List.flatten_append, List.take_append_drop]

theorem mreduce_ok (cfg : Config) (s : Master) (a b c d r t : Nat) (ints : List (List MEv)) (hs : s.drv = true) (hd : s.dataSet = true)
    (s1 : Master) (o : List MOut)
    (hp : masterPoll cfg (masterAfter s (before (mcut a b c d r t) ints)) = .ok (s1, o)) (h1 : s1.drv = true) (h2 : s1.dataSet = true)
    (hr : runProg (masterInt cfg) (masterPollP cfg) ints s = .ok (masterAfter s1 (after (mcut a b c d r t) ints), o)) :
    MReduces cfg s ints := by
  refine .inl ⟨_, _, _, _, hr, ⟨before (mcut a b c d r t) ints, after (mcut a b c d r t) ints, .inl ⟨rfl, rfl⟩, before_after_perm _ _,
    mcut_bytes _ _ a b c d r t rfl⟩, ?_⟩
  rw [List.append_assoc, masterRun_append', masterRun_ints cfg s hs hd]
  simp only [okBind, List.singleton_append, masterRun, masterStep, hp, masterRun_ints cfg s1 h1 h2, pureOk]
  simp

theorem mreduce_err (cfg : Config) (s : Master) (a b c d r t : Nat) (ints : List (List MEv)) (hs : s.drv = true) (hd : s.dataSet = true)
    (u : UB) (hp : masterPoll cfg (masterAfter s (before (mcut a b c d r t) ints)) = .error u)
    (hr : runProg (masterInt cfg) (masterPollP cfg) ints s = .error u) : MReduces cfg s ints := by
  refine .inr ⟨_, before (mcut a b c d r t) ints, after (mcut a b c d r t) ints, hr, before_after_perm _ _, mcut_bytes _ _ a b c d r t rfl, ?_⟩
  rw [List.append_assoc, masterRun_append', masterRun_ints cfg s hs hd]
  simp only [okBind, List.singleton_append, masterRun, masterStep, hp]
  rfl

theorem mreduce_none (cfg : Config) (s : Master) (ints : List (List MEv)) (hs : s.drv = true) (hd : s.dataSet = true)
    (hr : runProg (masterInt cfg) (masterPollP cfg) ints s = .ok (masterAfter s ints.flatten, [])) : MReduces cfg s ints := by
  refine .inl ⟨_, _, _, _, hr, ⟨ints.flatten, [], .inr ⟨rfl, rfl, rfl⟩, by simp, by simp⟩, ?_⟩
  rw [List.map_nil, List.append_nil, masterRun_ints cfg s hs hd]
  simp [intTrace]

theorem noRx {I : List MEv} (h : ∀ x ∈ I, x.isRx = false) : mrx I = [] := by
  induction I with
  | nil => rfl
  | cons x I ih =>
    have h1 := ih (fun y hy => h y (List.mem_cons_of_mem _ hy))
    have h2 := h x List.mem_cons_self
    cases x <;> simp_all [mrx, MEv.byte?, MEv.isRx, List.filterMap_cons]

theorem noT35 {I : List MEv} (h : ∀ x ∈ I, x ≠ MEv.t35) : hasEv MEv.t35 I = false := by
  simp only [hasEv, decide_eq_false_iff_not]
  intro hx
  exact h _ hx rfl

theorem repeat_reduces {cfg : Config} {fq tq : Queue Nat} {ms : Nat → MMsg} {mb : Option Nat} {tm : Nat} {rc : U8}
    {a b c d e : Flag} {tgt : Option Nat} (I0 I1 I2 I3 I4 I5 : List MEv) (R : List (List MEv)) :
    MReduces cfg ⟨.repeatRequest, true, fq, tq, ms, true, mb, tm, rc, a, b, c, d, e, tgt⟩ (I0 :: I1 :: I2 :: I3 :: I4 :: I5 :: R) := by
  cases mb with
  | none =>
    refine mreduce_err cfg _ 2 2 2 2 2 2 _ rfl rfl .nullDeref ?_ ?_
    · simp [masterAfter_mk, masterPoll, hasEv_before, mrx_before, ticksOf_before, mcut, Bool.or_assoc, Nat.sub_sub, Nat.add_assoc, masterSend, okBind, errBind, pureOk, curMsg, clearRespLen]
    · simp [masterPollP, mrun_step, mrun_done, mrun_assign, mrun_assignC, mrun_test, masterAfter_mk, masterSendP, masterDrvSend, okBind, errBind, pureOk, curMsg, clearRespLen]
  | some i =>
    refine mreduce_ok cfg _ 2 2 2 4 3 2 _ rfl rfl
      ⟨.transmitting, true, fq, tq, rxMsgs tgt ms (mrx I0 ++ (mrx I1 ++ mrx I2)), true, some i, tm - (ticksOf I0 + ticksOf I1), rc, mark (hasEv .t15 I0 || hasEv .t15 I1) a,
        mark (hasEv .t35 I0 || hasEv .t35 I1) b, mark (hasEv .frameErr I0 || hasEv .frameErr I1) c, .set, e, some i⟩
      [.send ((ms i).req.bytes 0 (ms i).reqLen.toNat)] ?_ rfl rfl ?_
    · simp [masterAfter_mk, masterPoll, hasEv_before, mrx_before, ticksOf_before, mcut, Bool.or_assoc, Nat.sub_sub, Nat.add_assoc, masterSend, okBind, errBind, pureOk, curMsg, clearRespLen]
    · simp [masterPollP, mrun_step, mrun_done, mrun_assign, mrun_assignC, mrun_test, masterAfter_mk, masterSendP, masterDrvSend, masterEnableRx, okBind, errBind, pureOk, curMsg, clearRespLen]
      simp [masterAfter_mk, hasEv_before, hasEv_after, mrx_before, mrx_after, ticksOf_before, ticksOf_after, mcut, Bool.or_assoc, Nat.sub_sub, Nat.add_assoc]
      all_goals grind [mark, unmark]

theorem midle_reduces {cfg : Config} {fq tq : Queue Nat} {ms : Nat → MMsg} {mb : Option Nat} {tm : Nat} {rc : U8}
    {a b c d e : Flag} {tgt : Option Nat} (I0 I1 I2 I3 I4 I5 I6 I7 : List MEv) (R : List (List MEv)) :
    MReduces cfg ⟨.idle, true, fq, tq, ms, true, mb, tm, rc, a, b, c, d, e, tgt⟩ (I0 :: I1 :: I2 :: I3 :: I4 :: I5 :: I6 :: I7 :: R) := by
  cases ha : tq.available with
  | false =>
    refine mreduce_ok cfg _ 2 2 2 2 2 2 (I0 :: I1 :: I2 :: I3 :: I4 :: I5 :: I6 :: I7 :: R) rfl rfl (masterAfter ⟨.idle, true, fq, tq, ms, true, mb, tm, rc, a, b, c, d, e, tgt⟩ (before (mcut 2 2 2 2 2 2) (I0 :: I1 :: I2 :: I3 :: I4 :: I5 :: I6 :: I7 :: R))) [] ?_ rfl rfl ?_
    · simp [masterAfter_mk, masterPoll, hasEv_before, mrx_before, ticksOf_before, mcut, Bool.or_assoc, Nat.sub_sub, Nat.add_assoc, masterIdle, ha, okBind, errBind, pureOk, curMsg, clearRespLen]
    · simp [masterPollP, mrun_step, mrun_done, mrun_assign, mrun_assignC, mrun_test, masterAfter_mk, masterIdleP, ha, okBind, errBind, pureOk, curMsg, clearRespLen]
      simp [masterAfter_mk, hasEv_before, hasEv_after, mrx_before, mrx_after, ticksOf_before, ticksOf_after, mcut, Bool.or_assoc, Nat.sub_sub, Nat.add_assoc]
  | true =>
    cases hq : tq.pop cfg.queueItems with
    | error u =>
      refine mreduce_err cfg _ 2 2 2 2 2 2 _ rfl rfl u ?_ ?_
      · simp [masterAfter_mk, masterPoll, hasEv_before, mrx_before, ticksOf_before, mcut, Bool.or_assoc, Nat.sub_sub, Nat.add_assoc, masterIdle, masterSend, ha, hq, okBind, errBind, pureOk, curMsg, clearRespLen]
      · simp [masterPollP, mrun_step, mrun_done, mrun_assign, mrun_assignC, mrun_test, masterAfter_mk, masterIdleP, masterSendP, masterDrvSend, masterEnableRx, ha, hq, okBind, errBind, pureOk, curMsg, clearRespLen]
    | ok x =>
      obtain ⟨mb', tq'⟩ := x
      cases mb' with
      | none =>
        refine mreduce_err cfg _ 2 2 2 2 2 2 _ rfl rfl .nullDeref ?_ ?_
        · simp [masterAfter_mk, masterPoll, hasEv_before, mrx_before, ticksOf_before, mcut, Bool.or_assoc, Nat.sub_sub, Nat.add_assoc, masterIdle, masterSend, ha, hq, okBind, errBind, pureOk, curMsg, clearRespLen]
        · simp [masterPollP, mrun_step, mrun_done, mrun_assign, mrun_assignC, mrun_test, masterAfter_mk, masterIdleP, masterSendP, masterDrvSend, masterEnableRx, ha, hq, okBind, errBind, pureOk, curMsg, clearRespLen]
      | some i =>
        refine mreduce_ok cfg _ 2 2 2 6 5 2 _ rfl rfl
          ⟨.transmitting, true, fq, tq', rxMsgs tgt ms (mrx I0 ++ (mrx I1 ++ (mrx I2 ++ (mrx I3 ++ mrx I4)))), true, some i, tm - (ticksOf I0 + ticksOf I1), rc, mark (hasEv .t15 I0 || hasEv .t15 I1) a,
            mark (hasEv .t35 I0 || hasEv .t35 I1) b, mark (hasEv .frameErr I0 || hasEv .frameErr I1) c, .set, e, some i⟩
          [.send ((ms i).req.bytes 0 (ms i).reqLen.toNat)] ?_ rfl rfl ?_
        · simp [masterAfter_mk, masterPoll, hasEv_before, mrx_before, ticksOf_before, mcut, Bool.or_assoc, Nat.sub_sub, Nat.add_assoc, masterIdle, masterSend, ha, hq, okBind, errBind, pureOk, curMsg, clearRespLen]
        · simp [masterPollP, mrun_step, mrun_done, mrun_assign, mrun_assignC, mrun_test, masterAfter_mk, masterIdleP, masterSendP, masterDrvSend, masterEnableRx, ha, hq, okBind, errBind, pureOk, curMsg, clearRespLen]
          simp [masterAfter_mk, hasEv_before, hasEv_after, mrx_before, mrx_after, ticksOf_before, ticksOf_after, mcut, Bool.or_assoc, Nat.sub_sub, Nat.add_assoc]
          all_goals grind [mark, unmark]

theorem mtransmitting_reduces {cfg : Config} {fq tq : Queue Nat} {ms : Nat → MMsg} {mb : Option Nat} {tm : Nat} {rc : U8}
    {a b c d e : Flag} {tgt : Option Nat} (I0 I1 I2 I3 I4 I5 : List MEv) (R : List (List MEv)) :
    MReduces cfg ⟨.transmitting, true, fq, tq, ms, true, mb, tm, rc, a, b, c, d, e, tgt⟩ (I0 :: I1 :: I2 :: I3 :: I4 :: I5 :: R) := by
  by_cases hf : unmark (hasEv MEv.txDone I0 || hasEv MEv.txDone I1) d = Flag.cleared
  · cases mb with
    | none =>
      refine mreduce_err cfg _ 2 2 2 2 3 4 _ rfl rfl .nullDeref ?_ ?_
      · simp [masterAfter_mk, masterPoll, hasEv_before, mrx_before, ticksOf_before, mcut, Bool.or_assoc, Nat.sub_sub, Nat.add_assoc, masterTransmitting, hf, okBind, errBind, pureOk, curMsg, clearRespLen]
      · simp [masterPollP, mrun_step, mrun_done, mrun_assign, mrun_assignC, mrun_test, masterAfter_mk, masterTransmittingP, hf, okBind, errBind, pureOk, curMsg, clearRespLen]
    | some i =>
      refine mreduce_ok cfg _ 2 2 2 2 3 4 _ rfl rfl
        ⟨.waiting, true, fq, tq, setMsg (rxMsgs tgt ms (mrx I0 ++ (mrx I1 ++ mrx I2))) i
            { rxMsgs tgt ms (mrx I0 ++ (mrx I1 ++ mrx I2)) i with respLen := 0 }, true, some i, cfg.respTimeout, rc,
          mark (hasEv .t15 I0 || hasEv .t15 I1) a,
          mark (hasEv .t35 I0 || hasEv .t35 I1) b, mark (hasEv .frameErr I0 || hasEv .frameErr I1) c, .cleared, e, tgt⟩ [] ?_ rfl rfl ?_
      · simp [masterAfter_mk, masterPoll, hasEv_before, mrx_before, ticksOf_before, mcut, Bool.or_assoc, Nat.sub_sub, Nat.add_assoc, masterTransmitting, hf, okBind, errBind, pureOk, curMsg, clearRespLen]
      · simp [masterPollP, mrun_step, mrun_done, mrun_assign, mrun_assignC, mrun_test, masterAfter_mk, masterTransmittingP, hf, okBind, errBind, pureOk, curMsg, clearRespLen]
        simp [masterAfter_mk, hasEv_before, hasEv_after, mrx_before, mrx_after, ticksOf_before, ticksOf_after, mcut, Bool.or_assoc, Nat.sub_sub, Nat.add_assoc]
        all_goals grind [mark, unmark]
  · refine mreduce_ok cfg _ 2 2 2 2 2 2 (I0 :: I1 :: I2 :: I3 :: I4 :: I5 :: R) rfl rfl (masterAfter ⟨.transmitting, true, fq, tq, ms, true, mb, tm, rc, a, b, c, d, e, tgt⟩ (before (mcut 2 2 2 2 2 2) (I0 :: I1 :: I2 :: I3 :: I4 :: I5 :: R))) [] ?_ rfl rfl ?_
    · simp [masterAfter_mk, masterPoll, hasEv_before, mrx_before, ticksOf_before, mcut, Bool.or_assoc, Nat.sub_sub, Nat.add_assoc, masterTransmitting, hf, okBind, errBind, pureOk, curMsg, clearRespLen]
    · simp [masterPollP, mrun_step, mrun_done, mrun_assign, mrun_assignC, mrun_test, masterAfter_mk, masterTransmittingP, hf, okBind, errBind, pureOk, curMsg, clearRespLen]
      simp [masterAfter_mk, hasEv_before, hasEv_after, mrx_before, mrx_after, ticksOf_before, ticksOf_after, mcut, Bool.or_assoc, Nat.sub_sub, Nat.add_assoc]

theorem rd_zero (b : Buf) : rd b idxSlaveAdr = .ok (b 0) := rfl
theorem rd_one (b : Buf) : rd b idxFunctionCode = .ok (b 1) := rfl
theorem read_adr (b : Buf) : readU16 b idxRequestAdr = .ok (u16of (b 2) (b 3)) := rfl
theorem read_qty (b : Buf) : readU16 b idxRequestQty = .ok (u16of (b 4) (b 5)) := rfl

theorem mwaiting_reduces {cfg : Config} {fq tq : Queue Nat} {ms : Nat → MMsg} {mb : Option Nat} {tm : Nat} {rc : U8}
    {a b c d e : Flag} {tgt : Option Nat} (I0 I1 I2 I3 I4 I5 I6 I7 I8 I9 I10 I11 : List MEv) (R : List (List MEv))
    (hnr : noRace (masterInt cfg) (masterPollP cfg) (I0 :: I1 :: I2 :: I3 :: I4 :: I5 :: I6 :: I7 :: I8 :: I9 :: I10 :: I11 :: R) ⟨.waiting, true, fq, tq, ms, true, mb, tm, rc, a, b, c, d, e, tgt⟩) :
    MReduces cfg ⟨.waiting, true, fq, tq, ms, true, mb, tm, rc, a, b, c, d, e, tgt⟩ (I0 :: I1 :: I2 :: I3 :: I4 :: I5 :: I6 :: I7 :: I8 :: I9 :: I10 :: I11 :: R) := by
  by_cases hf : mark (hasEv MEv.t15 I0 || hasEv MEv.t15 I1) a = Flag.set
  · have hf' : mark (hasEv MEv.t15 I0 || (hasEv MEv.t15 I1 || (hasEv MEv.t15 I2 || hasEv MEv.t15 I3))) a = Flag.set := by
      grind [mark]
    cases mb with
    | none =>
      refine mreduce_err cfg _ 4 5 2 2 6 2 _ rfl rfl .nullDeref ?_ ?_
      · simp [masterAfter_mk, masterPoll, hasEv_before, mrx_before, ticksOf_before, mcut, Bool.or_assoc, Nat.sub_sub, Nat.add_assoc, masterWaiting, masterRecv, hf, hf', rd_zero, okBind, errBind, pureOk, curMsg, clearRespLen]
      · simp [masterPollP, mrun_step, mrun_done, mrun_assign, mrun_assignC, mrun_test, masterAfter_mk, masterWaitingP, masterRecvP, hf, hf', rd_zero, okBind, errBind, pureOk, curMsg, clearRespLen]
    | some i =>
      cases hq : rtuRecv (some (rxMsgs tgt ms (mrx I0 ++ (mrx I1 ++ (mrx I2 ++ (mrx I3 ++ (mrx I4 ++ mrx I5))))) i).resp) (rxMsgs tgt ms (mrx I0 ++ (mrx I1 ++ (mrx I2 ++ (mrx I3 ++ (mrx I4 ++ mrx I5))))) i).respLen ((ms i).req 0) with
      | error u =>
        refine mreduce_err cfg _ 4 5 2 2 6 2 _ rfl rfl u ?_ ?_
        · simp [masterAfter_mk, masterPoll, hasEv_before, mrx_before, ticksOf_before, mcut, Bool.or_assoc, Nat.sub_sub, Nat.add_assoc, masterWaiting, masterRecv, hf, hf', rd_zero, hq, okBind, errBind, pureOk, curMsg, clearRespLen]
        · simp [masterPollP, mrun_step, mrun_done, mrun_assign, mrun_assignC, mrun_test, masterAfter_mk, masterWaitingP, masterRecvP, hf, hf', rd_zero, hq, okBind, errBind, pureOk, curMsg, clearRespLen]
      | ok r =>
        by_cases h1 : RET_ERROR_CRC = r
        · refine mreduce_ok cfg _ 4 5 2 2 6 7 _ rfl rfl
            ⟨.received, true, fq, tq, rxMsgs tgt ms (mrx I0 ++ (mrx I1 ++ (mrx I2 ++ (mrx I3 ++ (mrx I4 ++ mrx I5))))), true, some i, 0, rc, .cleared, .cleared, mark (hasEv .frameErr I0 || hasEv .frameErr I1) c, unmark (hasEv .txDone I0 || hasEv .txDone I1) d, .set, tgt⟩ [] ?_ rfl rfl ?_
          · simp [masterAfter_mk, masterPoll, hasEv_before, mrx_before, ticksOf_before, mcut, Bool.or_assoc, Nat.sub_sub, Nat.add_assoc, masterWaiting, masterRecv, hf, hf', rd_zero, hq, ← h1, okBind, errBind, pureOk, curMsg, clearRespLen]
          · simp [masterPollP, mrun_step, mrun_done, mrun_assign, mrun_assignC, mrun_test, masterAfter_mk, masterWaitingP, masterRecvP, hf, hf', rd_zero, hq, ← h1, okBind, errBind, pureOk, curMsg, clearRespLen]
            simp [masterAfter_mk, hasEv_before, hasEv_after, mrx_before, mrx_after, ticksOf_before, ticksOf_after, mcut, Bool.or_assoc, Nat.sub_sub, Nat.add_assoc]
            all_goals grind [mark, unmark]
        · by_cases h2 : RET_ERROR_SLAVE_ID = r
          · have h3 : mrx I6 = [] := by
              simp [masterPollP, mnr_step, mnr_assign, mnr_assignC, mnr_test, masterAfter_mk, masterWaitingP, masterRecvP, hf, hf', rd_zero, hq, ← h2, okBind, errBind, pureOk, free, curMsg, clearRespLen] at hnr
              exact noRx hnr.1
            refine mreduce_ok cfg _ 4 5 2 2 6 2 _ rfl rfl
              ⟨.waiting, true, fq, tq, setMsg (rxMsgs tgt ms (mrx I0 ++ (mrx I1 ++ (mrx I2 ++ (mrx I3 ++ (mrx I4 ++ mrx I5)))))) i { rxMsgs tgt ms (mrx I0 ++ (mrx I1 ++ (mrx I2 ++ (mrx I3 ++ (mrx I4 ++ mrx I5))))) i with respLen := 0 }, true, some i,
                tm - (ticksOf I0 + ticksOf I1), rc, .cleared, .cleared, mark (hasEv .frameErr I0 || hasEv .frameErr I1) c, unmark (hasEv .txDone I0 || hasEv .txDone I1) d, e, tgt⟩ [] ?_ rfl rfl ?_
            · simp [masterAfter_mk, masterPoll, hasEv_before, mrx_before, ticksOf_before, mcut, Bool.or_assoc, Nat.sub_sub, Nat.add_assoc, masterWaiting, masterRecv, hf, hf', rd_zero, hq, ← h2, okBind, errBind, pureOk, curMsg, clearRespLen]
            · simp [masterPollP, mrun_step, mrun_done, mrun_assign, mrun_assignC, mrun_test, masterAfter_mk, masterWaitingP, masterRecvP, hf, hf', rd_zero, hq, ← h2, h3, okBind, errBind, pureOk, curMsg, clearRespLen]
              simp [masterAfter_mk, hasEv_before, hasEv_after, mrx_before, mrx_after, ticksOf_before, ticksOf_after, mcut, Bool.or_assoc, Nat.sub_sub, Nat.add_assoc, h3]
              all_goals grind [mark, unmark]
          · refine mreduce_ok cfg _ 4 5 2 2 6 7 _ rfl rfl
              ⟨.received, true, fq, tq, rxMsgs tgt ms (mrx I0 ++ (mrx I1 ++ (mrx I2 ++ (mrx I3 ++ (mrx I4 ++ mrx I5))))), true, some i, 0, rc, .cleared, .cleared, mark (hasEv .frameErr I0 || hasEv .frameErr I1) c, unmark (hasEv .txDone I0 || hasEv .txDone I1) d, e, tgt⟩ [] ?_ rfl rfl ?_
            · simp [masterAfter_mk, masterPoll, hasEv_before, mrx_before, ticksOf_before, mcut, Bool.or_assoc, Nat.sub_sub, Nat.add_assoc, masterWaiting, masterRecv, hf, hf', rd_zero, hq, h1, h2, okBind, errBind, pureOk, curMsg, clearRespLen]
            · simp [masterPollP, mrun_step, mrun_done, mrun_assign, mrun_assignC, mrun_test, masterAfter_mk, masterWaitingP, masterRecvP, hf, hf', rd_zero, hq, h1, h2, okBind, errBind, pureOk, curMsg, clearRespLen]
              simp [masterAfter_mk, hasEv_before, hasEv_after, mrx_before, mrx_after, ticksOf_before, ticksOf_after, mcut, Bool.or_assoc, Nat.sub_sub, Nat.add_assoc]
              all_goals grind [mark, unmark]
  · by_cases ht : tm - (ticksOf I0 + (ticksOf I1 + ticksOf I2)) = 1
    · cases mb with
      | none =>
        refine mreduce_err cfg _ 2 2 2 2 7 3 _ rfl rfl .nullDeref ?_ ?_
        · simp [masterAfter_mk, masterPoll, hasEv_before, mrx_before, ticksOf_before, mcut, Bool.or_assoc, Nat.sub_sub, Nat.add_assoc, masterWaiting, masterTimeoutReport, hf, ht, okBind, errBind, pureOk, curMsg, clearRespLen]
        · simp [masterPollP, mrun_step, mrun_done, mrun_assign, mrun_assignC, mrun_test, masterAfter_mk, masterWaitingP, masterTimeoutP, hf, ht, Nat.sub_sub, Nat.add_assoc, okBind, errBind, pureOk, curMsg, clearRespLen]
      | some i =>
        cases hq : fq.push cfg.queueItems (some i) with
        | error u =>
          refine mreduce_err cfg _ 2 2 2 2 7 3 _ rfl rfl u ?_ ?_
          · simp [masterAfter_mk, masterPoll, hasEv_before, mrx_before, ticksOf_before, mcut, Bool.or_assoc, Nat.sub_sub, Nat.add_assoc, masterWaiting, masterTimeoutReport, masterProcessEnd, hf, ht, rd_zero, rd_one, read_adr, read_qty, hq, okBind, errBind, pureOk, curMsg, clearRespLen]
          · simp [masterPollP, mrun_step, mrun_done, mrun_assign, mrun_assignC, mrun_test, masterAfter_mk, masterWaitingP, masterTimeoutP, masterProcessEndP, hf, ht, Nat.sub_sub, Nat.add_assoc, rd_zero, rd_one, read_adr, read_qty, hq, okBind, errBind, pureOk, curMsg, clearRespLen]
        | ok x =>
          obtain ⟨fq', mb'⟩ := x
          refine mreduce_ok cfg _ 2 2 2 2 7 3 _ rfl rfl
            ⟨.idle, true, fq', tq, rxMsgs tgt ms (mrx I0 ++ (mrx I1 ++ (mrx I2 ++ (mrx I3 ++ (mrx I4 ++ (mrx I5 ++ mrx I6)))))), true, mb', 1, 0, mark (hasEv .t15 I0 || hasEv .t15 I1) a, mark (hasEv .t35 I0 || hasEv .t35 I1) b, mark (hasEv .frameErr I0 || hasEv .frameErr I1) c, unmark (hasEv .txDone I0 || hasEv .txDone I1) d, e, tgt⟩
            [.event (.timeoutErr { slave := (ms i).req 0, fc := (rxMsgs tgt ms (mrx I0 ++ (mrx I1 ++ (mrx I2 ++ (mrx I3 ++ (mrx I4 ++ (mrx I5 ++ mrx I6)))))) i).resp 1, adr := u16of ((ms i).req 2) ((ms i).req 3), qty := u16of ((ms i).req 4) ((ms i).req 5), err := .timeout })] ?_ rfl rfl ?_
          · simp [masterAfter_mk, masterPoll, hasEv_before, mrx_before, ticksOf_before, mcut, Bool.or_assoc, Nat.sub_sub, Nat.add_assoc, masterWaiting, masterTimeoutReport, masterProcessEnd, hf, ht, rd_zero, rd_one, read_adr, read_qty, hq, okBind, errBind, pureOk, curMsg, clearRespLen]
          · simp [masterPollP, mrun_step, mrun_done, mrun_assign, mrun_assignC, mrun_test, masterAfter_mk, masterWaitingP, masterTimeoutP, masterProcessEndP, hf, ht, Nat.sub_sub, Nat.add_assoc, rd_zero, rd_one, read_adr, read_qty, hq, okBind, errBind, pureOk, curMsg, clearRespLen]
            simp [masterAfter_mk, hasEv_before, hasEv_after, mrx_before, mrx_after, ticksOf_before, ticksOf_after, mcut, Bool.or_assoc, Nat.sub_sub, Nat.add_assoc]
            all_goals grind [mark, unmark]
    · refine mreduce_ok cfg _ 2 2 2 2 2 3 (I0 :: I1 :: I2 :: I3 :: I4 :: I5 :: I6 :: I7 :: I8 :: I9 :: I10 :: I11 :: R) rfl rfl (masterAfter ⟨.waiting, true, fq, tq, ms, true, mb, tm, rc, a, b, c, d, e, tgt⟩ (before (mcut 2 2 2 2 2 3) (I0 :: I1 :: I2 :: I3 :: I4 :: I5 :: I6 :: I7 :: I8 :: I9 :: I10 :: I11 :: R))) [] ?_ rfl rfl ?_
      · simp [masterAfter_mk, masterPoll, hasEv_before, mrx_before, ticksOf_before, mcut, Bool.or_assoc, Nat.sub_sub, Nat.add_assoc, masterWaiting, hf, ht, okBind, errBind, pureOk, curMsg, clearRespLen]
      · simp [masterPollP, mrun_step, mrun_done, mrun_assign, mrun_assignC, mrun_test, masterAfter_mk, masterWaitingP, hf, ht, Nat.sub_sub, Nat.add_assoc, okBind, errBind, pureOk, curMsg, clearRespLen]
        simp [masterAfter_mk, hasEv_before, hasEv_after, mrx_before, mrx_after, ticksOf_before, ticksOf_after, mcut, Bool.or_assoc, Nat.sub_sub, Nat.add_assoc]

theorem mreceived_frame {cfg : Config} {fq tq : Queue Nat} {ms : Nat → MMsg} {mb : Option Nat} {tm : Nat} {rc : U8}
    {a b c d e : Flag} {tgt : Option Nat} (I0 I1 I2 I3 I4 I5 I6 I7 I8 I9 I10 I11 I12 : List MEv) (R : List (List MEv))
    (hnr : noRace (masterInt cfg) (masterPollP cfg) (I0 :: I1 :: I2 :: I3 :: I4 :: I5 :: I6 :: I7 :: I8 :: I9 :: I10 :: I11 :: I12 :: R) ⟨.received, true, fq, tq, ms, true, mb, tm, rc, a, b, c, d, e, tgt⟩)
    (hf : mark ((hasEv MEv.frameErr I0 || hasEv MEv.frameErr I1)) c = Flag.set) (ht : mark (((hasEv MEv.t35 I0 || hasEv MEv.t35 I1) || hasEv MEv.t35 I2)) b = Flag.set) :
    MReduces cfg ⟨.received, true, fq, tq, ms, true, mb, tm, rc, a, b, c, d, e, tgt⟩ (I0 :: I1 :: I2 :: I3 :: I4 :: I5 :: I6 :: I7 :: I8 :: I9 :: I10 :: I11 :: I12 :: R) := by
  have hf1 : mark ((hasEv .frameErr I0 || (hasEv .frameErr I1 || (hasEv .frameErr I2 || (hasEv .frameErr I3 || (hasEv .frameErr I4 || (hasEv .frameErr I5 || hasEv .frameErr I6))))))) c = Flag.set := by grind [mark]
  have hf2 : mark (hasEv MEv.frameErr I0 || hasEv MEv.frameErr I1) c = Flag.set := hf
  have ht1 : mark ((hasEv .t35 I0 || (hasEv .t35 I1 || hasEv .t35 I2))) b = Flag.set := by grind [mark]
  · skip
    by_cases hr : (rc.toNat + 1) % 256 ≤ cfg.repeatMax
    · cases mb with
      | none =>
        refine mreduce_err cfg _ 2 3 7 2 8 2 _ rfl rfl .nullDeref ?_ ?_
        · simp [masterAfter_mk, masterPoll, hasEv_before, mrx_before, ticksOf_before, mcut, Bool.or_assoc, Nat.sub_sub, Nat.add_assoc, masterReceived, masterFrameError, masterCrcError, masterCommReport, masterProcessEnd, rd_zero, rd_one, hf1, hf2, ht1, hr, okBind, errBind, pureOk, curMsg, clearRespLen]
        · simp [masterPollP, mrun_step, mrun_done, mrun_assign, mrun_assignC, mrun_test, masterAfter_mk, masterReceivedP, masterFrameErrorP, masterCrcErrorP, masterCommP, masterProcessEndP, masterReceived3P, rd_zero, rd_one, hf, ht, hr, okBind, errBind, pureOk, curMsg, clearRespLen]
      | some i =>
        refine mreduce_ok cfg _ 2 3 7 2 8 2 _ rfl rfl
          ⟨.repeatRequest, true, fq, tq, setMsg (rxMsgs tgt ms ((mrx I0 ++ (mrx I1 ++ (mrx I2 ++ (mrx I3 ++ (mrx I4 ++ (mrx I5 ++ (mrx I6 ++ mrx I7))))))))) i { rxMsgs tgt ms ((mrx I0 ++ (mrx I1 ++ (mrx I2 ++ (mrx I3 ++ (mrx I4 ++ (mrx I5 ++ (mrx I6 ++ mrx I7)))))))) i with respLen := 0 }, true, some i,
            tm - (ticksOf I0 + ticksOf I1), rc + 1#8, mark (hasEv .t15 I0 || hasEv .t15 I1) a, mark ((hasEv .t35 I0 || (hasEv .t35 I1 || hasEv .t35 I2))) b, .cleared, unmark (hasEv .txDone I0 || hasEv .txDone I1) d, e, tgt⟩ [] ?_ rfl rfl ?_
        · simp [masterAfter_mk, masterPoll, hasEv_before, mrx_before, ticksOf_before, mcut, Bool.or_assoc, Nat.sub_sub, Nat.add_assoc, masterReceived, masterFrameError, masterCrcError, masterCommReport, masterProcessEnd, rd_zero, rd_one, hf1, hf2, ht1, hr, okBind, errBind, pureOk, curMsg, clearRespLen]
        · simp [masterPollP, mrun_step, mrun_done, mrun_assign, mrun_assignC, mrun_test, masterAfter_mk, masterReceivedP, masterFrameErrorP, masterCrcErrorP, masterCommP, masterProcessEndP, masterReceived3P, rd_zero, rd_one, hf, ht, hr, okBind, errBind, pureOk, curMsg, clearRespLen]
          simp [masterAfter_mk, hasEv_before, hasEv_after, mrx_before, mrx_after, ticksOf_before, ticksOf_after, mcut, Bool.or_assoc, Nat.sub_sub, Nat.add_assoc]
          all_goals grind [mark, unmark]
    · cases mb with
      | none =>
        refine mreduce_err cfg _ 2 3 2 2 6 2 _ rfl rfl .nullDeref ?_ ?_
        · simp [masterAfter_mk, masterPoll, hasEv_before, mrx_before, ticksOf_before, mcut, Bool.or_assoc, Nat.sub_sub, Nat.add_assoc, masterReceived, masterFrameError, masterCrcError, masterCommReport, masterProcessEnd, rd_zero, rd_one, hf1, hf2, ht1, hr, okBind, errBind, pureOk, curMsg, clearRespLen]
        · simp [masterPollP, mrun_step, mrun_done, mrun_assign, mrun_assignC, mrun_test, masterAfter_mk, masterReceivedP, masterFrameErrorP, masterCrcErrorP, masterCommP, masterProcessEndP, masterReceived3P, rd_zero, rd_one, hf, ht, hr, okBind, errBind, pureOk, curMsg, clearRespLen]
      | some i =>
        cases hq : fq.push cfg.queueItems (some i) with
        | error u =>
          have h3 : mrx I6 = [] := by
            simp [masterPollP, mnr_step, mnr_assign, mnr_assignC, mnr_test, masterAfter_mk, masterReceivedP, masterFrameErrorP, masterCrcErrorP, masterCommP, masterProcessEndP, masterReceived3P, rd_zero, rd_one, hf, ht, hr, hq, okBind, errBind, pureOk, free, curMsg, clearRespLen] at hnr
            exact noRx hnr
          refine mreduce_err cfg _ 2 3 2 2 6 2 _ rfl rfl u ?_ ?_
          · simp [masterAfter_mk, masterPoll, hasEv_before, mrx_before, ticksOf_before, mcut, Bool.or_assoc, Nat.sub_sub, Nat.add_assoc, masterReceived, masterFrameError, masterCrcError, masterCommReport, masterProcessEnd, rd_zero, rd_one, hf1, hf2, ht1, hr, hq, okBind, errBind, pureOk, curMsg, clearRespLen]
          · simp [masterPollP, mrun_step, mrun_done, mrun_assign, mrun_assignC, mrun_test, masterAfter_mk, masterReceivedP, masterFrameErrorP, masterCrcErrorP, masterCommP, masterProcessEndP, masterReceived3P, rd_zero, rd_one, hf, ht, hr, hq, okBind, errBind, pureOk, curMsg, clearRespLen]
        | ok x =>
          obtain ⟨fq', mb'⟩ := x
          have h3 : mrx I6 = [] := by
            simp [masterPollP, mnr_step, mnr_assign, mnr_assignC, mnr_test, masterAfter_mk, masterReceivedP, masterFrameErrorP, masterCrcErrorP, masterCommP, masterProcessEndP, masterReceived3P, rd_zero, rd_one, hf, ht, hr, hq, okBind, errBind, pureOk, free, curMsg, clearRespLen] at hnr
            exact noRx hnr.1
          refine mreduce_ok cfg _ 2 3 2 2 6 2 _ rfl rfl
            ⟨.idle, true, fq', tq, rxMsgs tgt ms ((mrx I0 ++ (mrx I1 ++ (mrx I2 ++ (mrx I3 ++ (mrx I4 ++ mrx I5)))))), true, mb', tm - (ticksOf I0 + ticksOf I1), 0, mark (hasEv .t15 I0 || hasEv .t15 I1) a, mark ((hasEv .t35 I0 || (hasEv .t35 I1 || hasEv .t35 I2))) b,
              mark ((hasEv .frameErr I0 || hasEv .frameErr I1)) c, unmark (hasEv .txDone I0 || hasEv .txDone I1) d, e, tgt⟩
            [.event (.commErr { slave := (rxMsgs tgt ms ((mrx I0 ++ (mrx I1 ++ (mrx I2 ++ (mrx I3 ++ (mrx I4 ++ mrx I5)))))) i).resp 0, fc := (rxMsgs tgt ms ((mrx I0 ++ (mrx I1 ++ (mrx I2 ++ (mrx I3 ++ (mrx I4 ++ mrx I5)))))) i).resp 1 &&& ~~~exceptionCodeMask, adr := 0, qty := 0, err := .frame })] ?_ rfl rfl ?_
          · simp [masterAfter_mk, masterPoll, hasEv_before, mrx_before, ticksOf_before, mcut, Bool.or_assoc, Nat.sub_sub, Nat.add_assoc, masterReceived, masterFrameError, masterCrcError, masterCommReport, masterProcessEnd, rd_zero, rd_one, hf1, hf2, ht1, hr, hq, okBind, errBind, pureOk, curMsg, clearRespLen]
          · simp [masterPollP, mrun_step, mrun_done, mrun_assign, mrun_assignC, mrun_test, masterAfter_mk, masterReceivedP, masterFrameErrorP, masterCrcErrorP, masterCommP, masterProcessEndP, masterReceived3P, rd_zero, rd_one, hf, ht, hr, hq, h3, okBind, errBind, pureOk, curMsg, clearRespLen]
            simp [masterAfter_mk, hasEv_before, hasEv_after, mrx_before, mrx_after, ticksOf_before, ticksOf_after, mcut, Bool.or_assoc, Nat.sub_sub, Nat.add_assoc, h3]
            all_goals grind [mark, unmark]

theorem mreceived_crc {cfg : Config} {fq tq : Queue Nat} {ms : Nat → MMsg} {mb : Option Nat} {tm : Nat} {rc : U8}
    {a b c d e : Flag} {tgt : Option Nat} (I0 I1 I2 I3 I4 I5 I6 I7 I8 I9 I10 I11 I12 : List MEv) (R : List (List MEv))
    (hnr : noRace (masterInt cfg) (masterPollP cfg) (I0 :: I1 :: I2 :: I3 :: I4 :: I5 :: I6 :: I7 :: I8 :: I9 :: I10 :: I11 :: I12 :: R) ⟨.received, true, fq, tq, ms, true, mb, tm, rc, a, b, c, d, .set, tgt⟩)
    (hf : ¬ mark ((hasEv MEv.frameErr I0 || hasEv MEv.frameErr I1)) c = Flag.set) (ht : mark ((((hasEv MEv.t35 I0 || hasEv MEv.t35 I1) || hasEv MEv.t35 I2) || hasEv MEv.t35 I3)) b = Flag.set) :
    MReduces cfg ⟨.received, true, fq, tq, ms, true, mb, tm, rc, a, b, c, d, .set, tgt⟩ (I0 :: I1 :: I2 :: I3 :: I4 :: I5 :: I6 :: I7 :: I8 :: I9 :: I10 :: I11 :: I12 :: R) := by
  have ht1 : mark ((hasEv .t35 I0 || (hasEv .t35 I1 || (hasEv .t35 I2 || hasEv .t35 I3)))) b = Flag.set := by grind [mark]
  · skip
    by_cases hr : (rc.toNat + 1) % 256 ≤ cfg.repeatMax
    · cases mb with
      | none =>
        refine mreduce_err cfg _ 2 4 2 2 9 2 _ rfl rfl .nullDeref ?_ ?_
        · simp [masterAfter_mk, masterPoll, hasEv_before, mrx_before, ticksOf_before, mcut, Bool.or_assoc, Nat.sub_sub, Nat.add_assoc, masterReceived, masterFrameError, masterCrcError, masterCommReport, masterProcessEnd, rd_zero, rd_one, hf, ht1, hr, okBind, errBind, pureOk, curMsg, clearRespLen]
        · simp [masterPollP, mrun_step, mrun_done, mrun_assign, mrun_assignC, mrun_test, masterAfter_mk, masterReceivedP, masterFrameErrorP, masterCrcErrorP, masterCommP, masterProcessEndP, masterReceived3P, rd_zero, rd_one, hf, ht, hr, okBind, errBind, pureOk, curMsg, clearRespLen]
      | some i =>
        refine mreduce_ok cfg _ 2 4 2 2 9 2 _ rfl rfl
          ⟨.repeatRequest, true, fq, tq, setMsg (rxMsgs tgt ms ((mrx I0 ++ (mrx I1 ++ (mrx I2 ++ (mrx I3 ++ (mrx I4 ++ (mrx I5 ++ (mrx I6 ++ (mrx I7 ++ mrx I8)))))))))) i { rxMsgs tgt ms ((mrx I0 ++ (mrx I1 ++ (mrx I2 ++ (mrx I3 ++ (mrx I4 ++ (mrx I5 ++ (mrx I6 ++ (mrx I7 ++ mrx I8))))))))) i with respLen := 0 }, true, some i,
            tm - (ticksOf I0 + ticksOf I1), rc + 1#8, mark (hasEv .t15 I0 || hasEv .t15 I1) a, mark ((hasEv .t35 I0 || (hasEv .t35 I1 || (hasEv .t35 I2 || hasEv .t35 I3)))) b, mark (hasEv .frameErr I0 || hasEv .frameErr I1) c, unmark (hasEv .txDone I0 || hasEv .txDone I1) d, .cleared, tgt⟩ [] ?_ rfl rfl ?_
        · simp [masterAfter_mk, masterPoll, hasEv_before, mrx_before, ticksOf_before, mcut, Bool.or_assoc, Nat.sub_sub, Nat.add_assoc, masterReceived, masterFrameError, masterCrcError, masterCommReport, masterProcessEnd, rd_zero, rd_one, hf, ht1, hr, okBind, errBind, pureOk, curMsg, clearRespLen]
        · simp [masterPollP, mrun_step, mrun_done, mrun_assign, mrun_assignC, mrun_test, masterAfter_mk, masterReceivedP, masterFrameErrorP, masterCrcErrorP, masterCommP, masterProcessEndP, masterReceived3P, rd_zero, rd_one, hf, ht, hr, okBind, errBind, pureOk, curMsg, clearRespLen]
          simp [masterAfter_mk, hasEv_before, hasEv_after, mrx_before, mrx_after, ticksOf_before, ticksOf_after, mcut, Bool.or_assoc, Nat.sub_sub, Nat.add_assoc]
          all_goals grind [mark, unmark]
    · cases mb with
      | none =>
        refine mreduce_err cfg _ 2 4 2 2 7 2 _ rfl rfl .nullDeref ?_ ?_
        · simp [masterAfter_mk, masterPoll, hasEv_before, mrx_before, ticksOf_before, mcut, Bool.or_assoc, Nat.sub_sub, Nat.add_assoc, masterReceived, masterFrameError, masterCrcError, masterCommReport, masterProcessEnd, rd_zero, rd_one, hf, ht1, hr, okBind, errBind, pureOk, curMsg, clearRespLen]
        · simp [masterPollP, mrun_step, mrun_done, mrun_assign, mrun_assignC, mrun_test, masterAfter_mk, masterReceivedP, masterFrameErrorP, masterCrcErrorP, masterCommP, masterProcessEndP, masterReceived3P, rd_zero, rd_one, hf, ht, hr, okBind, errBind, pureOk, curMsg, clearRespLen]
      | some i =>
        cases hq : fq.push cfg.queueItems (some i) with
        | error u =>
          have h3 : mrx I7 = [] := by
            simp [masterPollP, mnr_step, mnr_assign, mnr_assignC, mnr_test, masterAfter_mk, masterReceivedP, masterFrameErrorP, masterCrcErrorP, masterCommP, masterProcessEndP, masterReceived3P, rd_zero, rd_one, hf, ht, hr, hq, okBind, errBind, pureOk, free, curMsg, clearRespLen] at hnr
            exact noRx hnr
          refine mreduce_err cfg _ 2 4 2 2 7 2 _ rfl rfl u ?_ ?_
          · simp [masterAfter_mk, masterPoll, hasEv_before, mrx_before, ticksOf_before, mcut, Bool.or_assoc, Nat.sub_sub, Nat.add_assoc, masterReceived, masterFrameError, masterCrcError, masterCommReport, masterProcessEnd, rd_zero, rd_one, hf, ht1, hr, hq, okBind, errBind, pureOk, curMsg, clearRespLen]
          · simp [masterPollP, mrun_step, mrun_done, mrun_assign, mrun_assignC, mrun_test, masterAfter_mk, masterReceivedP, masterFrameErrorP, masterCrcErrorP, masterCommP, masterProcessEndP, masterReceived3P, rd_zero, rd_one, hf, ht, hr, hq, okBind, errBind, pureOk, curMsg, clearRespLen]
        | ok x =>
          obtain ⟨fq', mb'⟩ := x
          have h3 : mrx I7 = [] := by
            simp [masterPollP, mnr_step, mnr_assign, mnr_assignC, mnr_test, masterAfter_mk, masterReceivedP, masterFrameErrorP, masterCrcErrorP, masterCommP, masterProcessEndP, masterReceived3P, rd_zero, rd_one, hf, ht, hr, hq, okBind, errBind, pureOk, free, curMsg, clearRespLen] at hnr
            exact noRx hnr.1
          refine mreduce_ok cfg _ 2 4 2 2 7 2 _ rfl rfl
            ⟨.idle, true, fq', tq, rxMsgs tgt ms ((mrx I0 ++ (mrx I1 ++ (mrx I2 ++ (mrx I3 ++ (mrx I4 ++ (mrx I5 ++ mrx I6))))))), true, mb', tm - (ticksOf I0 + ticksOf I1), 0, mark (hasEv .t15 I0 || hasEv .t15 I1) a, mark ((hasEv .t35 I0 || (hasEv .t35 I1 || (hasEv .t35 I2 || hasEv .t35 I3)))) b,
              mark ((hasEv .frameErr I0 || hasEv .frameErr I1)) c, unmark (hasEv .txDone I0 || hasEv .txDone I1) d, .set, tgt⟩
            [.event (.commErr { slave := (rxMsgs tgt ms ((mrx I0 ++ (mrx I1 ++ (mrx I2 ++ (mrx I3 ++ (mrx I4 ++ (mrx I5 ++ mrx I6))))))) i).resp 0, fc := (rxMsgs tgt ms ((mrx I0 ++ (mrx I1 ++ (mrx I2 ++ (mrx I3 ++ (mrx I4 ++ (mrx I5 ++ mrx I6))))))) i).resp 1 &&& ~~~exceptionCodeMask, adr := 0, qty := 0, err := .crc })] ?_ rfl rfl ?_
          · simp [masterAfter_mk, masterPoll, hasEv_before, mrx_before, ticksOf_before, mcut, Bool.or_assoc, Nat.sub_sub, Nat.add_assoc, masterReceived, masterFrameError, masterCrcError, masterCommReport, masterProcessEnd, rd_zero, rd_one, hf, ht1, hr, hq, okBind, errBind, pureOk, curMsg, clearRespLen]
          · simp [masterPollP, mrun_step, mrun_done, mrun_assign, mrun_assignC, mrun_test, masterAfter_mk, masterReceivedP, masterFrameErrorP, masterCrcErrorP, masterCommP, masterProcessEndP, masterReceived3P, rd_zero, rd_one, hf, ht, hr, hq, h3, okBind, errBind, pureOk, curMsg, clearRespLen]
            simp [masterAfter_mk, hasEv_before, hasEv_after, mrx_before, mrx_after, ticksOf_before, ticksOf_after, mcut, Bool.or_assoc, Nat.sub_sub, Nat.add_assoc, h3]
            all_goals grind [mark, unmark]

theorem mreceived_reduces {cfg : Config} {fq tq : Queue Nat} {ms : Nat → MMsg} {mb : Option Nat} {tm : Nat} {rc : U8}
    {a b c d e : Flag} {tgt : Option Nat} (I0 I1 I2 I3 I4 I5 I6 I7 I8 I9 I10 I11 I12 : List MEv) (R : List (List MEv))
    (hnr : noRace (masterInt cfg) (masterPollP cfg) (I0 :: I1 :: I2 :: I3 :: I4 :: I5 :: I6 :: I7 :: I8 :: I9 :: I10 :: I11 :: I12 :: R) ⟨.received, true, fq, tq, ms, true, mb, tm, rc, a, b, c, d, e, tgt⟩) :
    MReduces cfg ⟨.received, true, fq, tq, ms, true, mb, tm, rc, a, b, c, d, e, tgt⟩ (I0 :: I1 :: I2 :: I3 :: I4 :: I5 :: I6 :: I7 :: I8 :: I9 :: I10 :: I11 :: I12 :: R) := by
  by_cases hf : mark ((hasEv MEv.frameErr I0 || hasEv MEv.frameErr I1)) c = Flag.set
  · by_cases ht : mark (((hasEv MEv.t35 I0 || hasEv MEv.t35 I1) || hasEv MEv.t35 I2)) b = Flag.set
    · exact mreceived_frame _ _ _ _ _ _ _ _ _ _ _ _ _ _ hnr hf ht
    · have ht1 : ¬ mark ((hasEv .t35 I0 || (hasEv .t35 I1 || hasEv .t35 I2))) b = Flag.set := by grind [mark]
      have hx : ¬ mark (((((hasEv MEv.frameErr I0 || hasEv MEv.frameErr I1) || hasEv MEv.frameErr I2) || hasEv MEv.frameErr I3) || hasEv MEv.frameErr I4)) c = Flag.cleared := by grind [mark]
      have hx' : ¬ mark ((((((hasEv MEv.frameErr I0 || hasEv MEv.frameErr I1) || hasEv MEv.frameErr I2) || hasEv MEv.frameErr I3) || hasEv MEv.frameErr I4) || hasEv MEv.frameErr I5)) c = Flag.cleared := by grind [mark]
      by_cases he : e = Flag.set
      · subst he
        have h3 : hasEv MEv.t35 I3 = false ∧ hasEv MEv.t35 I4 = false := by
          simp [masterPollP, mnr_step, mnr_assign, mnr_assignC, mnr_test, masterAfter_mk, masterReceivedP, masterFrameErrorP, masterCrcErrorP, masterCommP, masterProcessEndP, masterReceived3P, rd_zero, rd_one, masterCorrectP, hf, ht, okBind, errBind, pureOk, free, curMsg, clearRespLen] at hnr
          exact ⟨noT35 hnr.1, noT35 hnr.2.1⟩
        have ht2 : ¬ mark (((((hasEv MEv.t35 I0 || hasEv MEv.t35 I1) || hasEv MEv.t35 I2) || hasEv MEv.t35 I3) || hasEv MEv.t35 I4)) b = Flag.set := by rw [h3.1, h3.2]; grind [mark]
        have ht3 : ¬ mark (((hasEv MEv.t35 I0 || hasEv MEv.t35 I1) || hasEv MEv.t35 I2)) b = Flag.set := ht
        refine mreduce_ok cfg _ 3 3 3 3 3 3 (I0 :: I1 :: I2 :: I3 :: I4 :: I5 :: I6 :: I7 :: I8 :: I9 :: I10 :: I11 :: I12 :: R) rfl rfl (masterAfter ⟨.received, true, fq, tq, ms, true, mb, tm, rc, a, b, c, d, .set, tgt⟩ (before (mcut 3 3 3 3 3 3) (I0 :: I1 :: I2 :: I3 :: I4 :: I5 :: I6 :: I7 :: I8 :: I9 :: I10 :: I11 :: I12 :: R))) [] ?_ rfl rfl ?_
        · simp [masterAfter_mk, masterPoll, hasEv_before, mrx_before, ticksOf_before, mcut, Bool.or_assoc, Nat.sub_sub, Nat.add_assoc, masterReceived, ht1, okBind, errBind, pureOk, curMsg, clearRespLen]
        · simp [masterPollP, mrun_step, mrun_done, mrun_assign, mrun_assignC, mrun_test, masterAfter_mk, masterReceivedP, masterFrameErrorP, masterCrcErrorP, masterCommP, masterProcessEndP, masterReceived3P, rd_zero, rd_one, masterCorrectP, hf, ht, h3, ht2, hx, hx', okBind, errBind, pureOk, curMsg, clearRespLen]
          simp [masterAfter_mk, hasEv_before, hasEv_after, mrx_before, mrx_after, ticksOf_before, ticksOf_after, mcut, Bool.or_assoc, Nat.sub_sub, Nat.add_assoc]
          all_goals grind [mark, unmark]

      · 
        refine mreduce_ok cfg _ 3 3 3 3 3 3 (I0 :: I1 :: I2 :: I3 :: I4 :: I5 :: I6 :: I7 :: I8 :: I9 :: I10 :: I11 :: I12 :: R) rfl rfl (masterAfter ⟨.received, true, fq, tq, ms, true, mb, tm, rc, a, b, c, d, e, tgt⟩ (before (mcut 3 3 3 3 3 3) (I0 :: I1 :: I2 :: I3 :: I4 :: I5 :: I6 :: I7 :: I8 :: I9 :: I10 :: I11 :: I12 :: R))) [] ?_ rfl rfl ?_
        · simp [masterAfter_mk, masterPoll, hasEv_before, mrx_before, ticksOf_before, mcut, Bool.or_assoc, Nat.sub_sub, Nat.add_assoc, masterReceived, ht1, okBind, errBind, pureOk, curMsg, clearRespLen]
        · simp [masterPollP, mrun_step, mrun_done, mrun_assign, mrun_assignC, mrun_test, masterAfter_mk, masterReceivedP, masterFrameErrorP, masterCrcErrorP, masterCommP, masterProcessEndP, masterReceived3P, rd_zero, rd_one, masterCorrectP, hf, ht, he, hx, hx', okBind, errBind, pureOk, curMsg, clearRespLen]
          simp [masterAfter_mk, hasEv_before, hasEv_after, mrx_before, mrx_after, ticksOf_before, ticksOf_after, mcut, Bool.or_assoc, Nat.sub_sub, Nat.add_assoc]
          all_goals grind [mark, unmark]

  · by_cases he : e = Flag.set
    · subst he
      by_cases ht : mark ((((hasEv MEv.t35 I0 || hasEv MEv.t35 I1) || hasEv MEv.t35 I2) || hasEv MEv.t35 I3)) b = Flag.set
      · exact mreceived_crc (e := .set) _ _ _ _ _ _ _ _ _ _ _ _ _ _ hnr hf ht
      · have ht1 : ¬ mark ((hasEv .t35 I0 || (hasEv .t35 I1 || (hasEv .t35 I2 || hasEv .t35 I3)))) b = Flag.set := by grind [mark]
        by_cases hc : mark (((((hasEv MEv.frameErr I0 || hasEv MEv.frameErr I1) || hasEv MEv.frameErr I2) || hasEv MEv.frameErr I3) || hasEv MEv.frameErr I4)) c = Flag.cleared
        · 
          refine mreduce_ok cfg _ 3 4 3 3 3 3 (I0 :: I1 :: I2 :: I3 :: I4 :: I5 :: I6 :: I7 :: I8 :: I9 :: I10 :: I11 :: I12 :: R) rfl rfl (masterAfter ⟨.received, true, fq, tq, ms, true, mb, tm, rc, a, b, c, d, .set, tgt⟩ (before (mcut 3 4 3 3 3 3) (I0 :: I1 :: I2 :: I3 :: I4 :: I5 :: I6 :: I7 :: I8 :: I9 :: I10 :: I11 :: I12 :: R))) [] ?_ rfl rfl ?_
          · simp [masterAfter_mk, masterPoll, hasEv_before, mrx_before, ticksOf_before, mcut, Bool.or_assoc, Nat.sub_sub, Nat.add_assoc, masterReceived, ht1, okBind, errBind, pureOk, curMsg, clearRespLen]
          · simp [masterPollP, mrun_step, mrun_done, mrun_assign, mrun_assignC, mrun_test, masterAfter_mk, masterReceivedP, masterFrameErrorP, masterCrcErrorP, masterCommP, masterProcessEndP, masterReceived3P, rd_zero, rd_one, masterCorrectP, hf, ht, hc, okBind, errBind, pureOk, curMsg, clearRespLen]
            simp [masterAfter_mk, hasEv_before, hasEv_after, mrx_before, mrx_after, ticksOf_before, ticksOf_after, mcut, Bool.or_assoc, Nat.sub_sub, Nat.add_assoc]
            all_goals grind [mark, unmark]

        · 
          refine mreduce_ok cfg _ 3 4 3 3 3 3 (I0 :: I1 :: I2 :: I3 :: I4 :: I5 :: I6 :: I7 :: I8 :: I9 :: I10 :: I11 :: I12 :: R) rfl rfl (masterAfter ⟨.received, true, fq, tq, ms, true, mb, tm, rc, a, b, c, d, .set, tgt⟩ (before (mcut 3 4 3 3 3 3) (I0 :: I1 :: I2 :: I3 :: I4 :: I5 :: I6 :: I7 :: I8 :: I9 :: I10 :: I11 :: I12 :: R))) [] ?_ rfl rfl ?_
          · simp [masterAfter_mk, masterPoll, hasEv_before, mrx_before, ticksOf_before, mcut, Bool.or_assoc, Nat.sub_sub, Nat.add_assoc, masterReceived, ht1, okBind, errBind, pureOk, curMsg, clearRespLen]
          · simp [masterPollP, mrun_step, mrun_done, mrun_assign, mrun_assignC, mrun_test, masterAfter_mk, masterReceivedP, masterFrameErrorP, masterCrcErrorP, masterCommP, masterProcessEndP, masterReceived3P, rd_zero, rd_one, masterCorrectP, hf, ht, hc, okBind, errBind, pureOk, curMsg, clearRespLen]
            simp [masterAfter_mk, hasEv_before, hasEv_after, mrx_before, mrx_after, ticksOf_before, ticksOf_after, mcut, Bool.or_assoc, Nat.sub_sub, Nat.add_assoc]
            all_goals grind [mark, unmark]

    · by_cases hc : mark ((((hasEv MEv.frameErr I0 || hasEv MEv.frameErr I1) || hasEv MEv.frameErr I2) || hasEv MEv.frameErr I3)) c = Flag.cleared
      · by_cases he' : e = Flag.cleared
        · subst he'
          have hc1 : mark ((hasEv .frameErr I0 || (hasEv .frameErr I1 || (hasEv .frameErr I2 || hasEv .frameErr I3)))) c = Flag.cleared := by grind [mark]
          have hc2 : ¬ mark ((hasEv .frameErr I0 || (hasEv .frameErr I1 || (hasEv .frameErr I2 || hasEv .frameErr I3)))) c = Flag.set := by rw [hc1]; exact nofun
          by_cases ht : mark ((((((hasEv MEv.t35 I0 || hasEv MEv.t35 I1) || hasEv MEv.t35 I2) || hasEv MEv.t35 I3) || hasEv MEv.t35 I4) || hasEv MEv.t35 I5)) b = Flag.set
          · have ht1 : mark ((hasEv .t35 I0 || (hasEv .t35 I1 || (hasEv .t35 I2 || (hasEv .t35 I3 || (hasEv .t35 I4 || hasEv .t35 I5)))))) b = Flag.set := by grind [mark]
            cases mb with
            | none =>
              cases hq : fq.push cfg.queueItems none with
              | error u =>
                refine mreduce_err cfg _ 2 6 4 2 7 2 _ rfl rfl u ?_ ?_
                · simp [masterAfter_mk, masterPoll, hasEv_before, mrx_before, ticksOf_before, mcut, Bool.or_assoc, Nat.sub_sub, Nat.add_assoc, masterReceived, masterCorrect, masterProcessEnd, hc1, hc2, ht1, hq, okBind, errBind, pureOk, curMsg, clearRespLen]
                · simp [masterPollP, mrun_step, mrun_done, mrun_assign, mrun_assignC, mrun_test, masterAfter_mk, masterReceivedP, masterFrameErrorP, masterCrcErrorP, masterCommP, masterProcessEndP, masterReceived3P, rd_zero, rd_one, masterCorrectP, hf, hc, ht, hq, okBind, errBind, pureOk, curMsg, clearRespLen]
              | ok x =>
                obtain ⟨fq', mb'⟩ := x
                refine mreduce_ok cfg _ 2 6 4 2 7 2 _ rfl rfl
                  ⟨.idle, true, fq', tq, rxMsgs tgt ms ((mrx I0 ++ (mrx I1 ++ (mrx I2 ++ (mrx I3 ++ (mrx I4 ++ (mrx I5 ++ mrx I6))))))), true, mb', tm - (ticksOf I0 + ticksOf I1), 0, mark (hasEv .t15 I0 || hasEv .t15 I1) a, .set,
                    .cleared, unmark (hasEv .txDone I0 || hasEv .txDone I1) d, .cleared, tgt⟩ [] ?_ rfl rfl ?_
                · simp [masterAfter_mk, masterPoll, hasEv_before, mrx_before, ticksOf_before, mcut, Bool.or_assoc, Nat.sub_sub, Nat.add_assoc, masterReceived, masterCorrect, masterProcessEnd, hc1, hc2, ht1, hq, okBind, errBind, pureOk, curMsg, clearRespLen]
                · simp [masterPollP, mrun_step, mrun_done, mrun_assign, mrun_assignC, mrun_test, masterAfter_mk, masterReceivedP, masterFrameErrorP, masterCrcErrorP, masterCommP, masterProcessEndP, masterReceived3P, rd_zero, rd_one, masterCorrectP, hf, hc, ht, hq, okBind, errBind, pureOk, curMsg, clearRespLen]
                  simp [masterAfter_mk, hasEv_before, hasEv_after, mrx_before, mrx_after, ticksOf_before, ticksOf_after, mcut, Bool.or_assoc, Nat.sub_sub, Nat.add_assoc]
                  all_goals grind [mark, unmark]
            | some i =>
              cases hrs : readSlaveResp true (rxMsgs tgt ms ((mrx I0 ++ (mrx I1 ++ (mrx I2 ++ (mrx I3 ++ (mrx I4 ++ (mrx I5 ++ mrx I6))))))) i) with
              | error u =>
                refine mreduce_err cfg _ 2 6 4 2 7 2 _ rfl rfl u ?_ ?_
                · simp [masterAfter_mk, masterPoll, hasEv_before, mrx_before, ticksOf_before, mcut, Bool.or_assoc, Nat.sub_sub, Nat.add_assoc, masterReceived, masterCorrect, masterProcessEnd, hc1, hc2, ht1, hrs, okBind, errBind, pureOk, curMsg, clearRespLen]
                · simp [masterPollP, mrun_step, mrun_done, mrun_assign, mrun_assignC, mrun_test, masterAfter_mk, masterReceivedP, masterFrameErrorP, masterCrcErrorP, masterCommP, masterProcessEndP, masterReceived3P, rd_zero, rd_one, masterCorrectP, hf, hc, ht, hrs, okBind, errBind, pureOk, curMsg, clearRespLen]
              | ok y =>
                obtain ⟨y1, ev⟩ := y
                cases hq : fq.push cfg.queueItems (some i) with
                | error u =>
                  refine mreduce_err cfg _ 2 6 4 2 7 2 _ rfl rfl u ?_ ?_
                  · simp [masterAfter_mk, masterPoll, hasEv_before, mrx_before, ticksOf_before, mcut, Bool.or_assoc, Nat.sub_sub, Nat.add_assoc, masterReceived, masterCorrect, masterProcessEnd, hc1, hc2, ht1, hq, hrs, okBind, errBind, pureOk, curMsg, clearRespLen]
                  · simp [masterPollP, mrun_step, mrun_done, mrun_assign, mrun_assignC, mrun_test, masterAfter_mk, masterReceivedP, masterFrameErrorP, masterCrcErrorP, masterCommP, masterProcessEndP, masterReceived3P, rd_zero, rd_one, masterCorrectP, hf, hc, ht, hq, hrs, okBind, errBind, pureOk, curMsg, clearRespLen]
                | ok x =>
                  obtain ⟨fq', mb'⟩ := x
                  refine mreduce_ok cfg _ 2 6 4 2 7 2 _ rfl rfl
                    ⟨.idle, true, fq', tq, rxMsgs tgt ms ((mrx I0 ++ (mrx I1 ++ (mrx I2 ++ (mrx I3 ++ (mrx I4 ++ (mrx I5 ++ mrx I6))))))), true, mb', tm - (ticksOf I0 + ticksOf I1), 0, mark (hasEv .t15 I0 || hasEv .t15 I1) a, .set,
                      .cleared, unmark (hasEv .txDone I0 || hasEv .txDone I1) d, .cleared, tgt⟩ (ev.map .event) ?_ rfl rfl ?_
                  · simp [masterAfter_mk, masterPoll, hasEv_before, mrx_before, ticksOf_before, mcut, Bool.or_assoc, Nat.sub_sub, Nat.add_assoc, masterReceived, masterCorrect, masterProcessEnd, hc1, hc2, ht1, hq, hrs, okBind, errBind, pureOk, curMsg, clearRespLen]
                  · simp [masterPollP, mrun_step, mrun_done, mrun_assign, mrun_assignC, mrun_test, masterAfter_mk, masterReceivedP, masterFrameErrorP, masterCrcErrorP, masterCommP, masterProcessEndP, masterReceived3P, rd_zero, rd_one, masterCorrectP, hf, hc, ht, hq, hrs, okBind, errBind, pureOk, curMsg, clearRespLen]
                    simp [masterAfter_mk, hasEv_before, hasEv_after, mrx_before, mrx_after, ticksOf_before, ticksOf_after, mcut, Bool.or_assoc, Nat.sub_sub, Nat.add_assoc]
                    all_goals grind [mark, unmark]
          · have ht1 : ¬ mark ((hasEv .t35 I0 || (hasEv .t35 I1 || (hasEv .t35 I2 || (hasEv .t35 I3 || (hasEv .t35 I4 || hasEv .t35 I5)))))) b = Flag.set := by grind [mark]
            refine mreduce_ok cfg _ 3 6 3 3 3 3 (I0 :: I1 :: I2 :: I3 :: I4 :: I5 :: I6 :: I7 :: I8 :: I9 :: I10 :: I11 :: I12 :: R) rfl rfl (masterAfter ⟨.received, true, fq, tq, ms, true, mb, tm, rc, a, b, c, d, .cleared, tgt⟩ (before (mcut 3 6 3 3 3 3) (I0 :: I1 :: I2 :: I3 :: I4 :: I5 :: I6 :: I7 :: I8 :: I9 :: I10 :: I11 :: I12 :: R))) [] ?_ rfl rfl ?_
            · simp [masterAfter_mk, masterPoll, hasEv_before, mrx_before, ticksOf_before, mcut, Bool.or_assoc, Nat.sub_sub, Nat.add_assoc, masterReceived, ht1, okBind, errBind, pureOk, curMsg, clearRespLen]
            · simp [masterPollP, mrun_step, mrun_done, mrun_assign, mrun_assignC, mrun_test, masterAfter_mk, masterReceivedP, masterFrameErrorP, masterCrcErrorP, masterCommP, masterProcessEndP, masterReceived3P, rd_zero, rd_one, masterCorrectP, hf, hc, ht, okBind, errBind, pureOk, curMsg, clearRespLen]
              simp [masterAfter_mk, hasEv_before, hasEv_after, mrx_before, mrx_after, ticksOf_before, ticksOf_after, mcut, Bool.or_assoc, Nat.sub_sub, Nat.add_assoc]
              all_goals grind [mark, unmark]

        · 
          refine mreduce_none cfg _ _ rfl rfl ?_
          simp [masterPollP, mrun_step, mrun_done, mrun_assign, mrun_assignC, mrun_test, masterAfter_mk, masterReceivedP, masterFrameErrorP, masterCrcErrorP, masterCommP, masterProcessEndP, masterReceived3P, rd_zero, rd_one, masterCorrectP, hf, he, he', hc, okBind, errBind, pureOk, curMsg, clearRespLen]
          simp [masterAfter_mk, hasEv_before, hasEv_after, mrx_before, mrx_after, ticksOf_before, ticksOf_after, mcut, Bool.or_assoc, Nat.sub_sub, Nat.add_assoc]
          all_goals grind [mark, unmark]

      · 
        refine mreduce_none cfg _ _ rfl rfl ?_
        simp [masterPollP, mrun_step, mrun_done, mrun_assign, mrun_assignC, mrun_test, masterAfter_mk, masterReceivedP, masterFrameErrorP, masterCrcErrorP, masterCommP, masterProcessEndP, masterReceived3P, rd_zero, rd_one, masterCorrectP, hf, he, hc, okBind, errBind, pureOk, curMsg, clearRespLen]
        simp [masterAfter_mk, hasEv_before, hasEv_after, mrx_before, mrx_after, ticksOf_before, ticksOf_after, mcut, Bool.or_assoc, Nat.sub_sub, Nat.add_assoc]
        all_goals grind [mark, unmark]


theorem length13 {α : Type} (l : List α) (h : 13 ≤ l.length) :
    ∃ a0 a1 a2 a3 a4 a5 a6 a7 a8 a9 a10 a11 a12 r,
      l = a0 :: a1 :: a2 :: a3 :: a4 :: a5 :: a6 :: a7 :: a8 :: a9 :: a10 :: a11 :: a12 :: r := by
  match l, h with
  | a0 :: a1 :: a2 :: a3 :: a4 :: a5 :: a6 :: a7 :: a8 :: a9 :: a10 :: a11 :: a12 :: r, _ =>
    exact ⟨_, _, _, _, _, _, _, _, _, _, _, _, _, _, rfl⟩

/-- Every interrupted poll of an initialised master without a race has the effect of an atomic one. -/
theorem master_poll_reduces (cfg : Config) (s : Master) (hs : s.drv = true) (hd : s.dataSet = true) (ints : List (List MEv))
    (hnr : noRace (masterInt cfg) (masterPollP cfg) ints s) : MReduces cfg s ints := by
  obtain ⟨ints', hlen, hfl, hrun, hr⟩ := pad_ints (masterInt cfg) (masterPollP cfg) 13 ints s
  suffices h : MReduces cfg s ints' by
    unfold MReduces MAsAtomic at h ⊢
    rw [hfl, hrun] at h
    exact h
  have hnr' := hr.mpr hnr
  clear hr hnr hrun hfl
  obtain ⟨a0, a1, a2, a3, a4, a5, a6, a7, a8, a9, a10, a11, a12, r, rfl⟩ := length13 ints' hlen
  clear hlen
  cases s with
  | mk st drv fq tq ms ds mb tm rc a b c d e tgt =>
  simp only at hs hd
  subst hs; subst hd
  cases st with
  | idle => exact midle_reduces _ _ _ _ _ _ _ _ _
  | repeatRequest => exact repeat_reduces _ _ _ _ _ _ _
  | transmitting => exact mtransmitting_reduces _ _ _ _ _ _ _
  | waiting => exact mwaiting_reduces _ _ _ _ _ _ _ _ _ _ _ _ _ hnr'
  | received => exact mreceived_reduces _ _ _ _ _ _ _ _ _ _ _ _ _ _ hnr'

end Modbus
