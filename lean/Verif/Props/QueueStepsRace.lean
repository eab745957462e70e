import Verif.Props.QueueSteps
import Verif.Props.MasterExamples
import Verif.Props.FaultExamples
import Verif.Props.Callbacks

/-! C88, the other half: badly timed requests. The library has no protection against them. -/

namespace Modbus
open Spec

/-- Requests to slave 9, told apart by the address they read. -/
def qA : MReq := .readHoldingReg 7 1 9
def qB : MReq := .readHoldingReg 8 1 9
def qC : MReq := .readHoldingReg 9 1 9
def qD : MReq := .readHoldingReg 10 1 9

/-- `l` arrives before the `k`-th step of a poll, nothing before. -/
def gap (k : Nat) (l : List MReq) : List (List MReq) := List.replicate k [] ++ [l]

/-- The request is sent and nobody answers until the timeout is due. -/
def silence : List MQOp := [.op .txDone, .op .poll, .op .tick, .op .tick]

/-- The outputs of a history, empty ones left out. -/
def outsQ (r : C (Master × List (MQOp × List MOut))) : List (List MOut) :=
  match r with
  | .ok (_, tr) => (tr.map Prod.snd).filter (· ≠ [])
  | .error _ => []

/-- The undefined behaviour a history ends in, if it does. -/
def ubQ (r : C (Master × List (MQOp × List MOut))) : Option UB :=
  match r with
  | .ok _ => none
  | .error u => some u

/-- What follows the poll during which request B arrives. -/
def afterB : List MQOp := silence ++ [.op .poll, .op .poll] ++ silence ++ [.op .poll, .op .poll]

/-- **C88** is false when a request arrives between the read and the write of `q->items_in_queue--`: here B is accepted while A is being taken from the queue,
the counter goes back to 0, and after both transactions have ended the counter has wrapped below zero: an idle poll takes a message from an empty queue and the
library dereferences a null pointer. The same request just before or just after that poll does no harm. -/
theorem C88_counter_violated :
    ubQ (masterQRun smallCfg Master.powerOn ([.op (.init .rtu), .op (.request qA), .pollReq (gap 6 [qB])] ++ afterB)) = some .nullDeref ∧
    ubQ (masterQRun smallCfg Master.powerOn ([.op (.init .rtu), .op (.request qA), .op (.request qB), .op .poll] ++ afterB)) = none ∧
    ubQ (masterQRun smallCfg Master.powerOn ([.op (.init .rtu), .op (.request qA), .op .poll, .op (.request qB)] ++ afterB)) = none := by
  refine ⟨?_, ?_, ?_⟩ <;> decide +kernel

/-- Both transactions that are still outstanding are carried out and end with timeouts. -/
def finishAll : List MQOp := [.op .poll] ++ silence ++ [.op .poll, .op .poll] ++ silence ++ [.op .poll, .op .poll]

/-- A and B are requested (all messages there are), A is sent and times out. -/
def beforeC : List MQOp := [.op (.init .rtu), .op (.request qA), .op (.request qB), .op .poll] ++ silence

/-- What a history puts out in the end, at two requests. -/
def lastTwo (r : C (Master × List (MQOp × List MOut))) : List (List MOut) := (outsQ r).drop ((outsQ r).length - 2)

/-- **C88** is false also when no counter update is torn, but two requests arrive between two steps: in the poll that ends transaction A, after the counter of the
free messages has been incremented and before the head of their queue moves. The queue then has its head behind its tail, and the second request (refused, there
is only one free message) takes an empty slot: one of the two messages is lost for good. When all transactions have ended, two requests cannot be accepted
any more. -/
theorem C88_two_requests_violated :
    lastTwo (masterQRun smallCfg Master.powerOn (beforeC ++ [.pollReq (gap 15 [qC, qD])] ++ finishAll ++ [.op (.request qA), .op (.request qB)])) =
      [[.ret .sendToQueue], [.ret .freeQueueEmpty]] ∧
    lastTwo (masterQRun smallCfg Master.powerOn (beforeC ++ [.op .poll, .op (.request qC), .op (.request qD)] ++ finishAll ++ [.op (.request qA), .op (.request qB)])) =
      [[.ret .sendToQueue], [.ret .sendToQueue]] ∧
    lastTwo (masterQRun smallCfg Master.powerOn (beforeC ++ [.op (.request qC), .op (.request qD), .op .poll] ++ finishAll ++ [.op (.request qA), .op (.request qB)])) =
      [[.ret .sendToQueue], [.ret .sendToQueue]] := by
  refine ⟨?_, ?_, ?_⟩ <;> decide +kernel

/-- The condition on a poll, as a computation. -/
def noRaceQ {σ ω ε : Type} (int : σ → ε → C σ) : Prog σ ω ε → List (List ε) → σ → Bool
  | .done, _, _ => true
  | .step race f k, ints, s =>
    (ints.headD []).all (fun e => !race s e) &&
    match runInts int s (ints.headD []) with
    | .error _ => true
    | .ok s1 =>
      match f s1 with
      | .error _ => true
      | .ok (a, s2, _) => noRaceQ int (k a) ints.tail s2

theorem noRaceQ_sound {σ ω ε : Type} {int : σ → ε → C σ} (p : Prog σ ω ε) : ∀ {ints : List (List ε)} {s : σ}, noRaceQ int p ints s = true →
    noRace int p ints s := by
  induction p with
  | done => exact fun _ => trivial
  | step race f k ih =>
    intro ints s h
    simp only [noRaceQ, Bool.and_eq_true, List.all_eq_true, Bool.not_eq_true'] at h
    refine ⟨h.1, fun s1 a s2 o2 h1 h2 => ih a ?_⟩
    have := h.2
    rw [h1] at this
    simp only [h2] at this
    exact this

/-- The condition on a history, as a computation. -/
def wellTimedB (cfg : Config) : Master → List MQOp → Bool
  | _, [] => true
  | s, op :: ops =>
    (match op with
      | .pollReq ints => ints.all (fun g => decide (g.length ≤ 1)) && noRaceQ (reqInt cfg) (masterPollQ cfg) ints { lib := s, rets := [] }
      | .op _ => true) &&
    match masterQStep cfg s op with
    | .ok (s', _) => wellTimedB cfg s' ops
    | .error _ => true

theorem wellTimedB_sound {cfg : Config} (ops : List MQOp) : ∀ {s : Master}, wellTimedB cfg s ops = true → WellTimed cfg s ops := by
  induction ops with
  | nil => exact fun _ => trivial
  | cons op ops ih =>
    intro s h
    simp only [wellTimedB, Bool.and_eq_true] at h
    obtain ⟨h1, h2⟩ := h
    cases op with
    | op o =>
      intro s' out e
      rw [show masterQStep cfg s (.op o) = .ok (s', out) from e] at h2
      exact ih h2
    | pollReq ints =>
      simp only [Bool.and_eq_true, List.all_eq_true, decide_eq_true_eq] at h1
      refine ⟨h1.1, noRaceQ_sound _ h1.2, ?_⟩
      intro s' out e
      rw [e] at h2
      exact ih h2

/-- A history with requests in the middle of polls: B while A is taken from the queue, C while the message of A goes back to the free ones. -/
def calmQ : List MQOp := [.op (.request qA), .pollReq (gap 4 [qB])] ++ silence ++ [.pollReq (gap 15 [qC])] ++ finishAll

/-- The state after initialisation. -/
def initQ : Master := match masterStep smallCfg Master.powerOn (.init .rtu) with | .ok (s, _) => s | .error _ => Master.powerOn

theorem initQ_ok : masterStep smallCfg Master.powerOn (.init .rtu) = .ok (initQ, []) := rfl

theorem calmQ_ok : QOpsOk calmQ := by
  constructor
  · intro o ho
    simp only [calmQ, silence, finishAll, List.mem_append, List.mem_cons, List.not_mem_nil, or_false, MQOp.op.injEq, reduceCtorEq, or_assoc, false_or] at ho
    rcases ho with rfl | ho
    · exact ⟨nofun, by rintro r ⟨⟩ -; trivial⟩
    · refine ⟨?_, ?_⟩
      · rintro m rfl; simp at ho
      · rintro r rfl; simp at ho
  · intro ints hi
    simp only [calmQ, silence, finishAll, List.mem_append, List.mem_cons, List.not_mem_nil, or_false, MQOp.pollReq.injEq, reduceCtorEq, or_assoc, false_or] at hi
    rcases hi with rfl | rfl <;> intro r hr _ <;>
      simp [gap] at hr <;> rcases hr with rfl | hr <;> first | trivial | (cases hr)

/-- The premises of `C88_requests_in_interrupts_partial` and of `C88_defined_partial` are met by this history; all three requests are accepted, sent in order,
and end. -/
theorem C88_example : QOpsOk calmQ ∧ WellTimed smallCfg initQ calmQ ∧
    ubQ (masterQRun smallCfg initQ calmQ) = none ∧
    (outsQ (masterQRun smallCfg initQ calmQ)).map (fun o => o.filterMap fun x => match x with | .send f => some f | _ => none) =
      [[], [reqFrame qA], [], [reqFrame qB], [], [reqFrame qC], []] ∧
    (outsQ (masterQRun smallCfg initQ calmQ)).map (fun o => o.filterMap fun x => match x with | .ret c => some c | _ => none) =
      [[.sendToQueue], [.sendToQueue], [.sendToQueue], [], [], [], []] :=
  ⟨calmQ_ok, wellTimedB_sound _ (by decide +kernel), by decide +kernel, by decide +kernel, by decide +kernel⟩

end Modbus
