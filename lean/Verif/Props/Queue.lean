import Verif.Proofs.Queue
import Verif.Spec.Fifo

/-! C28: the request queue is a bounded FIFO. -/

namespace Modbus

open Spec

variable {α : Type}

/-- One operation on the implementation (`modbus_queue_push`, `modbus_queue_pop`, the emptiness test of
`src/modbus_master.c:631-634`). -/
def queueStep (n : Nat) (q : Queue α) : QOp α → C (Queue α × QRes α)
  | .push x => do
    let (q', d) ← q.push n (some x)
    return (q', .pushed d)
  | .pop => do
    let (r, q') ← q.pop n
    return (q', .popped r)
  | .test => .ok (q, .tested q.available)

/-- A sequence of operations on the implementation. -/
def queueRun (n : Nat) : Queue α → List (QOp α) → C (List (QRes α))
  | _, [] => .ok []
  | q, op :: ops => do
    let (q', r) ← queueStep n q op
    let rs ← queueRun n q' ops
    return r :: rs

theorem queueStep_rep {n : Nat} (hn : n ≤ 255) {q : Queue α} {l : List α} (h : q.Rep n l) (op : QOp α) :
    ∃ q', queueStep n q op = .ok (q', (fifoStep n l op).2) ∧ q'.Rep n (fifoStep n l op).1 := by
  cases op with
  | push x =>
    simp only [queueStep, fifoStep]
    split
    · obtain ⟨q', h1, h2⟩ := h.push_ok hn (by assumption) x
      exact ⟨q', by rw [h1]; rfl, h2⟩
    · have := h.len_le
      exact ⟨q, by rw [h.push_full (by omega)]; rfl, h⟩
  | pop =>
    cases l with
    | nil => exact ⟨q, by simp only [queueStep, h.pop_nil]; rfl, h⟩
    | cons x l =>
      obtain ⟨q', h1, h2⟩ := h.pop_cons hn
      exact ⟨q', by simp only [queueStep, h1]; rfl, h2⟩
  | test => exact ⟨q, by simp only [queueStep, fifoStep, h.available], h⟩

theorem queueRun_rep {n : Nat} (hn : n ≤ 255) (ops : List (QOp α)) {q : Queue α} {l : List α} (h : q.Rep n l) :
    queueRun n q ops = .ok (fifoRun n l ops) := by
  induction ops generalizing q l with
  | nil => rfl
  | cons op ops ih =>
    obtain ⟨q', h1, h2⟩ := queueStep_rep hn h op
    simp only [queueRun, h1, ok_bind, ih h2]
    rfl

/-- **C28**. For every capacity `1..255`, whatever the queue memory contained before, and every sequence of
pushes, pops and emptiness tests after `modbus_queue_init`, the implementation shows exactly what a FIFO of that
capacity shows, and never accesses its array out of bounds. -/
theorem C28_queue_is_bounded_fifo (n : Nat) (h1 : 1 ≤ n) (h2 : n ≤ 255) (q : Queue α) (ops : List (QOp α)) :
    queueRun n q.init ops = .ok (fifoRun n [] ops) :=
  queueRun_rep h2 ops (Queue.init_rep n h1 q)

/-- The same for a queue that is only zero initialised (the statics before `modbus_master_init`). -/
theorem C28_zero_queue_is_bounded_fifo (n : Nat) (h1 : 1 ≤ n) (h2 : n ≤ 255) (ops : List (QOp α)) :
    queueRun n (Queue.zero : Queue α) ops = .ok (fifoRun n [] ops) :=
  queueRun_rep h2 ops (Queue.zero_rep n h1)

/-- Non-vacuity: what the specification says for a full, wrapping queue of capacity 2. -/
example : fifoRun 2 [] [.push 7, .push 8, .push 9, .pop, .push 10, .pop, .pop, .test, .pop] =
    [.pushed none, .pushed none, .pushed (some 9), .popped (some 7), .pushed none, .popped (some 8),
     .popped (some 10), .tested false, (.popped none : QRes Nat)] := by decide

/-- Why the capacity bound is needed: with 256 slots the 8 bit item counter wraps, the 256th element makes the queue
look empty and everything in it is lost. (Shown from the state reached after 255 pushes.) -/
theorem C28_capacity_256_loses_everything (q : Queue α) (hh : q.head = 255) (ht : q.tail = 0) (hi : q.items = 255)
    (x : α) : ∃ q', q.push 256 (some x) = .ok (q', none) ∧ q'.pop 256 = .ok (none, q') := by
  refine ⟨{ q with arr := fun j => if j = 255 then some x else q.arr j, items := 0, head := 0 }, ?_, ?_⟩
  · simp [Queue.push, hh, ht, hi, slotWr]
  · simp [Queue.pop, ht]

end Modbus
