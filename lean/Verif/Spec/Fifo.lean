/-! Specification of a first-in first-out queue of bounded capacity, as a plain list (oldest element first). -/

namespace Modbus.Spec

/-- What a user does with a queue of pointers to `α`. -/
inductive QOp (α : Type) where
  /-- push the non-NULL pointer `x` -/
  | push (x : α)
  | pop
  /-- ask whether there is something to pop -/
  | test
  deriving Repr

/-- What the user sees. -/
inductive QRes (α : Type) where
  /-- after a push: the caller's pointer variable -/
  | pushed (ptr : Option α)
  /-- the popped pointer -/
  | popped (ptr : Option α)
  /-- the answer to `test` -/
  | tested (nonEmpty : Bool)
  deriving DecidableEq, Repr

/-- One operation on a FIFO of capacity `n`. -/
def fifoStep {α : Type} (n : Nat) (l : List α) : QOp α → List α × QRes α
  | .push x => if l.length < n then (l ++ [x], .pushed none) else (l, .pushed (some x))
  | .pop =>
    match l with
    | [] => ([], .popped none)
    | x :: l' => (l', .popped (some x))
  | .test => (l, .tested (!l.isEmpty))

/-- A sequence of operations. -/
def fifoRun {α : Type} (n : Nat) : List α → List (QOp α) → List (QRes α)
  | _, [] => []
  | l, op :: ops => (fifoStep n l op).2 :: fifoRun n (fifoStep n l op).1 ops

end Modbus.Spec
