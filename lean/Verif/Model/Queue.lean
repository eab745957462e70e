import Verif.Model.Basic

/-! Model of `src/master_internall/modbus_queue.c` and the struct of `src/master_internall/modbus_queue.h:34-40`. -/

namespace Modbus

/-- `modbus_queue_t`, `src/master_internall/modbus_queue.h:34-40`. The array of pointers is a function from index
to pointer (`none` = NULL); only indices below the capacity are accessible, see `slotWr` and `slotRd`. -/
structure Queue (α : Type) where
  head : U8
  tail : U8
  items : U8
  arr : Nat → Option α

/-- A zero initialised static queue (`src/modbus_master.c:51-52`). -/
def Queue.zero {α : Type} : Queue α := { head := 0, tail := 0, items := 0, arr := fun _ => none }

/-- `q->modbus_msg[i] = p` for an array of `n` pointers. `src/master_internall/modbus_queue.c:62`, `:70`, `:99`, `:107`. -/
def slotWr {α : Type} (n : Nat) (a : Nat → Option α) (i : Nat) (p : Option α) : C (Nat → Option α) :=
  if i < n then .ok (fun j => if j = i then p else a j) else .error .oobWrite

/-- `q->modbus_msg[i]` for an array of `n` pointers. `src/master_internall/modbus_queue.c:98`, `:106`. -/
def slotRd {α : Type} (n : Nat) (a : Nat → Option α) (i : Nat) : C (Option α) :=
  if i < n then .ok (a i) else .error .oobRead

/-- `modbus_queue_init`, `src/master_internall/modbus_queue.c:27-33`. The array is left as it is. -/
def Queue.init {α : Type} (q : Queue α) : Queue α := { q with head := 0, tail := 0, items := 0 }

/-- `modbus_queue_push(q, &data)`, `src/master_internall/modbus_queue.c:50-75`: the new queue and the new value of the
caller's pointer. `n` is `MODBUS_MASTER_MAX_MSG_QUEUE_ITEMS`; `new_head` is computed in `int` and truncated when stored. -/
def Queue.push {α : Type} (n : Nat) (q : Queue α) (data : Option α) : C (Queue α × Option α) :=
  if n = 0 then .error .divZero
  else
    let newHead : U8 := BitVec.ofNat 8 ((q.head.toNat + 1) % n)
    if q.head = q.tail then
      if q.items.toNat = n then .ok (q, data)
      else do
        let arr ← slotWr n q.arr q.head.toNat data
        return ({ q with arr := arr, items := q.items + 1, head := newHead }, none)
    else do
      let arr ← slotWr n q.arr q.head.toNat data
      return ({ q with arr := arr, items := q.items + 1, head := newHead }, none)

/-- `modbus_queue_pop`, `src/master_internall/modbus_queue.c:86-113`: the popped pointer (`none` = NULL) and the new queue. -/
def Queue.pop {α : Type} (n : Nat) (q : Queue α) : C (Option α × Queue α) :=
  if q.head = q.tail ∧ q.items = 0 then .ok (none, q)
  else do
    let ret ← slotRd n q.arr q.tail.toNat
    let arr ← slotWr n q.arr q.tail.toNat none
    if n = 0 then .error .divZero
    else return (ret, { q with arr := arr, items := q.items - 1,
                               tail := BitVec.ofNat 8 ((q.tail.toNat + 1) % n) })

/-- `check_data_to_send_availability`, `src/modbus_master.c:631-634`. -/
def Queue.available {α : Type} (q : Queue α) : Bool := decide (q.head ≠ q.tail ∨ 0 < q.items.toNat)

end Modbus
