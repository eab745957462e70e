import Verif.Model.Callbacks
import Verif.Spec.Master

/-! Vocabulary for C80: histories in which callbacks make request calls, read as ordinary histories. -/

namespace Modbus.Spec

/-- The application only makes request calls inside its callbacks, `sc[k]` those inside the `k`-th callback of the poll. -/
def calls (sc : List (List MReq)) : List (List AppCall) := sc.map (·.map .request)

/-- A return value of a request call. -/
def isRetOut : MOut → Bool
  | .ret _ => true
  | _ => false

/-- A callback. -/
def isEventOut : MOut → Bool
  | .event _ => true
  | _ => false

/-- The request call, if it is one. -/
def reqOf : AppCall → Option MReq
  | .request r => some r
  | .poll => none

/-- The request calls made during a poll that made as many callbacks as `out` shows. -/
def madeIn (script : List (List AppCall)) (out : List MOut) : List MReq :=
  ((script.take (out.countP isEventOut)).flatten).filterMap reqOf

/-- An entry of a trace read as ordinary operations: a poll whose callbacks make request calls becomes those request calls, in the order in which they were
made and each with the value it returned, followed by the poll with its callbacks. -/
def asOrdinary : MCOp × List MOut → MTrace
  | (.op o, out) => [(o, out)]
  | (.pollCb script, out) =>
    List.zipWith (fun r x => (MOp.request r, [x])) (madeIn script out) (out.filter isRetOut) ++ [(.poll, out.filter (fun o => !isRetOut o))]

/-- The application keeps its side of the contract, also in its callbacks: no re-initialisation, arrays as long as announced, and no call of
`update_modbus_master_manager` from inside a callback. -/
def COpsOk (ops : List MCOp) : Prop :=
  (∀ o, MCOp.op o ∈ ops → (∀ m, o ≠ .init m) ∧ ∀ r, o = .request r → QtyOk r → DataOk r) ∧
  ∀ script, MCOp.pollCb script ∈ ops → ∃ sc, script = calls sc ∧ ∀ rs ∈ sc, ∀ r ∈ rs, QtyOk r → DataOk r

end Modbus.Spec
