import Verif.Model.QueueSteps
import Verif.Spec.Master

/-! Vocabulary for C88: histories in which interrupt handlers make requests while `update_modbus_master_manager` runs, read as ordinary histories. -/

namespace Modbus.Spec

/-- The requests `rs`, one after the other, with the values `cs` they returned. -/
def asked (rs : List MReq) (cs : List ReqRet) : MTrace := List.zipWith (fun r c => (MOp.request r, [MOut.ret c])) rs cs

/-- An ordinary history in place of one with requests made during polls: a poll during which the requests `ints` arrived is replaced by some of these requests,
the poll, and the other ones; order, return values, and everything the poll puts out are the same. -/
inductive InOrder : List (MQOp × List MOut) → MTrace → Prop
  | nil : InOrder [] []
  | op {o : MOp} {out : List MOut} {t : List (MQOp × List MOut)} {a : MTrace} : InOrder t a → InOrder ((.op o, out) :: t) ((o, out) :: a)
  | poll {ints : List (List MReq)} {pre post : List MReq} {cs ds : List ReqRet} {out : List MOut} {t : List (MQOp × List MOut)} {a : MTrace}
      (h : ints.flatten = pre ++ post) (hc : cs.length = pre.length) (hd : ds.length = post.length) : InOrder t a →
      InOrder ((.pollReq ints, out ++ (cs ++ ds).map .ret) :: t) (asked pre cs ++ (.poll, out) :: (asked post ds ++ a))

/-- The application keeps its side of the contract: no re-initialisation, arrays as long as announced. -/
def QOpsOk (ops : List MQOp) : Prop :=
  (∀ o, MQOp.op o ∈ ops → (∀ m, o ≠ .init m) ∧ ∀ r, o = .request r → QtyOk r → DataOk r) ∧
  ∀ ints, MQOp.pollReq ints ∈ ops → ∀ r ∈ ints.flatten, QtyOk r → DataOk r

/-- Handlers are well timed: in every poll at most one request between any two steps, and none between the read and the write of a counter update. -/
def WellTimed (cfg : Config) : Master → List MQOp → Prop
  | _, [] => True
  | s, .op o :: ops => ∀ s' out, masterStep cfg s o = .ok (s', out) → WellTimed cfg s' ops
  | s, .pollReq ints :: ops =>
    (∀ g ∈ ints, g.length ≤ 1) ∧ noRace (reqInt cfg) (masterPollQ cfg) ints { lib := s, rets := [] } ∧
    ∀ s' out, masterQStep cfg s (.pollReq ints) = .ok (s', out) → WellTimed cfg s' ops

/-- A request is made in the history, by the main program or by a handler during a poll. -/
def AskedIn (ops : List MQOp) (r : MReq) : Prop := .op (.request r) ∈ ops ∨ ∃ ints, .pollReq ints ∈ ops ∧ r ∈ ints.flatten

end Modbus.Spec
