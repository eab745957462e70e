import Verif.Props.Serial
import Verif.Props.BusDemo

/-! Non-vacuity of C94: the devices of `BusDemo`. -/

namespace Modbus

open Spec

theorem bd_accepted : accepted (mainTrace (bm.trace 2)) = [bdReq] := rfl

/-- **C94** is about something: on the line of `BusDemo` the request to write 0xAABB to register 7 of slave 9 is in the history of the slave's data, and its report among those
of the history. -/
theorem C94_happens : ∃ (D : Nat → List Tx) (H : Nat → List Act) (N : Nat),
    SerialLine (ι := Unit) (bdCfg.queueItems * (bdTimes.most bdCfg.respTimeout + bdTimes.Pm)) (fun _ => Config.default.limits) (fun _ => 9) bm (fun _ => bs) D (fun _ => H) ∧
    ∀ k, N < k → [bdReq] <+: (H k).filterMap Act.req? ∧ (bs.st k).lib.mem = (runActs Config.default.limits (bs.st 0).lib.mem (H k)).1 := by
  obtain ⟨B, hf, hw, hc, -⟩ := bus_demo
  obtain ⟨D, H, S⟩ := C94_bus_is_serial hw hc B hf
  obtain ⟨m, -, -, h⟩ := S.served 2
  rw [bd_accepted] at h
  refine ⟨D, H, m + 1, S, fun k hk => ⟨?_, (S.slave ()).data k⟩⟩
  have h1 := (((S.slave ()).finished_at (q := m + 1) (k := k) hk).1)
  have h2 := (h (m + 1) (Nat.lt_succ_self _)).filter fun r => decide (reqSlave r = 9)
  exact List.IsPrefix.trans h2 h1

end Modbus
