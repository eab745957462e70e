import Verif.Spec.Boot

/-! The slave device of `Model/Boot.lean` seen as the device of `Model/Driver.lean`. -/

namespace Modbus.Spec

open Modbus

/-- Library, driver pointers, and flags. -/
def _root_.Modbus.SlaveBoot.sys (d : SlaveBoot) : SlaveSys := ⟨d.lib, d.cur, d.last, d.gap, d.hw.rtof⟩

/-- What an event is for the device of `Model/Driver.lean`: a handler that does not run is nothing, the handler finds the received byte and the TXE bit the
hardware holds, and RTOF is set only after a character. -/
def BootSeen (d : SlaveBoot) : BOp → List HOp
  | .main op => if op.isCall then [.main op] else []
  | .hw .quiet => if d.hw.heard then [.rto] else []
  | .usart => if d.hw.irqU then [.usart d.hw.rdr d.hw.txe] else []
  | .timer => if d.hw.nvicT && d.hw.uif then [.timer] else []
  | _ => []

/-- The same for a history. -/
def bootSeen (cfg : Config) : SlaveBoot → List BOp → List HOp
  | _, [] => []
  | d, op :: ops => BootSeen d op ++ (match bootStep cfg d op with | .ok x => bootSeen cfg x.1 ops | .error _ => [])

/-- The main program makes no call while the UART requests an interrupt. -/
def BootWaits (cfg : Config) : SlaveBoot → List BOp → Prop
  | _, [] => True
  | d, op :: ops => ((∃ x, op = .main x) → d.hw.irqU = false) ∧ ∀ d' o, bootStep cfg d op = .ok (d', o) → BootWaits cfg d' ops

end Modbus.Spec
