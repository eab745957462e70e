import Verif.Model.Boot

/-! When a line with traffic on it leaves a slave device enough time for its initialisation. -/

namespace Modbus.Spec

open Modbus

/-- An event does not come too early: from the moment the UART is switched on, no character is complete before the library has subscribed the end of
transmission, and neither 1.5 nor 3.5 characters of silence pass before it has subscribed the last callback. -/
def BootTimely (d : SlaveBoot) : BOp → Prop
  | .hw (.char _) => d.hw.ue = true → d.cbTx = true
  | .hw .quiet => d.hw.heard = true → d.cbErr = true
  | .hw .expire => d.hw.cen = true → d.cbErr = true
  | _ => True

/-- No event of a history comes too early. -/
def BootInTime (cfg : Config) : SlaveBoot → List BOp → Prop
  | _, [] => True
  | d, op :: ops => BootTimely d op ∧ ∀ d' o, bootStep cfg d op = .ok (d', o) → BootInTime cfg d' ops

/-- The calls of the main program are legal ones (registrations inside the tables). -/
def BootLegal (legal : SOp → Prop) : BOp → Prop
  | .main op => legal op
  | _ => True

/-- The byte whose reception an event completes. -/
def BootArrived : BOp → List U8
  | .hw (.char b) => [b]
  | _ => []

/-- The call the main program makes. -/
def BootCalled : BOp → List SOp
  | .main op => [op]
  | _ => []

end Modbus.Spec
