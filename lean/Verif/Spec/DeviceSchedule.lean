import Verif.Spec.Wire
import Verif.Spec.MasterSchedule

/-! Schedules of a master device (library and driver): what may happen, in which order, during one transaction. -/

namespace Modbus

open Spec

/-- Polls, ticks, request calls; UART interrupts without a byte (among them the transmit interrupts). -/
def HMOp.noise : HMOp → Prop
  | .main op => op.noise
  | .usart none _ => True
  | _ => False

/-- The same without polls. -/
def HMOp.quiet : HMOp → Prop
  | .main op => op.quiet
  | .usart none _ => True
  | _ => False

/-- Noise, received bytes, and the 3.5 character timer. -/
def HMOp.rxNoise : HMOp → Prop
  | .main op => op.noise
  | .usart _ _ => True
  | .timer => True
  | .rto => False

/-- Anything but polls. -/
def HMOp.late : HMOp → Prop
  | .main op => op.quiet
  | _ => True

/-- Noise and received bytes. -/
def HMOp.tail : HMOp → Prop
  | .main op => op.noise
  | .usart _ _ => True
  | _ => False

/-- The bytes received by a master device. -/
def hmBytes (ops : List HMOp) : List U8 :=
  ops.filterMap fun op =>
    match op with
    | .usart (some b) _ => some b
    | _ => none

/-- The number of ticks. -/
def hmTicks (ops : List HMOp) : Nat := ops.count (.main .tick)

/-- Has the hardware seen 1.5 characters of silence for which the interrupt has not been taken yet? (`p`: before.) -/
def silent (p : Bool) : List HMOp → Bool
  | [] => p
  | .rto :: ops => silent true ops
  | .usart _ _ :: ops => silent false ops
  | _ :: ops => silent p ops

/-- Does a byte come in after 1.5 characters of silence and before the 3.5 character timer fires? (`g`: such a silence has been seen
before; `p`: see `silent`.) -/
def lateByte (g p : Bool) : List HMOp → Bool
  | [] => false
  | .rto :: ops => lateByte g true ops
  | .usart (some _) _ :: ops => g || lateByte (g || p) false ops
  | .usart none _ :: ops => lateByte (g || p) false ops
  | .timer :: ops => lateByte false p ops
  | .main _ :: ops => lateByte g p ops

/-- A frame that comes in: `rx`, then 1.5 characters of silence (`rto`), possibly calls of the main program, and the interrupt for it, which may
still deliver the last byte; then anything but polls, and the poll that checks the frame. -/
structure HMHeard where
  rx : List HMOp
  mid : List MOp
  fb : Option U8
  ft : Bool
  w : List HMOp

/-- The events. -/
def HMHeard.ops (h : HMHeard) : List HMOp := h.rx ++ .rto :: h.mid.map .main ++ .usart h.fb h.ft :: h.w ++ [.main .poll]

/-- The bytes that come in before the check. -/
def HMHeard.frame (h : HMHeard) : List U8 := hmBytes h.rx ++ h.fb.toList ++ hmBytes h.w

/-- At least one byte and no overrun of the buffer; later silences have been noticed before the check. -/
structure HMHeard.Wf (h : HMHeard) : Prop where
  rx : ∀ op ∈ h.rx, op.rxNoise
  mid : ∀ op ∈ h.mid, op.noise
  w : ∀ op ∈ h.w, op.late
  settled : silent false h.w = false
  some : h.frame ≠ []
  le : h.frame.length ≤ 255

/-- The number of ticks. -/
def HMHeard.ticks (h : HMHeard) : Nat := hmTicks h.rx + tickCount h.mid + hmTicks h.w

/-- One attempt of a transaction of a master device, from the poll that starts the transmission to the poll that processes the response. -/
structure HMAttempt where
  /-- while the request is transmitted: all transmit interrupts but the last -/
  tx : List HMOp
  /-- after the last transmit interrupt, until the next poll -/
  w2 : List HMOp
  /-- frames of other slaves -/
  others : List HMHeard
  /-- the response -/
  resp : HMHeard
  /-- until the 3.5 character timer fires -/
  w4 : List HMOp
  /-- until the next poll -/
  w5 : List HMOp

/-- What happens between the end of the transmission and the 3.5 character timer at the end of the response. -/
def HMAttempt.line (a : HMAttempt) : List HMOp := a.others.flatMap HMHeard.ops ++ a.resp.ops ++ a.w4

/-- The events between the first and the last poll. -/
def HMAttempt.init (a : HMAttempt) : List HMOp := a.tx ++ .usart none true :: a.w2 ++ .main .poll :: a.line ++ .timer :: a.w5

/-- The events with the last poll. -/
def HMAttempt.ops (a : HMAttempt) : List HMOp := a.init ++ [.main .poll]

/-- Somewhere in the attempt bytes come in after a silence of 1.5, but before one of 3.5 characters. -/
def HMAttempt.gapped (a : HMAttempt) : Bool := lateByte false false a.line

/-- An attempt of request `r` with response timeout `T`: one transmit interrupt per byte of the request; a poll after the transmission and
before the response, and one between the 1.5 and the 3.5 character events; the response comes from the addressed slave, the other frames do
not; the response has been checked before the last but one tick of the timeout; the buffer does not overrun. -/
structure HMAttempt.Wf (T : Nat) (r : MReq) (a : HMAttempt) : Prop where
  tx : ∀ op ∈ a.tx, op.noise
  txIrqs : a.tx.count (.usart none true) + 1 = (reqFrame r).length
  w2 : ∀ op ∈ a.w2, op.quiet
  others : ∀ h ∈ a.others, h.Wf ∧ h.frame.getD 0 0 ≠ reqSlave r
  resp : a.resp.Wf ∧ a.resp.frame.getD 0 0 = reqSlave r
  time : (a.others.map HMHeard.ticks).sum + a.resp.ticks + 1 < T
  w4 : ∀ op ∈ a.w4, op.tail
  room : a.resp.frame.length + (hmBytes a.w4).length ≤ 255
  w5 : ∀ op ∈ a.w5, op.quiet

/-- Consecutive failed attempts of request `r` of a device, each with a gap or a wrong CRC, where an error left over from before (`fe`, `ce`) counts as
well. If both come together, the CRC error stays for the next attempt (compare `Failed`). -/
inductive HFailed (T : Nat) (r : MReq) : Bool → Bool → List HMAttempt → Bool → Bool → Prop
  | nil (fe ce : Bool) : HFailed T r fe ce [] fe ce
  | frame {fe ce ce1 fe' ce' : Bool} {a : HMAttempt} {as : List HMAttempt} (h : a.Wf T r) (h1 : fe = true ∨ a.gapped = true)
      (h2 : ce1 = true ↔ ce = true ∨ ¬ CrcCorrect a.resp.frame) (h3 : HFailed T r false ce1 as fe' ce') :
      HFailed T r fe ce (a :: as) fe' ce'
  | crc {ce fe' ce' : Bool} {a : HMAttempt} {as : List HMAttempt} (h : a.Wf T r) (h1 : a.gapped = false)
      (h2 : ce = true ∨ ¬ CrcCorrect a.resp.frame) (h3 : HFailed T r false false as fe' ce') : HFailed T r false ce (a :: as) fe' ce'

end Modbus
