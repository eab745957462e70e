import Verif.Spec.Master

/-! Schedules: what the driver and the application may do during one attempt of a transaction. -/

namespace Modbus

open Spec

/-- Things that may happen at any time: polls, ticks, further request calls (with proper arrays). -/
def MOp.noise : MOp → Prop
  | .poll => True
  | .tick => True
  | .request r => QtyOk r → DataOk r
  | _ => False

/-- The same without polls. -/
def MOp.quiet (op : MOp) : Prop := op.noise ∧ op ≠ .poll

/-- Noise, or what the driver may signal while a frame comes in: a byte, the 3.5-char event, a frame error. -/
def MOp.rxNoise (op : MOp) : Prop := op.noise ∨ (∃ b, op = .rxByte b) ∨ op = .t35 ∨ op = .frameErr

/-- Everything but polls that may happen once the 1.5-char event has been signalled: the driver goes on to deliver bytes, 1.5-char and 3.5-char
events and frame errors (the driver of the example signals a frame error for every byte after the 1.5-char event). -/
def MOp.lateNoise (op : MOp) : Prop := op.quiet ∨ (∃ b, op = .rxByte b) ∨ op = .t15 ∨ op = .t35 ∨ op = .frameErr

/-- Polls, ticks, requests; bytes and frame errors after the check of a response and before the 3.5-char event. -/
def MOp.tailNoise (op : MOp) : Prop := op.noise ∨ (∃ b, op = .rxByte b) ∨ op = .frameErr

/-- The frame error flag after some operations. -/
def feAfter (fe : Flag) (w : List MOp) : Flag := if .frameErr ∈ w then .set else fe

/-- The bytes received in a list of operations. -/
def mBytes (ops : List MOp) : List U8 :=
  ops.filterMap fun op =>
    match op with
    | .rxByte b => some b
    | _ => none

/-- A frame that comes in while the master waits: its bytes (with anything harmless in between), the first 1.5-char event, anything but
polls, among it possibly more bytes and frame errors, and the poll that checks it. -/
structure Heard where
  rx : List MOp
  w : List MOp

/-- The operations. -/
def Heard.ops (h : Heard) : List MOp := h.rx ++ .t15 :: h.w ++ [.poll]

/-- The bytes. -/
def Heard.frame (h : Heard) : List U8 := mBytes h.rx ++ mBytes h.w

/-- The number of ticks. -/
def Heard.ticks (h : Heard) : Nat := tickCount h.rx + tickCount h.w

/-- At least one byte, no overrun of the buffer; no poll between the 1.5-char event and the check. -/
structure Heard.Wf (h : Heard) : Prop where
  rx : ∀ op ∈ h.rx, op.rxNoise
  w : ∀ op ∈ h.w, op.lateNoise
  some : h.frame ≠ []
  le : h.frame.length ≤ 255

/-- One attempt of a transaction, from the transmission to the poll that processes the response: `w1`, transmission complete,
`w2`, poll; any number of frames of other slaves; the response; `w4`, the (first) 3.5-char event, `w5`, poll. -/
structure Attempt where
  w1 : List MOp
  w2 : List MOp
  others : List Heard
  resp : Heard
  w4 : List MOp
  w5 : List MOp

/-- All operations of the attempt but the last poll. -/
def Attempt.init (a : Attempt) : List MOp :=
  a.w1 ++ .txDone :: a.w2 ++ .poll :: a.others.flatMap Heard.ops ++ a.resp.ops ++ a.w4 ++ .t35 :: a.w5

/-- The operations of the attempt. -/
def Attempt.ops (a : Attempt) : List MOp := a.init ++ [.poll]

/-- The driver signals a frame error during the attempt. -/
def Attempt.broken (a : Attempt) : Prop := .frameErr ∈ a.others.flatMap Heard.ops ++ a.resp.ops ++ a.w4

instance (a : Attempt) : Decidable a.broken := by unfold Attempt.broken; infer_instance

/-- The attempt of request `r` with response timeout `T`: the response comes from the addressed slave, the other frames do
not, the response has been checked before the last but one tick of the timeout, and the buffer does not overrun. -/
structure Attempt.Wf (T : Nat) (r : MReq) (a : Attempt) : Prop where
  w1 : ∀ op ∈ a.w1, op.noise
  w2 : ∀ op ∈ a.w2, op.quiet
  others : ∀ h ∈ a.others, h.Wf ∧ h.frame.getD 0 0 ≠ reqSlave r
  resp : a.resp.Wf ∧ a.resp.frame.getD 0 0 = reqSlave r
  time : (a.others.map Heard.ticks).sum + a.resp.ticks + 1 < T
  w4 : ∀ op ∈ a.w4, op.tailNoise
  room : a.resp.frame.length + (mBytes a.w4).length ≤ 255
  w5 : ∀ op ∈ a.w5, op.quiet

end Modbus

namespace Modbus

open Spec

/-- A pending error, as a flag value. -/
def flagOf (b : Bool) : Flag := if b then .set else .cleared

/-- Idle, no stale 1.5-char event; a frame error (`fe`), a CRC error (`ce`) left over from before or not. -/
structure Standing (fe ce : Bool) (s : Master) : Prop where
  st : s.st = .idle
  t15 : s.t15 = .cleared
  ferr : s.ferr = flagOf fe
  crcf : s.crcf = flagOf ce

/-- Consecutive failed attempts of request `r`, each with a frame error or a CRC error, where an error left over from before
(`fe`, `ce`) counts as well. If a frame error and a CRC error come together, the CRC error stays for the next attempt. -/
inductive Failed (T : Nat) (r : MReq) : Bool → Bool → List Attempt → Bool → Bool → Prop
  | nil (fe ce : Bool) : Failed T r fe ce [] fe ce
  | frame {fe ce ce1 fe' ce' : Bool} {a : Attempt} {as : List Attempt} (h : a.Wf T r) (h1 : fe = true ∨ a.broken)
      (h2 : ce1 = true ↔ ce = true ∨ ¬ CrcCorrect a.resp.frame) (h3 : Failed T r false ce1 as fe' ce') :
      Failed T r fe ce (a :: as) fe' ce'
  | crc {ce fe' ce' : Bool} {a : Attempt} {as : List Attempt} (h : a.Wf T r) (h1 : ¬ a.broken)
      (h2 : ce = true ∨ ¬ CrcCorrect a.resp.frame) (h3 : Failed T r false false as fe' ce') : Failed T r false ce (a :: as) fe' ce'

end Modbus
