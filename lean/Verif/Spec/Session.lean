import Verif.Spec.DeviceSchedule

/-! Sessions of a master device: several transactions, one after the other. -/

namespace Modbus

open Spec

/-- The events of failed attempts, each followed by the poll that transmits again. -/
def hretries (as : List HMAttempt) : List HMOp := as.flatMap fun a => a.ops ++ [.main .poll]

/-- An attempt that nobody answers, from the poll that starts the transmission to the poll that reports the timeout. -/
structure HTimeout where
  /-- while the request is transmitted: all transmit interrupts but the last -/
  tx : List HMOp
  /-- after the last transmit interrupt, until the next poll -/
  w2 : List HMOp
  /-- frames of other slaves -/
  others : List HMHeard
  /-- until the last but one tick of the timeout -/
  w3 : List HMOp
  /-- from this tick to the next poll -/
  w4 : List HMOp

/-- What happens between the end of the transmission and the last poll. -/
def HTimeout.line (t : HTimeout) : List HMOp := t.others.flatMap HMHeard.ops ++ t.w3 ++ .main .tick :: t.w4

/-- The events between the first and the last poll. -/
def HTimeout.init (t : HTimeout) : List HMOp := t.tx ++ .usart none true :: t.w2 ++ .main .poll :: t.line

/-- Somewhere in the attempt bytes come in after a silence of 1.5, but before one of 3.5 characters. -/
def HTimeout.gapped (t : HTimeout) : Bool := lateByte false false t.line

/-- An unanswered attempt of request `r` with response timeout `T`: whole frames come from other slaves only; bytes may come in that are no
frame yet; there is a poll between the last but one tick and the last one (without it the timeout is missed, C37). -/
structure HTimeout.Wf (T : Nat) (r : MReq) (t : HTimeout) : Prop where
  tx : ∀ op ∈ t.tx, op.noise
  txIrqs : t.tx.count (.usart none true) + 1 = (reqFrame r).length
  w2 : ∀ op ∈ t.w2, op.quiet
  others : ∀ h ∈ t.others, h.Wf ∧ h.frame.getD 0 0 ≠ reqSlave r
  w3 : ∀ op ∈ t.w3, op.rxNoise
  w4 : ∀ op ∈ t.w4, op.rxNoise ∧ op ≠ .main .poll ∧ op ≠ .main .tick
  room : (hmBytes t.w3).length + (hmBytes t.w4).length ≤ 255
  time : (t.others.map HMHeard.ticks).sum + hmTicks t.w3 + 2 = T

/-- How the last attempt of a transaction ends. -/
inductive HEnd where
  | answer (a : HMAttempt)
  | silence (t : HTimeout)

/-- The events of the last attempt, without the last poll. -/
def HEnd.init : HEnd → List HMOp
  | .answer a => a.init
  | .silence t => t.init

/-- A transaction: some calls of the main program other than polls (requests, ticks), the poll that transmits the request, failed attempts, the last
attempt. -/
structure HRound where
  req : MReq
  before : List MOp
  fails : List HMAttempt
  last : HEnd

/-- The events of the transaction without the last poll. -/
def HRound.init (d : HRound) : List HMOp := d.before.map .main ++ .main .poll :: hretries d.fails ++ d.last.init

/-- The events of the transaction. -/
def HRound.ops (d : HRound) : List HMOp := d.init ++ [.main .poll]

/-- What the application is told in the end. -/
inductive Told where
  /-- the values (or confirmation, or exception) in this response -/
  | response (f : List U8)
  /-- a communication error of this kind -/
  | failed (e : RespErr)
  /-- a timeout -/
  | nothing

/-- The callbacks. -/
def Told.says (r : MReq) : Told → List MEvent → Prop
  | .response f, evs => evs = responseEvents r f
  | .failed e, evs => ∃ rep, evs = [.commErr rep] ∧ rep.slave = reqSlave r ∧ rep.err = e
  | .nothing, evs => ∃ rep, evs = [.timeoutErr rep] ∧ rep.slave = reqSlave r ∧ rep.adr = reqAdr r ∧ rep.qty = reqField r ∧ rep.err = .timeout

/-- A transaction with response timeout `T` and `R` retries, what it comes to, and which errors are left over before and after it; `G` says which
frames count as good responses. -/
inductive HRound.OkWith (G : MReq → List U8 → Prop) (T R : Nat) : Bool → Bool → HRound → Told → Bool → Bool → Prop
  /-- at most `R` failed attempts, then a good response without a gap -/
  | answered {fe ce : Bool} {d : HRound} {a : HMAttempt} (hb : ∀ op ∈ d.before, op.quiet) (hf : HFailed T d.req fe ce d.fails false false)
      (hR : d.fails.length ≤ R) (hl : d.last = .answer a) (ha : a.Wf T d.req) (hg : a.gapped = false) (hr : G d.req a.resp.frame) :
      HRound.OkWith G T R fe ce d (.response a.resp.frame) false false
  /-- `R` failed attempts and one more; the last error is left over -/
  | gaveUp {fe ce fe1 ce1 fe2 ce2 : Bool} {d : HRound} {a : HMAttempt} (hb : ∀ op ∈ d.before, op.quiet) (hf : HFailed T d.req fe ce d.fails fe1 ce1)
      (hR : d.fails.length = R) (hl : d.last = .answer a) (ha : a.Wf T d.req) (h1 : fe2 = true ↔ fe1 = true ∨ a.gapped = true)
      (h2 : ce2 = true ↔ ce1 = true ∨ ¬ CrcCorrect a.resp.frame) (h3 : fe2 = true ∨ ce2 = true) :
      HRound.OkWith G T R fe ce d (.failed (if fe2 = true then .frame else .crc)) fe2 ce2
  /-- at most `R` failed attempts, then silence; errors pending then are left over -/
  | timedOut {fe ce fe1 ce1 fe2 : Bool} {d : HRound} {t : HTimeout} (hb : ∀ op ∈ d.before, op.quiet) (hf : HFailed T d.req fe ce d.fails fe1 ce1)
      (hR : d.fails.length ≤ R) (hl : d.last = .silence t) (ht : t.Wf T d.req) (h1 : fe2 = true ↔ fe1 = true ∨ t.gapped = true) :
      HRound.OkWith G T R fe ce d .nothing fe2 ce1

/-- With good responses as prescribed. -/
abbrev HRound.Ok : Nat → Nat → Bool → Bool → HRound → Told → Bool → Bool → Prop := HRound.OkWith GoodResponse

/-- A session: transactions one after the other. -/
inductive HSessionWith (G : MReq → List U8 → Prop) (T R : Nat) : Bool → Bool → List (HRound × Told) → Bool → Bool → Prop
  | nil (fe ce : Bool) : HSessionWith G T R fe ce [] fe ce
  | cons {fe ce fe1 ce1 fe2 ce2 : Bool} {d : HRound} {x : Told} {l : List (HRound × Told)} (h : d.OkWith G T R fe ce x fe1 ce1)
      (hl : HSessionWith G T R fe1 ce1 l fe2 ce2) : HSessionWith G T R fe ce ((d, x) :: l) fe2 ce2

/-- With good responses as prescribed. -/
abbrev HSession : Nat → Nat → Bool → Bool → List (HRound × Told) → Bool → Bool → Prop := HSessionWith GoodResponse

/-- Finished transactions are what a session comes to: the requests in order, one transmission per attempt, the prescribed callbacks. -/
inductive SessionTold : List (HRound × Told) → List Tx → Prop
  | nil : SessionTold [] []
  | cons {d : HRound} {x : Told} {t : Tx} {l : List (HRound × Told)} {ts : List Tx} (hr : t.req = d.req) (hc : t.count = d.fails.length + 1)
      (he : x.says d.req t.evs) (hl : SessionTold l ts) : SessionTold ((d, x) :: l) (t :: ts)

end Modbus
