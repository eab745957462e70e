import Verif.Props.MasterFaults
import Verif.Props.Slave

/-! C51, master part: over-long input. -/

namespace Modbus
open Spec

/-- Storing bytes changes the message that receives them, and nothing else. -/
def Master.pushed (s : Master) (i : Nat) (bs : List U8) : Master :=
  { s with msgs := setMsg s.msgs i { s.msgs i with
      resp := (pushAll ((s.msgs i).resp, (s.msgs i).respLen) bs).1,
      respLen := (pushAll ((s.msgs i).resp, (s.msgs i).respLen) bs).2 } }

theorem setMsg_self (f : Nat → MMsg) (i : Nat) : setMsg f i (f i) = f := by
  funext j; simp only [setMsg]; split
  · rename_i h; rw [h]
  · rfl

theorem setMsg_setMsg (f : Nat → MMsg) (i : Nat) (a b : MMsg) : setMsg (setMsg f i a) i b = setMsg f i b := by
  funext j; simp only [setMsg]; split <;> rfl

theorem mrxs_run (cfg : Config) (i : Nat) (bs : List U8) : ∀ (s : Master), s.dataSet = true → s.rxTarget = some i →
    masterRun cfg s (bs.map MOp.rxByte) = .ok (s.pushed i bs, bs.map fun b => (MOp.rxByte b, [])) := by
  induction bs with
  | nil =>
    intro s _ _
    have : s.pushed i [] = s := by
      simp only [Master.pushed, pushAll]
      rw [setMsg_self]
    rw [this]; rfl
  | cons b bs ih =>
    intro s hd ht
    have h1 : masterStep cfg s (.rxByte b) = .ok (s.pushed i [b], []) := by
      simp only [masterStep, masterRx, ht, hd, if_true, wr_ok _ _ (s.msgs i).respLen.isLt, ok_bind, pure_eq, Master.pushed, pushAll]
    have h2 := ih (s.pushed i [b]) hd ht
    simp only [List.map_cons, masterRun, h1, ok_bind, h2, pure_eq]
    have e : (s.pushed i [b]).pushed i bs = s.pushed i (b :: bs) := by
      simp only [Master.pushed, setMsg_setMsg, pushAll]
      simp only [setMsg, if_true]
    rw [e]

/-- **C51, master, first half.** At every point of every execution, however many bytes arrive in a row, none is stored outside the
256 byte response buffer of the message last prepared for reception (`i`): the run is free of undefined behaviour, produces no output,
changes no other message and nothing else of the master. The length counts the bytes modulo 256, and as long as it does not wrap the
bytes are stored one after the other. -/
theorem C51_master_rx_in_bounds {cfg : Config} (hw : cfg.MWF) {ops : List MOp} (ho : OpsOk ops) {s0 s : Master} {tr : MTrace}
    (h : masterRun cfg s0 (.init .rtu :: ops) = .ok (s, tr)) (i : Nat) (ht : s.rxTarget = some i) (bs : List U8) :
    ∃ resp len tr', masterRun cfg s (bs.map MOp.rxByte) =
        .ok ({ s with msgs := fun j => if j = i then { s.msgs i with resp := resp, respLen := len } else s.msgs j }, tr') ∧
      outs tr' = [] ∧ len.toNat = ((s.msgs i).respLen.toNat + bs.length) % 256 ∧
      ((s.msgs i).respLen.toNat + bs.length ≤ 256 → ∀ k, k < bs.length → resp ((s.msgs i).respLen.toNat + k) = bs.getD k 0) := by
  obtain ⟨-, g, -, -, hi, -⟩ := run_from_init hw ho h
  refine ⟨_, _, _, mrxs_run cfg i bs s hi.data ht, ?_, pushAll_len _ _, fun hl k hk => ?_⟩
  · induction bs with
    | nil => rfl
    | cons b bs ih => simpa [outs] using ih
  · rw [pushAll_get _ _ hl, if_pos (by simp only; omega)]
    simp

/-- **C51, master, second half, does not hold.** Whenever the receiver is ready (length 0), 256 arbitrary bytes directly followed by any
frame of at most 255 bytes leave exactly that frame as the received response. -/
theorem C51_master_overlong_mistaken {cfg : Config} (hw : cfg.MWF) {ops : List MOp} (ho : OpsOk ops) {s0 s : Master} {tr : MTrace}
    (h : masterRun cfg s0 (.init .rtu :: ops) = .ok (s, tr)) (i : Nat) (ht : s.rxTarget = some i) (h0 : (s.msgs i).respLen = 0)
    (junk frame : List U8) (hj : junk.length = 256) (hf : frame.length ≤ 255) :
    ∃ s' tr', masterRun cfg s ((junk ++ frame).map MOp.rxByte) = .ok (s', tr') ∧
      (s'.msgs i).respLen.toNat = frame.length ∧ (s'.msgs i).resp.bytes 0 frame.length = frame := by
  obtain ⟨-, g, -, -, hi, -⟩ := run_from_init hw ho h
  have hlen : (pushAll ((s.msgs i).resp, (s.msgs i).respLen) junk).2 = 0 := by
    apply BitVec.eq_of_toNat_eq
    rw [pushAll_len, hj, h0]; simp
  have hl2 : (pushAll (pushAll ((s.msgs i).resp, (s.msgs i).respLen) junk) frame).2.toNat = frame.length := by
    rw [pushAll_len, hlen, show (0 : U8).toNat = 0 from rfl]; omega
  refine ⟨_, _, mrxs_run cfg i _ s hi.data ht, ?_, ?_⟩ <;>
    simp only [Master.pushed, setMsg, if_true, pushAll_append]
  · exact hl2
  · apply List.ext_getElem
    · simp
    · intro k h1 h2
      have hx := pushAll_get (pushAll ((s.msgs i).resp, (s.msgs i).respLen) junk) frame
        (by rw [hlen, show (0 : U8).toNat = 0 from rfl]; omega) k
      rw [hlen, show (0 : U8).toNat = 0 from rfl, if_pos ⟨by omega, by omega⟩] at hx
      simp only [Buf.bytes, List.getElem_map, List.getElem_range, Nat.zero_add]
      rw [hx, Nat.sub_zero, getD_lt _ _ _ h2]

/-- **C51, second half, negated at the interface of the master**: the last bytes of one uninterrupted burst of 263 bytes are delivered
as the response. It is also an execution that meets the hypotheses of the two theorems above. -/
theorem C51_master_overlong_violated :
    (traceOf (masterRun smallCfg Master.powerOn ([.init .rtu, .request (.readHoldingReg 7 1 9)] ++
        answerOps (List.replicate 256 0xAA ++ rtuFrame 9 [3, 2, 0x12, 0x34])))).map events =
      some [.hregRead 9 7 0x1234] := by
  decide +kernel

end Modbus
