import Verif.Props.SlaveSync
import Verif.Props.SlaveRecovery

/-! C84: a slave and the traffic of other slaves. -/

namespace Modbus

open Spec

/-- What the slave does between the 1.5-char event after a frame and the poll with which it gets rid of that frame, if this poll comes only after the
first bytes `p` of the next frame: the first of the two polls needed is before the 3.5-char event, or anywhere after it. -/
inductive LatePolls (p : List U8) : List SOp → Prop
  | early : LatePolls p (.poll :: .t35 :: (rxs p ++ [.poll]))
  | late (p1 p2 : List U8) (h : p = p1 ++ p2) : LatePolls p (.t35 :: (rxs p1 ++ .poll :: (rxs p2 ++ [.poll])))

theorem rxs_soft (cfg : Config) (l : List U8) : ∀ op ∈ rxs l, op.soft cfg := by
  intro op h
  obtain ⟨b, _, rfl⟩ := List.mem_map.mp h
  exact .inl (.inr ⟨b, rfl⟩)

theorem rxs_no {l : List U8} {op : SOp} (h : ∀ b, op ≠ .rxByte b) : op ∉ rxs l := by
  intro hm
  obtain ⟨b, _, e⟩ := List.mem_map.mp hm
  exact h b e.symm

theorem bytesOf_rxs (l : List U8) : bytesOf (rxs l) = l := by
  induction l with
  | nil => rfl
  | cons b l ih => exact congrArg (List.cons b) ih

theorem appMem_rxs (m : AppMem) (l : List U8) : appMem m (rxs l) = m := by
  induction l with
  | nil => rfl
  | cons b l ih => exact ih

/-- Bytes are only stored. -/
theorem rxs_store (cfg : Config) (hc : cfg.WF) (s : Slave) (hl : Live s) (p : List U8) :
    ∃ s', slaveRun cfg s (rxs p) = .ok (s', []) ∧ Live s' ∧ sig s' = (s.st, s.t15, s.t35, s.ferr, s.txf, s.id,
      (pushAll (s.req, s.reqLen) p).1, (pushAll (s.req, s.reqLen) p).2, s.mem) := by
  refine ⟨softRes s (rxs p), soft_run cfg hc _ s hl (rxs_soft cfg p) (.inl (rxs_no (fun b => by simp))), softRes_live _ hl, ?_⟩
  simp only [sig, softRes, bytesOf_rxs, appMem_rxs]
  rw [if_neg (rxs_no (fun b => by simp))]

theorem not_frameOk {s : Slave} (h : s.req 0 ≠ s.id) : ¬ s.frameOk := fun h' => h h'.1

theorem pushAll_zero (r : Buf) (n : U8) (p : List U8) (h1 : 1 ≤ n.toNat) (h2 : n.toNat + p.length ≤ 256) : (pushAll (r, n) p).1 0 = r 0 := by
  rw [pushAll_get _ _ h2, if_neg (fun h => by have : n.toNat ≤ 0 := h.1; omega)]

/-- A frame for somebody else, followed by the beginning of the next frame, is discarded as a whole: the slave is then synchronised in the middle of the
next frame. -/
theorem late_discard (cfg : Config) (hc : cfg.WF) (s : Slave) (hs : Sync s) (f p : List U8) (hf : f.getD 0 0 ≠ s.id) (h1 : 1 ≤ f.length)
    (hlen : f.length + p.length ≤ 255) (w : List SOp) (hw : LatePolls p w) :
    ∃ s', slaveRun cfg s (rxs f ++ .t15 :: w) = .ok (s', []) ∧ Sync s' ∧ s'.id = s.id ∧ s'.mem = s.mem := by
  obtain ⟨s1, r1, l1, st1, t1, u1, e1, i1, n1, b1, m1⟩ := rx_phase cfg hc s hs (rxs f) (rxs_soft cfg f) (by rw [bytesOf_rxs]; omega)
  rw [bytesOf_rxs] at n1 b1
  rw [if_neg (rxs_no (fun b => by simp))] at e1
  rw [appMem_rxs] at m1
  have b0 : s1.req 0 ≠ s1.id := by rw [b1 0 h1, i1]; exact hf
  have goal1 : ∀ {s'}, slaveRun cfg s1 w = .ok (s', []) → slaveRun cfg s (rxs f ++ .t15 :: w) = .ok (s', []) := by
    intro s' h
    have := run_then r1 h
    simpa using this
  cases hw with
  | early =>
    have p1 := poll_check cfg l1 st1 t1
    rw [if_neg (not_frameOk b0)] at p1
    have la : Live { s1 with t15 := .cleared, ferr := .set, st := .msgReceived } := live_of l1 rfl rfl rfl rfl
    have p2 := step_t35 cfg la
    have lb : Live { s1 with t15 := .cleared, ferr := .set, st := .msgReceived, t35 := .set } := live_of l1 rfl rfl rfl rfl
    obtain ⟨s2, r2, l2, g2⟩ := rxs_store cfg hc _ lb p
    obtain ⟨a1, a2, a3, a4, a5, a6, a7, a8, a9⟩ := sig_eqs g2
    have p3 := poll_drop cfg l2 a1 a4 a3
    refine ⟨_, goal1 (run_cons p1 (run_cons p2 (run_then r2 ((slaveRun_one ..).trans p3)))), ?_, a6.trans i1, a9.trans m1⟩
    exact ⟨live_of l2 rfl rfl rfl rfl, rfl, a2, rfl, rfl, rfl⟩
  | late p1 p2 hp =>
    subst hp
    rw [List.length_append] at hlen
    have q1 := step_t35 cfg l1
    have la : Live { s1 with t35 := .set } := live_of l1 rfl rfl rfl rfl
    obtain ⟨s2, r2, l2, g2⟩ := rxs_store cfg hc _ la p1
    obtain ⟨a1, a2, a3, a4, a5, a6, a7, a8, a9⟩ := sig_eqs g2
    have q2 := poll_check cfg l2 (a1.trans st1) (a2.trans t1)
    have b2 : s2.req 0 ≠ s2.id := by
      rw [a7, a6]
      have := pushAll_zero s1.req s1.reqLen p1 (by omega) (by omega)
      rw [show (pushAll (s1.req, s1.reqLen) p1).1 0 = s1.req 0 from this]
      exact b0
    rw [if_neg (not_frameOk b2)] at q2
    have lb : Live { s2 with t15 := .cleared, ferr := .set, st := .msgReceived } := live_of l2 rfl rfl rfl rfl
    obtain ⟨s3, r3, l3, g3⟩ := rxs_store cfg hc _ lb p2
    obtain ⟨c1, c2, c3, c4, c5, c6, c7, c8, c9⟩ := sig_eqs g3
    have q3 := poll_drop cfg l3 c1 c4 (c3.trans a3)
    refine ⟨_, goal1 (run_cons q1 (run_then r2 (run_cons q2 (run_then r3 ((slaveRun_one ..).trans q3))))), ?_,
      c6.trans (a6.trans i1), c9.trans (a9.trans m1)⟩
    exact ⟨live_of l3 rfl rfl rfl rfl, rfl, c2, rfl, rfl, rfl⟩

/-- Two bytes bring the checksum register from any value back to its initial value. -/
theorem crc_reset (r : U16) : ∃ a b : U8, feed r (bitsOf a ++ bitsOf b) = 0xFFFF := by
  have h0 : ∃ x : U16, shiftN 16 x = 0xFFFF := ⟨0x1557, by decide +kernel⟩
  obtain ⟨x, hx⟩ := h0
  refine ⟨(r ^^^ x).setWidth 8, ((r ^^^ x) >>> 8).setWidth 8, ?_⟩
  rw [feed_two, ← hx]
  congr 1
  have := (split16 (r ^^^ x)).trans (BitVec.xor_comm _ _)
  rw [← this, ← BitVec.xor_assoc, BitVec.xor_self, BitVec.zero_xor]

theorem crc16_two (h : List U8) (a b : U8) (t : List U8) (hr : feed (crc16 h) (bitsOf a ++ bitsOf b) = 0xFFFF) :
    crc16 (h ++ [a, b] ++ t) = crc16 t := by
  unfold crc16
  rw [show bitsOfList (h ++ [a, b] ++ t) = bitsOfList h ++ (bitsOf a ++ bitsOf b) ++ bitsOfList t by simp [bitsOfList], feed_append, feed_append]
  rw [show feed 0xFFFF#16 (bitsOfList h) = crc16 h from rfl, hr]
  rfl

/-- C84, violated: what another slave sends can be executed as a request. For every frame `t` this slave would execute and every other slave `j` there is
a response of slave `j` to a read request (function code `fc`; byte count; `t.length` bytes of data; CRC) which ends with `t`. If this slave gets around to
discarding the request to slave `j` (frame `f`) only after five bytes of the response, it takes the rest of that response for a frame to itself: it
executes it, and transmits. -/
theorem C84_foreign_response_executed (cfg : Config) (hc : cfg.WF) (s : Slave) (hs : Sync s) (j fc : U8) (t : List U8) (ht : GoodFrame s.id t)
    (hl : t.length ≤ 250) : ∃ d0 d1 : U8,
      CrcCorrect ([j, fc, BitVec.ofNat 8 t.length, d0, d1] ++ t) ∧
      ∀ (f : List U8) (w : List SOp), f.getD 0 0 ≠ s.id → 1 ≤ f.length → f.length ≤ 250 → LatePolls [j, fc, BitVec.ofNat 8 t.length, d0, d1] w →
        ∃ s', slaveRun cfg s (rxs f ++ .t15 :: w ++ (rxs t ++ [.t15, .t35, .poll, .poll, .txDone, .poll])) = .ok (s',
            [.send (rtuFrame s.id (encodeResponse (respond cfg.limits s.mem (frameRequest t))))]) ∧
          s'.mem = effect cfg.limits s.mem (frameRequest t) := by
  obtain ⟨d0, d1, hr⟩ := crc_reset (crc16 [j, fc, BitVec.ofNat 8 t.length])
  refine ⟨d0, d1, ?_, ?_⟩
  · rw [← crc16_eq_zero_iff]
    have := crc16_two [j, fc, BitVec.ofNat 8 t.length] d0 d1 t hr
    rw [show [j, fc, BitVec.ofNat 8 t.length, d0, d1] ++ t = [j, fc, BitVec.ofNat 8 t.length] ++ [d0, d1] ++ t by simp, this]
    exact (crc16_eq_zero_iff t).mpr ht.crc
  · intro f w hf h1 h2 hw
    obtain ⟨s1, r1, y1, i1, m1⟩ := late_discard cfg hc s hs f _ hf h1 (by simp; omega) w hw
    have hg : (⟨rxs t, [], [.poll, .poll], [.poll]⟩ : Exchange).Good cfg s1.id := by
      refine ⟨?_, ?_, by simp, by simp [SOp.noise], by simp [SOp.noise], by simp, by simp⟩
      · show GoodFrame s1.id (bytesOf (rxs t))
        rw [bytesOf_rxs, i1]; exact ht
      · intro op ho
        obtain ⟨b, _, rfl⟩ := List.mem_map.mp ho
        exact .inr ⟨b, rfl⟩
    obtain ⟨pre, post, s2, e2, _, r2, _, _, m2⟩ := C22_one_exchange cfg hc s1 y1 _ hg
    have ops : (⟨rxs t, [], [.poll, .poll], [.poll]⟩ : Exchange).ops = rxs t ++ [.t15, .t35, .poll, .poll, .txDone, .poll] := by
      simp [Exchange.ops]
    have fr : (⟨rxs t, [], [.poll, .poll], [.poll]⟩ : Exchange).frame = t := bytesOf_rxs t
    have quiet : ∀ l r m, rxs t ++ [.t15, .t35, .poll, .poll, .txDone, .poll] = l ++ r → appMem m l = m ∧ appMem m r = m := by
      intro l r m e
      have key : ∀ (q : List SOp), (∀ op ∈ q, op ∈ rxs t ++ [.t15, .t35, .poll, .poll, .txDone, .poll]) → ∀ m, appMem m q = m := by
        intro q
        induction q with
        | nil => intro _ _; rfl
        | cons op q ih =>
          intro h m
          have h0 := h op (List.mem_cons_self ..)
          have h1 := ih (fun o ho => h o (List.mem_cons_of_mem _ ho)) m
          rw [List.mem_append] at h0
          rcases h0 with h0 | h0
          · obtain ⟨b, _, rfl⟩ := List.mem_map.mp h0
            exact h1
          · simp at h0
            rcases h0 with rfl | rfl | rfl | rfl | rfl <;> exact h1
      exact ⟨key l (fun op ho => e ▸ List.mem_append_left _ ho) m, key r (fun op ho => e ▸ List.mem_append_right _ ho) m⟩
    rw [ops] at r2 e2
    rw [fr, i1, m1] at r2
    rw [fr, m1] at m2
    have q := quiet pre (.poll :: post)
    have q1 := (q s.mem e2).1
    rw [q1] at r2 m2
    refine ⟨s2, run_then r1 r2, ?_⟩
    rw [m2]
    exact (q (effect cfg.limits s.mem (frameRequest t)) e2).2

/-- The first bytes of the response of slave 2 in the example. -/
def foreignHead : List U8 := [2, 1, 8, 0x87, 0x43]

/-- A frame of slave 1: write 0x1234 to register 0. -/
def ownFrame : List U8 := rtuFrame 1 [6, 0, 0, 0x12, 0x34]

/-- C84 in a concrete case: slave 1 with holding register 0; the master reads 64 coils of slave 2, whose response (correct, 13 bytes) ends with the bytes
of a request to slave 1 to write 0x1234 to the register. With its two polls after the fifth byte of the response, slave 1 executes it and answers. -/
theorem C84_foreign_response_example :
    GoodFrame 1 ownFrame ∧ CrcCorrect (foreignHead ++ ownFrame) ∧ foreignHead.getD 0 0 = 2 ∧
    outsOf (slaveRun Config.default (Slave.powerOn sampleMem)
      ([.init .rtu 1] ++ rxs (rtuFrame 2 [1, 0, 0, 0, 64]) ++ [.t15, .t35] ++ rxs foreignHead ++ [.poll, .poll] ++
        rxs ownFrame ++ [.t15, .t35, .poll, .poll])) = some [.send ownFrame] := by
  refine ⟨⟨(crc16_eq_zero_iff _).mp (by decide +kernel), by decide +kernel, by decide +kernel, by decide +kernel⟩,
    (crc16_eq_zero_iff _).mp (by decide +kernel), rfl, by decide +kernel⟩

/-- Frames of the master for other slaves and frames of other slaves: none is addressed to this slave. -/
def Foreign (cfg : Config) (id : U8) (x : Exchange) : Prop :=
  x.frame.getD 0 0 ≠ id ∧ x.frame.length ≤ 255 ∧ (∀ op ∈ x.rx, op.rxNoise cfg) ∧ (∀ op ∈ x.n1, op.noise cfg) ∧ (∀ op ∈ x.n2, op.noise cfg)

/-- C84, what holds: with two polls between the 3.5-char event of every frame and the first byte of the next one, any number of frames to and from other
slaves, of any content, have no effect and no answer; the slave is then ready for the next frame. -/
theorem C84_foreign_frames_ignored_partial (cfg : Config) (hc : cfg.WF) (xs : List Exchange) : ∀ (s : Slave), Sync s → (∀ x ∈ xs, Foreign cfg s.id x) →
    (∀ x ∈ xs, 2 ≤ x.n2.count .poll) →
    ∃ s', slaveRun cfg s (xs.flatMap Exchange.opsSilent) = .ok (s', []) ∧ Sync s' ∧ s'.id = s.id ∧ s'.mem = appMem s.mem (xs.flatMap Exchange.opsSilent) := by
  induction xs with
  | nil => intro s hs _ _; exact ⟨s, rfl, hs, rfl, rfl⟩
  | cons x xs ih =>
    intro s hs hx hp
    obtain ⟨f1, f2, f3, f4, f5⟩ := hx x (List.mem_cons_self ..)
    obtain ⟨s1, r1, y1, i1, m1⟩ := C23_bad_frames_dropped cfg hc s hs x
      ⟨.inr (.inl f1), f2, fun op ho => .inl (f3 op ho), fun op ho => .inl (f4 op ho), f5, hp x (List.mem_cons_self ..)⟩
    obtain ⟨s2, r2, y2, i2, m2⟩ := ih s1 y1 (fun z hz => i1 ▸ hx z (List.mem_cons_of_mem _ hz)) (fun z hz => hp z (List.mem_cons_of_mem _ hz))
    refine ⟨s2, ?_, y2, i2.trans i1, ?_⟩
    · rw [List.flatMap_cons]; exact run_then r1 r2
    · rw [List.flatMap_cons, appMem_append, ← m1]; exact m2

/-- The number of polls is needed: with only one poll in that place, and the next one after the first bytes of the next frame, the rest of that frame is
taken for a frame of its own. -/
theorem C84_one_poll_is_not_enough (p : List U8) : LatePolls p (.t35 :: (rxs [] ++ .poll :: (rxs p ++ [.poll]))) := .late [] p rfl

end Modbus
