import Verif.Proofs.DeviceTimed

/-! C72: the slave device (library and driver) in real time, from the bytes on the line to the bytes on the line. -/

namespace Modbus

open Spec

section
variable {cfg : Config} {id : U8} {x : DeviceTimed} {t15 t35 lat P X : Nat}

theorem bytesIn_eq (l : List HOp) : DeviceTimed.bytesIn l = hbytes l := by
  induction l with
  | nil => rfl
  | cons op l ih =>
    cases op with
    | usart r t => cases r <;> simp [DeviceTimed.bytesIn, hbytes, ih]
    | _ => simp [DeviceTimed.bytesIn, hbytes, ih]

theorem hbytes_nil_iff {a b : Nat} : hbytes (x.seg a b) = [] ↔ ∀ k, a ≤ k → k < b → ¬ x.Byte k := by
  have key : ∀ l : List HOp, hbytes l = [] ↔ ∀ op ∈ l, ¬ ∃ b t, op = .usart (some b) t := by
    intro l
    induction l with
    | nil => simp [hbytes]
    | cons op l ih =>
      cases op with
      | usart r t =>
        cases r with
        | none => simp [hbytes, ih]
        | some b =>
          constructor
          · intro h; cases h
          · intro h; exact absurd ⟨b, t, rfl⟩ (h _ (List.mem_cons_self ..))
      | _ => simp [hbytes, ih]
  rw [key]
  constructor
  · intro h k k1 k2 hb
    exact h _ (DeviceTimed.mem_seg.2 ⟨k, k1, k2, rfl⟩) hb
  · intro h op ho
    obtain ⟨k, k1, k2, rfl⟩ := DeviceTimed.mem_seg.1 ho
    exact h k k1 k2

/-- C72, and the poll in question hands the frame over to the driver. -/
theorem device_in_time (hc : cfg.WF) (hx : x.Exec cfg id) (hh : x.Hardware t15 t35 lat) (hp : x.Punctual P X) (c m : Nat) (hcm : c ≤ m)
    (hs : c = 0 ∨ x.op (c - 1) = .timer) (hn : ∀ k, c ≤ k → k < m → x.op k ≠ .timer) (hm : x.op m = .timer) :
    (∃ k, c ≤ k ∧ k < m ∧ x.Byte k ∧ (∀ j, k < j → j < m → ¬ x.Byte j) ∧ x.time k + t35 ≤ x.time m ∧ x.time m ≤ x.time k + t35 + lat) ∧
    (GoodFrame id (DeviceTimed.bytesIn (x.seg c m)) → (∀ d, x.Gap c m d → d < t15) →
      ∃ p q, m < p ∧ p ≤ q ∧ x.op p = .main .poll ∧ x.time p ≤ x.time m + 2 * P ∧ x.time q ≤ x.time p + X ∧ DevSends x p
          (rtuFrame id (encodeResponse (respond cfg.limits (x.st p).lib.mem (frameRequest (DeviceTimed.bytesIn (x.seg c m)))))) ∧
        wire (x.outs p (q + 1)) =
          rtuFrame id (encodeResponse (respond cfg.limits (x.st p).lib.mem (frameRequest (DeviceTimed.bytesIn (x.seg c m))))) ∧
        (x.st (p + 1)).lib.mem = effect cfg.limits (x.st p).lib.mem (frameRequest (DeviceTimed.bytesIn (x.seg c m))) ∧
        (∀ k, m < k → k ≤ q → x.op k ≠ .timer) ∧
        ∀ k, m ≤ k → (k < p ∨ q < k) → (∀ j, m < j → j ≤ k → x.op j ≠ .timer) → x.out k = []) ∧
    (((¬ CrcCorrect (DeviceTimed.bytesIn (x.seg c m)) ∨ (DeviceTimed.bytesIn (x.seg c m)).getD 0 0 ≠ id) ∧
          (DeviceTimed.bytesIn (x.seg c m)).length ≤ 255 ∨ ∃ d, x.Gap c m d ∧ t15 + 2 * lat < d) →
      ∀ k, m ≤ k → (∀ j, m < j → j ≤ k → x.op j ≠ .timer) → x.out k = []) := by
  have hss : DevStart x c := hs
  obtain ⟨e, e1, e2, e3, e4⟩ := dev_rest hc hx hh hp c hss
  have hem : e ≤ m := by
    apply Classical.byContradiction
    intro h
    exact e2 m hcm (by omega) (.inr (.inr hm))
  obtain ⟨k0, k01, k02, k03, k04, k05⟩ := frame_last hh hss e1 e2 hm hem
  obtain ⟨r, fb, ft, l1, p, e', r1, r2, r3, r4, r5, p1, p2, p3, p4, p5, s1, s2, s3, i1, b1, h1⟩ :=
    dev_cycle hc hx hh hp.poll (fun k k1 hk => hp.quiet m k k1 hm hk) (fun p _ _ _ => hp.devTx p) hss e1 e2 e3 e4 hem (fun k k1 k2 => hn k (by omega) k2) hm
  have hf : DeviceTimed.bytesIn (x.seg c m) = hbytes (x.seg e r) ++ fb.toList ++ hbytes (x.seg (r + 2) m) := by
    rw [bytesIn_eq, x.seg_split e1 hem, hbytes_append, hbytes_nil_iff.2 (fun k k1 k2 h => e2 k k1 k2 (.inl h)), List.nil_append,
      x.seg_split r1 (show r ≤ m by omega), x.seg_cons (show r < m by omega), x.seg_cons (show r + 1 < m by omega), r3, r4, hbytes_append,
      List.append_assoc]
    congr 1
    cases fb <;> rfl
  have after : ∀ k, e' ≤ k → (∀ j, m < j → j ≤ k → x.op j ≠ .timer) → x.out k = [] := by
    intro k k1 k2
    exact (hx.no35 hc (a := e') (by simp [s1.sync.t35]) s1.cur (k + 1 - e') (fun j j1 j2 => k2 j (by omega) (by omega))).1 k k1 (by omega)
  have n35 : ∀ k, m < k → k < e' → x.op k ≠ .timer := fun k k1 k2 h => s3 k k1 k2 (.inr (.inr h))
  refine ⟨⟨k0, by omega, k02, k03, k05, k04, ?_⟩, ?_, ?_⟩
  · obtain ⟨n, n1, n2, n3⟩ := hh.timerMust k0 k03
    by_cases hnm : n < m
    · rcases n2 with h | h
      · exact absurd h (k05 n n1 hnm)
      · exact absurd h (hn n (by omega) hnm)
    · have := hx.time_le (show m ≤ n by omega)
      omega
  · intro hg hgap
    have nob : ∀ k, r + 1 ≤ k → k < m → ¬ x.Byte k := by
      intro k k1 k2 hk
      obtain ⟨k', k1', k2', k3', k4'⟩ := first_from x.Byte k1 hk
      obtain ⟨i, j1, j2, j3, j4⟩ := hh.rtoOnly r r3
      have hci : c ≤ i := by
        apply Classical.byContradiction
        intro h
        rcases hs with h0 | h0
        · omega
        · refine (hh.still hx h0 (z := r) ?_ (show c - 1 < r by omega) (Nat.le_refl _)).1 r3
          intro j j5 j6
          by_cases hjr : j = r
          · subst hjr; exact rto_not_byte r3
          · exact (j4 j (by omega) (by omega)).1
      have hti := hx.time_le (show i ≤ k' by omega)
      have htr := hx.time_le (show r ≤ k' by omega)
      have := hgap (x.time k' - x.time i) ⟨i, k', hci, by omega, by omega, j2, k3', ?_, by omega⟩
      · omega
      · intro j j5 j6
        by_cases h : j < r
        · exact (j4 j j5 h).1
        · by_cases hjr : j = r
          · subst hjr; exact rto_not_byte r3
          · exact k4' j (by omega) j6
    have hgb : hbytes (x.seg (r + 2) m) = [] := hbytes_nil_iff.2 (fun k k1 k2 => nob k (by omega) k2)
    rw [hgb, List.append_nil] at hf
    obtain ⟨f1, f2⟩ := b1 hgb (by rw [← hf]; exact hg.len)
    rw [← hf] at f1 f2
    have h4' := goodFrame_len hg
    have ok : l1.frameOk := by
      refine ⟨?_, ?_⟩
      · rw [f2 0 (by omega), i1]; exact hg.addressed
      · rw [bytes_of_prefix f1 f2]; exact (crc16_eq_zero_iff _).mpr hg.crc
    rw [if_pos ⟨ok, hgb⟩] at h1
    obtain ⟨g1, g0, q, g2, g3, g4, g5, g6, g7⟩ := h1
    have hr := request_of_frame cfg hc hg l1.req f2 (x.st p).lib.mem
    refine ⟨p, q, p1, g2, p3, p4, g4, by rw [← hr.1]; exact g0, by rw [g5, hr.1], by rw [g1, hr.2], fun k k1 k2 => n35 k k1 (by omega), ?_⟩
    intro k k1 k2 k3
    rcases k2 with k2 | k2
    · exact p5 k (by omega) k2
    · by_cases h : k < e'
      · exact g7 k k2 h
      · exact after k (by omega) k3
  · intro hbad
    rw [if_neg (by
      rintro ⟨ok, hgb⟩
      rcases hbad with ⟨hbad, hlen⟩ | ⟨d, ⟨i, k, i1', i2, i3, i4, i5, i6, i7⟩, hd⟩
      · rw [hf, hgb, List.append_nil] at hbad hlen
        obtain ⟨f1, f2⟩ := b1 hgb hlen
        have hcrc : CrcCorrect (hbytes (x.seg e r) ++ fb.toList) := by
          have := ok.2
          rw [bytes_of_prefix f1 f2] at this
          exact (crc16_eq_zero_iff _).mp this
        have hpos : 0 < (hbytes (x.seg e r) ++ fb.toList).length := by
          obtain ⟨body, hb'⟩ := hcrc
          have : (hbytes (x.seg e r) ++ fb.toList).length = (body ++ [_, _]).length := congrArg List.length hb'
          rw [this]; simp
        rcases hbad with h | h
        · exact h hcrc
        · have := ok.1
          rw [f2 0 hpos, i1] at this
          exact h this
      · obtain ⟨n, n1, n2, n3⟩ := hh.rtoMust i i4
        have hnk : n < k := by
          apply Classical.byContradiction
          intro h
          have := hx.time_le (show k ≤ n by omega)
          omega
        have hn2 : x.op n = .rto := by
          rcases n2 with h | h
          · exact absurd h (i6 n n1 hnk)
          · exact h
        have hen : e ≤ n := by
          apply Classical.byContradiction
          intro h
          exact e2 n (by omega) (by omega) (.inr (.inl hn2))
        have hrn : r ≤ n := by
          apply Classical.byContradiction
          intro h
          exact r5 n hen (by omega) hn2
        obtain ⟨m', rx, txe, m1, m2, m3⟩ := hh.irq n hn2
        have hmk : m' < k := by
          apply Classical.byContradiction
          intro h
          have := hx.time_le (show k ≤ m' by omega)
          omega
        exact hbytes_nil_iff.1 hgb k (by omega) i3 i5)] at h1
    intro k k1 k3
    by_cases h : k < p
    · exact p5 k (by omega) h
    · by_cases h' : k < e'
      · exact h1 k (by omega) h'
      · exact after k (by omega) k3

/-- **C72** In every execution of a slave device from power-on, with the hardware's timing and a punctual main loop, transmitter and master (as in
`Hardware` and `Punctual`): take any frame, i.e. the bytes `f` that came in between two consecutive timer events (or power-on and the first). The timer
event `m` that ends it comes between `t35` and `t35 + lat` after its last byte. If `f` is a valid request for this slave and no two of its bytes are
`t15` or more apart, then a poll at most `2 P` later starts the response; all its bytes, which are those the protocol prescribes, have been written to
the line at most `X` later; memory changes as prescribed; and nothing else is put out until the next timer event. If `f` has a wrong CRC or is for
somebody else (and is at most 255 bytes long), or two of its bytes are more than `t15 + 2 lat` apart (whatever its length), nothing is put out. -/
theorem C72_device_in_time (hc : cfg.WF) (hx : x.Exec cfg id) (hh : x.Hardware t15 t35 lat) (hp : x.Punctual P X) (c m : Nat) (hcm : c ≤ m)
    (hs : c = 0 ∨ x.op (c - 1) = .timer) (hn : ∀ k, c ≤ k → k < m → x.op k ≠ .timer) (hm : x.op m = .timer) :
    (∃ k, c ≤ k ∧ k < m ∧ x.Byte k ∧ (∀ j, k < j → j < m → ¬ x.Byte j) ∧ x.time k + t35 ≤ x.time m ∧ x.time m ≤ x.time k + t35 + lat) ∧
    (GoodFrame id (DeviceTimed.bytesIn (x.seg c m)) → (∀ d, x.Gap c m d → d < t15) →
      ∃ p q, m < p ∧ p ≤ q ∧ x.op p = .main .poll ∧ x.time p ≤ x.time m + 2 * P ∧ x.time q ≤ x.time p + X ∧
        wire (x.outs p (q + 1)) =
          rtuFrame id (encodeResponse (respond cfg.limits (x.st p).lib.mem (frameRequest (DeviceTimed.bytesIn (x.seg c m))))) ∧
        (x.st (p + 1)).lib.mem = effect cfg.limits (x.st p).lib.mem (frameRequest (DeviceTimed.bytesIn (x.seg c m))) ∧
        (∀ k, m < k → k ≤ q → x.op k ≠ .timer) ∧
        ∀ k, m ≤ k → (k < p ∨ q < k) → (∀ j, m < j → j ≤ k → x.op j ≠ .timer) → x.out k = []) ∧
    (((¬ CrcCorrect (DeviceTimed.bytesIn (x.seg c m)) ∨ (DeviceTimed.bytesIn (x.seg c m)).getD 0 0 ≠ id) ∧
          (DeviceTimed.bytesIn (x.seg c m)).length ≤ 255 ∨ ∃ d, x.Gap c m d ∧ t15 + 2 * lat < d) →
      ∀ k, m ≤ k → (∀ j, m < j → j ≤ k → x.op j ≠ .timer) → x.out k = []) := by
  obtain ⟨h1, h2, h3⟩ := device_in_time hc hx hh hp c m hcm hs hn hm
  refine ⟨h1, fun g d => ?_, h3⟩
  obtain ⟨p, q, a1, a2, a3, a4, a5, -, a6⟩ := h2 g d
  exact ⟨p, q, a1, a2, a3, a4, a5, a6⟩

end

/-! ### Such executions exist -/

/-- A valid frame, the silence after it, its response; then a frame with a gap of 7 (more than `t15 + 2 lat` = 6). Time passes by one with each event. -/
def ddemoList : List HOp :=
  (sampleFrame.flatMap fun b => [.main .poll, .usart (some b) true]) ++
  [.main .poll, .main .poll, .main .poll, .rto, .usart none true, .usart none true, .usart none false, .timer, .main .poll, .main .poll] ++
  List.replicate 7 (.usart none true) ++
  List.replicate 12 (.main .poll) ++
  [.usart (some 1) true, .main (.appReg 0 77), .usart (some 3) true, .main .poll, .usart (some 0) true, .main .poll, .main .poll, .main .poll, .rto,
    .usart none true, .usart none true, .usart (some 0) true, .usart none true, .usart none true, .usart none true, .rto, .usart none true,
    .usart none true, .usart none true, .timer]

def ddemoOp (n : Nat) : HOp := ddemoList.getD n (.main .poll)

/-- The response. -/
def ddemoResp : List U8 := [1, 3, 2, 0x03, 0xE8, 0xB8, 0xFA]

def ddemoOut (n : Nat) : List HOut :=
  if n = 25 then [.send ddemoResp, .tdr 1] else if 25 < n ∧ n < 32 then [.tdr (ddemoResp.getD (n - 25) 0)] else []

def ddemoSt : Nat → SlaveSys
  | 0 => ⟨slaveInit (Slave.powerOn sampleMem) .rtu 1, 0, 0, false, false⟩
  | n + 1 => match slaveSysStep Config.default (ddemoSt n) (ddemoOp n) with
    | .ok r => r.1
    | .error _ => ddemoSt n

/-- The step is defined at `n`, and puts out what it should. -/
def ddemoOk (n : Nat) : Bool := match slaveSysStep Config.default (ddemoSt n) (ddemoOp n) with
  | .ok r => decide (r.2 = ddemoOut n)
  | .error _ => false

def isByte : HOp → Bool
  | .usart (some _) _ => true
  | _ => false

def isMainOp : HOp → Bool
  | .main _ => true
  | _ => false

theorem ddemo_head : ∀ n, n < 67 → ddemoOk n = true := by decide +kernel

theorem ddemo_at : (ddemoSt 67).lib.st = .idle ∧ (ddemoSt 67).lib.t15 = .cleared ∧ (ddemoSt 67).rtof = false := by decide +kernel

theorem ddemoOp_tail {n : Nat} (h : 65 ≤ n) : ddemoOp n = .main .poll := by
  unfold ddemoOp
  rw [List.getD_eq_getElem?_getD, List.getElem?_eq_none (by
    have : ddemoList.length = 65 := by decide
    omega)]; rfl

theorem ddemo_of_ok {n : Nat} (h : ddemoOk n = true) :
    slaveSysStep Config.default (ddemoSt n) (ddemoOp n) = .ok (ddemoSt (n + 1), ddemoOut n) := by
  unfold ddemoOk at h
  rw [ddemoSt]
  split at h
  · rename_i r hr
    rw [hr]
    simp only [decide_eq_true_eq] at h
    rw [← h]
  · cases h

theorem rest_poll {s : SlaveSys} (h1 : s.lib.st = .idle) (h2 : s.lib.t15 = .cleared) (h3 : s.rtof = false) :
    slaveSysStep Config.default s (.main .poll) = .ok (s, []) := by
  have hm : ¬ (s.rtof = true ∨ SOp.poll.isMain = false) := by
    rw [h3]; rintro (h | h) <;> cases h
  have hp : slaveStep Config.default s.lib .poll = .ok (s.lib, []) := quiet_idle Config.default s.lib h1 (by simp [h2]) _ _ _ _
  simp only [slaveSysStep, if_neg hm, hp, ok_bind, slaveSends]

theorem ddemo_tail (k : Nat) : ddemoSt (67 + k) = ddemoSt 67 ∧
    slaveSysStep Config.default (ddemoSt (67 + k)) (ddemoOp (67 + k)) = .ok (ddemoSt (67 + k + 1), ddemoOut (67 + k)) := by
  obtain ⟨h1, h2, h3⟩ := ddemo_at
  have poll := rest_poll h1 h2 h3
  have st : ∀ k, ddemoSt (67 + k) = ddemoSt 67 := by
    intro k
    induction k with
    | zero => rfl
    | succ k ih =>
      show ddemoSt ((67 + k) + 1) = _
      rw [ddemoSt, ih, ddemoOp_tail (by omega), poll]
  refine ⟨st k, ?_⟩
  have h : ddemoSt (67 + k + 1) = ddemoSt 67 := st (k + 1)
  rw [h, st k, ddemoOp_tail (by omega), poll]
  unfold ddemoOut
  rw [if_neg (by omega), if_neg (by omega)]

/-- The demonstration execution. -/
def ddemo : DeviceTimed := { op := ddemoOp, time := fun n => n, st := ddemoSt, out := ddemoOut }

theorem isByte_iff {n : Nat} : ddemo.Byte n ↔ isByte (ddemoOp n) = true := by
  constructor
  · rintro ⟨b, t, h⟩
    have h : ddemoOp n = _ := h
    rw [h]; rfl
  · intro h
    show ∃ b t, ddemoOp n = _
    revert h
    cases ddemoOp n with
    | usart r t => cases r with
      | none => exact (fun h => nomatch h)
      | some b => exact fun _ => ⟨b, t, rfl⟩
    | _ => exact (fun h => nomatch h)

theorem ddemo_events (n : Nat) : (isByte (ddemoOp n) = true → n ≤ 15 ∨ (45 ≤ n ∧ n ≤ 56)) ∧ (ddemoOp n = .rto → n = 19 ∨ n = 53 ∨ n = 60) ∧
    (ddemoOp n = .timer → n = 23 ∨ n = 64) ∧ ((ddemoSt n).rtof = true → isMainOp (ddemoOp n) = false) ∧
    ((∀ f, .send f ∉ ddemoOut n) ∨ n = 25) := by
  have h5 : (∀ f, .send f ∉ ddemoOut n) ∨ n = 25 := by
    unfold ddemoOut
    split
    · right; assumption
    · left
      intro f
      split <;> simp
  by_cases h : n < 67
  · have key : ∀ n, n < 67 → (isByte (ddemoOp n) = true → n ≤ 15 ∨ (45 ≤ n ∧ n ≤ 56)) ∧ (ddemoOp n = .rto → n = 19 ∨ n = 53 ∨ n = 60) ∧
        (ddemoOp n = .timer → n = 23 ∨ n = 64) ∧ ((ddemoSt n).rtof = true → isMainOp (ddemoOp n) = false) := by decide +kernel
    obtain ⟨a, b, c, d⟩ := key n h
    exact ⟨a, b, c, d, h5⟩
  · have hs := (ddemo_tail (n - 67)).1
    rw [show 67 + (n - 67) = n by omega] at hs
    have hr : (ddemoSt n).rtof = false := by rw [hs]; exact ddemo_at.2.2
    rw [ddemoOp_tail (by omega), hr]
    exact ⟨(fun h => nomatch h), (fun h => nomatch h), (fun h => nomatch h), (fun h => nomatch h), h5⟩

/-- **C72**: an execution as required exists. In it a valid frame is received and answered, byte by byte, and a frame with a gap is received and ignored. -/
theorem device_timed_demo : ddemo.Exec Config.default 1 ∧ ddemo.Hardware 4 8 1 ∧ ddemo.Punctual 10 7 ∧
    GoodFrame 1 (DeviceTimed.bytesIn (ddemo.seg 0 23)) ∧ (∀ d, ddemo.Gap 0 23 d → d < 4) ∧ ddemo.op 23 = .timer ∧
    wire (ddemo.outs 25 32) = ddemoResp ∧ ddemo.op 64 = .timer ∧ ddemo.Gap 24 64 7 := by
  have hstep : ∀ n, slaveSysStep Config.default (ddemoSt n) (ddemoOp n) = .ok (ddemoSt (n + 1), ddemoOut n) := by
    intro n
    by_cases h : n < 67
    · exact ddemo_of_ok (ddemo_head n h)
    · have := (ddemo_tail (n - 67)).2
      rwa [show 67 + (n - 67) = n by omega] at this
  have bb : ∀ k, ddemo.Byte k → k < 67 := by
    intro k hk
    have := (ddemo_events k).1 (isByte_iff.1 hk)
    omega
  have hf : DeviceTimed.bytesIn (ddemo.seg 0 23) = sampleFrame := by decide +kernel
  refine ⟨⟨⟨sampleMem, rfl⟩, hstep, ?_, fun n => Nat.le_succ n⟩, ⟨?_, ?_, ?_, ?_, ?_, ?_, by omega⟩, ⟨?_, ?_, ?_⟩, ?_, ?_, rfl, ?_, rfl, ?_⟩
  · -- main
    intro n op h
    have h : ddemoOp n = .main op := h
    by_cases hn : n < 65
    · have key : ∀ n, n < 65 → (match ddemoOp n with
          | .main .poll => true
          | .main (.appReg _ _) => true
          | .main _ => false
          | _ => true) = true := by decide +kernel
      have := key n hn
      rw [h] at this
      cases op <;> first | trivial | cases this
    · rw [ddemoOp_tail (by omega)] at h
      cases h
      trivial
  · -- rtoMust
    intro k hk
    have key : ∀ k, k < 67 → isByte (ddemoOp k) = true → ∃ n, n < 67 ∧ k < n ∧ (isByte (ddemoOp n) = true ∨ ddemoOp n = .rto) ∧ n ≤ k + 4 + 1 := by
      decide +kernel
    obtain ⟨n, _, n1, n2, n3⟩ := key k (bb k hk) (isByte_iff.1 hk)
    exact ⟨n, n1, n2.imp isByte_iff.2 (fun h => h), n3⟩
  · -- rtoOnly
    intro n h
    have key : ∀ n, n < 67 → ddemoOp n = .rto → ∃ k, k < n ∧ isByte (ddemoOp k) = true ∧ k + 4 ≤ n ∧ ∀ j, j < n → k < j →
        isByte (ddemoOp j) = false ∧ ddemoOp j ≠ .rto := by decide +kernel
    have hn := (ddemo_events n).2.1 h
    obtain ⟨k, k1, k2, k3, k4⟩ := key n (by omega) h
    refine ⟨k, k1, isByte_iff.2 k2, k3, fun j j1 j2 => ?_⟩
    obtain ⟨a, b⟩ := k4 j j2 j1
    exact ⟨fun hb => (by rw [isByte_iff.1 hb] at a; cases a), b⟩
  · -- timerMust
    intro k hk
    have key : ∀ k, k < 67 → isByte (ddemoOp k) = true → ∃ n, n < 67 ∧ k < n ∧ (isByte (ddemoOp n) = true ∨ ddemoOp n = .timer) ∧ n ≤ k + 8 + 1 := by
      decide +kernel
    obtain ⟨n, _, n1, n2, n3⟩ := key k (bb k hk) (isByte_iff.1 hk)
    exact ⟨n, n1, n2.imp isByte_iff.2 (fun h => h), n3⟩
  · -- timerOnly
    intro n h
    have key : ∀ n, n < 67 → ddemoOp n = .timer → ∃ k, k < n ∧ isByte (ddemoOp k) = true ∧ k + 8 ≤ n ∧ ∀ j, j < n → k < j →
        isByte (ddemoOp j) = false ∧ ddemoOp j ≠ .timer := by decide +kernel
    have hn := (ddemo_events n).2.2.1 h
    obtain ⟨k, k1, k2, k3, k4⟩ := key n (by omega) h
    refine ⟨k, k1, isByte_iff.2 k2, k3, fun j j1 j2 => ?_⟩
    obtain ⟨a, b⟩ := k4 j j2 j1
    exact ⟨fun hb => (by rw [isByte_iff.1 hb] at a; cases a), b⟩
  · -- irq
    intro n h
    have hn := (ddemo_events n).2.1 h
    rcases hn with rfl | rfl | rfl
    · exact ⟨20, none, true, by omega, rfl, Nat.le_refl _⟩
    · exact ⟨54, none, true, by omega, rfl, Nat.le_refl _⟩
    · exact ⟨61, none, true, by omega, rfl, Nat.le_refl _⟩
  · -- stalled
    intro n op h ho
    have := (ddemo_events n).2.2.2.1 h
    have ho : ddemoOp n = .main op := ho
    rw [ho] at this
    cases this
  · -- poll
    intro n h
    by_cases hn : n < 65
    · have key : ∀ n, n < 65 → (ddemoSt (n + 1)).rtof = false → ∃ m, m < 76 ∧ n < m ∧ m ≤ n + 10 ∧ (ddemoOp m = .main .poll ∨ ddemoOp m = .rto) := by
        decide +kernel
      obtain ⟨m, _, m1, m2, m3⟩ := key n hn h
      exact ⟨m, m1, m2, m3⟩
    · exact ⟨n + 1, by omega, by show n + 1 ≤ n + 10; omega, .inl (ddemoOp_tail (by omega))⟩
  · -- quiet
    intro m k hmk h hk
    have hm := (ddemo_events m).2.2.1 h
    have hk := (ddemo_events k).1 (isByte_iff.1 hk)
    show m + 2 * 10 < k
    omega
  · -- tx
    intro n f h
    rcases (ddemo_events n).2.2.2.2 with h' | rfl
    · exact absurd h (h' f)
    · have : f = ddemoResp := by
        have h : HOut.send f ∈ [HOut.send ddemoResp, .tdr 1] := h
        simpa using h
      subst this
      refine ⟨32, by omega, Nat.le_refl _, by decide +kernel, fun k k1 hk => ?_⟩
      have hk := (ddemo_events k).1 (isByte_iff.1 hk)
      show 32 + 10 < k
      omega
  · rw [hf]; exact sampleExchange_good.frame
  · rintro d ⟨i, k, i1, i2, i3, i4, i5, i6, i7⟩
    have i7 : k = i + d := i7
    have key : ∀ i, i < 23 → ∀ k, k < 23 → i + 4 ≤ k → isByte (ddemoOp i) = true → isByte (ddemoOp k) = true → isByte (ddemoOp (i + 2)) = true := by
      decide +kernel
    apply Classical.byContradiction
    intro h
    exact i6 (i + 2) (by omega) (by omega) (isByte_iff.2 (key i (by omega) k i3 (by omega) (isByte_iff.1 i4) (isByte_iff.1 i5)))
  · decide +kernel
  · refine ⟨49, 56, by omega, by omega, by omega, isByte_iff.2 rfl, isByte_iff.2 rfl, ?_, rfl⟩
    intro j j1 j2 hj
    have key : ∀ j, j < 56 → 49 < j → isByte (ddemoOp j) = false := by decide +kernel
    have := key j j2 j1
    rw [isByte_iff.1 hj] at this
    cases this

end Modbus
