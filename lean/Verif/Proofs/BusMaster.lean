import Verif.Proofs.DeviceMasterPunctual
import Verif.Proofs.DriverSession
import Verif.Proofs.BusChain
import Verif.Spec.TimedBus

/-! The master's side of the timed bus. -/

namespace Modbus

open Spec

section
variable {cfg : Config} {x : MDeviceTimed} {t15 t35 lat P D X : Nat}

/-! ### Segments -/

/-- Events with outputs from number `a` up to, not including, number `b`. -/
def Spec.MDeviceTimed.tr (x : MDeviceTimed) (a b : Nat) : HMTrace := (List.range' a (b - a)).map fun k => (x.op k, x.out k)

theorem Spec.MDeviceTimed.seg_split (x : MDeviceTimed) {a b c : Nat} (h1 : a ≤ b) (h2 : b ≤ c) : x.seg a c = x.seg a b ++ x.seg b c := by
  unfold MDeviceTimed.seg
  rw [← List.map_append]
  congr 1
  have := List.range'_append (s := a) (m := b - a) (n := c - b) (step := 1)
  rw [Nat.one_mul, show a + (b - a) = b by omega, show b - a + (c - b) = c - a by omega] at this
  exact this.symm

theorem Spec.MDeviceTimed.seg_one (x : MDeviceTimed) (a : Nat) : x.seg a (a + 1) = [x.op a] := by
  unfold MDeviceTimed.seg
  rw [show a + 1 - a = 1 by omega]; rfl

theorem Spec.MDeviceTimed.seg_self (x : MDeviceTimed) (a : Nat) : x.seg a a = [] := by
  unfold MDeviceTimed.seg
  rw [Nat.sub_self]; rfl

theorem Spec.MDeviceTimed.seg_cons (x : MDeviceTimed) {a c : Nat} (h : a < c) : x.seg a c = x.op a :: x.seg (a + 1) c := by
  rw [x.seg_split (b := a + 1) (by omega) (by omega), x.seg_one]; rfl

theorem Spec.MDeviceTimed.mem_seg {x : MDeviceTimed} {a b : Nat} {op : HMOp} : op ∈ x.seg a b ↔ ∃ k, a ≤ k ∧ k < b ∧ x.op k = op := by
  unfold MDeviceTimed.seg
  rw [List.mem_map]
  constructor
  · rintro ⟨k, hk, rfl⟩
    rw [List.mem_range'_1] at hk
    exact ⟨k, by omega, by omega, rfl⟩
  · rintro ⟨k, h1, h2, rfl⟩
    exact ⟨k, by rw [List.mem_range'_1]; omega, rfl⟩

theorem Spec.MDeviceTimed.tr_succ (x : MDeviceTimed) {a b : Nat} (h : a ≤ b) : x.tr a (b + 1) = x.tr a b ++ [(x.op b, x.out b)] := by
  unfold MDeviceTimed.tr
  rw [show b + 1 - a = b - a + 1 by omega, List.range'_concat, List.map_append, Nat.one_mul, show a + (b - a) = b by omega]; rfl

theorem Spec.MDeviceTimed.tr_split (x : MDeviceTimed) {a b c : Nat} (h1 : a ≤ b) (h2 : b ≤ c) : x.tr a c = x.tr a b ++ x.tr b c := by
  unfold MDeviceTimed.tr
  rw [← List.map_append]
  congr 1
  have := List.range'_append (s := a) (m := b - a) (n := c - b) (step := 1)
  rw [Nat.one_mul, show a + (b - a) = b by omega, show b - a + (c - b) = c - a by omega] at this
  exact this.symm

theorem Spec.MDeviceTimed.mem_tr {x : MDeviceTimed} {a b : Nat} {p : HMOp × List HMOut} : p ∈ x.tr a b ↔ ∃ k, a ≤ k ∧ k < b ∧ p = (x.op k, x.out k) := by
  unfold MDeviceTimed.tr
  rw [List.mem_map]
  constructor
  · rintro ⟨k, hk, rfl⟩
    rw [List.mem_range'_1] at hk
    exact ⟨k, by omega, by omega, rfl⟩
  · rintro ⟨k, h1, h2, rfl⟩
    exact ⟨k, by rw [List.mem_range'_1]; omega, rfl⟩

theorem Spec.MDeviceTimed.trace_tr (x : MDeviceTimed) (n : Nat) : x.trace n = (.main (.init .rtu), []) :: x.tr 0 n := by
  unfold MDeviceTimed.trace MDeviceTimed.tr
  rw [List.range_eq_range', Nat.sub_zero]

theorem Spec.MDeviceTimed.trace_split (x : MDeviceTimed) {a b : Nat} (h : a ≤ b) : x.trace b = x.trace a ++ x.tr a b := by
  rw [x.trace_tr, x.trace_tr, x.tr_split (Nat.zero_le a) h]; rfl

theorem Spec.MDeviceTimed.Exec.seg_run (hx : x.Exec cfg) (a n : Nat) :
    masterSysRun cfg (x.st a) (x.seg a (a + n)) = .ok (x.st (a + n), x.tr a (a + n)) := by
  induction n with
  | zero => rw [Nat.add_zero, x.seg_self]; unfold MDeviceTimed.tr; rw [Nat.sub_self]; rfl
  | succ n ih =>
    rw [← Nat.add_assoc, x.seg_succ (by omega), x.tr_succ (by omega)]
    exact sysM_append _ ih (sysM_one (hx.step (a + n)))

theorem Spec.MDeviceTimed.Exec.seg_eq (hx : x.Exec cfg) {a b : Nat} (h : a ≤ b) {s' : MasterSys} {o : HMTrace}
    (hr : masterSysRun cfg (x.st a) (x.seg a b) = .ok (s', o)) : x.st b = s' ∧ x.tr a b = o := by
  have := hx.seg_run a (b - a)
  rw [show a + (b - a) = b by omega, hr] at this
  have := Except.ok.inj this
  exact ⟨(congrArg Prod.fst this).symm, (congrArg Prod.snd this).symm⟩

theorem Spec.MDeviceTimed.Exec.step_eq (hx : x.Exec cfg) {k : Nat} {op : HMOp} (ho : x.op k = op) {s' : MasterSys} {o : List HMOut}
    (h : masterSysStep cfg (x.st k) op = .ok (s', o)) : x.st (k + 1) = s' ∧ x.out k = o := by
  have := hx.step k
  rw [ho, h] at this
  have := Except.ok.inj this
  exact ⟨(congrArg Prod.fst this).symm, (congrArg Prod.snd this).symm⟩

/-! ### Requests and transmissions -/

/-- All requests in the queue and the current one are acceptable, with arrays as large as announced. -/
def Ghost.Sound (g : Ghost) : Prop := (∀ r ∈ g.pend, QtyOk r ∧ DataOk r) ∧ ∀ i r c, g.cur = some (i, r, c) → QtyOk r ∧ DataOk r

theorem GStep.sound {g g' : Ghost} {op : MOp} {o : List MOut} (h : GStep cfg g op o g') (hv : g.Sound)
    (hd : ∀ r, op = .request r → QtyOk r → DataOk r) : g'.Sound := by
  cases h with
  | accept r i fl h hq =>
    refine ⟨?_, hv.2⟩
    intro q hx
    rcases List.mem_append.1 hx with hx | hx
    · exact hv.1 q hx
    · obtain rfl := List.mem_singleton.1 hx; exact ⟨hq, hd _ rfl hq⟩
  | full => exact hv
  | refuse => exact hv
  | start r i tl rest hc ht hp =>
    refine ⟨fun q hq => hv.1 q (by rw [hp]; exact List.mem_cons_of_mem _ hq), ?_⟩
    intro i' r' c' h
    cases h
    exact hv.1 _ (by rw [hp]; exact List.mem_cons_self)
  | again r i c hc hle =>
    refine ⟨hv.1, ?_⟩
    intro i' r' c' h
    cases h
    exact hv.2 _ _ _ hc
  | finish r i c evs hc hf => exact ⟨hv.1, fun i r c h => nomatch h⟩
  | silent => exact hv

theorem run_sound (hw : cfg.MWF) (ops : List MOp) : ∀ {s s' : Master} {g : Ghost} {tr : MTrace}, OpsOk ops → MInv cfg s g → g.Sound →
    masterRun cfg s ops = .ok (s', tr) → ∃ g', MInv cfg s' g' ∧ g'.Sound := by
  induction ops with
  | nil => intro s s' g tr _ hi hg h; cases h; exact ⟨g, hi, hg⟩
  | cons op ops ih =>
    intro s s' g tr ho hi hg h
    obtain ⟨s1, o, t2, k1, k2, -⟩ := run_cons_inv h
    have hop := ho op List.mem_cons_self
    rcases masterStep_inv hw hi op hop.1 hop.2 with ⟨s2, o2, g2, j1, j2, j3⟩ | ⟨-, j1, -⟩
    · rw [k1] at j1; cases j1
      exact ih (fun p hp => ho p (List.mem_cons_of_mem _ hp)) j2 (j3.sound hg hop.2) k2
    · rw [k1] at j1; cases j1

theorem Spec.MDeviceTimed.Exec.sound (hw : cfg.MWF) (hx : x.Exec cfg) (n : Nat) : ∃ g, MInv cfg (x.st n).lib g ∧ g.Sound := by
  induction n with
  | zero =>
    have h0 := libTrace_init hx.init
    obtain ⟨l, h1, h2⟩ := masterInit_inv hw MasterSys.powerOn.lib
    simp only [masterStep] at h0
    rw [h1] at h0
    simp only [ok_bind, pure_eq, Except.ok.injEq, Prod.mk.injEq] at h0
    rw [← h0.1]
    exact ⟨_, h2, ⟨(fun r hr => nomatch hr), (fun i r c h => nomatch h)⟩⟩
  | succ n ih =>
    obtain ⟨g, h1, h2⟩ := ih
    obtain ⟨mops, tr, k1, k2, -, -⟩ := device_refines (ops := [x.op n]) (by intro op ho; obtain rfl := List.mem_singleton.1 ho; exact hx.legal n)
      (sysM_one (hx.step n))
    exact run_sound hw mops k1 h1 h2 k2

/-- Output of the main program other than at a poll. -/
theorem main_quiet_out (hw : cfg.MWF) {s s' : MasterSys} {g : Ghost} {op : MOp} {o : List HMOut} (hi : MInv cfg s.lib g) (hl : (HMOp.main op).legal)
    (hp : op ≠ .poll) (h : masterSysStep cfg s (.main op) = .ok (s', o)) :
    ∃ l o1, masterStep cfg s.lib op = .ok (l, o1) ∧ Effect s.lib l op o1 ∧ s' = { s with lib := l } ∧ o = o1.map .lib ∧ ∀ f, MOut.send f ∉ o1 := by
  have hm : op.isMain = true := by cases op <;> first | exact hl.elim | exact hl.1
  have hi2 : ∀ m, op ≠ .init m := by rintro m rfl; exact hl
  have h0 := h
  simp only [masterSysStep, show ¬ (op.isMain = false) by rw [hm]; decide] at h
  obtain ⟨⟨l, o1⟩, k1, -⟩ := bind_ok h
  have he := masterStep_effect hw hi hp hi2 k1
  have hns : ∀ f, MOut.send f ∉ o1 := by
    intro f hf
    have : MOut.send f ∈ outs [(op, o1)] := by
      unfold outs
      rw [List.mem_filter]
      exact ⟨by simpa using hf, rfl⟩
    rw [he.outs] at this
    cases this
  have := sys_main hm hi2 k1 hns
  rw [h0] at this
  have := Except.ok.inj this
  exact ⟨l, o1, k1, he, congrArg Prod.fst this, congrArg Prod.snd this, hns⟩

/-- What the start of a transmission is. -/
structure SendFacts (x : MDeviceTimed) (n : Nat) (r : MReq) : Prop where
  op : x.op n = .main .poll
  before : (x.st n).lib.st = .idle ∨ (x.st n).lib.st = .repeatRequest
  qty : QtyOk r
  data : DataOk r
  out : ∃ b, x.out n = [.lib (.send (reqFrame r)), .tdr b]
  st : (x.st (n + 1)).lib.st = .transmitting
  txf : (x.st (n + 1)).lib.txf = .set
  cur : (x.st (n + 1)).cur = 0
  last : (x.st (n + 1)).last + 1 = (reqFrame r).length

theorem Spec.MDeviceTimed.Exec.sends (hw : cfg.MWF) (hx : x.Exec cfg) {n : Nat} (h : x.Sends n) : ∃ r, SendFacts x n r := by
  obtain ⟨f, hf⟩ := h
  obtain ⟨g, hi, hg⟩ := hx.sound hw n
  have hst := hx.step n
  have hle := hx.legal n
  cases hop : x.op n with
  | rto => exact absurd hf (not_main_out hx (by rw [hop]; simp) _)
  | timer => exact absurd hf (not_main_out hx (by rw [hop]; simp) _)
  | usart rx t => exact absurd hf (not_main_out hx (by rw [hop]; simp) _)
  | main op =>
    rw [hop] at hst hle
    by_cases hp : op = .poll
    · subst hp
      have h0 := hst
      simp only [masterSysStep, show ¬ (MOp.isMain .poll = false) by decide] at hst
      obtain ⟨⟨l, o1⟩, k1, k2⟩ := bind_ok hst
      obtain ⟨e1, e2⟩ := masterSends_lib k2
      have hfo : MOut.send f ∈ o1 := by
        have e1' : libOuts (x.out n) = o1 := e1
        rw [← e1']; unfold libOuts; rw [List.mem_filterMap]; exact ⟨_, hf, rfl⟩
      rcases masterStep_inv hw hi .poll (by simp) (by simp) with ⟨s2, o2, g2, j1, j2, j3⟩ | ⟨-, j1, -⟩
      · rw [k1] at j1; cases j1
        have hr : ∃ r i c, o1 = [.send (reqFrame r)] ∧ g2.cur = some (i, r, c) := by
          generalize hopp : MOp.poll = opp at j3
          cases j3 with
          | start r i tl rest hc ht hp' => exact ⟨r, i, 1, rfl, rfl⟩
          | again r i c hc hle => exact ⟨r, i, c + 1, rfl, rfl⟩
          | finish r i c evs hc hf' =>
            obtain ⟨e, -, he⟩ := List.mem_map.1 hfo
            cases he
          | silent => cases hfo
          | accept => cases hopp
          | full => cases hopp
          | refuse => cases hopp
        obtain ⟨r, i, c, rfl, hcur⟩ := hr
        have hso := (j3.sound hg (by simp)).2 i r c hcur
        have hcu := j2.cur
        rw [hcur] at hcu
        have hpc := poll_case hw hi k1
        have hlen : (l.msgs i).reqLen.toNat = (reqFrame r).length := by
          have := congrArg List.length (show (l.msgs i).req.bytes 0 (l.msgs i).reqLen.toNat = reqFrame r from hcu.2.2.1)
          simpa using this
        have hpos : 0 < (reqFrame r).length := by rw [reqFrame_length]; omega
        have hsend := masterSends_send (s := { x.st n with lib := l, gap := (x.st n).gap }) (f := reqFrame r) hcu.1 (by rw [hlen]; exact hpos)
        simp only at k2
        have k2' : masterSends { x.st n with lib := l, gap := (x.st n).gap } [.send (reqFrame r)] = .ok (x.st (n + 1), x.out n) := k2
        rw [hsend] at k2'
        have k3 := Except.ok.inj k2'
        have s1 := (congrArg Prod.fst k3).symm
        have s2 := (congrArg Prod.snd k3).symm
        simp only at s1 s2
        obtain ⟨q1, q2, q3⟩ : (((x.st n).lib.st = .idle ∨ (x.st n).lib.st = .repeatRequest) ∧ l.st = .transmitting ∧ l.txf = .set) := by
          cases hpc with
          | send h e htx h15 hcnt b ho => exact ⟨h, e, htx⟩
          | idleNop _ _ ho => cases ho
          | txNop _ _ _ ho => cases ho
          | txEnd _ _ _ _ _ _ ho => cases ho
          | other _ _ _ _ _ _ ho => cases ho
          | check _ _ _ _ _ _ ho => cases ho
          | timeout _ _ _ _ _ ev ho => cases ho
          | waitNop _ _ _ _ ho => cases ho
          | recNop _ _ _ ho => cases ho
          | again _ _ _ _ _ _ ho => cases ho
          | finish _ _ _ _ evs ho => cases evs <;> simp at ho
        refine ⟨r, hop, q1, hso.1, hso.2, ⟨_, s2⟩, ?_, ?_, ?_, ?_⟩
        · rw [s1]; exact q2
        · rw [s1]; exact q3
        · rw [s1]
        · rw [s1]; simp only; omega
      · rw [k1] at j1; cases j1
    · obtain ⟨l, o1, -, -, -, e, hns⟩ := main_quiet_out hw hi hle hp hst
      rw [e] at hf
      obtain ⟨y, hy, he⟩ := List.mem_map.1 hf
      cases he
      exact absurd hy (hns f)

/-- A call of the main program that transmits nothing. -/
theorem main_nosend {s s' : MasterSys} {op : MOp} {o : List HMOut} (hl : (HMOp.main op).legal) (h : masterSysStep cfg s (.main op) = .ok (s', o))
    (hf : ∀ f, .lib (.send f) ∉ o) : ∃ l o1, masterStep cfg s.lib op = .ok (l, o1) ∧ s' = { s with lib := l } ∧ o = o1.map .lib := by
  have hm : op.isMain = true := by cases op <;> first | exact hl.elim | exact hl.1
  have hi2 : ∀ m, op ≠ .init m := by rintro m rfl; exact hl
  have h0 := h
  simp only [masterSysStep, show ¬ (op.isMain = false) by rw [hm]; decide] at h
  obtain ⟨⟨l, o1⟩, k1, k2⟩ := bind_ok h
  have e1 : libOuts o = o1 := (masterSends_lib k2).1
  have hns : ∀ f, MOut.send f ∉ o1 := by
    intro f hfo
    rw [← e1] at hfo
    unfold libOuts at hfo
    obtain ⟨y, hy, he⟩ := List.mem_filterMap.1 hfo
    cases y with
    | lib z => cases he; exact hf f hy
    | tdr b => cases he
  have := sys_main hm hi2 k1 hns
  rw [h0] at this
  have := Except.ok.inj this
  exact ⟨l, o1, k1, congrArg Prod.fst this, congrArg Prod.snd this⟩

/-- The transmit pointers. -/
theorem step_ptr {s s' : MasterSys} {op : HMOp} {o : List HMOut} (hl : op.legal) (h : masterSysStep cfg s op = .ok (s', o))
    (hf : ∀ f, .lib (.send f) ∉ o) : s'.last = s.last ∧ (txIrq op = true → s.cur < s.last → s'.cur = s.cur + 1 ∧ ∃ b, o = [.tdr b]) ∧
      (¬ (txIrq op = true ∧ s.cur < s.last) → s'.cur = s.cur ∧ ∀ b, .tdr b ∉ o) := by
  cases op with
  | main op =>
    obtain ⟨l, o1, -, rfl, rfl⟩ := main_nosend hl h hf
    refine ⟨rfl, (fun k => nomatch k), fun _ => ⟨rfl, ?_⟩⟩
    intro b hb
    obtain ⟨y, -, hy⟩ := List.mem_map.1 hb
    cases hy
  | rto =>
    simp only [masterSysStep, Except.ok.injEq, Prod.mk.injEq] at h
    rw [← h.1, ← h.2]
    exact ⟨rfl, (fun k => nomatch k), fun _ => ⟨rfl, fun b hb => nomatch hb⟩⟩
  | timer =>
    simp only [masterSysStep] at h
    obtain ⟨⟨l, o1⟩, -, h⟩ := bind_ok h
    simp only [pure_eq, Except.ok.injEq, Prod.mk.injEq] at h
    rw [← h.1, ← h.2]
    exact ⟨rfl, (fun k => nomatch k), fun _ => ⟨rfl, fun b hb => nomatch hb⟩⟩
  | usart rx t =>
    obtain ⟨s1, s2, -, -, -, -, -, h1, -, h2, h3⟩ := usart_parts h
    refine ⟨h1, h2, fun k => ?_⟩
    obtain ⟨e1, e2⟩ := h3 k
    exact ⟨e1, by rw [e2]; exact fun b hb => nomatch hb⟩

theorem master_unsent (hx : x.Exec cfg) {w : Nat} (hc : (x.st w).cur = (x.st w).last) (n : Nat) :
    (∀ i, w ≤ i → i < w + n → ¬ x.Sends i) → (∀ i b, w ≤ i → i < w + n → ¬ x.Writes i b) ∧ (x.st (w + n)).cur = (x.st (w + n)).last := by
  induction n with
  | zero => exact fun _ => ⟨fun i b _ _ => by omega, hc⟩
  | succ n ih =>
    intro hn
    obtain ⟨i1, i2⟩ := ih fun i a b => hn i a (by omega)
    obtain ⟨j1, -, j3⟩ := step_ptr (hx.legal (w + n)) (hx.step (w + n)) fun f hf => hn (w + n) (by omega) (by omega) ⟨f, hf⟩
    obtain ⟨k1, k2⟩ := j3 (by rintro ⟨-, h⟩; omega)
    refine ⟨fun i b a1 a2 => ?_, by rw [← Nat.add_assoc, k1, j1]; exact i2⟩
    by_cases h : i = w + n
    · subst h; exact k2 b
    · exact i1 i b a1 (by omega)

/-- The state during a transmission of `L` bytes. -/
structure DMBusy (L : Nat) (s : MasterSys) : Prop where
  st : s.lib.st = .transmitting
  txf : s.lib.txf = .set
  last : s.last + 1 = L

theorem dbusy_step (hw : cfg.MWF) (hx : x.Exec cfg) {L n : Nat} (hb : DMBusy L (x.st n)) :
    (∀ f, .lib (.send f) ∉ x.out n) ∧
    (txIrq (x.op n) = false → DMBusy L (x.st (n + 1)) ∧ (x.st (n + 1)).cur = (x.st n).cur ∧ ¬ ∃ b, x.Writes n b) ∧
    (txIrq (x.op n) = true → (x.st n).cur + 1 < L → DMBusy L (x.st (n + 1)) ∧ (x.st (n + 1)).cur = (x.st n).cur + 1 ∧ ∃ b, x.Writes n b) := by
  obtain ⟨g, hi, -⟩ := hx.sound hw n
  have hst := hx.step n
  have hno : .txDone ∈ evOps (x.st n) (x.op n) → txIrq (x.op n) = true ∧ ¬ (x.st n).cur < (x.st n).last := by
    intro h
    cases ho : x.op n with
    | main op =>
      have hle := hx.legal n
      rw [ho] at h hle
      obtain rfl := List.mem_singleton.1 h
      exact nomatch hle.1
    | rto => rw [ho] at h; cases h
    | timer => rw [ho] at h; obtain h := List.mem_singleton.1 h; cases h
    | usart rx t =>
      rw [ho] at h
      exact (evOps_usart h).2.2.1 rfl
  have hl := hb.last
  by_cases hd : .txDone ∈ evOps (x.st n) (x.op n)
  · obtain ⟨h1, h2⟩ := hno hd
    refine ⟨?_, (fun h => by rw [h1] at h; cases h), (fun _ h => by omega)⟩
    refine fun f => not_main_out hx ?_ _
    intro op ho
    rw [ho] at h1; cases h1
  · obtain ⟨k1, k2, k3, k4, k5⟩ := tx_step hw hi (hx.legal n) hb.st hb.txf hst hd
    obtain ⟨j1, j2, j3⟩ := step_ptr (hx.legal n) hst k4
    refine ⟨k4, fun ht => ?_, fun ht hlt => ?_⟩
    · obtain ⟨q1, q2⟩ := j3 (by rw [ht]; exact fun h => nomatch h.1)
      exact ⟨⟨k1, k2, by rw [k3]; exact hl⟩, q1, fun ⟨b, hb⟩ => q2 b hb⟩
    · obtain ⟨q1, b, q2⟩ := j2 ht (by omega)
      exact ⟨⟨k1, k2, by rw [k3]; exact hl⟩, q1, b, by unfold MDeviceTimed.Writes; rw [q2]; exact List.mem_cons_self ..⟩

theorem isTx_none {k : Nat} (hb : ¬ x.Byte k) (ht : txIrq (x.op k) = true) : x.op k = .usart none true := by
  cases ho : x.op k with
  | usart rx t =>
    rw [ho] at ht
    have ht : t = true := ht
    subst ht
    cases rx with
    | none => rfl
    | some b => exact absurd ⟨b, true, ho⟩ hb
  | main op => rw [ho] at ht; cases ht
  | rto => rw [ho] at ht; cases ht
  | timer => rw [ho] at ht; cases ht

/-- The transmission of a request. -/
structure Chain (x : MDeviceTimed) (e a z w : Nat) (r : MReq) : Prop where
  az : a ≤ z
  zw : z < w
  wz : ∃ b, x.Writes z b
  txw : txIrq (x.op w) = true
  timew : x.time w ≤ x.time z + e
  timez : x.time z ≤ x.time a + ((reqFrame r).length - 1) * e
  quiet : ∀ n, a < n → n ≤ w → ¬ x.Sends n
  next : ∀ n b, a ≤ n → n < z → x.Writes n b → ∃ m b', n < m ∧ m ≤ z ∧ x.Writes m b' ∧ ∀ i b', n < i → i < m → ¬ x.Writes i b'
  last : ∀ n b, a ≤ n → (∀ i, a < i → i ≤ n → ¬ x.Sends i) → x.Writes n b → n ≤ z
  wire : mwire (x.tr a (z + 1)) = reqFrame r
  count : (∀ k, a < k → k ≤ w → ¬ x.Byte k) → (x.seg (a + 1) w).count (.usart none true) + 1 = (reqFrame r).length
  pace : ∀ n b, a ≤ n → n < z → x.Writes n b → ∃ m b', n < m ∧ m ≤ z ∧ x.Writes m b' ∧ (∀ i b', n < i → i < m → ¬ x.Writes i b') ∧
    x.time m ≤ x.time n + e

theorem master_chain (hw : cfg.MWF) (hx : x.Exec cfg) {e : Nat}
    (htx : ∀ n b, x.Writes n b → ∃ m rx, n < m ∧ x.op m = .usart rx true ∧ x.time m ≤ x.time n + e) {a : Nat} {r : MReq} (hs : SendFacts x a r) :
    ∃ z w, Chain x e a z w r := by
  obtain ⟨b0, hout⟩ := hs.out
  have hF : 1 ≤ (reqFrame r).length := by rw [reqFrame_length]; omega
  have hbz : DMBusy (reqFrame r).length (x.st (a + 1)) := ⟨hs.st, hs.txf, hs.last⟩
  obtain ⟨z, w, z1, z2, z3, z4, z5, z6, z7, z8, z9, z10⟩ := tx_chain (T := fun n => txIrq (x.op n) = true) (W := fun n => ∃ b, x.Writes n b)
    (busy := fun n => DMBusy (reqFrame r).length (x.st n)) (cur := fun n => (x.st n).cur) (time := x.time) (e := e) (L := (reqFrame r).length) (a := a)
    (fun m n h => hx.time_le h) ⟨b0, by unfold MDeviceTimed.Writes; rw [hout]; simp⟩ hbz hs.cur hF
    (fun n ⟨b, hb⟩ => by
      obtain ⟨m, rx, m1, m2, m3⟩ := htx n b hb
      exact ⟨m, m1, by rw [m2]; rfl, m3⟩)
    (fun n hb ht => (dbusy_step hw hx hb).2.1 (by simpa using ht)) (fun n hb ht => (dbusy_step hw hx hb).2.2 ht)
  have hcw : (x.st w).cur = (x.st w).last := by have := (z6 w (by omega) (Nat.le_refl _)).last; omega
  have hquiet : ∀ n, a < n → n ≤ w → ¬ x.Sends n := fun n n1 n2 ⟨f, hf⟩ => (dbusy_step hw hx (z6 n n1 n2)).1 f hf
  have hnw : ∀ n, z < n → n < w → ¬ ∃ b, x.Writes n b := fun n n1 n2 => (z7 n n1 n2).1
  have hlast : ∀ n b, a ≤ n → (∀ i, a < i → i ≤ n → ¬ x.Sends i) → x.Writes n b → n ≤ z := by
    intro n b n1 n2 hn
    refine Classical.byContradiction fun h => ?_
    by_cases hlt : n < w
    · exact hnw n (by omega) hlt ⟨b, hn⟩
    · exact (master_unsent hx hcw (n + 1 - w) fun i i1 i2 => n2 i (by omega) (by omega)).1 n b (by omega) (by omega) hn
  have hpace : ∀ n b, a ≤ n → n < z → x.Writes n b → ∃ m b', n < m ∧ m ≤ z ∧ x.Writes m b' ∧ (∀ i b', n < i → i < m → ¬ x.Writes i b') ∧
      x.time m ≤ x.time n + e := by
    intro n b n1 n2 hn
    obtain ⟨m, m1, m2, ⟨b', m3⟩, m4, m5⟩ := z10 n n1 n2 ⟨b, hn⟩
    exact ⟨m, b', m1, m2, m3, fun i b'' i1 i2 hi => m4 i i1 i2 ⟨b'', hi⟩, m5⟩
  refine ⟨z, w, z1, z2, z3, z4, z8, z9, hquiet, ?_, hlast, ?_, ?_, hpace⟩
  · intro n b n1 n2 hn
    obtain ⟨m, b', m1, m2, m3, m4, -⟩ := hpace n b n1 n2 hn
    exact ⟨m, b', m1, m2, m3, m4⟩
  · have ia := hx.mwinv hw a
    have iw := hx.mwinv hw w
    have ca := ia.complete (ia.idle (by rcases hs.before with h | h <;> exact .inl (by rw [h]; simp)))
    have cw := iw.complete hcw
    rw [x.trace_split (show a ≤ w by omega), mwire_append, mframes_append, List.flatten_append, ← ca] at cw
    have cw := List.append_cancel_left cw
    have e1 : mwire (x.tr a w) = mwire (x.tr a (z + 1)) := by
      rw [x.tr_split (show a ≤ z + 1 by omega) (show z + 1 ≤ w by omega), mwire_append]
      have : mwire (x.tr (z + 1) w) = [] := by
        unfold mwire
        rw [List.filterMap_eq_nil_iff]
        intro o ho
        obtain ⟨p, hp, hpo⟩ := List.mem_flatMap.1 ho
        obtain ⟨k, k1, k2, rfl⟩ := MDeviceTimed.mem_tr.1 hp
        cases o with
        | lib y => rfl
        | tdr b => exact absurd ⟨b, hpo⟩ (hnw k (by omega) k2)
      rw [this, List.append_nil]
    rw [← e1, cw]
    have e2 : mframes (x.tr a w) = [reqFrame r] := by
      rw [x.tr_split (show a ≤ a + 1 by omega) (show a + 1 ≤ w by omega), mframes_append]
      have h1 : mframes (x.tr a (a + 1)) = [reqFrame r] := by
        unfold MDeviceTimed.tr
        rw [show a + 1 - a = 1 by omega]
        show mframes [(x.op a, x.out a)] = _
        rw [hs.op, hout]; rfl
      have h2 : mframes (x.tr (a + 1) w) = [] := by
        unfold mframes
        rw [sends_outs, List.filterMap_eq_nil_iff]
        intro o ho
        cases o with
        | send f =>
          exfalso
          obtain ⟨p, hp, hpo⟩ := List.mem_flatMap.1 (List.mem_filter.1 ho).1
          obtain ⟨q, hq, hqp⟩ := List.mem_filterMap.1 hp
          obtain ⟨k, k1, k2, rfl⟩ := MDeviceTimed.mem_tr.1 hq
          simp only at hqp
          split at hqp
          · cases hqp
            obtain ⟨u, hu, hue⟩ := List.mem_filterMap.1 hpo
            cases u with
            | lib v => cases hue; exact hquiet k (by omega) (by omega) ⟨f, hu⟩
            | tdr b => cases hue
          · cases hqp
        | _ => rfl
      rw [h1, h2]; rfl
    rw [e2]; simp
  · intro hnb
    have cnt : ∀ k, a + 1 + k ≤ w → (x.st (a + 1 + k)).cur = (x.seg (a + 1) (a + 1 + k)).count (.usart none true) := by
      intro k
      induction k with
      | zero => intro _; rw [Nat.add_zero, hs.cur, x.seg_self]; rfl
      | succ k ih =>
        intro hk
        have hb := z6 (a + 1 + k) (by omega) (by omega)
        have hi := ih (by omega)
        rw [show a + 1 + (k + 1) = a + 1 + k + 1 by omega, x.seg_succ (show a + 1 ≤ a + 1 + k by omega), List.count_append]
        by_cases ht : txIrq (x.op (a + 1 + k)) = true
        · rw [isTx_none (hnb _ (by omega) (by omega)) ht, List.count_singleton_self]
          obtain ⟨g, hg, -⟩ := hx.sound hw (a + 1 + k)
          have hb' := z6 (a + 1 + k + 1) (by omega) (by omega)
          by_cases hlt : (x.st (a + 1 + k)).cur < (x.st (a + 1 + k)).last
          · have := ((step_ptr (hx.legal _) (hx.step (a + 1 + k)) (dbusy_step hw hx hb).1).2.1 ht hlt).1
            omega
          · exfalso
            have hle := (hx.mwinv hw (a + 1 + k)).le
            by_cases hlw : a + 1 + k ≤ z
            · obtain ⟨b, hb⟩ := z3
              exact (master_unsent hx (w := a + 1 + k) (by omega) (z + 1 - (a + 1 + k)) fun i i1 i2 => hquiet i (by omega) (by omega)).1 z b (by omega)
                (by omega) hb
            · exact (z7 _ (by omega) (by omega)).2 ht
        · have := ((dbusy_step hw hx hb).2.1 (by simpa using ht)).2.1
          rw [List.count_singleton]
          rw [if_neg (by intro h; rw [beq_iff_eq] at h; rw [h] at ht; exact ht rfl)]
          omega
    have hw := cnt (w - (a + 1)) (by omega)
    rw [show a + 1 + (w - (a + 1)) = w by omega] at hw
    omega

/-! ### What events do to the library -/

theorem run_irq_kept (hw : cfg.MWF) (ops : List MOp) : ∀ {s s' : Master} {g : Ghost} {tr : MTrace}, (∀ p ∈ ops, p.isMain = false ∧ p ≠ .t35) →
    MInv cfg s g → masterRun cfg s ops = .ok (s', tr) → s'.st = s.st ∧ s'.timer = s.timer ∧ s'.t35 = s.t35 ∧ s'.crcf = s.crcf ∧
      ((∀ p ∈ ops, p ≠ .t15 ∧ p ≠ .frameErr) → s'.t15 = s.t15 ∧ s'.ferr = s.ferr) := by
  induction ops with
  | nil => intro s s' g tr _ hi h; cases h; exact ⟨rfl, rfl, rfl, rfl, fun _ => ⟨rfl, rfl⟩⟩
  | cons op ops ih =>
    intro s s' g tr ho hi h
    obtain ⟨s1, o, t2, k1, k2, -⟩ := run_cons_inv h
    obtain ⟨h1, h2⟩ := ho op List.mem_cons_self
    have hni : ∀ m, op ≠ .init m := by rintro m rfl; cases h1
    have he := masterStep_effect hw hi (by rintro rfl; cases h1) hni k1
    obtain ⟨g1, hi1⟩ := step_inv_of hw hi ⟨hni, by rintro r rfl; cases h1⟩ k1
    obtain ⟨i1, i2, i3, i4, i5⟩ := ih (fun p hp => ho p (List.mem_cons_of_mem _ hp)) hi1 k2
    refine ⟨i1.trans he.st, i2.trans ?_, i3.trans ?_, i4.trans he.crcf, fun hp => ?_⟩
    · rw [he.timer, if_neg (by rintro rfl; cases h1)]; exact Nat.sub_zero _
    · rw [he.t35', if_neg h2]
    · obtain ⟨j1, j2⟩ := i5 fun p hq => hp p (List.mem_cons_of_mem _ hq)
      obtain ⟨q1, q2⟩ := hp op List.mem_cons_self
      exact ⟨j1.trans (by rw [he.t15', if_neg q1]), j2.trans (by rw [he.ferr', if_neg q2])⟩

theorem usart_kept (hw : cfg.MWF) (hx : x.Exec cfg) {n : Nat} {rx : Option U8} {t : Bool} (ho : x.op n = .usart rx t) :
    (x.st (n + 1)).lib.st = (x.st n).lib.st ∧ (x.st (n + 1)).lib.timer = (x.st n).lib.timer ∧ (x.st (n + 1)).lib.t35 = (x.st n).lib.t35 ∧
      (x.st (n + 1)).lib.crcf = (x.st n).lib.crcf ∧
      (rx = none → (x.st n).rtof = false → (x.st (n + 1)).lib.t15 = (x.st n).lib.t15 ∧ (x.st (n + 1)).lib.ferr = (x.st n).lib.ferr) := by
  obtain ⟨g, hi, -⟩ := hx.sound hw n
  have hr := evTrace_run (hx.legal n).proper (hx.step n)
  obtain ⟨h1, h2, h3, h4, h5⟩ := run_irq_kept hw _ (by
    intro p hp
    rw [ho] at hp
    obtain ⟨k1, -, -, k4⟩ := evOps_usart hp
    exact ⟨k1, k4⟩) hi hr
  refine ⟨h1, h2, h3, h4, fun hn hf => h5 ?_⟩
  intro p hp
  rw [ho] at hp
  refine ⟨fun e => ?_, fun e => ?_⟩
  · have := (evOps_usart hp).2.1 e
    rw [hf] at this; cases this
  · subst e
    subst hn
    simp only [evOps, rxOps, hf, List.nil_append] at hp
    split at hp <;> simp at hp

/-- A property of the library that holds as long as a request cannot be transmitted: `T` is the response timeout, `k` the number of ticks so far. -/
def Held (T : Nat) (s : Master) (k : Nat) : Prop :=
  s.st = .transmitting ∨ (s.st = .waiting ∧ T ≤ s.timer + k) ∨ (s.st = .received ∧ s.t35 ≠ .set) ∨ T ≤ k + 1

theorem held_step (hw : cfg.MWF) (hx : x.Exec cfg) {n k : Nat} (h : Held cfg.respTimeout (x.st n).lib k) (ht : x.op n ≠ .timer) :
    Held cfg.respTimeout (x.st (n + 1)).lib (k + if x.op n = .main .tick then 1 else 0) ∧ (x.Sends n → cfg.respTimeout ≤ k + 1) := by
  obtain ⟨g, hi, -⟩ := hx.sound hw n
  have hst := hx.step n
  have hle := hx.legal n
  have keep : (x.st (n + 1)).lib.st = (x.st n).lib.st → (x.st (n + 1)).lib.timer = (x.st n).lib.timer → (x.st (n + 1)).lib.t35 = (x.st n).lib.t35 →
      Held cfg.respTimeout (x.st (n + 1)).lib k := by
    intro e1 e2 e3
    unfold Held
    rw [e1, e2, e3]; exact h
  have hsend : x.Sends n → cfg.respTimeout ≤ k + 1 := by
    intro hs
    obtain ⟨r, hr⟩ := hx.sends hw hs
    rcases h with h | ⟨h, -⟩ | ⟨h, -⟩ | h
    · rcases hr.before with q | q <;> rw [h] at q <;> cases q
    · rcases hr.before with q | q <;> rw [h] at q <;> cases q
    · rcases hr.before with q | q <;> rw [h] at q <;> cases q
    · exact h
  refine ⟨?_, hsend⟩
  cases ho : x.op n with
  | timer => exact absurd ho ht
  | rto =>
    rw [if_neg (by simp), Nat.add_zero]
    rw [ho] at hst
    simp only [masterSysStep, Except.ok.injEq, Prod.mk.injEq] at hst
    rw [← hst.1]; exact h
  | usart rx t =>
    rw [if_neg (by simp), Nat.add_zero]
    obtain ⟨h1, h2, h3, -⟩ := usart_kept hw hx ho
    exact keep h1 h2 h3
  | main op =>
    rw [ho] at hst hle
    by_cases hp : op = .poll
    · subst hp
      rw [if_neg (by simp), Nat.add_zero]
      by_cases hs : x.Sends n
      · exact .inr (.inr (.inr (hsend hs)))
      · obtain ⟨l, o1, k1, k2, -⟩ := main_nosend hle hst fun f hf => hs ⟨f, hf⟩
        have hpc := poll_case hw hi k1
        have hl : (x.st (n + 1)).lib = l := by rw [k2]
        rw [hl]
        cases hpc with
        | idleNop _ e _ => rw [e]; exact h
        | txNop _ _ e _ => rw [e]; exact h
        | waitNop _ _ _ e _ => rw [e]; exact h
        | recNop _ _ e _ => rw [e]; exact h
        | send _ e _ _ _ _ _ => exact .inl e
        | txEnd _ _ e ht _ _ _ => exact .inr (.inl ⟨e, by rw [ht]; exact Nat.le_add_right _ _⟩)
        | other hq _ e ht _ _ _ =>
          rcases h with h | ⟨-, h⟩ | ⟨h, -⟩ | h
          · rw [h] at hq; cases hq
          · exact .inr (.inl ⟨e, by rw [ht]; exact h⟩)
          · rw [h] at hq; cases hq
          · exact .inr (.inr (.inr h))
        | check _ _ e h35 _ _ _ => exact .inr (.inr (.inl ⟨e, by rw [h35]; simp⟩))
        | timeout hq _ ht _ _ _ _ =>
          rcases h with h | ⟨-, h⟩ | ⟨h, -⟩ | h
          · rw [h] at hq; cases hq
          · exact .inr (.inr (.inr (by rw [ht] at h; omega)))
          · rw [h] at hq; cases hq
          · exact .inr (.inr (.inr h))
        | again hq h35 _ _ _ _ _ =>
          rcases h with h | ⟨h, -⟩ | ⟨-, h⟩ | h
          · rw [h] at hq; cases hq
          · rw [h] at hq; cases hq
          · exact absurd h35 h
          · exact .inr (.inr (.inr h))
        | finish hq h35 _ _ _ _ =>
          rcases h with h | ⟨h, -⟩ | ⟨-, h⟩ | h
          · rw [h] at hq; cases hq
          · rw [h] at hq; cases hq
          · exact absurd h35 h
          · exact .inr (.inr (.inr h))
    · obtain ⟨l, o1, -, he, k2, -, -⟩ := main_quiet_out hw hi hle hp hst
      have hl : (x.st (n + 1)).lib = l := by rw [k2]
      have e35 : l.t35 = (x.st n).lib.t35 := by
        rw [he.t35', if_neg]
        rintro rfl
        exact nomatch hle.1
      by_cases htk : op = .tick
      · subst htk
        rw [if_pos rfl, hl]
        rcases h with h | ⟨h, h'⟩ | ⟨h, h'⟩ | h
        · exact .inl (he.st.trans h)
        · refine .inr (.inl ⟨he.st.trans h, ?_⟩)
          rw [he.timer, if_pos rfl]; omega
        · exact .inr (.inr (.inl ⟨he.st.trans h, by rw [e35]; exact h'⟩))
        · exact .inr (.inr (.inr (by omega)))
      · rw [if_neg (by simpa using htk), Nat.add_zero]
        exact keep (by rw [hl]; exact he.st) (by rw [hl, he.timer, if_neg htk]; exact Nat.sub_zero _) (by rw [hl]; exact e35)

theorem hmTicks_append (a b : List HMOp) : hmTicks (a ++ b) = hmTicks a + hmTicks b := List.count_append ..

theorem held_run (hw : cfg.MWF) (hx : x.Exec cfg) {a k : Nat} (h : Held cfg.respTimeout (x.st a).lib k) (n : Nat) :
    (∀ i, a ≤ i → i < a + n → x.op i ≠ .timer) → Held cfg.respTimeout (x.st (a + n)).lib (k + hmTicks (x.seg a (a + n))) := by
  induction n with
  | zero => intro _; rw [Nat.add_zero, x.seg_self]; exact h
  | succ n ih =>
    intro hn
    have hi := ih fun i i1 i2 => hn i i1 (by omega)
    have := (held_step hw hx hi (hn (a + n) (by omega) (by omega))).1
    rw [← Nat.add_assoc, x.seg_succ (by omega), hmTicks_append]
    have e : hmTicks [x.op (a + n)] = if x.op (a + n) = .main .tick then 1 else 0 := by
      unfold hmTicks
      rw [List.count_singleton]
      by_cases hq : x.op (a + n) = .main .tick
      · rw [hq]; rfl
      · rw [if_neg hq, if_neg (by simpa using hq)]
    rw [e, ← Nat.add_assoc]
    exact this

/-- A request is not transmitted before the response timeout of the one before has passed, unless a frame has been received. -/
theorem next_send (hw : cfg.MWF) (hx : x.Exec cfg) {a b k : Nat} (h : Held cfg.respTimeout (x.st a).lib k) (hab : a ≤ b) (hb : x.Sends b)
    (hn : ∀ i, a ≤ i → i < b → x.op i ≠ .timer) : cfg.respTimeout ≤ k + hmTicks (x.seg a b) + 1 := by
  have := held_run hw hx h (b - a) fun i i1 i2 => hn i i1 (by omega)
  rw [show a + (b - a) = b by omega] at this
  refine (held_step hw hx this ?_).2 hb
  obtain ⟨r, hr⟩ := hx.sends hw hb
  rw [hr.op]; simp

/-- `k` ticks take time. -/
theorem ticks_time (hx : x.Exec cfg) {d : Nat} (hap : ∀ m n, m < n → x.op m = .main .tick → x.op n = .main .tick → x.time m + d ≤ x.time n) {a : Nat}
    (n : Nat) : hmTicks (x.seg a (a + n)) = 0 ∨ ∃ l, a ≤ l ∧ l < a + n ∧ x.op l = .main .tick ∧
      x.time a + (hmTicks (x.seg a (a + n)) - 1) * d ≤ x.time l := by
  induction n with
  | zero => left; rw [Nat.add_zero, x.seg_self]; rfl
  | succ n ih =>
    rw [← Nat.add_assoc, x.seg_succ (by omega), hmTicks_append]
    by_cases hq : x.op (a + n) = .main .tick
    · right
      have e : hmTicks [x.op (a + n)] = 1 := by rw [hq]; rfl
      refine ⟨a + n, by omega, by omega, hq, ?_⟩
      rw [e]
      rcases ih with ih | ⟨l, l1, l2, l3, l4⟩
      · rw [ih, Nat.zero_add, Nat.sub_self, Nat.zero_mul]
        exact hx.time_le (by omega)
      · have := hap l (a + n) l2 l3 hq
        rw [Nat.add_sub_cancel]
        generalize hmTicks (x.seg a (a + n)) = t at *
        rcases t with _ | t
        · have := hx.time_le (show a ≤ a + n by omega); rw [Nat.zero_mul]; omega
        · rw [Nat.add_sub_cancel] at l4
          rw [Nat.succ_mul]; omega
    · have e : hmTicks [x.op (a + n)] = 0 := by
        unfold hmTicks
        rw [List.count_singleton, if_neg (by simpa using hq)]
      rw [e, Nat.add_zero]
      rcases ih with ih | ⟨l, l1, l2, l3, l4⟩
      · exact .inl ih
      · exact .inr ⟨l, l1, by omega, l3, l4⟩

/-! ### The line -/

theorem mtimer_not_byte {m : Nat} (hm : x.op m = .timer) : ¬ x.Byte m := by
  rintro ⟨b, t, e⟩; rw [hm] at e; cases e

theorem mrto_not_byte {m : Nat} (hm : x.op m = .rto) : ¬ x.Byte m := by
  rintro ⟨b, t, e⟩; rw [hm] at e; cases e

theorem mmain_not_byte {m : Nat} {op : MOp} (hm : x.op m = .main op) : ¬ x.Byte m := by
  rintro ⟨b, t, e⟩; rw [hm] at e; cases e

/-- As long as no byte comes in after a silence, nothing is signalled. -/
theorem Spec.MDeviceTimed.Hardware.still (hx : x.Exec cfg) (hh : x.Hardware t15 t35 lat) (hord : t15 + lat < t35) {c z : Nat}
    (hm : c = 0 ∨ x.op (c - 1) = .timer) (hb : ∀ k, c ≤ k → k < z → ¬ x.Byte k) {k : Nat} (k1 : c ≤ k) (k2 : k ≤ z) :
    x.op k ≠ .rto ∧ x.op k ≠ .timer := by
  rcases hm with hm | hm
  · subst hm
    refine ⟨fun h => ?_, fun h => ?_⟩
    · obtain ⟨j, j1, j2, -⟩ := hh.rtoOnly k h
      exact hb j (by omega) (by omega) j2
    · obtain ⟨j, j1, j2, -⟩ := hh.timerOnly k h
      exact hb j (by omega) (by omega) j2
  · by_cases hc0 : c = 0
    · subst hc0
      refine ⟨fun h => ?_, fun h => ?_⟩
      · obtain ⟨j, j1, j2, -⟩ := hh.rtoOnly k h
        exact hb j (by omega) (by omega) j2
      · obtain ⟨j, j1, j2, -⟩ := hh.timerOnly k h
        exact hb j (by omega) (by omega) j2
    · obtain ⟨m, rfl⟩ : ∃ m, c = m + 1 := ⟨c - 1, by omega⟩
      rw [Nat.add_sub_cancel] at hm
      constructor
      · intro h
        obtain ⟨j, j1, j2, j3, j4⟩ := hh.rtoOnly k h
        by_cases hj : m < j
        · exact hb j (by omega) (by omega) j2
        · have hjm : j < m := by
            rcases Nat.lt_or_ge j m with h | h
            · exact h
            · have : j = m := by omega
              subst this
              exact absurd j2 (mtimer_not_byte hm)
          obtain ⟨j', i1, i2, i3, i4⟩ := hh.timerOnly m hm
          have : j' = j := by
            rcases Nat.lt_trichotomy j' j with h | h | h
            · exact absurd j2 (i4 j h hjm).1
            · exact h
            · exact absurd i2 (j4 j' h (by omega)).1
          subst this
          obtain ⟨n, n1, n2, n3⟩ := hh.rtoMust j' j2
          have hnm : n < m := by
            apply Classical.byContradiction
            intro h
            have := hx.time_le (show m ≤ n by omega)
            omega
          rcases n2 with n2 | n2
          · exact (i4 n n1 hnm).1 n2
          · exact (j4 n n1 (by omega)).2 n2
      · intro h
        obtain ⟨j, j1, j2, j3, j4⟩ := hh.timerOnly k h
        by_cases hj : m < j
        · exact hb j (by omega) (by omega) j2
        · have hjm : j < m := by
            rcases Nat.lt_or_ge j m with h | h
            · exact h
            · have : j = m := by omega
              subst this
              exact absurd j2 (mtimer_not_byte hm)
          exact (j4 m hjm (by omega)).2 hm

/-- A device at rest stays so while nothing comes in and nothing is transmitted. -/
theorem standing_range (hw : cfg.MWF) (hx : x.Exec cfg) {a : Nat} (h : Standing false false (x.st a).lib) (n : Nat) :
    (∀ k, a ≤ k → k < a + n → ¬ x.Sends k ∧ ¬ x.Byte k ∧ (x.st k).rtof = false) → Standing false false (x.st (a + n)).lib := by
  induction n with
  | zero => exact fun _ => h
  | succ n ih =>
    intro hn
    have hs := ih fun k k1 k2 => hn k k1 (by omega)
    obtain ⟨q1, q2, q3⟩ := hn (a + n) (by omega) (by omega)
    obtain ⟨g, hi, -⟩ := hx.sound hw (a + n)
    have hst := hx.step (a + n)
    have hle := hx.legal (a + n)
    rw [← Nat.add_assoc]
    cases ho : x.op (a + n) with
    | timer =>
      rw [ho] at hst
      simp only [masterSysStep] at hst
      obtain ⟨⟨l, o1⟩, k1, hst⟩ := bind_ok hst
      simp only [pure_eq, Except.ok.injEq, Prod.mk.injEq] at hst
      have he := masterStep_effect hw hi (by simp) (by simp) k1
      rw [← hst.1]
      exact ⟨he.st.trans hs.st, by rw [he.t15', if_neg (by simp)]; exact hs.t15, by rw [he.ferr', if_neg (by simp)]; exact hs.ferr, he.crcf.trans hs.crcf⟩
    | rto =>
      rw [ho] at hst
      simp only [masterSysStep, Except.ok.injEq, Prod.mk.injEq] at hst
      rw [← hst.1]; exact hs
    | usart rx t =>
      have hrx : rx = none := by
        cases rx with
        | none => rfl
        | some b => exact absurd ⟨b, t, ho⟩ q2
      obtain ⟨h1, -, -, h4, h5⟩ := usart_kept hw hx ho
      obtain ⟨h6, h7⟩ := h5 hrx q3
      exact ⟨h1.trans hs.st, h6.trans hs.t15, h7.trans hs.ferr, h4.trans hs.crcf⟩
    | main op =>
      rw [ho] at hst hle
      by_cases hp : op = .poll
      · subst hp
        obtain ⟨l, o1, k1, k2, k3⟩ := main_nosend hle hst fun f hf => q1 ⟨f, hf⟩
        have hpc := poll_case hw hi k1
        have hl : (x.st (a + n + 1)).lib = l := by rw [k2]
        rw [hl]
        have hid := hs.st
        cases hpc with
        | idleNop _ e _ => rw [e]; exact hs
        | send _ _ _ _ _ b ho => exact absurd ⟨b, by rw [k3, ho]; simp⟩ q1
        | txNop h => rw [hid] at h; cases h
        | waitNop h => rw [hid] at h; cases h
        | recNop h => rw [hid] at h; cases h
        | txEnd h => rw [hid] at h; cases h
        | other h => rw [hid] at h; cases h
        | check h => rw [hid] at h; cases h
        | timeout h => rw [hid] at h; cases h
        | again h => rw [hid] at h; cases h
        | finish h => rw [hid] at h; cases h
      · obtain ⟨l, o1, -, he, k2, -, -⟩ := main_quiet_out hw hi hle hp hst
        have hl : (x.st (a + n + 1)).lib = l := by rw [k2]
        rw [hl]
        have hm : op.isMain = true := by cases op <;> first | exact hle.elim | exact hle.1
        exact ⟨he.st.trans hs.st, by rw [he.t15', if_neg (by rintro rfl; cases hm)]; exact hs.t15,
          by rw [he.ferr', if_neg (by rintro rfl; cases hm)]; exact hs.ferr, he.crcf.trans hs.crcf⟩

end

end Modbus
