import Verif.Proofs.DriverSlave

/-! Exchanges at the level of the slave's driver: interrupts in, bytes out. -/

namespace Modbus

open Spec

/-! ### Vocabulary -/

/-- What may happen at any time without being line activity: polls, application writes, registrations inside the tables, and
interrupts without a received byte. -/
def HOp.noise (cfg : Config) : HOp → Prop
  | .main op => op.noise cfg
  | .usart none _ => True
  | _ => False

/-- Noise, or an interrupt with a received byte. -/
def HOp.rxNoise (cfg : Config) : HOp → Prop
  | .main op => op.noise cfg
  | .usart _ _ => True
  | _ => False

/-- What may happen while RTOF is set (the main program stands still). -/
def HOp.inGap : HOp → Prop
  | .rto | .usart _ _ => True
  | _ => False

/-- The received bytes. -/
def hbytes : List HOp → List U8
  | [] => []
  | .usart (some b) _ :: ops => b :: hbytes ops
  | _ :: ops => hbytes ops

/-- What the main program does. -/
def mainOps : List HOp → List SOp
  | [] => []
  | .main op :: ops => op :: mainOps ops
  | _ :: ops => mainOps ops

/-- Main program and received bytes. -/
def hstrip : List HOp → List SOp
  | [] => []
  | .main op :: ops => op :: hstrip ops
  | .usart (some b) _ :: ops => .rxByte b :: hstrip ops
  | _ :: ops => hstrip ops

/-- One exchange on the line: bytes arrive (`rx`); 1.5 characters of silence; the first interrupt after it (`fb`, `ft`; it may still
deliver a byte); possibly more bytes although the silence was too long (`gap`); 3.5 characters of silence; polls (`n2`); and, if a response is
transmitted, its interrupts (`tx`) and more polls (`n3`). -/
structure HExchange where
  rx : List HOp
  fb : Option U8
  ft : Bool
  gap : List HOp
  n2 : List HOp
  tx : List HOp
  n3 : List HOp

/-- Reception up to the end of the frame. -/
def HExchange.recv (x : HExchange) : List HOp := x.rx ++ .rto :: .usart x.fb x.ft :: (x.gap ++ [.timer])

/-- The events of an exchange with a transmission. -/
def HExchange.ops (x : HExchange) : List HOp := x.recv ++ x.n2 ++ x.tx ++ x.n3

/-- The events of an exchange without a transmission. -/
def HExchange.opsSilent (x : HExchange) : List HOp := x.recv ++ x.n2

/-- The frame received. -/
def HExchange.frame (x : HExchange) : List U8 := hbytes x.rx ++ x.fb.toList

/-- The shape of an exchange: at least two polls after the end of the frame. -/
structure HExchange.WF (cfg : Config) (x : HExchange) : Prop where
  rx : ∀ op ∈ x.rx, op.rxNoise cfg
  gap : ∀ op ∈ x.gap, op.inGap
  n2 : ∀ op ∈ x.n2, op.noise cfg
  polls2 : 2 ≤ x.n2.count (.main .poll)

/-- A good exchange: a valid frame for this slave, no byte in the gap, at least 256 transmit interrupts, at least one poll after them. -/
structure HExchange.Good (cfg : Config) (id : U8) (x : HExchange) : Prop extends x.WF cfg where
  frame : GoodFrame id x.frame
  nogap : hbytes x.gap = []
  tx : ∀ op ∈ x.tx, op.noise cfg
  n3 : ∀ op ∈ x.n3, op.noise cfg
  irqs : 256 ≤ x.tx.count (.usart none true)
  polls3 : 1 ≤ x.n3.count (.main .poll)

/-- A bad exchange: bytes after a gap, or a frame that is not CRC-correct, or for somebody else. -/
structure HExchange.Bad (cfg : Config) (id : U8) (x : HExchange) : Prop extends x.WF cfg where
  bad : hbytes x.gap ≠ [] ∨ (¬ CrcCorrect x.frame ∨ x.frame.getD 0 0 ≠ id) ∧ x.frame.length ≤ 255

/-- The synchronised idle state of slave and driver. -/
structure HSync (s : SlaveSys) : Prop where
  sync : Sync s.lib
  txf : s.lib.txf = .cleared
  gap : s.gap = false
  rtof : s.rtof = false
  cur : s.cur = s.last

/-! ### Basic facts -/

theorem hstrip_append (a b : List HOp) : hstrip (a ++ b) = hstrip a ++ hstrip b := by
  induction a with
  | nil => rfl
  | cons op a ih =>
    cases op with
    | usart r t => cases r <;> simp [hstrip, ih]
    | _ => simp [hstrip, ih]

theorem mainOps_append (a b : List HOp) : mainOps (a ++ b) = mainOps a ++ mainOps b := by
  induction a with
  | nil => rfl
  | cons op a ih => cases op <;> simp [mainOps, ih]

theorem hbytes_append (a b : List HOp) : hbytes (a ++ b) = hbytes a ++ hbytes b := by
  induction a with
  | nil => rfl
  | cons op a ih =>
    cases op with
    | usart r t => cases r <;> simp [hbytes, ih]
    | _ => simp [hbytes, ih]

theorem appMem_hstrip (h : List HOp) : ∀ m, appMem m (hstrip h) = appMem m (mainOps h) := by
  induction h with
  | nil => intro m; rfl
  | cons op a ih =>
    intro m
    cases op with
    | usart r t => cases r <;> simp [hstrip, mainOps, ih, appMem]
    | main op => cases op <;> simp [hstrip, mainOps, appMem, ih]
    | _ => simp [hstrip, mainOps, ih]

theorem bytesOf_hstrip {cfg : Config} (h : List HOp) (hn : ∀ op ∈ h, op.rxNoise cfg) : bytesOf (hstrip h) = hbytes h := by
  induction h with
  | nil => rfl
  | cons op a ih =>
    have h0 := hn op (List.mem_cons_self ..)
    have := ih fun o ho => hn o (List.mem_cons_of_mem _ ho)
    cases op with
    | usart r t => cases r <;> simp [hstrip, hbytes, bytesOf, this]
    | main op => cases op <;> simp_all [hstrip, hbytes, bytesOf, HOp.rxNoise, SOp.noise]
    | _ => simp_all [hstrip, hbytes]

theorem HOp.noise.rx {cfg : Config} {op : HOp} (h : op.noise cfg) : op.rxNoise cfg := by
  cases op with
  | usart r t => trivial
  | main op => exact h
  | _ => exact h

theorem hstrip_noise {cfg : Config} {h : List HOp} (hn : ∀ op ∈ h, op.noise cfg) : ∀ op ∈ hstrip h, op.noise cfg := by
  induction h with
  | nil => intro op ho; simp [hstrip] at ho
  | cons op a ih =>
    have h0 := hn op (List.mem_cons_self ..)
    have := ih fun o ho => hn o (List.mem_cons_of_mem _ ho)
    cases op with
    | usart r t =>
      cases r with
      | none => exact this
      | some b => exact h0.elim
    | main op =>
      intro o ho
      simp only [hstrip, List.mem_cons] at ho
      rcases ho with rfl | ho
      · exact h0
      · exact this o ho
    | _ => exact this

theorem hstrip_rxNoise {cfg : Config} {h : List HOp} (hn : ∀ op ∈ h, op.rxNoise cfg) : ∀ op ∈ hstrip h, op.rxNoise cfg := by
  induction h with
  | nil => intro op ho; simp [hstrip] at ho
  | cons op a ih =>
    have h0 := hn op (List.mem_cons_self ..)
    have := ih fun o ho => hn o (List.mem_cons_of_mem _ ho)
    cases op with
    | usart r t =>
      cases r with
      | none => exact this
      | some b =>
        intro o ho
        simp only [hstrip, List.mem_cons] at ho
        rcases ho with rfl | ho
        · exact .inr ⟨b, rfl⟩
        · exact this o ho
    | main op =>
      intro o ho
      simp only [hstrip, List.mem_cons] at ho
      rcases ho with rfl | ho
      · exact .inl h0
      · exact this o ho
    | _ => exact this

theorem poll_hstrip {h : List HOp} : SOp.poll ∈ hstrip h ↔ HOp.main .poll ∈ h := by
  induction h with
  | nil => simp [hstrip]
  | cons op a ih =>
    cases op with
    | usart r t => cases r <;> simp [hstrip, ih]
    | main op => simp [hstrip, ih]
    | _ => simp [hstrip, ih]

/-- First poll. -/
theorem first_hpoll {l : List HOp} (h : 1 ≤ l.count (.main .poll)) :
    ∃ a b, l = a ++ .main .poll :: b ∧ HOp.main .poll ∉ a ∧ l.count (.main .poll) = 1 + b.count (.main .poll) := by
  induction l with
  | nil => simp at h
  | cons op l ih =>
    by_cases hp : op = .main .poll
    · subst hp; exact ⟨[], l, rfl, by simp, by simp; omega⟩
    · rw [List.count_cons_of_ne hp] at h ⊢
      obtain ⟨a, b, rfl, ha, hc⟩ := ih h
      exact ⟨op :: a, b, rfl, by simp [ha, Ne.symm hp], hc⟩

theorem sysRun_cons {cfg : Config} {s s1 s2 : SlaveSys} {op : HOp} {b : List HOp} {o1 o2 : List HOut}
    (h1 : slaveSysStep cfg s op = .ok (s1, o1)) (h2 : slaveSysRun cfg s1 b = .ok (s2, o2)) :
    slaveSysRun cfg s (op :: b) = .ok (s2, o1 ++ o2) := by
  simp only [slaveSysRun, h1, ok_bind, h2, pure_eq]

theorem sysRun_append {cfg : Config} {b : List HOp} (a : List HOp) : ∀ {s s1 s2 : SlaveSys} {o1 o2 : List HOut},
    slaveSysRun cfg s a = .ok (s1, o1) → slaveSysRun cfg s1 b = .ok (s2, o2) → slaveSysRun cfg s (a ++ b) = .ok (s2, o1 ++ o2) := by
  induction a with
  | nil => intro s s1 s2 o1 o2 h1 h2; cases h1; exact h2
  | cons op a ih =>
    intro s s1 s2 o1 o2 h1 h2
    cases hs : slaveSysStep cfg s op with
    | error e => simp only [slaveSysRun, hs, error_bind] at h1; cases h1
    | ok x =>
      obtain ⟨s3, o3⟩ := x
      cases hr : slaveSysRun cfg s3 a with
      | error e => simp only [slaveSysRun, hs, ok_bind, hr, error_bind] at h1; cases h1
      | ok y =>
        obtain ⟨s4, o4⟩ := y
        simp only [slaveSysRun, hs, ok_bind, hr, pure_eq] at h1
        cases h1
        rw [List.cons_append, List.append_assoc]
        exact sysRun_cons hs (ih hr h2)

/-! ### Phases -/

/-- The completion callback when nothing is being transmitted. -/
theorem txDone_noop {cfg : Config} {l : Slave} (h : l.txf = .cleared) : slaveStep cfg l .txDone = .ok (l, []) := by
  have : (if l.subscribed = true then { l with txf := .cleared } else l) = l := by
    split
    · cases l; simp only at h; subst h; rfl
    · rfl
  simp only [slaveStep, this]

theorem irqTx_noop {cfg : Config} {s : SlaveSys} (h1 : s.lib.txf = .cleared) (h2 : ¬ s.cur < s.last) (t : Bool) :
    slaveIrqTx cfg s t = .ok (s, []) := by
  cases t with
  | false => rfl
  | true => simp only [slaveIrqTx, if_true, h2, if_false, txDone_noop h1, ok_bind, pure_eq]

/-- A silent poll does not start a transmission. -/
theorem silent_txf {cfg : Config} (hc : cfg.WF) {l l' : Slave} {op : SOp} (hn : op.rxNoise cfg) (h : slaveStep cfg l op = .ok (l', []))
    (hx : l.txf = .cleared) : l'.txf = .cleared := by
  by_cases hp : op = .poll
  · subst hp
    generalize ho : ([] : List SOut) = o at h
    have := slavePoll_inv cfg hc (show slavePoll cfg l = _ from h)
    cases this with
    | answer => cases ho
    | dflt => rfl
    | _ => exact hx
  · have hni : ∀ m i, op ≠ .init m i := by
      rintro m i rfl
      rcases hn with h | ⟨b, h⟩
      · exact h
      · cases h
    obtain ⟨-, -, -, -, -, -, -, -, -, -, -, e | ⟨-, e⟩⟩ := slaveStep_frame h hp hni
    · rw [e]; exact hx
    · exact e

/-- While nothing is being transmitted, the driver passes bytes on and otherwise does nothing. -/
theorem quiet_sys {cfg : Config} (hc : cfg.WF) (h : List HOp) : ∀ (l l' : Slave) (c d : Nat), ¬ c < d → l.txf = .cleared →
    (∀ op ∈ h, op.rxNoise cfg) → slaveRun cfg l (hstrip h) = .ok (l', []) →
    slaveSysRun cfg ⟨l, c, d, false, false⟩ h = .ok (⟨l', c, d, false, false⟩, []) ∧ l'.txf = .cleared := by
  induction h with
  | nil => intro l l' c d _ hx _ hr; cases hr; exact ⟨rfl, hx⟩
  | cons op h ih =>
    intro l l' c d hcd hx hn hr
    have h0 := hn op (List.mem_cons_self ..)
    have hn' : ∀ op ∈ h, op.rxNoise cfg := fun o ho => hn o (List.mem_cons_of_mem _ ho)
    have go : ∀ l1, slaveSysStep cfg ⟨l, c, d, false, false⟩ op = .ok (⟨l1, c, d, false, false⟩, []) → l1.txf = .cleared →
        slaveRun cfg l1 (hstrip h) = .ok (l', []) →
        slaveSysRun cfg ⟨l, c, d, false, false⟩ (op :: h) = .ok (⟨l', c, d, false, false⟩, []) ∧ l'.txf = .cleared := by
      intro l1 h1 h2 h3
      obtain ⟨a, b⟩ := ih l1 l' c d hcd h2 hn' h3
      exact ⟨sysRun_cons h1 a, b⟩
    cases op with
    | main op =>
      obtain ⟨l1, o1, o2, h1, h2, h3⟩ := slaveRun_cons_inv (show slaveRun cfg l (op :: hstrip h) = _ from hr)
      obtain ⟨rfl, rfl⟩ := List.append_eq_nil_iff.mp h3.symm
      refine go l1 ?_ (silent_txf hc (.inl h0) h1 hx) h2
      have hm : ¬ ((⟨l, c, d, false, false⟩ : SlaveSys).rtof = true ∨ op.isMain = false) := by
        rintro (h | h)
        · cases h
        · cases op <;> first | exact h0.elim | cases h
      simp only [slaveSysStep, if_neg hm, h1, ok_bind, slaveSends]
      cases op <;> first | rfl | exact h0.elim
    | rto | timer => exact h0.elim
    | usart r t =>
      cases r with
      | none =>
        refine go l ?_ hx hr
        simp only [slaveSysStep, slaveIrqRx, ok_bind, irqTx_noop (s := ⟨l, c, d, false, false⟩) hx hcd, slaveIrqRto, pure_eq]
        rfl
      | some b =>
        obtain ⟨l1, o1, o2, h1, h2, h3⟩ := slaveRun_cons_inv (show slaveRun cfg l (.rxByte b :: hstrip h) = _ from hr)
        obtain ⟨rfl, rfl⟩ := List.append_eq_nil_iff.mp h3.symm
        have hx1 := silent_txf hc (.inr ⟨b, rfl⟩) h1 hx
        refine go l1 ?_ hx1 h2
        simp only [slaveSysStep, slaveIrqRx, h1, ok_bind, pure_eq]
        rw [if_neg (by simp)]
        simp only [ok_bind, irqTx_noop (s := ⟨l1, c, d, false, false⟩) hx1 hcd, slaveIrqRto, pure_eq]
        rfl

/-- The library operations of a gap. -/
def gapOps : List HOp → List SOp
  | [] => []
  | .usart (some b) _ :: ops => .rxByte b :: .frameErr :: gapOps ops
  | _ :: ops => gapOps ops

theorem t15_noop {cfg : Config} {l : Slave} (h : l.t15 = .set) : slaveStep cfg l .t15 = .ok (l, []) := by
  have : (if l.subscribed = true then { l with t15 := .set } else l) = l := by
    split
    · cases l; simp only at h; subst h; rfl
    · rfl
  simp only [slaveStep, this]

/-- The gap, after its first interrupt. -/
theorem gap_sys {cfg : Config} (g : List HOp) : ∀ (l l' : Slave) (c d : Nat), ¬ c < d → l.txf = .cleared → l.t15 = .set →
    (∀ op ∈ g, op.inGap) → slaveRun cfg l (gapOps g) = .ok (l', []) →
    slaveSysRun cfg ⟨l, c, d, true, true⟩ g = .ok (⟨l', c, d, true, true⟩, []) ∧ l'.txf = .cleared ∧ l'.t15 = .set := by
  induction g with
  | nil => intro l l' c d _ hx ht _ hr; cases hr; exact ⟨rfl, hx, ht⟩
  | cons op g ih =>
    intro l l' c d hcd hx ht hn hr
    have h0 := hn op (List.mem_cons_self ..)
    have hn' : ∀ op ∈ g, op.inGap := fun o ho => hn o (List.mem_cons_of_mem _ ho)
    have go : ∀ l1, slaveSysStep cfg ⟨l, c, d, true, true⟩ op = .ok (⟨l1, c, d, true, true⟩, []) → l1.txf = .cleared → l1.t15 = .set →
        slaveRun cfg l1 (gapOps g) = .ok (l', []) →
        slaveSysRun cfg ⟨l, c, d, true, true⟩ (op :: g) = .ok (⟨l', c, d, true, true⟩, []) ∧ l'.txf = .cleared ∧ l'.t15 = .set := by
      intro l1 h1 h2 h2' h3
      obtain ⟨a, b⟩ := ih l1 l' c d hcd h2 h2' hn' h3
      exact ⟨sysRun_cons h1 a, b⟩
    cases op with
    | main op | timer => exact h0.elim
    | rto => exact go l rfl hx ht hr
    | usart r t =>
      cases r with
      | none =>
        refine go l ?_ hx ht hr
        simp only [slaveSysStep, slaveIrqRx, ok_bind, irqTx_noop (s := ⟨l, c, d, true, true⟩) hx hcd, slaveIrqRto, if_true, t15_noop ht, pure_eq]
      | some b =>
        obtain ⟨l1, o1, o2, h1, h2, h3⟩ := slaveRun_cons_inv (show slaveRun cfg l (.rxByte b :: .frameErr :: gapOps g) = _ from hr)
        obtain ⟨rfl, rfl⟩ := List.append_eq_nil_iff.mp h3.symm
        obtain ⟨l2, o1, o2, h4, h5, h6⟩ := slaveRun_cons_inv h2
        obtain ⟨rfl, rfl⟩ := List.append_eq_nil_iff.mp h6.symm
        obtain ⟨-, -, -, -, -, -, -, -, -, e15, -, ex⟩ := slaveStep_frame h1 (by simp) (by simp)
        obtain ⟨-, -, -, -, -, -, -, -, -, f15, -, fx⟩ := slaveStep_frame h4 (by simp) (by simp)
        have hx2 : l2.txf = .cleared := by
          rcases fx with e | ⟨-, e⟩
          · rw [e]
            rcases ex with e | ⟨-, e⟩
            · rw [e]; exact hx
            · exact e
          · exact e
        have ht2 : l2.t15 = .set := by
          rcases f15 with e | ⟨-, e⟩
          · rw [e]
            rcases e15 with e | ⟨-, e⟩
            · rw [e]; exact ht
            · exact e
          · exact e
        refine go l2 ?_ hx2 ht2 h5
        simp only [slaveSysStep, slaveIrqRx, h1, ok_bind, pure_eq]
        simp only [if_true, h4, ok_bind, irqTx_noop (s := ⟨l2, c, d, true, true⟩) hx2 hcd, slaveIrqRto, if_true, t15_noop ht2, pure_eq]

/-- Transmission: with enough interrupts all bytes go out, whatever the main program does meanwhile. -/
theorem tx_sys {cfg : Config} (hc : cfg.WF) (h : List HOp) : ∀ (l : Slave) (c d : Nat), Live l → l.st = .transmitting → l.txf = .set →
    c ≤ d → d < 256 → (∀ op ∈ h, op.noise cfg) → d - c + 1 ≤ h.count (.usart none true) →
    ∃ h1 h2, h = h1 ++ .usart none true :: h2 ∧
      slaveSysRun cfg ⟨l, c, d, false, false⟩ h1 =
        .ok (⟨{ l with mem := appMem l.mem (hstrip h1) }, d, d, false, false⟩, ((l.resp.bytes 0 (d + 1)).drop (c + 1)).map .tdr) := by
  induction h with
  | nil => intro l c d _ _ _ _ _ _ hcnt; simp at hcnt
  | cons op h ih =>
    intro l c d hl hst hx hcd hd hn hcnt
    have h0 := hn op (List.mem_cons_self ..)
    have hn' : ∀ op ∈ h, op.noise cfg := fun o ho => hn o (List.mem_cons_of_mem _ ho)
    cases op with
    | rto | timer => exact h0.elim
    | main op =>
      have hnr : ∀ o ∈ [op], o.noise cfg := by intro o ho; rw [List.mem_singleton.mp ho]; exact h0
      have hr := noise_run cfg hc [op] l hl hnr (.inr (quiet_tx cfg l hst (by rw [hx]; simp)))
      rw [slaveRun_one] at hr
      have hm : ¬ ((⟨l, c, d, false, false⟩ : SlaveSys).rtof = true ∨ op.isMain = false) := by
        rintro (h | h)
        · cases h
        · cases op <;> first | exact h0.elim | cases h
      have h1 : slaveSysStep cfg ⟨l, c, d, false, false⟩ (.main op) = .ok (⟨{ l with mem := appMem l.mem [op] }, c, d, false, false⟩, []) := by
        simp only [slaveSysStep, if_neg hm, hr, ok_bind, slaveSends]
        cases op <;> first | rfl | exact h0.elim
      obtain ⟨a, b, e, hrun⟩ := ih { l with mem := appMem l.mem [op] } c d (live_of hl rfl rfl rfl rfl) hst hx hcd hd hn'
        (by rw [List.count_cons_of_ne (by simp)] at hcnt; exact hcnt)
      refine ⟨.main op :: a, b, by rw [e]; rfl, ?_⟩
      have := sysRun_cons h1 hrun
      simp only [List.nil_append] at this
      rw [this, show hstrip (.main op :: a) = [op] ++ hstrip a from rfl, appMem_append]
    | usart r t =>
      cases r with
      | some b => exact h0.elim
      | none =>
        cases t with
        | false =>
          obtain ⟨a, b, e, hrun⟩ := ih l c d hl hst hx hcd hd hn' (by rw [List.count_cons_of_ne (by simp)] at hcnt; exact hcnt)
          refine ⟨.usart none false :: a, b, by rw [e]; rfl, ?_⟩
          have h1 : slaveSysStep cfg ⟨l, c, d, false, false⟩ (.usart none false) = .ok (⟨l, c, d, false, false⟩, []) := rfl
          exact sysRun_cons h1 hrun
        | true =>
          rw [List.count_cons_self] at hcnt
          rcases Nat.lt_or_ge c d with hlt | hge
          · obtain ⟨a, b, e, hrun⟩ := ih l (c + 1) d hl hst hx hlt hd hn' (by omega)
            refine ⟨.usart none true :: a, b, by rw [e]; rfl, ?_⟩
            have h1 : slaveSysStep cfg ⟨l, c, d, false, false⟩ (.usart none true) = .ok (⟨l, c + 1, d, false, false⟩, [.tdr (l.resp (c + 1))]) := by
              simp only [slaveSysStep, slaveIrqRx, slaveIrqTx, ok_bind, if_true, hlt, rd_ok l.resp (show c + 1 < 256 by omega), slaveIrqRto, pure_eq]
              rfl
            rw [sysRun_cons h1 hrun]
            have hk : c + 1 < (l.resp.bytes 0 (d + 1)).length := by simp; omega
            rw [show List.drop (c + 1) (l.resp.bytes 0 (d + 1)) = _ from List.drop_eq_getElem_cons hk]
            simp [hstrip]
          · have : c = d := Nat.le_antisymm hcd hge
            subst this
            refine ⟨[], h, rfl, ?_⟩
            have : List.drop (c + 1) (l.resp.bytes 0 (c + 1)) = [] := List.drop_of_length_le (by simp)
            rw [this]
            rfl

theorem mainOps_gap {g : List HOp} (h : ∀ op ∈ g, op.inGap) : mainOps g = [] := by
  induction g with
  | nil => rfl
  | cons op g ih =>
    have h0 := h op (List.mem_cons_self ..)
    have := ih fun o ho => h o (List.mem_cons_of_mem _ ho)
    cases op with
    | main op => exact h0.elim
    | _ => exact this

theorem gapOps_soft {cfg : Config} (g : List HOp) : ∀ op ∈ gapOps g, op.soft cfg ∧ op ≠ .poll := by
  induction g with
  | nil => intro op ho; simp [gapOps] at ho
  | cons op g ih =>
    cases op with
    | usart r t =>
      cases r with
      | none => exact ih
      | some b =>
        intro o ho
        simp only [gapOps, List.mem_cons] at ho
        rcases ho with rfl | rfl | ho
        · exact ⟨.inl (.inr ⟨b, rfl⟩), by simp⟩
        · exact ⟨.inr rfl, by simp⟩
        · exact ih o ho
    | _ => exact ih

theorem gapOps_bytes (g : List HOp) : bytesOf (gapOps g) = hbytes g := by
  induction g with
  | nil => rfl
  | cons op g ih =>
    cases op with
    | usart r t => cases r <;> simp [gapOps, hbytes, bytesOf, ih]
    | _ => simp [gapOps, hbytes, ih]

theorem gapOps_err (g : List HOp) : SOp.frameErr ∈ gapOps g ↔ hbytes g ≠ [] := by
  induction g with
  | nil => simp [gapOps, hbytes]
  | cons op g ih =>
    cases op with
    | usart r t => cases r <;> simp [gapOps, hbytes, ih]
    | _ => simp [gapOps, hbytes, ih]

theorem gapOps_mem (g : List HOp) : ∀ m, appMem m (gapOps g) = m := by
  induction g with
  | nil => intro m; rfl
  | cons op g ih =>
    intro m
    cases op with
    | usart r t => cases r <;> simp [gapOps, appMem, ih]
    | _ => simp [gapOps, ih]

/-- Reception of a byte that ends the wait for the 1.5 character gap, or none. -/
def optRx : Option U8 → List SOp
  | none => []
  | some b => [.rxByte b]

theorem optRx_bytes (b : Option U8) : bytesOf (optRx b) = b.toList := by cases b <;> rfl

theorem t15_step {cfg : Config} {l : Slave} (h : l.subscribed = true) : slaveStep cfg l .t15 = .ok ({ l with t15 := .set }, []) := by
  show Except.ok (if l.subscribed = true then _ else _, _) = _
  rw [if_pos h]

theorem t35_step {cfg : Config} {l : Slave} (h : l.subscribed = true) : slaveStep cfg l .t35 = .ok ({ l with t35 := .set }, []) := by
  show Except.ok (if l.subscribed = true then _ else _, _) = _
  rw [if_pos h]

/-- Reception. -/
theorem recv_sys {cfg : Config} (hc : cfg.WF) {s : SlaveSys} (hs : HSync s) {x : HExchange} (hx : x.WF cfg) :
    ∃ l, slaveSysRun cfg s x.recv = .ok (⟨l, s.cur, s.last, false, false⟩, []) ∧ Live l ∧ l.st = .idle ∧ l.t15 = .set ∧ l.t35 = .set ∧
      l.txf = .cleared ∧ l.id = s.lib.id ∧ l.mem = appMem s.lib.mem (mainOps x.recv) ∧
      l.ferr = (if hbytes x.gap = [] then .cleared else .set) ∧
      (hbytes x.gap = [] → x.frame.length ≤ 255 → l.reqLen.toNat = x.frame.length ∧ ∀ i, i < x.frame.length → l.req i = x.frame.getD i 0) := by
  obtain ⟨l0, c, d, g, r⟩ := s
  obtain ⟨hsy, htx, hg, hr, hcd⟩ := hs
  simp only at hsy htx hg hr hcd
  subst hg hr hcd
  have hcc : ¬ c < c := Nat.lt_irrefl _
  -- bytes
  have r1 := soft_run cfg hc (hstrip x.rx) l0 hsy.live (fun op ho => .inl (hstrip_rxNoise hx.rx op ho))
    (.inr (quiet_idle cfg l0 hsy.st (by simp [hsy.t15])))
  obtain ⟨y1, x1⟩ := quiet_sys hc x.rx l0 _ c c hcc htx hx.rx r1
  have l1 : Live (softRes l0 (hstrip x.rx)) := live_of hsy.live rfl rfl rfl rfl
  -- the first interrupt of the gap
  obtain ⟨l2, y2, e2⟩ : ∃ l2, slaveSysStep cfg ⟨softRes l0 (hstrip x.rx), c, c, false, true⟩ (.usart x.fb x.ft) = .ok (⟨l2, c, c, true, true⟩, []) ∧
      l2 = { softRes (softRes l0 (hstrip x.rx)) (optRx x.fb) with t15 := .set } := by
    refine ⟨_, ?_, rfl⟩
    cases hb : x.fb with
    | none =>
      simp only [slaveSysStep, slaveIrqRx, ok_bind, irqTx_noop (s := ⟨softRes l0 (hstrip x.rx), c, c, false, true⟩) x1 hcc, slaveIrqRto, if_true, t15_step l1.sub, ok_bind, pure_eq]
      rfl
    | some b =>
      have hb1 : slaveStep cfg (softRes l0 (hstrip x.rx)) (.rxByte b) = .ok (softRes (softRes l0 (hstrip x.rx)) [.rxByte b], []) := by
        have := soft_run cfg hc [.rxByte b] _ l1 (fun op ho => by rw [List.mem_singleton.mp ho]; exact .inl (.inr ⟨b, rfl⟩)) (.inl (by simp))
        rwa [slaveRun_one] at this
      simp only [slaveSysStep, slaveIrqRx, hb1, ok_bind, pure_eq]
      rw [if_neg (by simp)]
      simp only [ok_bind, irqTx_noop (s := ⟨softRes (softRes l0 (hstrip x.rx)) [.rxByte b], c, c, false, true⟩) x1 hcc, slaveIrqRto, if_true,
        t15_step (l := softRes (softRes l0 (hstrip x.rx)) [.rxByte b]) l1.sub, ok_bind, pure_eq]
      rfl
  have hl2 : Live l2 := by rw [e2]; exact live_of l1 rfl rfl rfl rfl
  have x2 : l2.txf = .cleared := by rw [e2]; exact x1
  -- the rest of the gap
  have r3 := soft_run cfg hc (gapOps x.gap) l2 hl2 (fun op ho => (gapOps_soft x.gap op ho).1)
    (.inl fun h => (gapOps_soft (cfg := cfg) x.gap _ h).2 rfl)
  obtain ⟨y3, x3, t3⟩ := gap_sys x.gap l2 _ c c hcc x2 (by rw [e2]) hx.gap r3
  -- the timer
  have y4 : slaveSysStep cfg ⟨softRes l2 (gapOps x.gap), c, c, true, true⟩ .timer =
      .ok (⟨{ softRes l2 (gapOps x.gap) with t35 := .set }, c, c, false, false⟩, []) := by
    simp only [slaveSysStep, t35_step (l := softRes l2 (gapOps x.gap)) hl2.sub, ok_bind, pure_eq]
  refine ⟨{ softRes l2 (gapOps x.gap) with t35 := .set }, ?_, live_of hl2 rfl rfl rfl rfl, ?_, ?_, rfl, ?_, ?_, ?_, ?_, ?_⟩
  · have hrto : slaveSysStep cfg ⟨softRes l0 (hstrip x.rx), c, c, false, false⟩ .rto = .ok (⟨softRes l0 (hstrip x.rx), c, c, false, true⟩, []) := rfl
    have tail := sysRun_append x.gap y3 (sysRun_cons y4 (show slaveSysRun cfg _ [] = _ from rfl))
    exact sysRun_append x.rx y1 (sysRun_cons hrto (sysRun_cons y2 tail))
  · rw [show (softRes l2 (gapOps x.gap)).st = l2.st from rfl, e2]; exact hsy.st
  · exact t3
  · exact x3
  · rw [show (softRes l2 (gapOps x.gap)).id = l2.id from rfl, e2]; rfl
  · show appMem l2.mem (gapOps x.gap) = _
    rw [gapOps_mem, e2]
    show appMem (appMem l0.mem (hstrip x.rx)) (optRx x.fb) = _
    rw [appMem_hstrip]
    have : mainOps x.recv = mainOps x.rx := by
      simp only [HExchange.recv, mainOps_append, mainOps, mainOps_gap hx.gap, List.append_nil]
    rw [this]
    cases x.fb <;> rfl
  · show (if .frameErr ∈ gapOps x.gap then Flag.set else l2.ferr) = _
    have hf : l2.ferr = .cleared := by
      rw [e2]
      show (if .frameErr ∈ optRx x.fb then Flag.set else if .frameErr ∈ hstrip x.rx then Flag.set else l0.ferr) = _
      rw [if_neg (by cases x.fb <;> simp [optRx]), if_neg, hsy.ferr]
      intro h
      rcases hstrip_rxNoise hx.rx _ h with h | ⟨b, h⟩
      · exact h
      · cases h
    by_cases hb : hbytes x.gap = []
    · rw [if_neg (fun h => (gapOps_err x.gap).mp h hb), if_pos hb, hf]
    · rw [if_pos ((gapOps_err x.gap).mpr hb), if_neg hb]
  · intro hgb hlen
    have eb : bytesOf (gapOps x.gap) = [] := by rw [gapOps_bytes, hgb]
    have z : l0.reqLen.toNat = 0 := by rw [hsy.len]; rfl
    have hp : (pushAll (l2.req, l2.reqLen) (bytesOf (gapOps x.gap))) = pushAll (l0.req, l0.reqLen) x.frame := by
      rw [eb, e2]
      show pushAll (pushAll (l0.req, l0.reqLen) (bytesOf (hstrip x.rx))) (bytesOf (optRx x.fb)) = _
      rw [optRx_bytes, bytesOf_hstrip x.rx hx.rx, ← pushAll_append]; rfl
    constructor
    · show (pushAll (l2.req, l2.reqLen) (bytesOf (gapOps x.gap))).2.toNat = _
      rw [hp, pushAll_len]
      simp only [z]; omega
    · intro i hi
      show (pushAll (l2.req, l2.reqLen) (bytesOf (gapOps x.gap))).1 i = _
      rw [hp, pushAll_get _ _ (by simp only [z]; omega)]
      simp only [z]
      rw [if_pos (by omega), Nat.sub_zero]

/-- From the end of reception to the decision: the first poll checks the frame, the second one acts. -/
theorem decide_sys {cfg : Config} (hc : cfg.WF) {l : Slave} {c : Nat} (hl : Live l) (hst : l.st = .idle) (h15 : l.t15 = .set) (h35 : l.t35 = .set)
    (hx : l.txf = .cleared) {n2 : List HOp} (hn : ∀ op ∈ n2, op.noise cfg) (hp : 2 ≤ n2.count (.main .poll)) :
    ∃ a b l', n2 = a ++ .main .poll :: b ∧
      slaveSysRun cfg ⟨l, c, c, false, false⟩ a = .ok (⟨l', c, c, false, false⟩, []) ∧ Live l' ∧
      sig l' = (.msgReceived, .cleared, .set, if l.frameOk then l.ferr else .set, .cleared, l.id, l.req, l.reqLen, appMem l.mem (mainOps a)) := by
  obtain ⟨a, b1, rfl, ha, hc1⟩ := first_hpoll (l := n2) (by omega)
  obtain ⟨a2, b2, rfl, ha2, -⟩ := first_hpoll (l := b1) (by omega)
  have hna : ∀ op ∈ a, op.noise cfg := fun op ho => hn op (by simp [ho])
  have hna2 : ∀ op ∈ a2, op.noise cfg := fun op ho => hn op (by simp [ho])
  obtain ⟨l1, r1, v1, e1⟩ := noise_run' cfg hc (hstrip a) l hl (hstrip_noise hna) (.inl fun h => ha (poll_hstrip.mp h))
  obtain ⟨e1st, e115, e135, e1f, e1x, e1i, e1r, e1n, e1m⟩ := sig_eqs e1
  have p1 := poll_check cfg v1 (e1st.trans hst) (e115.trans h15)
  have hok : l1.frameOk ↔ l.frameOk := frameOk_congr e1i e1r e1n
  obtain ⟨l2, p1, v2, e2⟩ : ∃ l2, slaveStep cfg l1 .poll = .ok (l2, []) ∧ Live l2 ∧
      sig l2 = (.msgReceived, .cleared, l1.t35, if l1.frameOk then l1.ferr else .set, l1.txf, l1.id, l1.req, l1.reqLen, l1.mem) :=
    ⟨_, p1, live_of v1 rfl rfl rfl rfl, rfl⟩
  obtain ⟨e2st, e215, e235, e2f, e2x, e2i, e2r, e2n, e2m⟩ := sig_eqs e2
  obtain ⟨l3, r3, v3, e3⟩ := noise_run' cfg hc (hstrip a2) l2 v2 (hstrip_noise hna2) (.inl fun h => ha2 (poll_hstrip.mp h))
  obtain ⟨e3st, e315, e335, e3f, e3x, e3i, e3r, e3n, e3m⟩ := sig_eqs e3
  have hrun : slaveRun cfg l (hstrip (a ++ .main .poll :: a2)) = .ok (l3, []) := by
    rw [hstrip_append]
    exact run_then r1 (run_cons p1 r3)
  have hnn : ∀ op ∈ a ++ .main .poll :: a2, op.rxNoise cfg := fun op ho => (hn op (by
    simp only [List.mem_append, List.mem_cons] at ho ⊢
    rcases ho with h | h | h
    · exact .inl h
    · exact .inr (.inl h)
    · exact .inr (.inr (.inl h)))).rx
  obtain ⟨y, -⟩ := quiet_sys hc _ l l3 c c (Nat.lt_irrefl _) hx hnn hrun
  refine ⟨a ++ .main .poll :: a2, b2, l3, by simp, y, v3, ?_⟩
  simp only [sig, e3st, e2st, e315, e215, e335, e235, e135, h35, e3f, e2f, e1f, e3x, e2x, e1x, hx, e3i, e2i, e1i, e3r, e2r, e1r, e3n, e2n, e1n, e3m, e2m, e1m, hok]
  rw [appMem_hstrip, appMem_hstrip, mainOps_append, appMem_append]; rfl

end Modbus
