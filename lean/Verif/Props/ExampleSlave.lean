import Verif.Model.ExampleSlave
import Verif.Props.DriverMaster
import Verif.Props.DriverEndToEnd

/-! C69: the example slave program. -/

namespace Modbus

open Spec

/-! ### Specification -/

/-- What the example program exposes: variables `0..19` of each kind at addresses 0 to 19, the LED's variable at coil 21, nothing else. -/
structure XLayout (m : AppMem) : Prop where
  coils : ∀ a, m.coils a = if a < 20 then some (xCoil a) else if a = 21 then some xLed else none
  dins : ∀ a, m.dins a = if a < 20 then some (xDin a) else none
  hregs : ∀ a, m.hregs a = if a < 20 then some (xHreg a) else none
  inregs : ∀ a, m.inregs a = if a < 20 then some (xInreg a) else none

/-- The variables behind the read-only tables have the values of the initialisers. -/
def XConstant (m : AppMem) : Prop := ∀ i, i < 20 → m.bools (xDin i) = xInitMem.bools (xDin i) ∧ m.regs (xInreg i) = xInitMem.regs (xInreg i)

/-- The values of the initialisers: discrete inputs and input registers. Input register 0 to 2 are 60 to 62, 3 to 9 are 4204 to 4210, 10 to 19 are
4301 to 4310. -/
structure XInputs (m : AppMem) : Prop where
  dins : (List.range 20).map (fun a => (bitAt m.dins m.bools a).toNat) = [1, 1, 1, 1, 0, 0, 0, 1, 1, 1, 0, 0, 0, 1, 1, 1, 1, 0, 0, 1]
  inregs : ∀ a, a < 20 → (regAt m.inregs m.regs a).toNat = if a < 3 then 60 + a else if a < 10 then 4201 + a else 4291 + a

/-- The same for the coils, the holding registers and the LED. Holding register 0 to 9 are 2001 to 2010, 10 to 19 are 3001 to 3010. -/
structure XOutputs (m : AppMem) : Prop where
  coils : (List.range 20).map (fun a => (bitAt m.coils m.bools a).toNat) = [1, 0, 1, 0, 0, 1, 0, 1, 1, 1, 0, 0, 0, 1, 1, 1, 1, 0, 0, 1]
  hregs : ∀ a, a < 20 → (regAt m.hregs m.regs a).toNat = if a < 10 then 2001 + a else 2991 + a
  led : bitAt m.coils m.bools 21 = false

/-- The tables the program needs. -/
structure XFits (cfg : Config) : Prop where
  coils : 22 ≤ cfg.coilsQty
  dins : 20 ≤ cfg.dinQty
  hregs : 20 ≤ cfg.hregQty
  inregs : 20 ≤ cfg.inregQty

/-- The frames of the valid exchanges. -/
def goodFrames : List HTraffic → List (List U8)
  | [] => []
  | .good x :: xs => x.frame :: goodFrames xs
  | .bad _ :: xs => goodFrames xs

/-- The memory after the requests of some frames, one after the other. -/
def servedMem (l : Limits) : AppMem → List (List U8) → AppMem
  | m, [] => m
  | m, f :: fs => servedMem l (effect l m (frameRequest f)) fs

/-- The bytes of the responses. -/
def servedWire (l : Limits) (id : U8) : AppMem → List (List U8) → List U8
  | _, [] => []
  | m, f :: fs => rtuFrame id (encodeResponse (respond l m (frameRequest f))) ++ servedWire l id (effect l m (frameRequest f)) fs

/-! ### What a request can change -/

theorem effect_bools (l : Limits) (m : AppMem) (r : Request) (p : Ptr) (h : ∀ a, m.coils a ≠ some p) : (effect l m r).bools p = m.bools p := by
  cases r <;> simp only [effect] <;> repeat' split
  all_goals first
    | rfl
    | exact storeAll_other _ _ _ _ _ _ fun i _ => h _

theorem effect_regs (l : Limits) (m : AppMem) (r : Request) (p : Ptr) (h : ∀ a, m.hregs a ≠ some p) : (effect l m r).regs p = m.regs p := by
  cases r <;> simp only [effect] <;> repeat' split
  all_goals first
    | rfl
    | exact storeAll_other _ _ _ _ _ _ fun i _ => h _

theorem slaveStep_irq_mem {cfg : Config} {s s' : Slave} {op : SOp} {o : List SOut} (hm : op.isMain = false) (h : slaveStep cfg s op = .ok (s', o)) :
    s'.mem = s.mem := by
  cases op <;> first
    | (simp [SOp.isMain] at hm; done)
    | (simp only [slaveStep] at h
       first
         | (cases h; split <;> rfl)
         | (split at h
            · obtain ⟨r, -, h⟩ := bind_ok h
              cases h; rfl
            · cases h; rfl))

theorem slaveSends_mem {s s' : SlaveSys} {o : List SOut} {o' : List HOut} (h : slaveSends s o = .ok (s', o')) :
    s'.lib = s.lib ∧ s'.rtof = s.rtof := by
  induction o generalizing s o' with
  | nil => cases h; exact ⟨rfl, rfl⟩
  | cons x o ih =>
    cases x
    simp only [slaveSends] at h
    obtain ⟨⟨s1, o1⟩, h1, h⟩ := bind_ok h
    obtain ⟨⟨s2, o2⟩, h2, h⟩ := bind_ok h
    cases h
    have := ih h2
    rw [this.1, this.2]
    simp only [slaveUsartSend] at h1
    split at h1
    · obtain ⟨b, -, h1⟩ := bind_ok h1
      cases h1; exact ⟨rfl, rfl⟩
    · cases h1; exact ⟨rfl, rfl⟩

/-- Interrupts leave the application's memory alone. -/
theorem sysStep_irq_mem {cfg : Config} {s s' : SlaveSys} {op : HOp} {o : List HOut} (hm : ∀ m, op ≠ .main m)
    (h : slaveSysStep cfg s op = .ok (s', o)) : s'.lib.mem = s.lib.mem := by
  cases op with
  | main m => exact absurd rfl (hm m)
  | rto => cases h; rfl
  | timer =>
    simp only [slaveSysStep] at h
    obtain ⟨⟨l, o1⟩, h1, h⟩ := bind_ok h
    cases h
    exact slaveStep_irq_mem rfl h1
  | usart rx txe =>
    simp only [slaveSysStep] at h
    obtain ⟨s1, h1, h⟩ := bind_ok h
    obtain ⟨⟨s2, o2⟩, h2, h⟩ := bind_ok h
    obtain ⟨s3, h3, h⟩ := bind_ok h
    cases h
    have e1 : s1.lib.mem = s.lib.mem := by
      cases rx with
      | none => cases h1; rfl
      | some b =>
        simp only [slaveIrqRx] at h1
        obtain ⟨⟨l, o1⟩, q1, h1⟩ := bind_ok h1
        split at h1
        · obtain ⟨⟨l', o'⟩, q2, h1⟩ := bind_ok h1
          cases h1
          exact (slaveStep_irq_mem rfl q2).trans (slaveStep_irq_mem rfl q1)
        · cases h1; exact slaveStep_irq_mem rfl q1
    have e2 : s2.lib.mem = s1.lib.mem := by
      simp only [slaveIrqTx] at h2
      split at h2
      · split at h2
        · obtain ⟨b, -, h2⟩ := bind_ok h2
          cases h2; rfl
        · obtain ⟨⟨l, o1⟩, q1, h2⟩ := bind_ok h2
          cases h2
          exact slaveStep_irq_mem rfl q1
      · cases h2; rfl
    have e3 : s'.lib.mem = s2.lib.mem := by
      simp only [slaveIrqRto] at h3
      split at h3
      · obtain ⟨⟨l, o1⟩, q1, h3⟩ := bind_ok h3
        cases h3
        exact slaveStep_irq_mem rfl q1
      · cases h3; rfl
    rw [e3, e2, e1]

/-- A poll changes the application's memory as a request prescribes, or not at all. -/
theorem sysStep_poll_mem {cfg : Config} (hc : cfg.WF) {s s' : SlaveSys} {o : List HOut} (h : slaveSysStep cfg s (.main .poll) = .ok (s', o)) :
    s'.lib.mem = s.lib.mem ∨ ∃ r, s'.lib.mem = effect cfg.limits s.lib.mem r := by
  simp only [slaveSysStep] at h
  split at h
  · cases h; exact .inl rfl
  · obtain ⟨⟨l, o1⟩, h1, h⟩ := bind_ok h
    have e := (slaveSends_mem h).1
    have hp := slavePoll_inv cfg hc (show slavePoll cfg s.lib = _ from h1)
    rw [e]
    cases hp with
    | answer => exact .inr ⟨_, rfl⟩
    | _ => exact .inl rfl

/-- A registration that is carried out changes one entry of one table. -/
theorem sysStep_register_mem {cfg : Config} (hc : cfg.WF) {s s' : SlaveSys} {o : List HOut} {tab : TabSel} {adr : U16} {p : Option Ptr}
    (hr : s.rtof = false) (h : slaveSysStep cfg s (.main (.register tab adr p)) = .ok (s', o)) :
    s'.lib.mem = setTab s.lib.mem tab adr.toNat p := by
  simp only [slaveSysStep, hr, SOp.isMain] at h
  rw [if_neg (by simp)] at h
  obtain ⟨⟨l, o1⟩, h1, h⟩ := bind_ok h
  have e := (slaveSends_mem h).1
  rw [e]
  simp only [slaveStep] at h1
  obtain ⟨m, h2, h1⟩ := bind_ok h1
  rw [slaveRegister_ok cfg hc] at h2
  split at h2
  · cases h2; cases h1; rfl
  · cases h2

/-! ### The program -/

/-- Every entry of the writable tables belongs to the variables meant for them. -/
structure XOwn (m : AppMem) : Prop where
  coils : ∀ a p, m.coils a = some p → p < 20 ∨ p = 40
  hregs : ∀ a p, m.hregs a = some p → p < 20

/-- A registration of `register_modbus_data`. -/
def SOp.xReg (cfg : Config) : SOp → Prop
  | .register .coils a (some p) => a.toNat < cfg.coilsQty ∧ (p < 20 ∨ p = 40)
  | .register .dins a _ => a.toNat < cfg.dinQty
  | .register .hregs a (some p) => a.toNat < cfg.hregQty ∧ p < 20
  | .register .inregs a _ => a.toNat < cfg.inregQty
  | _ => False

theorem xRegistrations_reg {cfg : Config} (hf : XFits cfg) : ∀ op ∈ xRegistrations, SOp.xReg cfg op := by
  obtain ⟨h1, h2, h3, h4⟩ := hf
  intro op ho
  rcases List.mem_append.1 ho with ho | ho
  · obtain ⟨i, hi, ho⟩ := List.mem_flatMap.1 ho
    have hi : i < 20 := List.mem_range.1 hi
    have e : (BitVec.ofNat 16 i).toNat = i := by simp; omega
    simp only [xRegister, List.mem_cons, List.not_mem_nil, or_false] at ho
    rcases ho with rfl | rfl | rfl | rfl
    · exact ⟨by omega, .inl hi⟩
    · show (BitVec.ofNat 16 i).toNat < _; omega
    · exact ⟨by omega, hi⟩
    · show (BitVec.ofNat 16 i).toNat < _; omega
  · obtain rfl := List.mem_singleton.1 ho
    exact ⟨by simp; omega, .inr rfl⟩

theorem setTab_own {cfg : Config} {m : AppMem} (h : XOwn m) {tab : TabSel} {a : U16} {p : Option Ptr} (hr : SOp.xReg cfg (.register tab a p)) :
    XOwn (setTab m tab a.toNat p) := by
  cases tab with
  | coils =>
    cases p with
    | none => exact hr.elim
    | some p =>
      refine ⟨fun b q hq => ?_, h.hregs⟩
      simp only [setTab] at hq
      split at hq
      · cases hq; exact hr.2
      · exact h.coils b q hq
  | dins => exact ⟨h.coils, h.hregs⟩
  | inregs => exact ⟨h.coils, h.hregs⟩
  | hregs =>
    cases p with
    | none => exact hr.elim
    | some p =>
      refine ⟨h.coils, fun b q hq => ?_⟩
      simp only [setTab] at hq
      split at hq
      · cases hq; exact hr.2
      · exact h.hregs b q hq

theorem XOwn.effect {m : AppMem} (h : XOwn m) (l : Limits) (r : Request) : XOwn (effect l m r) :=
  ⟨fun a p hp => h.coils a p (by have := congrFun (effect_tables l m r .coils) a; simp only [TabSel.table] at this; rw [← this]; exact hp), fun a p hp => h.hregs a p (by have := congrFun (effect_tables l m r .hregs) a; simp only [TabSel.table] at this; rw [← this]; exact hp)⟩

theorem XConstant.effect {m : AppMem} (h : XConstant m) (ho : XOwn m) (l : Limits) (r : Request) : XConstant (effect l m r) := by
  intro i hi
  rw [effect_bools, effect_regs]
  · exact h i hi
  · intro a ha
    have h1 : (20 : Nat) + i < 20 := ho.hregs a _ ha
    omega
  · intro a ha
    have h1 : (20 : Nat) + i < 20 ∨ (20 : Nat) + i = 40 := ho.coils a _ ha
    omega

theorem XConstant.setTab {m : AppMem} (h : XConstant m) (tab : TabSel) (a : Nat) (p : Option Ptr) : XConstant (setTab m tab a p) := by
  cases tab <;> exact h

/-- Tables after the registrations that are left. -/
theorem appMem_tables (ops : List SOp) : ∀ {m m' : AppMem}, (∀ tab, TabSel.table m tab = TabSel.table m' tab) →
    ∀ tab, TabSel.table (appMem m ops) tab = TabSel.table (appMem m' ops) tab := by
  induction ops with
  | nil => intro m m' h; exact h
  | cons op ops ih =>
    intro m m' h
    cases op with
    | register tab adr p =>
      refine ih fun t => ?_
      have h1 := h .coils
      have h2 := h .dins
      have h3 := h .inregs
      have h4 := h .hregs
      simp only [TabSel.table] at h1 h2 h3 h4
      cases tab <;> cases t <;> simp only [setTab, TabSel.table] <;> first | assumption | (simp only [h1, h2, h3, h4])
    | appBool p v => exact ih fun t => by have := h t; cases t <;> exact this
    | appReg p v => exact ih fun t => by have := h t; cases t <;> exact this
    | _ => exact ih h

theorem XLayout.of_tables {m m' : AppMem} (h : XLayout m) (he : ∀ tab, TabSel.table m' tab = TabSel.table m tab) : XLayout m' := by
  have h1 := he .coils
  have h2 := he .dins
  have h3 := he .inregs
  have h4 := he .hregs
  simp only [TabSel.table] at h1 h2 h3 h4
  exact ⟨by rw [h1]; exact h.coils, by rw [h2]; exact h.dins, by rw [h4]; exact h.hregs, by rw [h3]; exact h.inregs⟩

theorem slaveStep_id {cfg : Config} (hc : cfg.WF) {s s' : Slave} {op : SOp} {o : List SOut} (hi : ∀ m i, op ≠ .init m i)
    (h : slaveStep cfg s op = .ok (s', o)) : s'.id = s.id := by
  by_cases hp : op = .poll
  · subst hp
    have hp := slavePoll_inv cfg hc (show slavePoll cfg s = _ from h)
    cases hp <;> rfl
  · exact (slaveStep_frame h hp hi).2.1

theorem slaveRun_id {cfg : Config} (hc : cfg.WF) {ops : List SOp} (hi : ∀ op ∈ ops, ∀ m i, op ≠ .init m i) {s s' : Slave} {o : List SOut}
    (h : slaveRun cfg s ops = .ok (s', o)) : s'.id = s.id := by
  induction ops generalizing s o with
  | nil => cases h; rfl
  | cons op ops ih =>
    simp only [slaveRun] at h
    obtain ⟨⟨s1, o1⟩, h1, h⟩ := bind_ok h
    obtain ⟨⟨s2, o2⟩, h2, h⟩ := bind_ok h
    cases h
    rw [ih (fun op ho => hi op (List.mem_cons_of_mem _ ho)) h2, slaveStep_id hc (hi op (List.mem_cons_self ..)) h1]

theorem sysStep_id {cfg : Config} (hc : cfg.WF) {s s' : SlaveSys} {op : HOp} {o : List HOut} (hl : op.legal cfg)
    (h : slaveSysStep cfg s op = .ok (s', o)) : s'.lib.id = s.lib.id := by
  obtain ⟨sops, os, r⟩ := slaveSysStep_refines h
  refine slaveRun_id hc (fun x hx m i e => ?_) r.run
  subst e
  have := r.main.subset (List.mem_filter.2 ⟨hx, rfl⟩)
  cases op with
  | main op =>
    simp only [mainOps, List.mem_singleton] at this
    subst this
    exact hl
  | _ => exact nomatch this

/-- The address of a registration. -/
def SOp.regAdr : SOp → Nat
  | .register _ a _ => a.toNat
  | _ => 0

theorem appMem_other (ops : List SOp) : ∀ {m : AppMem} {a : Nat}, (∀ op ∈ ops, SOp.regAdr op < a) →
    ∀ tab, TabSel.table (appMem m ops) tab a = TabSel.table m tab a := by
  induction ops with
  | nil => intro m a _ tab; rfl
  | cons op ops ih =>
    intro m a h tab
    have h1 := h op (List.mem_cons_self ..)
    have ih := fun m => ih (m := m) (fun op ho => h op (List.mem_cons_of_mem _ ho)) tab
    cases op with
    | register t adr p =>
      have h1 : adr.toNat < a := h1
      refine (ih _).trans ?_
      cases t <;> cases tab <;> simp only [setTab, TabSel.table] <;> first | rfl | exact if_neg (by omega)
    | appBool p v => exact (ih _).trans (by cases tab <;> rfl)
    | appReg p v => exact (ih _).trans (by cases tab <;> rfl)
    | _ => exact ih _

theorem xLayout_registered : XLayout (appMem xInitMem xRegistrations) := by
  have split : ∀ (P : Nat → Prop), (∀ a, a < 22 → P a) → (∀ a, 22 ≤ a → P a) → ∀ a, P a :=
    fun P h1 h2 a => (Nat.lt_or_ge a 22).elim (h1 a) (h2 a)
  have adr : ∀ op ∈ xRegistrations, SOp.regAdr op < 22 := by decide
  have big : ∀ {a : Nat}, 22 ≤ a → ∀ tab, TabSel.table (appMem xInitMem xRegistrations) tab a = none := by
    intro a ha tab
    rw [appMem_other _ (fun op ho => Nat.lt_of_lt_of_le (adr op ho) ha)]
    cases tab <;> rfl
  refine ⟨split _ (by decide) fun a ha => ?_, split _ (by decide) fun a ha => ?_, split _ (by decide) fun a ha => ?_,
    split _ (by decide) fun a ha => ?_⟩
  · rw [if_neg (by omega), if_neg (by omega)]; exact big ha .coils
  · rw [if_neg (by omega)]; exact big ha .dins
  · rw [if_neg (by omega)]; exact big ha .hregs
  · rw [if_neg (by omega)]; exact big ha .inregs

/-- What is known of the program in every reachable state. -/
structure XInv (cfg : Config) (s : XSlave) (tr : XTrace) : Prop where
  run : slaveSysRun cfg (SlaveSys.powerOn xInitMem) tr.1 = .ok (s.sys, tr.2)
  line : WInv s.sys tr.2
  own : XOwn s.sys.lib.mem
  const : XConstant s.sys.lib.mem
  todo : ∀ op ∈ s.todo, SOp.xReg cfg op
  lay : XLayout (appMem s.sys.lib.mem s.todo)
  id : s.sys.lib.id = 1

theorem sysRun_snoc {cfg : Config} {ops : List HOp} {s s1 s2 : SlaveSys} {o1 o2 : List HOut} {op : HOp} (h1 : slaveSysRun cfg s ops = .ok (s1, o1))
    (h2 : slaveSysStep cfg s1 op = .ok (s2, o2)) : slaveSysRun cfg s (ops ++ [op]) = .ok (s2, o1 ++ o2) := by
  refine sysRun_append _ h1 ?_
  simp only [slaveSysRun, h2, ok_bind, pure_eq, List.append_nil]

theorem XInv.irq {cfg : Config} (hc : cfg.WF) {s : XSlave} {tr : XTrace} (h : XInv cfg s tr) {op : HOp} (hm : ∀ m, op ≠ .main m) :
    ∃ m o, xDevice cfg s op = .ok ({ s with sys := m }, ([op], o)) ∧ slaveSysStep cfg s.sys op = .ok (m, o) ∧
      XInv cfg { s with sys := m } (tr.1 ++ [op], tr.2 ++ o) := by
  have hl : op.legal cfg := by cases op <;> first | exact absurd rfl (hm _) | trivial
  obtain ⟨m, o, h1, h2⟩ := h.line.step hc op hl
  have e := sysStep_irq_mem hm h1
  refine ⟨m, o, by simp only [xDevice, h1, ok_bind, pure_eq], h1, sysRun_snoc h.run h1, h2, ?_, ?_, h.todo, ?_, (sysStep_id hc hl h1).trans h.id⟩
  · show XOwn m.lib.mem; rw [e]; exact h.own
  · show XConstant m.lib.mem; rw [e]; exact h.const
  · show XLayout (appMem m.lib.mem s.todo); rw [e]; exact h.lay

theorem XInv.poll {cfg : Config} (hc : cfg.WF) {s : XSlave} {tr : XTrace} (h : XInv cfg s tr) (ht : s.todo = []) (b : Bool) :
    ∃ m o, xDevice cfg { s with turn := b } (.main .poll) = .ok (XSlave.mk m s.led s.todo b, ([.main .poll], o)) ∧
      slaveSysStep cfg s.sys (.main .poll) = .ok (m, o) ∧ XInv cfg (XSlave.mk m s.led s.todo b) (tr.1 ++ [.main .poll], tr.2 ++ o) := by
  have hl : (HOp.main .poll).legal cfg := trivial
  obtain ⟨m, o, h1, h2⟩ := h.line.step hc (.main .poll) hl
  refine ⟨m, o, by simp only [xDevice, h1, ok_bind, pure_eq], h1, ?_⟩
  have hlay : XLayout s.sys.lib.mem := by have := h.lay; rw [ht] at this; exact this
  rcases sysStep_poll_mem hc h1 with e | ⟨r, e⟩
  · refine ⟨sysRun_snoc h.run h1, h2, ?_, ?_, h.todo, ?_, (sysStep_id hc hl h1).trans h.id⟩
    · show XOwn m.lib.mem; rw [e]; exact h.own
    · show XConstant m.lib.mem; rw [e]; exact h.const
    · show XLayout (appMem m.lib.mem s.todo); rw [e, ht]; exact hlay
  · refine ⟨sysRun_snoc h.run h1, h2, ?_, ?_, h.todo, ?_, (sysStep_id hc hl h1).trans h.id⟩
    · show XOwn m.lib.mem; rw [e]; exact h.own.effect _ _
    · show XConstant m.lib.mem; rw [e]; exact h.const.effect h.own _ _
    · show XLayout (appMem m.lib.mem s.todo); rw [e, ht]; exact hlay.of_tables (effect_tables _ _ _)

theorem XInv.register {cfg : Config} (hc : cfg.WF) {s : XSlave} {tr : XTrace} (h : XInv cfg s tr) (hr : s.sys.rtof = false) {op : SOp} {rest : List SOp}
    (ht : s.todo = op :: rest) : ∃ m o, xDevice cfg { s with todo := rest } (.main op) = .ok (XSlave.mk m s.led rest s.turn, ([.main op], o)) ∧
      XInv cfg (XSlave.mk m s.led rest s.turn) (tr.1 ++ [.main op], tr.2 ++ o) := by
  have hx : SOp.xReg cfg op := h.todo op (by rw [ht]; exact List.mem_cons_self ..)
  obtain ⟨tab, adr, p, rfl⟩ : ∃ tab adr p, op = .register tab adr p := by
    cases op <;> first | exact hx.elim | exact ⟨_, _, _, rfl⟩
  have hl : (HOp.main (.register tab adr p)).legal cfg := by
    cases tab <;> cases p <;> first | exact hx.elim | exact hx.1 | exact hx
  obtain ⟨m, o, h1, h2⟩ := h.line.step hc (.main (.register tab adr p)) hl
  have e := sysStep_register_mem hc hr h1
  refine ⟨m, o, by simp only [xDevice, h1, ok_bind, pure_eq], sysRun_snoc h.run h1, h2, ?_, ?_, fun x hx => h.todo x (by rw [ht]; exact List.mem_cons_of_mem _ hx), ?_,
    (sysStep_id hc hl h1).trans h.id⟩
  · show XOwn m.lib.mem; rw [e]; exact setTab_own h.own hx
  · show XConstant m.lib.mem; rw [e]; exact h.const.setTab _ _ _
  · show XLayout (appMem m.lib.mem rest)
    have := h.lay
    rw [ht] at this
    rw [e]; exact this

/-- One event: defined; keeps the invariant; the LED changes only by `update_LED`, to the variable's value. -/
theorem XInv.step {cfg : Config} (hc : cfg.WF) {s : XSlave} {tr : XTrace} (h : XInv cfg s tr) (op : XOp) :
    ∃ s' t', xStep cfg s op = .ok (s', t') ∧ XInv cfg s' (tr.1 ++ t'.1, tr.2 ++ t'.2) ∧
      (s'.led = s.led ∨ op = .main ∧ s'.led = s'.sys.lib.mem.bools xLed) ∧ slaveSysRun cfg s.sys t'.1 = .ok (s'.sys, t'.2) := by
  have one : ∀ {m : SlaveSys} {hop : HOp} {o : List HOut}, slaveSysStep cfg s.sys hop = .ok (m, o) → slaveSysRun cfg s.sys [hop] = .ok (m, o) := by
    intro m hop o h1
    simp only [slaveSysRun, h1, ok_bind, pure_eq, List.append_nil]
  have irq : ∀ hop : HOp, (∀ m, hop ≠ .main m) → ∃ s' t', xDevice cfg s hop = .ok (s', t') ∧ XInv cfg s' (tr.1 ++ t'.1, tr.2 ++ t'.2) ∧
      (s'.led = s.led ∨ op = .main ∧ s'.led = s'.sys.lib.mem.bools xLed) ∧ slaveSysRun cfg s.sys t'.1 = .ok (s'.sys, t'.2) := by
    intro hop hm
    obtain ⟨m, o, h1, h2, h3⟩ := h.irq hc hm
    exact ⟨_, _, h1, h3, .inl rfl, one h2⟩
  have nil : XInv cfg s (tr.1 ++ [], tr.2 ++ []) := by rw [List.append_nil, List.append_nil]; exact h
  cases op with
  | rto => exact irq .rto (by simp)
  | usart rx txe => exact irq (.usart rx txe) (by simp)
  | timer => exact irq .timer (by simp)
  | main =>
    by_cases hr : s.sys.rtof = true
    · exact ⟨s, ([], []), by simp only [xStep, hr, if_true], nil, .inl rfl, rfl⟩
    · have hr' : s.sys.rtof = false := by simpa using hr
      cases ht : s.todo with
      | cons op rest =>
        obtain ⟨m, o, h1, h2⟩ := h.register hc hr' ht
        refine ⟨XSlave.mk m s.led rest s.turn, ([.main op], o), by simp only [xStep, hr', ht]; exact h1, h2, .inl rfl, ?_⟩
        simp only [xDevice] at h1
        obtain ⟨⟨m', o'⟩, h3, h1⟩ := bind_ok h1
        cases h1
        exact one h3
      | nil =>
        cases hb : s.turn with
        | true =>
          refine ⟨{ s with led := s.sys.lib.mem.bools xLed, turn := false }, ([], []), by simp only [xStep, hr', ht, hb]; rfl, ?_, .inr ⟨rfl, rfl⟩, rfl⟩
          rw [List.append_nil, List.append_nil]
          exact ⟨h.run, h.line, h.own, h.const, h.todo, h.lay, h.id⟩
        | false =>
          obtain ⟨m, o, h1, h2, h3⟩ := h.poll hc ht true
          exact ⟨XSlave.mk m s.led s.todo true, ([.main .poll], o), by simp only [xStep, hr', ht, hb]; rw [ht] at h1; exact h1, h3, .inl rfl, one h2⟩

theorem XInv.runs {cfg : Config} (hc : cfg.WF) (ops : List XOp) : ∀ {s : XSlave} {tr : XTrace}, XInv cfg s tr →
    ∃ s' t', xRun cfg s ops = .ok (s', t') ∧ XInv cfg s' (tr.1 ++ t'.1, tr.2 ++ t'.2) ∧ slaveSysRun cfg s.sys t'.1 = .ok (s'.sys, t'.2) := by
  induction ops with
  | nil => intro s tr h; exact ⟨s, ([], []), rfl, by rw [List.append_nil, List.append_nil]; exact h, rfl⟩
  | cons op ops ih =>
    intro s tr h
    obtain ⟨s1, t1, h1, i1, -, r1⟩ := h.step hc op
    obtain ⟨s2, t2, h2, i2, r2⟩ := ih i1
    refine ⟨s2, (t1.1 ++ t2.1, t1.2 ++ t2.2), by simp only [xRun, h1, h2, ok_bind, pure_eq], ?_, sysRun_append _ r1 r2⟩
    rw [← List.append_assoc, ← List.append_assoc]; exact i2

theorem xInit {cfg : Config} (hf : XFits cfg) : ∃ s, xStep cfg XSlave.powerOn .main = .ok (s, ([.main (.init .rtu 1)], [])) ∧
    XInv cfg s ([.main (.init .rtu 1)], []) ∧ HSync s.sys ∧ s.sys.lib.mem = xInitMem ∧ s.todo = xRegistrations ∧ s.turn = false ∧ s.led = false := by
  obtain ⟨m, h1, h2, h3, h4⟩ := hsync_after_init cfg xInitMem 1
  refine ⟨XSlave.mk m false xRegistrations false, ?_, ?_, h2, h4, rfl, rfl, rfl⟩
  · show xDevice cfg _ (.main (.init .rtu 1)) = _
    have h1' : slaveSysStep cfg XSlave.powerOn.sys (.main (.init .rtu 1)) = .ok (m, []) := h1
    simp only [xDevice, h1', ok_bind, pure_eq]
    rfl
  · refine ⟨?_, ⟨?_, ?_, ?_, ?_⟩, ?_, ?_, xRegistrations_reg hf, ?_, h3⟩
    · simp only [slaveSysRun, h1, ok_bind, pure_eq, List.append_nil]
    · cases h1; exact ⟨rfl, rfl, rfl, rfl⟩
    · exact Nat.le_of_eq h2.cur
    · intro hlt; exact absurd h2.cur (Nat.ne_of_lt hlt)
    · exact .inl ⟨rfl, rfl, h2.cur⟩
    · show XOwn m.lib.mem; rw [h4]; exact ⟨nofun, nofun⟩
    · show XConstant m.lib.mem; rw [h4]; exact fun i _ => ⟨rfl, rfl⟩
    · show XLayout (appMem m.lib.mem xRegistrations); rw [h4]; exact xLayout_registered

theorem xMain_inv {cfg : Config} (hc : cfg.WF) (hf : XFits cfg) (ops : List XOp) : ∃ s tr, xMain cfg ops = .ok (s, tr) ∧ XInv cfg s tr := by
  obtain ⟨s1, h1, i1, -⟩ := xInit hf
  obtain ⟨s2, t2, h2, i2, -⟩ := i1.runs hc ops
  exact ⟨s2, _, by simp only [xMain, xRun, h1, h2, ok_bind, pure_eq], i2⟩

/-- **C69.** The example slave program, whatever comes in on the line and whenever the interrupts come, has no undefined behaviour. The line
carries the responses of the library, whole and in order. The discrete inputs and input registers keep the values of their initialisers. Once
registration is finished the slave exposes exactly the 20 items of each kind and the LED. -/
theorem C69_example_slave (cfg : Config) (hc : cfg.WF) (hf : XFits cfg) (ops : List XOp) :
    ∃ s tr, xMain cfg ops = .ok (s, tr) ∧ ((frames tr.2).dropLast.flatten <+: wire tr.2 ∧ wire tr.2 <+: (frames tr.2).flatten) ∧
      XConstant s.sys.lib.mem ∧ (s.todo = [] → XLayout s.sys.lib.mem) := by
  obtain ⟨s, tr, h, i⟩ := xMain_inv hc hf ops
  refine ⟨s, tr, h, ?_, i.const, fun ht => by have := i.lay; rw [ht] at this; exact this⟩
  rcases i.line.hist with ⟨h1, h2, -⟩ | ⟨done, f, h1, h2, -⟩
  · rw [h1, h2]; exact ⟨List.nil_prefix, List.nil_prefix⟩
  · rw [h1, h2, List.dropLast_concat, List.flatten_append, List.flatten_singleton]
    exact ⟨List.prefix_append _ _, (List.prefix_append_right_inj _).2 (List.take_prefix _ _)⟩

/-! ### The LED -/

theorem xRun_polls {cfg : Config} (ops : List XOp) : ∀ {s s' : XSlave} {t : XTrace}, s.todo = [] → xRun cfg s ops = .ok (s', t) →
    s'.todo = [] ∧ ∀ op ∈ mainOps t.1, op = .poll := by
  induction ops with
  | nil => intro s s' t h1 h2; cases h2; exact ⟨h1, nofun⟩
  | cons op ops ih =>
    intro s s' t h1 h2
    simp only [xRun] at h2
    obtain ⟨⟨s1, t1⟩, k1, h2⟩ := bind_ok h2
    obtain ⟨⟨s2, t2⟩, k2, h2⟩ := bind_ok h2
    cases h2
    have dev : ∀ {s : XSlave} {hop : HOp}, s.todo = [] → xDevice cfg s hop = .ok (s1, t1) → s1.todo = [] ∧ t1.1 = [hop] := by
      intro s hop hs hd
      simp only [xDevice] at hd
      obtain ⟨⟨m, o⟩, -, hd⟩ := bind_ok hd
      cases hd
      exact ⟨hs, rfl⟩
    have key : s1.todo = [] ∧ ∀ op ∈ mainOps t1.1, op = .poll := by
      cases op with
      | rto => obtain ⟨a, b⟩ := dev h1 k1; exact ⟨a, by rw [b]; exact nofun⟩
      | usart rx txe => obtain ⟨a, b⟩ := dev h1 k1; exact ⟨a, by rw [b]; exact nofun⟩
      | timer => obtain ⟨a, b⟩ := dev h1 k1; exact ⟨a, by rw [b]; exact nofun⟩
      | main =>
        simp only [xStep, h1] at k1
        split at k1
        · cases k1; exact ⟨h1, nofun⟩
        · split at k1
          · cases k1; exact ⟨rfl, nofun⟩
          · obtain ⟨a, b⟩ := dev rfl k1
            refine ⟨a, ?_⟩
            rw [b]
            intro op ho
            simpa [mainOps] using ho
    obtain ⟨a, b⟩ := ih key.1 k2
    refine ⟨a, fun op ho => ?_⟩
    rw [mainOps_append] at ho
    exact (List.mem_append.1 ho).elim (key.2 op) (b op)

theorem hserved_polls {l : Limits} {id : U8} {m m' : AppMem} {xs : List HTraffic} {w : List U8} (h : HServed l id m xs w m') :
    (∀ op ∈ mainOps (xs.flatMap HTraffic.ops), op = .poll) → m' = servedMem l m (goodFrames xs) ∧ w = servedWire l id m (goodFrames xs) := by
  induction h with
  | nil => intro _; exact ⟨rfl, rfl⟩
  | @good m m' x pre post xs bytes split after rest ih =>
    intro hp
    have hx : ∀ op ∈ mainOps x.ops, op = .poll := fun op ho => hp op (by
      rw [List.flatMap_cons, mainOps_append]; exact List.mem_append_left _ ho)
    rw [split, mainOps_append] at hx
    have e1 : ∀ m, appMem m (mainOps pre) = m := appMem_polls _ fun op ho => hx op (List.mem_append_left _ ho)
    have e2 : ∀ m, appMem m (mainOps post) = m := appMem_polls _ fun op ho => hx op (List.mem_append_right _ (List.mem_cons_of_mem _ ho))
    rw [e1, e2] at ih
    obtain ⟨i1, i2⟩ := ih fun op ho => hp op (by rw [List.flatMap_cons, mainOps_append]; exact List.mem_append_right _ ho)
    rw [e1]
    exact ⟨i1, by rw [i2]; rfl⟩
  | @bad m m' x xs bytes rest ih =>
    intro hp
    have e1 : ∀ m, appMem m (mainOps x.opsSilent) = m := appMem_polls _ fun op ho => hp op (by
      rw [List.flatMap_cons, mainOps_append]; exact List.mem_append_left _ ho)
    rw [e1] at ih
    exact ih fun op ho => hp op (by rw [List.flatMap_cons, mainOps_append]; exact List.mem_append_right _ ho)

/-- With nothing pending, the next two statements of the loop bring the LED into line with its variable and change nothing else. -/
theorem led_refresh {cfg : Config} {s : XSlave} (ht : s.todo = []) (hs : HSync s.sys) :
    ∃ s' t, xRun cfg s [.main, .main] = .ok (s', t) ∧ s'.led = s.sys.lib.mem.bools xLed ∧ s'.sys = s.sys ∧ s'.todo = [] ∧ t.2 = [] := by
  obtain ⟨sys, led, todo, turn⟩ := s
  have ht : todo = [] := ht
  subst ht
  have hr : sys.rtof = false := hs.rtof
  have hp : slaveSysStep cfg sys (.main .poll) = .ok (sys, []) := by
    have h1 : slaveStep cfg sys.lib .poll = .ok (sys.lib, []) := by
      show slavePoll cfg sys.lib = _
      unfold slavePoll
      rw [hs.sync.st]
      exact slaveIdle_noT15 _ (by rw [hs.sync.t15]; simp)
    simp only [slaveSysStep]
    rw [if_neg (by simp [hr, SOp.isMain]), h1]
    rfl
  have a : ∀ led, xStep cfg (XSlave.mk sys led [] true) .main = .ok (XSlave.mk sys (sys.lib.mem.bools xLed) [] false, ([], [])) := by
    intro led; simp [xStep, hr]
  have b : ∀ led, xStep cfg (XSlave.mk sys led [] false) .main = .ok (XSlave.mk sys led [] true, ([.main .poll], [])) := by
    intro led
    have : xDevice cfg (XSlave.mk sys led [] true) (.main .poll) = .ok (XSlave.mk sys led [] true, ([.main .poll], [])) := by
      simp only [xDevice, hp, ok_bind, pure_eq]
    simp [xStep, hr, this]
  cases turn with
  | true =>
    refine ⟨XSlave.mk sys (sys.lib.mem.bools xLed) [] true, ([.main .poll], []), ?_, rfl, rfl, rfl, rfl⟩
    simp only [xRun, a, b, ok_bind, pure_eq]
    rfl
  | false =>
    refine ⟨XSlave.mk sys (sys.lib.mem.bools xLed) [] false, ([.main .poll], []), ?_, rfl, rfl, rfl, rfl⟩
    simp only [xRun, a, b, ok_bind, pure_eq]
    rfl

/-- **C69**, the LED. In the loop, with nothing pending: if what happens on the line is a stretch of valid and bad exchanges, then the line carries
exactly the responses to the valid ones, the memory is that after these requests, and two statements of the loop later the LED shows
coil 21 of that memory. -/
theorem C69_led_follows_coil (cfg : Config) (hc : cfg.WF) (hf : XFits cfg) (ops ops' : List XOp) {s s' : XSlave} {tr tr' : XTrace}
    (h : xMain cfg ops = .ok (s, tr)) (ht : s.todo = []) (hs : HSync s.sys) (h' : xRun cfg s ops' = .ok (s', tr')) {xs : List HTraffic}
    (hx : tr'.1 = xs.flatMap HTraffic.ops) (hw : ∀ x ∈ xs, x.WF cfg 1) :
    HSync s'.sys ∧ s'.todo = [] ∧ wire tr'.2 = servedWire cfg.limits 1 s.sys.lib.mem (goodFrames xs) ∧
      s'.sys.lib.mem = servedMem cfg.limits s.sys.lib.mem (goodFrames xs) ∧
      ∃ s'' t, xRun cfg s' [.main, .main] = .ok (s'', t) ∧ s''.sys = s'.sys ∧ t.2 = [] ∧
        s''.led = bitAt s'.sys.lib.mem.coils s'.sys.lib.mem.bools 21 := by
  obtain ⟨sa, ta, ka, ia⟩ := xMain_inv hc hf ops
  rw [h] at ka
  cases ka
  obtain ⟨sb, tb, kb, ib, rb⟩ := ia.runs hc ops'
  rw [h'] at kb
  cases kb
  obtain ⟨td, hp⟩ := xRun_polls ops' ht h'
  rw [hx] at rb hp
  obtain ⟨m, o, r1, r2, r3, r4⟩ := C58_serves_all_traffic cfg hc xs s.sys hs (by rw [ia.id]; exact hw)
  rw [rb] at r1
  cases r1
  rw [ia.id] at r4
  obtain ⟨e1, e2⟩ := hserved_polls r4 hp
  obtain ⟨s'', t, k1, k2, k3, k4, k5⟩ := led_refresh (cfg := cfg) td r2
  refine ⟨r2, td, e2, e1, s'', t, k1, k3, k5, ?_⟩
  have hl : XLayout s'.sys.lib.mem := by have := ib.lay; rw [td] at this; exact this
  rw [k2, bitAt, hl.coils]
  rfl

/-- **C69**, switching the LED: in the loop, with nothing pending, a Write Single Coil frame for slave 1, coil 21 arrives. Then the line carries its
echo, and two statements of the loop later the LED is as asked for. -/
theorem C69_led_switched (cfg : Config) (hc : cfg.WF) (hf : XFits cfg) (ops ops' : List XOp) {s s' : XSlave} {tr tr' : XTrace}
    (h : xMain cfg ops = .ok (s, tr)) (ht : s.todo = []) (hs : HSync s.sys) (h' : xRun cfg s ops' = .ok (s', tr')) (v : Bool) {x : HExchange}
    (hx : tr'.1 = x.ops) (hw : x.Timed cfg) (hxf : x.frame = reqFrame (.writeSingleCoil 21 1 v)) :
    wire tr'.2 = reqFrame (.writeSingleCoil 21 1 v) ∧
      ∃ s'' t, xRun cfg s' [.main, .main] = .ok (s'', t) ∧ s''.led = v ∧ HSync s''.sys ∧ s''.todo = [] := by
  have hq : QtyOk (.writeSingleCoil 21 1 v) := trivial
  have hd : DataOk (.writeSingleCoil 21 1 v) := trivial
  have hg : x.Good cfg 1 := { hw with frame := by rw [hxf]; exact reqFrame_good _ hq hd }
  obtain ⟨k1, k2, k3, k4, s'', t, k5, k6, -, k7⟩ := C69_led_follows_coil cfg hc hf ops ops' h ht hs h' (xs := [.good x])
    (by rw [hx]; simp [HTraffic.ops]) (by intro y hy; rw [List.mem_singleton.1 hy]; exact hg)
  have ha := frameRequest_reqFrame _ hq hd
  obtain ⟨sa, ta, ka, -, -, hl⟩ := C69_example_slave cfg hc hf ops
  rw [h] at ka
  cases ka
  have hl := hl ht
  have hex : exceptionFor cfg.limits s.sys.lib.mem (asRequest (.writeSingleCoil 21 1 v)) = none := by
    have h1 : ¬ cfg.limits.coils ≤ 21 := by have := hf.coils; show ¬ cfg.coilsQty ≤ 21; omega
    have h2 : (s.sys.lib.mem.coils 21).isSome = true := by rw [hl.coils]; rfl
    cases v <;> simp [exceptionFor, asRequest, h1, h2]
  have e1 : frameRequest x.frame = frameRequest (reqFrame (.writeSingleCoil 21 1 v)) := by rw [hxf]
  simp only [goodFrames, servedMem, servedWire, List.append_nil, e1, ha.effect, ha.respond] at k3 k4
  refine ⟨?_, s'', t, k5, ?_, by rw [k6]; exact k1, ?_⟩
  · rw [k3]
    unfold respond
    rw [hex]
    cases v <;> rfl
  · rw [k7, k4]
    have h21 : s.sys.lib.mem.coils 21 = some xLed := by rw [hl.coils]; rfl
    have e : effect cfg.limits s.sys.lib.mem (asRequest (.writeSingleCoil 21 1 v)) =
        { s.sys.lib.mem with bools := storeAll s.sys.lib.mem.coils 21 (fun _ => decide ((if v then 0xFF00 else 0x0000) ≠ 0)) s.sys.lib.mem.bools 1 } :=
      if_pos hex
    rw [e]
    simp only [bitAt, storeAll, h21, Nat.add_zero]
    cases v <;> simp
  · obtain ⟨a, b, c, -, -, d, -⟩ := led_refresh (cfg := cfg) k2 k1
    rw [c] at k5
    cases k5
    exact d

/-! ### Non-vacuity -/

/-- With a quiet line the program gets into its loop. -/
theorem x_startup {cfg : Config} (hc : cfg.WF) (hf : XFits cfg) : ∃ s tr, xMain cfg (List.replicate 81 .main) = .ok (s, tr) ∧ s.todo = [] ∧ HSync s.sys ∧
    s.sys.lib.mem.bools = xInitMem.bools ∧ s.sys.lib.mem.regs = xInitMem.regs ∧ tr.2 = [] := by
  have key : ∀ (n : Nat) {s : XSlave} {tr : XTrace}, XInv cfg s tr → HSync s.sys → s.todo.length = n →
      ∃ s' tr', xRun cfg s (List.replicate n .main) = .ok (s', tr') ∧ s'.todo = [] ∧ HSync s'.sys ∧ s'.sys.lib.mem.bools = s.sys.lib.mem.bools ∧ s'.sys.lib.mem.regs = s.sys.lib.mem.regs ∧ tr'.2 = [] := by
    intro n
    induction n with
    | zero => intro s tr hi hs hn; exact ⟨s, ([], []), rfl, List.length_eq_zero_iff.1 hn, hs, rfl, rfl, rfl⟩
    | succ n ih =>
      intro s tr hi hs hn
      obtain ⟨op, rest, ht⟩ : ∃ op rest, s.todo = op :: rest := by
        cases hh : s.todo with
        | nil => rw [hh] at hn; cases hn
        | cons op rest => exact ⟨op, rest, rfl⟩
      obtain ⟨m, o, h1, h2⟩ := hi.register hc hs.rtof ht
      have hx : SOp.xReg cfg op := hi.todo op (by rw [ht]; exact List.mem_cons_self ..)
      have hsm : HSync m ∧ m.lib.mem.bools = s.sys.lib.mem.bools ∧ m.lib.mem.regs = s.sys.lib.mem.regs ∧ o = [] := by
        simp only [xDevice] at h1
        obtain ⟨⟨m', o'⟩, h3, h1⟩ := bind_ok h1
        cases h1
        obtain ⟨tab, adr, p, rfl⟩ : ∃ tab adr p, op = .register tab adr p := by
          cases op <;> first | exact hx.elim | exact ⟨_, _, _, rfl⟩
        have hmem := sysStep_register_mem hc hs.rtof h3
        refine (fun (x : _ ∧ _) => ⟨x.1, by rw [hmem]; cases tab <;> rfl, by rw [hmem]; cases tab <;> rfl, x.2⟩) ?_
        simp only [slaveSysStep] at h3
        rw [if_neg (by simp [hs.rtof, SOp.isMain])] at h3
        obtain ⟨⟨l, o1⟩, h4, h3⟩ := bind_ok h3
        simp only [slaveStep] at h4
        obtain ⟨mem, h5, h4⟩ := bind_ok h4
        cases h4
        cases h3
        exact ⟨⟨⟨⟨hs.sync.live.1, hs.sync.live.2, hs.sync.live.3, hs.sync.live.4⟩, hs.sync.st, hs.sync.t15, hs.sync.t35, hs.sync.ferr, hs.sync.len⟩, hs.txf, hs.gap, hs.rtof, hs.cur⟩, rfl⟩
      obtain ⟨s2, t2, k1, k2, k3, k4, k5, k6⟩ := ih h2 hsm.1 (by rw [ht] at hn; exact Nat.succ.inj hn)
      refine ⟨s2, ([.main op] ++ t2.1, o ++ t2.2), ?_, k2, k3, k4.trans hsm.2.1, k5.trans hsm.2.2.1, by show o ++ t2.2 = []; rw [hsm.2.2.2, k6]; rfl⟩
      have e : xStep cfg s .main = .ok (XSlave.mk m s.led rest s.turn, ([.main op], o)) := by
        simp only [xStep, hs.rtof, ht]; exact h1
      simp only [List.replicate_succ, xRun, e, k1, ok_bind, pure_eq]
  obtain ⟨s1, h1, i1, y1, e1, t1, -⟩ := xInit hf
  obtain ⟨s2, t2, k1, k2, k3, k4, k5, k6⟩ := key 81 i1 y1 (by rw [t1]; decide)
  refine ⟨s2, ([.main (.init .rtu 1)] ++ t2.1, [] ++ t2.2), ?_, k2, k3, by rw [k4, e1], by rw [k5, e1], by show [] ++ t2.2 = []; rw [k6]; rfl⟩
  simp only [xMain, xRun, h1, k1, ok_bind, pure_eq]

theorem xInputs_of {m : AppMem} (hl : XLayout m) (hk : XConstant m) : XInputs m := by
  have d : ∀ a, a < 20 → bitAt m.dins m.bools a = xInitMem.bools (xDin a) := fun a ha => by
    rw [bitAt, hl.dins, if_pos ha]; exact (hk a ha).1
  have r : ∀ a, a < 20 → regAt m.inregs m.regs a = xInitMem.regs (xInreg a) := fun a ha => by
    rw [regAt, hl.inregs, if_pos ha]; exact (hk a ha).2
  refine ⟨?_, fun a ha => ?_⟩
  · rw [List.map_congr_left fun a ha => by rw [d a (List.mem_range.1 ha)]]
    decide
  · rw [r a ha]
    exact (by decide : ∀ a, a < 20 → (xInitMem.regs (xInreg a)).toNat = if a < 3 then 60 + a else if a < 10 then 4201 + a else 4291 + a) a ha

theorem xOutputs_of {m : AppMem} (hl : XLayout m) (hb : m.bools = xInitMem.bools) (hr : m.regs = xInitMem.regs) : XOutputs m := by
  have d : ∀ a, a < 20 → bitAt m.coils m.bools a = xInitMem.bools (xCoil a) := fun a ha => by
    rw [bitAt, hl.coils, if_pos ha, hb]
  have r : ∀ a, a < 20 → regAt m.hregs m.regs a = xInitMem.regs (xHreg a) := fun a ha => by
    rw [regAt, hl.hregs, if_pos ha, hr]
  refine ⟨?_, fun a ha => ?_, ?_⟩
  · rw [List.map_congr_left fun a ha => by rw [d a (List.mem_range.1 ha)]]
    decide
  · rw [r a ha]
    exact (by decide : ∀ a, a < 20 → (xInitMem.regs (xHreg a)).toNat = if a < 10 then 2001 + a else 2991 + a) a ha
  · rw [bitAt, hl.coils, hb]; decide

/-- **C69**, the values of the inputs: in the loop, whatever happened before, the discrete inputs and the input registers read as initialised. -/
theorem C69_inputs (cfg : Config) (hc : cfg.WF) (hf : XFits cfg) (ops : List XOp) {s : XSlave} {tr : XTrace} (h : xMain cfg ops = .ok (s, tr))
    (ht : s.todo = []) : XInputs s.sys.lib.mem := by
  obtain ⟨s', tr', h', -, hk, hl⟩ := C69_example_slave cfg hc hf ops
  rw [h] at h'
  cases h'
  exact xInputs_of (hl ht) hk

/-- **C69**, from power-on: if the line is quiet until registration is finished, the program gets into its loop with a memory `m` that exposes
exactly the items of the program with the values of their initialisers; and from then on, for every stretch of valid and bad exchanges,
the line carries exactly the responses to the valid ones, computed from `m`. -/
theorem C69_from_power_on (cfg : Config) (hc : cfg.WF) (hf : XFits cfg) : ∃ m, XLayout m ∧ XInputs m ∧ XOutputs m ∧
    ∃ s tr, xMain cfg (List.replicate 81 .main) = .ok (s, tr) ∧ s.todo = [] ∧ wire tr.2 = [] ∧
      ∀ ops' s' tr' (xs : List HTraffic), xRun cfg s ops' = .ok (s', tr') → tr'.1 = xs.flatMap HTraffic.ops → (∀ x ∈ xs, x.WF cfg 1) →
        wire tr'.2 = servedWire cfg.limits 1 m (goodFrames xs) ∧ s'.sys.lib.mem = servedMem cfg.limits m (goodFrames xs) := by
  obtain ⟨s, tr, h, ht, hs, hb, hr, ho⟩ := x_startup hc hf
  obtain ⟨s', tr', h', hw, hk, hl⟩ := C69_example_slave cfg hc hf (List.replicate 81 .main)
  rw [h] at h'
  cases h'
  refine ⟨s.sys.lib.mem, hl ht, xInputs_of (hl ht) hk, xOutputs_of (hl ht) hb hr, s, tr, h, ht, ?_, fun ops' s' tr' xs h1 h2 h3 => ?_⟩
  · rw [ho]; rfl
  · obtain ⟨-, -, a, b, -⟩ := C69_led_follows_coil cfg hc hf _ ops' h ht hs h1 h2 h3
    exact ⟨a, b⟩

/-- What happened to the device, what went over the line and the LED. -/
def xOf (r : C (XSlave × XTrace)) : Option (List HOp × List U8 × Bool) :=
  match r with
  | .ok (s, tr) => some (tr.1, wire tr.2, s.led)
  | .error _ => none

/-- The program in its loop gets a frame and answers it. -/
def sampleX (f : List U8) : List XOp :=
  (f.map fun b => .usart (some b) true) ++ [.rto, .usart none true, .timer, .main, .main, .main] ++ List.replicate 256 (.usart none true) ++ [.main, .main]

example : xOf (xMain Config.default (List.replicate 81 .main ++ sampleX (reqFrame (.writeSingleCoil 21 1 true)) ++ [.main, .main])) =
    some (.main (.init .rtu 1) :: xRegistrations.map .main ++ (simpleHX (reqFrame (.writeSingleCoil 21 1 true))).ops ++ [.main .poll],
      [0x01, 0x05, 0x00, 0x15, 0xFF, 0x00, 0x9D, 0xFE], true) := by decide +kernel

end Modbus
