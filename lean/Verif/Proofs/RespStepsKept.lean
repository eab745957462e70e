import Verif.Proofs.RespStepsPoll
import Verif.Proofs.ParseStepsPoll

/-! A master poll whose reads of the response buffer are interrupted is a poll at the granularity of `Model/Preempt.lean` as long as the bytes
read stay what they are. -/

namespace Modbus
variable {α β : Type}

/-! ### Reading a buffer left alone -/

/-- Result on the buffer `b`. -/
def RespM.run : RespM α → Buf → C (α × List MEvent)
  | .ret a, _ => .ok (a, [])
  | .err u, _ => .error u
  | .rd i k, b => (k (b i)).run b
  | .emit e m, b => firstOut [e] (m.run b)

/-- Number of steps made on the buffer `b`. -/
def RespM.count : RespM α → Buf → Nat
  | .ret _, _ => 0
  | .err _, _ => 0
  | .rd i k, b => (k (b i)).count b + 1
  | .emit _ m, b => m.count b + 1

/-- All positions read on the buffer `b` satisfy `P`. -/
def RespM.Reads (P : Nat → Prop) : RespM α → Buf → Prop
  | .ret _, _ => True
  | .err _, _ => True
  | .rd i k, b => P i ∧ (k (b i)).Reads P b
  | .emit _ m, b => m.Reads P b

theorem rrun_bind (m : RespM α) (f : α → RespM β) (b : Buf) : (m >>= f).run b = (m.run b >>= fun x => firstOut x.2 ((f x.1).run b)) := by
  show (m.bind f).run b = _
  induction m with
  | ret a => exact (firstOut_nil _).symm
  | err u => rfl
  | rd i k ih => exact ih _
  | emit e m ih =>
    show firstOut [e] ((m.bind f).run b) = (firstOut [e] (m.run b) >>= _)
    rw [ih]
    cases hm : m.run b with
    | error u => rfl
    | ok x =>
      show firstOut [e] (firstOut x.2 ((f x.1).run b)) = firstOut ([e] ++ x.2) ((f x.1).run b)
      exact firstOut_app _ _ _

theorem rrun_rd (i : Nat) (f : U8 → RespM α) (b : Buf) : (rdResp i >>= f).run b = (rd b i >>= fun x => (f x).run b) := by
  unfold rdResp rd
  split <;> rfl

theorem rrun_lift (c : C β) (f : β → RespM α) (b : Buf) : (RespM.lift c >>= f).run b = (c >>= fun x => (f x).run b) := by
  cases c <;> rfl

theorem rrun_call (l : List MEvent) (f : Unit → RespM α) (b : Buf) : (callApp l >>= f).run b = firstOut l ((f ()).run b) := by
  induction l with
  | nil => exact (firstOut_nil _).symm
  | cons e l ih =>
    show firstOut [e] ((callApp l >>= f).run b) = _
    rw [ih, firstOut_app]; rfl

theorem rrun_u16 (i : Nat) (f : U16 → RespM α) (b : Buf) : (readRespU16 i >>= f).run b = (readU16 b i >>= fun x => (f x).run b) := by
  rw [rrun_bind]
  unfold readRespU16 readU16
  rw [rrun_rd]
  cases rd b i with
  | error u => rfl
  | ok x =>
    simp only [okBind]
    rw [rrun_rd]
    cases rd b (i + 1) with
    | error u => rfl
    | ok y => exact firstOut_nil _

/-- Callbacks already made come first. -/
theorem deliverBits_from (resp : Buf) (ev : U16 → Bool → MEvent) (adr : U16) : ∀ (n i : Nat) (out : List MEvent),
    (forLoop (deliverBitBody resp ev adr) n i out >>= fun c => (.ok ((), loopOut c) : C (Unit × List MEvent))) =
      firstOut out ((deliverBitsR ev adr n i).run resp)
  | 0, i, out => by
    show Except.ok _ = Except.ok _
    simp [loopOut]
  | n + 1, i, out => by
    rw [forLoop, deliverBitsR]
    rw [rrun_rd]
    unfold deliverBitBody
    cases rd resp (idxRespReadData + i / 8) with
    | error u => rfl
    | ok x =>
      simp only [okBind]
      by_cases hx : x &&& BitVec.ofNat 8 (2 ^ (i % 8)) ≠ 0
      · rw [if_pos hx, if_pos hx, rrun_call, firstOut_app]
        simp only [pureOk, okBind]
        exact deliverBits_from resp ev adr n (i + 1) _
      · rw [if_neg hx, if_neg hx, rrun_call, firstOut_app]
        simp only [pureOk, okBind]
        exact deliverBits_from resp ev adr n (i + 1) _

theorem deliverRegs_from (resp : Buf) (ev : U16 → U16 → MEvent) (adr : U16) : ∀ (n i : Nat) (out : List MEvent),
    (forLoop (deliverRegBody resp ev adr) n i out >>= fun c => (.ok ((), loopOut c) : C (Unit × List MEvent))) =
      firstOut out ((deliverRegsR ev adr n i).run resp)
  | 0, i, out => by
    show Except.ok _ = Except.ok _
    simp [loopOut]
  | n + 1, i, out => by
    rw [forLoop, deliverRegsR]
    rw [rrun_u16]
    unfold deliverRegBody
    cases readU16 resp (idxRespReadData + i * 2) with
    | error u => rfl
    | ok x =>
      simp only [okBind, pureOk]
      rw [rrun_call, firstOut_app]
      exact deliverRegs_from resp ev adr n (i + 1) _

theorem rrun_bits (q : U16) (resp : Buf) (ev : U16 → Bool → MEvent) (adr : U16) (r : Ret) :
    (deliverBitsR ev adr q.toNat 0 >>= fun _ => RespM.ret r).run resp = (deliverBits q resp ev adr >>= fun l => .ok (r, l)) := by
  rw [rrun_bind]
  have h := deliverBits_from resp ev adr q.toNat 0 []
  rw [firstOut_nil] at h
  rw [← h]
  unfold deliverBits
  cases forLoop (deliverBitBody resp ev adr) q.toNat 0 [] with
  | error u => rfl
  | ok c => simp [firstOut, RespM.run]

theorem rrun_regs (q : U16) (resp : Buf) (ev : U16 → U16 → MEvent) (adr : U16) (r : Ret) :
    (deliverRegsR ev adr q.toNat 0 >>= fun _ => RespM.ret r).run resp = (deliverRegs q resp ev adr >>= fun l => .ok (r, l)) := by
  rw [rrun_bind]
  have h := deliverRegs_from resp ev adr q.toNat 0 []
  rw [firstOut_nil] at h
  rw [← h]
  unfold deliverRegs
  cases forLoop (deliverRegBody resp ev adr) q.toNat 0 [] with
  | error u => rfl
  | ok c => simp [firstOut, RespM.run]

theorem rrun_update (m : MMsg) : (updateMasterDataR m).run m.resp = updateMasterData m := by
  unfold updateMasterDataR updateMasterData
  rw [rrun_rd]
  refine bind_congr_ok fun slave _ => ?_
  rw [rrun_rd]
  refine bind_congr_ok fun fc _ => ?_
  rw [rrun_lift]
  refine bind_congr_ok fun adr _ => ?_
  rw [rrun_lift]
  refine bind_congr_ok fun qty _ => ?_
  split
  · exact rrun_bits ..
  split
  · exact rrun_bits ..
  split
  · exact rrun_regs ..
  split
  · exact rrun_regs ..
  · rfl

theorem rrun_write (m : MMsg) : (reportWriteConfirmationR m).run m.resp = reportWriteConfirmation m := by
  unfold reportWriteConfirmationR reportWriteConfirmation
  rw [rrun_rd]
  refine bind_congr_ok fun slave _ => ?_
  rw [rrun_lift]
  refine bind_congr_ok fun adr _ => ?_
  rw [rrun_rd]
  refine bind_congr_ok fun fc _ => ?_
  split
  · rfl
  split
  · rfl
  split
  · rw [rrun_lift]; rfl
  · rw [rrun_lift]; rfl

theorem rrun_exception (m : MMsg) : (processExceptionR m).run m.resp = processException m := by
  unfold processExceptionR processException
  rw [rrun_rd]
  refine bind_congr_ok fun slave _ => ?_
  rw [rrun_rd]
  refine bind_congr_ok fun fc _ => ?_
  rw [rrun_rd]
  refine bind_congr_ok fun code _ => ?_
  rw [rrun_lift]
  refine bind_congr_ok fun adr _ => ?_
  rw [rrun_lift]
  refine bind_congr_ok fun qty _ => ?_
  rw [rrun_call]
  show Except.ok _ = Except.ok _
  simp

/-- On a buffer left alone the callbacks are those of the sequential model. -/
theorem rrun_readSlaveResp (m : MMsg) : (readSlaveRespR m).run m.resp = readSlaveResp true m := by
  unfold readSlaveRespR readSlaveResp
  rw [if_neg (by decide), rrun_rd]
  unfold respContainsException
  cases rd m.resp idxFunctionCode with
  | error u => rfl
  | ok fc =>
    simp only [okBind, pureOk]
    by_cases hx : fc &&& exceptionCodeMask = exceptionCodeMask
    · rw [if_pos hx, if_pos (by simpa using hx), rrun_exception]
    · rw [if_neg hx, if_neg (by simpa using hx)]
      unfold processResponseR processResponse
      rw [rrun_lift]
      refine bind_congr_ok fun f _ => ?_
      unfold respMapperR respMapper
      simp only [respMapperLoopR, respMapperLoop]
      repeat' split
      all_goals first
        | exact rrun_update m
        | exact rrun_write m
        | rfl

/-! ### The positions read -/

theorem rreads_bind {P : Nat → Prop} {m : RespM α} {f : α → RespM β} {b : Buf} (hm : m.Reads P b)
    (hf : ∀ a, (f a).Reads P b) : (m >>= f).Reads P b := by
  show (m.bind f).Reads P b
  induction m with
  | ret a => exact hf a
  | err u => trivial
  | rd i k ih => exact ⟨hm.1, ih _ hm.2⟩
  | emit e m ih => exact ih hm

theorem rreads_rd {P : Nat → Prop} {i : Nat} {f : U8 → RespM α} {b : Buf} (h : P i) (hf : i < 256 → (f (b i)).Reads P b) : (rdResp i >>= f).Reads P b := by
  unfold rdResp rtuBufferSize
  split
  · exact ⟨h, hf (by assumption)⟩
  · trivial

theorem rreads_lift {P : Nat → Prop} {c : C β} {f : β → RespM α} {b : Buf} (hf : ∀ x, c = .ok x → (f x).Reads P b) : (RespM.lift c >>= f).Reads P b := by
  cases c with
  | error u => trivial
  | ok x => exact hf x rfl

theorem rreads_call {P : Nat → Prop} {l : List MEvent} {f : Unit → RespM α} {b : Buf} (hf : (f ()).Reads P b) : (callApp l >>= f).Reads P b := by
  induction l with
  | nil => exact hf
  | cons e l ih => exact ih

theorem rreads_all (m : RespM α) (b : Buf) : m.Reads (fun _ => True) b := by
  induction m with
  | ret a => trivial
  | err u => trivial
  | rd i k ih => exact ⟨trivial, ih _⟩
  | emit e m ih => exact ih

theorem rreads_congr {P : Nat → Prop} {b b' : Buf} (h : ∀ i, P i → b' i = b i) (m : RespM α) (hm : m.Reads P b) :
    m.Reads P b' ∧ m.run b' = m.run b ∧ m.count b' = m.count b := by
  induction m with
  | ret a => exact ⟨trivial, rfl, rfl⟩
  | err u => exact ⟨trivial, rfl, rfl⟩
  | rd i k ih =>
    have := ih (b i) hm.2
    simp only [RespM.Reads, RespM.run, RespM.count, h i hm.1]
    exact ⟨⟨hm.1, this.1⟩, this.2.1, by rw [this.2.2]⟩
  | emit e m ih =>
    have := ih hm
    simp only [RespM.Reads, RespM.run, RespM.count]
    exact ⟨this.1, by rw [this.2.1], by rw [this.2.2]⟩

theorem rreads_bits (P : Nat → Prop) (b : Buf) (ev : U16 → Bool → MEvent) (adr : U16) : ∀ (n i : Nat),
    (∀ j, i ≤ j → j < i + n → P (3 + j / 8)) → (deliverBitsR ev adr n i).Reads P b
  | 0, _, _ => trivial
  | n + 1, i, h => by
    unfold deliverBitsR
    refine rreads_rd (h i (Nat.le_refl _) (by omega)) fun _ => ?_
    split
    · exact rreads_call (rreads_bits P b ev adr n (i + 1) fun j h1 h2 => h j (by omega) (by omega))
    · exact rreads_call (rreads_bits P b ev adr n (i + 1) fun j h1 h2 => h j (by omega) (by omega))

theorem rreads_regs (P : Nat → Prop) (b : Buf) (ev : U16 → U16 → MEvent) (adr : U16) : ∀ (n i : Nat),
    (∀ j, i ≤ j → j < i + n → P (3 + j * 2) ∧ P (4 + j * 2)) → (deliverRegsR ev adr n i).Reads P b
  | 0, _, _ => trivial
  | n + 1, i, h => by
    unfold deliverRegsR
    have hi := h i (Nat.le_refl _) (by omega)
    refine rreads_bind ?_ fun v => rreads_call (rreads_regs P b ev adr n (i + 1) fun j h1 h2 => h j (by omega) (by omega))
    unfold readRespU16
    refine rreads_rd hi.1 fun _ => rreads_rd ?_ fun _ => trivial
    rw [show idxRespReadData + i * 2 + 1 = 4 + i * 2 by unfold idxRespReadData; omega]
    exact hi.2

/-- Number of bytes of a response with function code `fc` that processing it looks at, `qty` values having been asked for. -/
def respNeed (fc : U8) (qty : U16) : Nat :=
  if fc = 1 ∨ fc = 2 then 3 + (qty.toNat + 7) / 8 else if fc = 3 ∨ fc = 4 then 3 + 2 * qty.toNat else 3

theorem respNeed_ge (fc : U8) (qty : U16) : 3 ≤ respNeed fc qty := by
  unfold respNeed
  split
  · omega
  · split <;> omega

theorem rreads_update {P : Nat → Prop} (m : MMsg) (h : ∀ p, p < respNeed (m.resp 1) (u16of (m.req 4) (m.req 5)) → P p) :
    (updateMasterDataR m).Reads P m.resp := by
  have h3 : ∀ p, p < 3 → P p := fun p hp => h p (Nat.lt_of_lt_of_le hp (respNeed_ge _ _))
  unfold updateMasterDataR
  refine rreads_rd (h3 _ (by decide)) fun _ => rreads_rd (h3 _ (by decide)) fun _ => rreads_lift fun adr _ => rreads_lift fun qty hq => ?_
  rw [read_qty] at hq
  cases hq
  dsimp only [idxFunctionCode]
  split
  · next e =>
    refine rreads_bind (rreads_bits P _ _ _ _ _ fun j _ hj => h _ ?_) fun _ => trivial
    have e : m.resp 1 = 1 := e
    unfold respNeed
    rw [if_pos (.inl e)]; omega
  split
  · next e =>
    refine rreads_bind (rreads_bits P _ _ _ _ _ fun j _ hj => h _ ?_) fun _ => trivial
    have e : m.resp 1 = 2 := e
    unfold respNeed
    rw [if_pos (.inr e)]; omega
  split
  · next e =>
    have e : m.resp 1 = 4 := e
    have hn : respNeed (m.resp 1) (u16of (m.req 4) (m.req 5)) = 3 + 2 * (u16of (m.req 4) (m.req 5)).toNat := by
      unfold respNeed
      rw [if_neg (by rw [e]; decide), if_pos (.inr e)]
    rw [hn] at h
    exact rreads_bind (rreads_regs P _ _ _ _ _ fun j _ hj => ⟨h _ (by omega), h _ (by omega)⟩) fun _ => trivial
  split
  · next e =>
    have e : m.resp 1 = 3 := e
    have hn : respNeed (m.resp 1) (u16of (m.req 4) (m.req 5)) = 3 + 2 * (u16of (m.req 4) (m.req 5)).toNat := by
      unfold respNeed
      rw [if_neg (by rw [e]; decide), if_pos (.inl e)]
    rw [hn] at h
    exact rreads_bind (rreads_regs P _ _ _ _ _ fun j _ hj => ⟨h _ (by omega), h _ (by omega)⟩) fun _ => trivial
  · trivial

theorem rreads_write {P : Nat → Prop} (m : MMsg) (h3 : ∀ p, p < 3 → P p) : (reportWriteConfirmationR m).Reads P m.resp := by
  unfold reportWriteConfirmationR
  refine rreads_rd (h3 _ (by decide)) fun _ => rreads_lift fun adr _ => rreads_rd (h3 _ (by decide)) fun _ => ?_
  split
  · exact rreads_call trivial
  split
  · exact rreads_call trivial
  split
  · exact rreads_lift fun _ _ => rreads_call trivial
  · exact rreads_lift fun _ _ => rreads_call trivial

theorem rreads_exception {P : Nat → Prop} (m : MMsg) (h3 : ∀ p, p < 3 → P p) : (processExceptionR m).Reads P m.resp := by
  unfold processExceptionR
  exact rreads_rd (h3 _ (by decide)) fun _ => rreads_rd (h3 _ (by decide)) fun _ => rreads_rd (h3 _ (by decide)) fun _ =>
    rreads_lift fun _ _ => rreads_lift fun _ _ => rreads_call trivial

/-- Processing a response reads only the bytes its function code calls for. -/
theorem rreads_resp {P : Nat → Prop} (m : MMsg) (h : ∀ p, p < respNeed (m.resp 1) (u16of (m.req 4) (m.req 5)) → P p) :
    (readSlaveRespR m).Reads P m.resp := by
  have h3 : ∀ p, p < 3 → P p := fun p hp => h p (Nat.lt_of_lt_of_le hp (respNeed_ge _ _))
  unfold readSlaveRespR
  refine rreads_rd (h3 _ (by decide)) fun _ => ?_
  split
  · exact rreads_exception m h3
  · unfold processResponseR
    refine rreads_lift fun f _ => ?_
    unfold respMapperR
    simp only [respMapperLoopR]
    repeat' split
    all_goals first
      | exact rreads_update m h
      | exact rreads_write m h3
      | trivial

/-- Of the message only the request matters: the response is read from the buffer. -/
theorem respR_congr {m m' : MMsg} (h : m'.req = m.req) : readSlaveRespR m' = readSlaveRespR m := by
  cases m; cases m'
  simp only at h
  subst h
  rfl

end Modbus
