import Verif.Proofs.Master

/-! From the step-wise bookkeeping to a description of whole traces. -/

namespace Modbus

open Spec

/-- The current transaction without its buffer. -/
def Ghost.tx (g : Ghost) : Option (MReq × Nat) := g.cur.map fun x => (x.2.1, x.2.2)

theorem exceptionEvent_noerr (r : MReq) (a b c : U8) : ∀ e ∈ exceptionEvent r a b c, isErrorReport e = false := by
  unfold exceptionEvent
  intro e he
  simp only at he
  split at he <;> simp at he <;> subst he <;> rfl

theorem actualEvents_noerr {r : MReq} {a b : U8} {resp : Buf} {evs : List MEvent} (h : actualEvents r a b resp = .ok evs) :
    ∀ e ∈ evs, isErrorReport e = false := by
  unfold actualEvents at h
  simp only at h
  repeat' split at h
  all_goals first
    | (cases h; done)
    | (simp only [Except.ok.injEq] at h
       subst h
       intro e he
       try simp at he
       first
         | (obtain ⟨i, -, rfl⟩ := he; rfl)
         | (subst he; rfl)
         | exact he.elim
         | done)

theorem respEvents_noerr {m : MMsg} {r : MReq} {evs : List MEvent} (hm : Holds m r) (hq : QtyOk r)
    (h : respEvents m = .ok evs) : ∀ e ∈ evs, isErrorReport e = false := by
  rw [respEvents_eq hm hq] at h
  split at h
  · cases h; exact exceptionEvent_noerr _ _ _ _
  · exact actualEvents_noerr h

theorem outs_cons (op : MOp) (o : List MOut) (tr : MTrace) :
    outs ((op, o) :: tr) = o.filter isOut ++ outs tr := by
  simp [outs]

theorem outs_cons_events (op : MOp) (evs : List MEvent) (tr : MTrace) :
    outs ((op, evs.map .event) :: tr) = evs.map .event ++ outs tr := by
  rw [outs_cons, List.filter_eq_self.2]
  intro o ho
  simp at ho
  obtain ⟨e, -, rfl⟩ := ho
  rfl

/-- All requests a bookkeeping state knows of are valid. -/
def Ghost.Valid (cfg : Config) (g : Ghost) : Prop :=
  (∀ r ∈ g.pend, QtyOk r) ∧ ∀ i r c, g.cur = some (i, r, c) → QtyOk r ∧ 1 ≤ c ∧ c ≤ 1 + cfg.repeatMax

theorem GStep.valid {cfg : Config} {g g' : Ghost} {op : MOp} {o : List MOut} (h : GStep cfg g op o g') (hv : g.Valid cfg) :
    g'.Valid cfg := by
  cases h with
  | accept r i fl h hq =>
    refine ⟨?_, hv.2⟩
    intro x hx
    simp at hx
    rcases hx with hx | rfl
    · exact hv.1 x hx
    · exact hq
  | full => exact hv
  | refuse => exact hv
  | start r i tl rest hc ht hp =>
    refine ⟨fun x hx => hv.1 x (by rw [hp]; simp [hx]), ?_⟩
    intro i' r' c' e
    simp at e
    obtain ⟨-, rfl, rfl⟩ := e
    exact ⟨hv.1 r (by rw [hp]; simp), by omega, by omega⟩
  | again r i c hc hle =>
    refine ⟨hv.1, ?_⟩
    intro i' r' c' e
    simp at e
    obtain ⟨-, rfl, rfl⟩ := e
    have := hv.2 i r c hc
    exact ⟨this.1, by omega, by omega⟩
  | finish r i c evs hc hf => exact ⟨hv.1, by simp⟩
  | silent => exact hv

/-- The reading of a run as transactions. -/
theorem GRun.transactions {cfg : Config} {g g' : Ghost} {tr : MTrace} (h : GRun cfg g tr g') (hv : g.Valid cfg) :
    g'.Valid cfg ∧ (∀ r ∈ accepted tr, QtyOk r) ∧
    ∃ done : List Tx, (∀ t ∈ done, t.Ok cfg.repeatMax) ∧
      (g.tx.map Prod.fst).toList ++ g.pend ++ accepted tr = done.map Tx.req ++ (g'.tx.map Prod.fst).toList ++ g'.pend ∧
      curOuts g.tx ++ outs tr = done.flatMap Tx.outs ++ curOuts g'.tx ∧
      g'.lost.length = g.lost.length + refused tr := by
  induction h with
  | nil g => exact ⟨hv, by simp [accepted], [], by simp, by simp [accepted], by simp [outs], by simp [refused]⟩
  | cons h1 h2 ih =>
    rename_i g g1 g2 op o tr
    obtain ⟨v2, hacc, done, d1, d2, d3, d4⟩ := ih (h1.valid hv)
    refine ⟨v2, ?_⟩
    cases h1 with
    | accept r i fl h hq =>
      refine ⟨?_, done, d1, ?_, ?_, ?_⟩
      · intro x hx
        simp [accepted] at hx
        rcases hx with rfl | hx
        · exact hq
        · exact hacc x (by simpa [accepted] using hx)
      · rw [← d2]; simp [accepted, Ghost.tx]
      · rw [← d3]; simp [outs, isOut, Ghost.tx]
      · rw [d4]; simp [refused]
    | full r h =>
      refine ⟨?_, done, d1, ?_, ?_, ?_⟩
      · simpa [accepted] using hacc
      · rw [← d2]; simp [accepted, Ghost.tx]
      · rw [← d3]; simp [outs, isOut, Ghost.tx]
      · rw [d4]; simp [refused]
    | refuse r i fl h hq =>
      refine ⟨?_, done, d1, ?_, ?_, ?_⟩
      · simpa [accepted] using hacc
      · rw [← d2]; simp [accepted, Ghost.tx]
      · rw [← d3]; simp [outs, isOut, Ghost.tx]
      · rw [d4]; simp [refused]; omega
    | start r i tl rest hc ht hp =>
      refine ⟨?_, done, d1, ?_, ?_, ?_⟩
      · simpa [accepted] using hacc
      · rw [← d2]; simp [accepted, Ghost.tx, hc, hp]
      · rw [← d3, outs_cons]; simp [Ghost.tx, hc, curOuts]; rfl
      · rw [d4]; simp [refused]
    | again r i c hc hle =>
      refine ⟨?_, done, d1, ?_, ?_, ?_⟩
      · simpa [accepted] using hacc
      · rw [← d2]; simp [accepted, Ghost.tx, hc]
      · rw [← d3, outs_cons]; simp [Ghost.tx, hc, curOuts, List.replicate_succ', List.append_assoc]; rfl
      · rw [d4]; simp [refused]
    | finish r i c evs hc hf =>
      have hcur := hv.2 i r c hc
      refine ⟨?_, { req := r, count := c, evs := evs } :: done, ?_, ?_, ?_, ?_⟩
      · simpa [accepted] using hacc
      · intro t ht
        simp at ht
        rcases ht with rfl | ht
        · refine ⟨hcur.2.1, hcur.2.2, ?_⟩
          cases hf with
          | timeout fc => exact .inr ⟨_, rfl, rfl, by simp [isCommReport]⟩
          | comm slave fc e hc he => exact .inr ⟨_, rfl, rfl, fun _ => by show c = _; omega⟩
          | answered m evs hm he => exact .inl (respEvents_noerr hm hcur.1 he)
        · exact d1 t ht
      · simp [Ghost.tx] at d2
        simp [accepted, Ghost.tx, hc] at d2 ⊢
        exact d2
      · simp [Ghost.tx, curOuts] at d3
        rw [outs_cons_events, d3]
        simp [Ghost.tx, hc, curOuts, Tx.outs]
      · rw [d4]; simp [refused]
    | silent op h =>
      refine ⟨?_, done, d1, ?_, ?_, ?_⟩
      · simpa [accepted] using hacc
      · rw [← d2]; simp [accepted, Ghost.tx]
      · rw [← d3]; simp [outs, isOut, Ghost.tx]
      · rw [d4]; simp [refused]

theorem Ghost.fresh_valid (cfg : Config) : (Ghost.fresh cfg).Valid cfg := by
  constructor <;> simp [Ghost.fresh]

theorem MInv.idle_iff {cfg : Config} {s : Master} {g : Ghost} (h : MInv cfg s g) : s.st = .idle ↔ g.cur = none := by
  have := h.cur
  cases hc : g.cur with
  | none => rw [hc] at this; simp [this.1]
  | some x =>
    obtain ⟨i, r, c⟩ := x
    rw [hc] at this
    obtain ⟨-, -, -, -, -, -, h1 | h1⟩ := this
    · simp [h1.1]
    · rcases h1.1 with h1 | h1 | h1 <;> simp [h1]

end Modbus
