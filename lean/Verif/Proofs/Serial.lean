import Verif.Spec.Serial
import Verif.Props.MultiRequests
import Verif.Props.BusRequests

/-! Serial histories of a slave's data on the timed bus. -/

namespace Modbus

open Spec

theorem pairwise_cases {α : Type} {R : α → α → Prop} {l : List α} (h : l.Pairwise R) {a b : α} (ha : a ∈ l) (hb : b ∈ l) : a = b ∨ R a b ∨ R b a := by
  induction h with
  | nil => cases ha
  | cons h1 _ ih =>
    rcases List.mem_cons.1 ha with ea | ha' <;> rcases List.mem_cons.1 hb with eb | hb'
    · exact .inl (ea.trans eb.symm)
    · exact .inr (.inl (ea ▸ h1 _ hb'))
    · exact .inr (.inr (eb ▸ h1 _ ha'))
    · exact ih ha' hb'

theorem runActs_append (l : Limits) (a b : List Act) : ∀ m, runActs l m (a ++ b) =
    ((runActs l (runActs l m a).1 b).1, (runActs l m a).2 ++ (runActs l (runActs l m a).1 b).2) := by
  induction a with
  | nil => intro m; rfl
  | cons x a ih =>
    intro m
    cases x with
    | app op => exact ih _
    | req r =>
      simp only [List.cons_append, runActs, ih, List.append_assoc]

section
variable (id : U8) (P : Nat → Nat)

/-- Addressed to the slave. -/
def mineB (d : BusTx) : Bool := decide (reqSlave d.tx.req = id)

/-- Addressed to the slave and executed before its event `k`. -/
def mineK (k : Nat) (d : BusTx) : Bool := mineB id d && decide (P d.start < k)

/-- Executed in this order. -/
def ExecOrder (l : List BusTx) : Prop := l.Pairwise fun d d' => mineB id d = true → mineB id d' = true → P d.start < P d'.start

variable {id P}

theorem mineK_new {l : List BusTx} {k : Nat} (h : ExecOrder id P l) {d : BusTx} (hd : d ∈ l) (hm : mineB id d = true) (hk : P d.start = k) :
    l.filter (mineK id P (k + 1)) = l.filter (mineK id P k) ++ [d] := by
  induction h with
  | nil => cases hd
  | @cons e l h1 h2 ih =>
    rcases List.mem_cons.1 hd with rfl | hd
    · have e1 : l.filter (mineK id P (k + 1)) = [] := by
        rw [List.filter_eq_nil_iff]
        intro d' hd' hh
        simp only [mineK, Bool.and_eq_true, decide_eq_true_eq] at hh
        have := h1 d' hd' hm hh.1
        omega
      have e2 : l.filter (mineK id P k) = [] := by
        rw [List.filter_eq_nil_iff]
        intro d' hd' hh
        simp only [mineK, Bool.and_eq_true, decide_eq_true_eq] at hh
        have := h1 d' hd' hm hh.1
        omega
      have f1 : mineK id P (k + 1) d = true := by simp only [mineK, hm, Bool.true_and, decide_eq_true_eq]; omega
      have f2 : ¬ mineK id P k d = true := by simp only [mineK, hm, Bool.true_and, decide_eq_true_eq]; omega
      rw [List.filter_cons_of_pos f1, List.filter_cons_of_neg f2, e1, e2]
      rfl
    · have ih := ih hd
      by_cases he : mineB id e = true
      · have := h1 d hd he hm
        have f1 : mineK id P (k + 1) e = true := by simp only [mineK, he, Bool.true_and, decide_eq_true_eq]; omega
        have f2 : mineK id P k e = true := by simp only [mineK, he, Bool.true_and, decide_eq_true_eq]; omega
        rw [List.filter_cons_of_pos f1, List.filter_cons_of_pos f2, ih]
        rfl
      · have f1 : ¬ mineK id P (k + 1) e = true := by simp only [mineK, Bool.and_eq_true]; exact fun h => he h.1
        have f2 : ¬ mineK id P k e = true := by simp only [mineK, Bool.and_eq_true]; exact fun h => he h.1
        rw [List.filter_cons_of_neg f1, List.filter_cons_of_neg f2, ih]

theorem mineK_same {l : List BusTx} {k : Nat} (h : ∀ d ∈ l, mineB id d = true → P d.start ≠ k) :
    l.filter (mineK id P (k + 1)) = l.filter (mineK id P k) := by
  refine List.filter_congr fun d hd => ?_
  unfold mineK
  cases hm : mineB id d with
  | false => rfl
  | true =>
    have := h d hd hm
    simp only [Bool.true_and, decide_eq_decide]
    omega

theorem mineK_prefix {l : List BusTx} {k : Nat} (h : ExecOrder id P l) : l.filter (mineK id P k) <+: l.filter (mineB id) := by
  induction h with
  | nil => exact List.prefix_refl _
  | @cons e l h1 h2 ih =>
    by_cases he : mineB id e = true
    · rw [List.filter_cons_of_pos he]
      by_cases hk : P e.start < k
      · rw [List.filter_cons_of_pos (by simp only [mineK, he, Bool.true_and, decide_eq_true_eq]; exact hk)]
        exact (List.prefix_cons_inj _).2 ih
      · rw [List.filter_cons_of_neg (by simp only [mineK, he, Bool.true_and, decide_eq_true_eq]; exact hk)]
        have : l.filter (mineK id P k) = [] := by
          rw [List.filter_eq_nil_iff]
          intro d' hd' hh
          simp only [mineK, Bool.and_eq_true, decide_eq_true_eq] at hh
          have := h1 d' hd' he hh.1
          omega
        rw [this]
        exact List.nil_prefix
    · rw [List.filter_cons_of_neg he, List.filter_cons_of_neg (by simp only [mineK, Bool.and_eq_true]; exact fun h => he h.1)]
      exact ih

end

/-- What is known of master and slave. -/
structure SerialCtx (l : Limits) (id : U8) (x : MDeviceTimed) (y : DeviceTimed) (P : Nat → Nat) (D : Nat → List BusTx) : Prop where
  grows : ∀ n, D n <+: D (n + 1)
  sorted : ∀ n, (D n).Pairwise fun d d' => d.stop < d'.start
  stop : ∀ n, ∀ d ∈ D n, d.stop < n
  lasts : ∀ n, ∀ d ∈ D n, d.start < d.stop
  sent : ∀ n, ∀ d ∈ D n, .lib (.send (reqFrame d.tx.req)) ∈ x.out d.start
  exec : ∀ n, ∀ d ∈ D n, reqSlave d.tx.req = id → ExecutedAt l id x y d.start (P d.start) d.tx.req ∧ y.time (P d.start) ≤ x.time d.stop ∧
    d.tx.evs = outcome l (y.st (P d.start)).lib.mem d.tx.req
  cover : ∀ a, x.Sends a → ∃ n, ∃ d ∈ D n, d.start = a
  sends : ∀ p, y.Sends p → ∃ a r, .lib (.send (reqFrame r)) ∈ x.out a ∧ reqSlave r = id ∧ P a = p
  order : ∀ a a' r r', a < a' → .lib (.send (reqFrame r)) ∈ x.out a → .lib (.send (reqFrame r')) ∈ x.out a' → reqSlave r = id → reqSlave r' = id → P a < P a'
  out : ∀ a, x.Sends a → ∃ f b, x.out a = [.lib (.send f), .tdr b]
  app : ∀ k op, y.op k = .main op → isAppOp op = true → (y.st (k + 1)).lib.mem = appAct (y.st k).lib.mem op
  keep : ∀ k, ¬ y.Sends k → (∀ op, y.op k = .main op → isAppOp op = false) → (y.st (k + 1)).lib.mem = (y.st k).lib.mem
  xtime : ∀ {a b}, a ≤ b → x.time a ≤ x.time b
  ytime : ∀ {a b}, a ≤ b → y.time a ≤ y.time b
  made : ∀ n q, q ≤ n → ((D n).filter fun d => decide (d.start < q)).map (fun d => d.tx.req) <+: accepted (mainTrace (x.trace q))

section
variable {l : Limits} {id : U8} {x : MDeviceTimed} {y : DeviceTimed} {P : Nat → Nat} {D : Nat → List BusTx}

theorem SerialCtx.le (C : SerialCtx l id x y P D) {m n : Nat} (h : m ≤ n) : D m <+: D n := by
  induction h with
  | refl => exact List.prefix_refl _
  | step _ ih => exact List.IsPrefix.trans ih (C.grows _)

theorem SerialCtx.mem (C : SerialCtx l id x y P D) {m n : Nat} (h : m ≤ n) {d : BusTx} (hd : d ∈ D m) : d ∈ D n := (C.le h).subset hd

theorem SerialCtx.execOrder (C : SerialCtx l id x y P D) (n : Nat) : ExecOrder id P (D n) := by
  refine List.Pairwise.imp_of_mem (fun {d d'} hd hd' h h1 h2 => ?_) (C.sorted n)
  exact C.order _ _ _ _ (Nat.lt_trans (C.lasts n d hd) h) (C.sent n d hd) (C.sent n d' hd') (of_decide_eq_true h1) (of_decide_eq_true h2)

/-- What happens at event `k` of the slave. -/
def StepActs (id : U8) (y : DeviceTimed) (P : Nat → Nat) (D : Nat → List BusTx) (k : Nat) (as : List Act) : Prop :=
  (∃ op, y.op k = .main op ∧ isAppOp op = true ∧ as = [.app op]) ∨
  (∃ n d, d ∈ D n ∧ mineB id d = true ∧ P d.start = k ∧ as = [.req d.tx.req]) ∨
  ((∀ op, y.op k = .main op → isAppOp op = false) ∧ ¬ y.Sends k ∧ as = [])

theorem SerialCtx.steps (C : SerialCtx l id x y P D) (k : Nat) : ∃ as, StepActs id y P D k as := by
  by_cases ha : ∃ op, y.op k = .main op ∧ isAppOp op = true
  · obtain ⟨op, h1, h2⟩ := ha
    exact ⟨_, .inl ⟨op, h1, h2, rfl⟩⟩
  by_cases hs : y.Sends k
  · obtain ⟨a, r, h1, h2, h3⟩ := C.sends k hs
    have hsa : x.Sends a := ⟨_, h1⟩
    obtain ⟨n, d, hd, rfl⟩ := C.cover a hsa
    refine ⟨_, .inr (.inl ⟨n, d, hd, ?_, h3, rfl⟩)⟩
    have h4 := C.sent n d hd
    obtain ⟨f, b, ho⟩ := C.out _ hsa
    rw [ho] at h1 h4
    simp only [List.mem_cons, HMOut.lib.injEq, MOut.send.injEq, reduceCtorEq, List.not_mem_nil, or_false] at h1 h4
    have h5 := congrArg (fun l => l.getD 0 0) (h4.trans h1.symm)
    have h6 : ∀ r, (reqFrame r).getD 0 0 = reqSlave r := fun r => rfl
    simp only [h6] at h5
    exact decide_eq_true (h5.trans h2)
  · refine ⟨_, .inr (.inr ⟨fun op h => ?_, hs, rfl⟩)⟩
    cases hh : isAppOp op with
    | false => rfl
    | true => exact absurd ⟨op, h, hh⟩ ha

theorem SerialCtx.sends_at (C : SerialCtx l id x y P D) {n : Nat} {d : BusTx} (hd : d ∈ D n) (hm : mineB id d = true) :
    y.Sends (P d.start) ∧ y.op (P d.start) = .main .poll := by
  obtain ⟨E, -⟩ := C.exec n d hd (of_decide_eq_true hm)
  obtain ⟨b, hb⟩ := E.response
  exact ⟨⟨_, by rw [hb]; exact List.mem_cons_self ..⟩, E.poll⟩

/-- The history of a slave. -/
theorem SerialCtx.history (C : SerialCtx l id x y P D) : ∃ H : Nat → List Act, SerialSlave l id x y (fun n => (D n).map BusTx.tx) H := by
  classical
  obtain ⟨A, hA⟩ := Classical.axiomOfChoice C.steps
  let H : Nat → List Act := fun k => (List.range k).flatMap A
  have hH : ∀ k, H (k + 1) = H k ++ A k := by
    intro k
    show (List.range (k + 1)).flatMap A = _
    rw [List.range_succ, List.flatMap_append]
    simp [H]
  have happs : ∀ k, (H k).filterMap Act.app? = y.appOps k := by
    intro k
    induction k with
    | zero => rfl
    | succ k ih =>
      rw [hH, List.filterMap_append, ih]
      unfold DeviceTimed.appOps
      rw [List.range_succ, List.map_append, List.filterMap_append]
      congr 1
      rcases hA k with ⟨op, h1, h2, h3⟩ | ⟨n, d, h1, h2, h3, h4⟩ | ⟨h1, h2, h3⟩
      · rw [h3]
        simp [h1, h2, Act.app?]
      · obtain ⟨-, h5⟩ := C.sends_at h1 h2
        rw [h3] at h5
        rw [h4]
        simp [h5, isAppOp, Act.app?]
      · rw [h3]
        cases hop : y.op k with
        | main op => simp [hop, h1 op hop]
        | _ => simp [hop]
  have hdata : ∀ k, (y.st k).lib.mem = (runActs l (y.st 0).lib.mem (H k)).1 := by
    intro k
    induction k with
    | zero => rfl
    | succ k ih =>
      rw [hH, runActs_append, ← ih]
      rcases hA k with ⟨op, h1, h2, h3⟩ | ⟨n, d, h1, h2, h3, h4⟩ | ⟨h1, h2, h3⟩
      · rw [h3]; exact C.app k op h1 h2
      · obtain ⟨E, -⟩ := C.exec n d h1 (of_decide_eq_true h2)
        rw [h4]
        have := E.effect
        rw [h3] at this
        exact this
      · rw [h3]; exact C.keep k h2 h1
  have hreq : ∀ k, ∃ N, ∀ n, N ≤ n → (H k).filterMap Act.req? = ((D n).filter (mineK id P k)).map (fun d => d.tx.req) ∧
      (runActs l (y.st 0).lib.mem (H k)).2 = ((D n).filter (mineK id P k)).flatMap (fun d => d.tx.evs) := by
    intro k
    induction k with
    | zero =>
      refine ⟨0, fun n _ => ?_⟩
      have : (D n).filter (mineK id P 0) = [] := by
        rw [List.filter_eq_nil_iff]
        intro d _ h
        simp [mineK] at h
      rw [this]
      exact ⟨rfl, rfl⟩
    | succ k ih =>
      obtain ⟨N, ih⟩ := ih
      rcases hA k with ⟨op, h1, h2, h3⟩ | ⟨n0, d, h1, h2, h3, h4⟩ | ⟨h1, h2, h3⟩
      · refine ⟨N, fun n hn => ?_⟩
        obtain ⟨i1, i2⟩ := ih n hn
        rw [hH, List.filterMap_append, i1, runActs_append, i2, h3, mineK_same fun d hd hm hk => ?_]
        · exact ⟨by simp [Act.req?], by simp [runActs]⟩
        · obtain ⟨-, h5⟩ := C.sends_at hd hm
          rw [hk, h1] at h5
          cases h5
          cases h2
      · refine ⟨max N n0, fun n hn => ?_⟩
        obtain ⟨i1, i2⟩ := ih n (by omega)
        have hd := C.mem (show n0 ≤ n by omega) h1
        obtain ⟨-, -, E⟩ := C.exec n d hd (of_decide_eq_true h2)
        rw [h3, hdata k] at E
        rw [hH, List.filterMap_append, i1, runActs_append, i2, h4, mineK_new (C.execOrder n) hd h2 h3, List.map_append, List.flatMap_append]
        refine ⟨by simp [Act.req?], ?_⟩
        simp [runActs, E]
      · refine ⟨N, fun n hn => ?_⟩
        obtain ⟨i1, i2⟩ := ih n hn
        rw [hH, List.filterMap_append, i1, runActs_append, i2, h3, mineK_same fun d hd hm hk => ?_]
        · exact ⟨by simp, by simp [runActs]⟩
        · obtain ⟨h5, -⟩ := C.sends_at hd hm
          rw [hk] at h5
          exact h2 h5
  refine ⟨H, rfl, fun k => ?_, happs, hdata, fun q => ?_, fun k q hkq => ?_⟩
  · rcases hA k with ⟨op, h1, h2, h3⟩ | ⟨n, d, h1, h2, h3, h4⟩ | ⟨-, -, h3⟩
    · exact .inl ⟨op, h1, h2, by rw [hH, h3]⟩
    · obtain ⟨-, h5⟩ := C.sends_at h1 h2
      rw [h3] at h5
      exact .inr (.inl ⟨_, h5, by rw [hH, h4]⟩)
    · exact .inr (.inr (by rw [hH, h3, List.append_nil]))
  · have hk : ∀ L : List BusTx, (∀ d ∈ L, d ∈ D q) → ∃ k, (∀ j, j < k → y.time j ≤ x.time q) ∧ ∀ d ∈ L, mineB id d = true → P d.start < k := by
      intro L
      induction L with
      | nil => intro _; exact ⟨0, fun j hj => absurd hj (Nat.not_lt_zero j), fun d hd => nomatch hd⟩
      | cons d L ih =>
        intro hL
        obtain ⟨k, k1, k2⟩ := ih fun d hd => hL d (List.mem_cons_of_mem _ hd)
        cases hm : mineB id d with
        | false =>
          refine ⟨k, k1, fun d' hd' hm' => ?_⟩
          rcases List.mem_cons.1 hd' with rfl | hd'
          · rw [hm] at hm'; cases hm'
          · exact k2 d' hd' hm'
        | true =>
          have hd := hL d (List.mem_cons_self ..)
          obtain ⟨-, t, -⟩ := C.exec q d hd (of_decide_eq_true hm)
          have t2 := C.xtime (Nat.le_of_lt (C.stop q d hd))
          refine ⟨max k (P d.start + 1), fun j hj => ?_, fun d' hd' hm' => ?_⟩
          · by_cases h : j < k
            · exact k1 j h
            · have := C.ytime (show j ≤ P d.start by omega)
              omega
          · rcases List.mem_cons.1 hd' with rfl | hd'
            · omega
            · have := k2 d' hd' hm'; omega
    obtain ⟨k, kt, hk⟩ := hk (D q) fun d hd => hd
    refine ⟨k, kt, ?_⟩
    obtain ⟨N, h⟩ := hreq k
    obtain ⟨i1, i2⟩ := h (max N q) (by omega)
    have e1 : (D q).filter (mineB id) = (D q).filter (mineK id P k) := by
      refine List.filter_congr fun d hd => ?_
      unfold mineK
      cases hm : mineB id d with
      | false => rfl
      | true =>
        simp [hk d hd hm]
    have hp : (D q).filter (mineB id) <+: (D (max N q)).filter (mineK id P k) := by
      rw [e1]; exact (C.le (show q ≤ max N q by omega)).filter _
    refine ⟨?_, ?_⟩
    · rw [i1]
      have : forSlave id (((D q).map BusTx.tx).map Tx.req) = ((D q).filter (mineB id)).map fun d => d.tx.req := by
        unfold forSlave
        rw [List.map_map, List.filter_map]
        rfl
      rw [this]
      exact hp.map _
    · rw [i2]
      have : reportsOf id ((D q).map BusTx.tx) = ((D q).filter (mineB id)).flatMap fun d => d.tx.evs := by
        unfold reportsOf
        rw [List.filter_map, List.flatMap_map]
        rfl
      rw [this]
      obtain ⟨t, ht⟩ := hp
      rw [← ht, List.flatMap_append]
      exact List.prefix_append ..
  · obtain ⟨N, h⟩ := hreq k
    obtain ⟨i1, -⟩ := h (max N q) (by omega)
    rw [i1]
    have hall : ∀ d ∈ (D (max N q)).filter (mineK id P k), d.start < q := by
      intro d hd
      obtain ⟨h1, h2⟩ := List.mem_filter.1 hd
      simp only [mineK, Bool.and_eq_true, decide_eq_true_eq] at h2
      obtain ⟨E, -⟩ := C.exec _ d h1 (of_decide_eq_true h2.1)
      have t1 := E.later
      have t2 := C.ytime (Nat.le_of_lt h2.2)
      exact Nat.lt_of_not_le fun hn => by
        have := C.xtime hn
        omega
    have hp := ((mineK_prefix (C.execOrder (max N q)) (k := k)).filter fun d => decide (d.start < q))
    rw [List.filter_eq_self.2 fun d hd => decide_eq_true (hall d hd), List.filter_filter] at hp
    have e2 : ((D (max N q)).filter fun a => decide (a.start < q) && mineB id a) =
        ((D (max N q)).filter fun d => decide (d.start < q)).filter (mineB id) := by
      rw [List.filter_filter]
      exact List.filter_congr fun d _ => Bool.and_comm _ _
    rw [e2] at hp
    have hm := (C.made (max N q) q (by omega)).filter fun r => decide (reqSlave r = id)
    rw [List.filter_map] at hm
    exact List.IsPrefix.trans (hp.map _) hm

/-! ### From the bookkeeping of the master -/

variable {cfgM : Config} {Ok : BusTx → Prop} {M : Nat} {g : Nat → Ghost}

/-- Requests transmitted before `q` were accepted before `q`, in this order. -/
theorem made_prefix (hE : Outcomes x Ok M) (hne : ∀ n, ∀ d ∈ D n, d.tx.evs ≠ []) (hgr : ∀ {m n}, m ≤ n → D m <+: D n)
    (hD : ∀ n, BusInv Ok x n (g n) (D n)) (hs : ∀ n, ∀ d ∈ D n, x.Sends d.start) (n q : Nat) (hq : q ≤ n) :
    ((D n).filter fun d => decide (d.start < q)).map (fun d => d.tx.req) <+: accepted (mainTrace (x.trace q)) := by
  obtain ⟨t, ht⟩ := hgr hq
  have e1 : (D q).filter (fun d => decide (d.start < q)) = D q := by
    refine List.filter_eq_self.2 fun d hd => decide_eq_true ?_
    have := ((hD q).ok d hd).1
    have := (hE.reported d ((hD q).ok d hd).2).after
    omega
  have hso := (hD n).sorted
  rw [← ht, List.pairwise_append] at hso
  obtain ⟨-, s1, s2⟩ := hso
  have hq1 : (D q).map (fun d => d.tx.req) <+: accepted (mainTrace (x.trace q)) := by
    rw [(hD q).order, List.append_assoc, List.map_map]
    exact List.prefix_append ..
  rw [← ht, List.filter_append, e1]
  have hmem : ∀ d ∈ t, d ∈ D n := fun d hd => by rw [← ht]; exact List.mem_append_right _ hd
  have hnot : ∀ d ∈ t, d.start < q → (g q).cur ≠ none ∧ q ≤ d.stop := by
    intro d hd hlt
    rcases (hD q).starts d.start hlt (hs n d (hmem d hd)) with ⟨d', h1, h2⟩ | ⟨h1, h2⟩
    · have h3 := s2 d' h1 d hd
      have h4 := (hE.reported d' ((hD q).ok d' h1).2).after
      omega
    · refine ⟨h1, Nat.le_of_not_lt fun hn => ?_⟩
      have hok := ((hD n).ok d (hmem d hd)).2
      have hR := hE.reported d hok
      exact reported_loud hR (hne n d (hmem d hd)) (h2 _ hR.after hn)
  cases t with
  | nil => rw [List.filter_nil, List.append_nil]; exact hq1
  | cons d t =>
    rw [List.pairwise_cons] at s1
    have htl : t.filter (fun d => decide (d.start < q)) = [] := by
      rw [List.filter_eq_nil_iff]
      intro d' hd' hlt
      have hlt := of_decide_eq_true hlt
      have h1 := s1.1 d' hd'
      have h2 := (hE.reported d ((hD n).ok d (hmem d (List.mem_cons_self ..))).2).after
      have h3 := (hnot d (List.mem_cons_self ..) (by omega)).2
      omega
    by_cases hlt : d.start < q
    · rw [List.filter_cons_of_pos (p := fun d : BusTx => decide (d.start < q)) (decide_eq_true hlt), htl, List.map_append]
      obtain ⟨hc, -⟩ := hnot d (List.mem_cons_self ..) hlt
      -- the transaction in progress is the next one to be finished
      have hp := x.accepted_mono hq
      have hn : (D q).map (fun d => d.tx.req) ++ [d.tx.req] <+: accepted (mainTrace (x.trace n)) := by
        rw [(hD n).order, List.append_assoc, List.map_map, ← ht, List.map_append]
        generalize (((g n).cur.map fun c => (c.2.1, c.2.2)).map Prod.fst).toList ++ (g n).pend = z
        refine ⟨t.map (fun d => d.tx.req) ++ z, ?_⟩
        simp [Function.comp_def]
      refine List.prefix_of_prefix_length_le hn hp ?_
      rw [(hD q).order]
      cases hcu : (g q).cur with
      | none => exact absurd hcu hc
      | some c => simp
    · rw [List.filter_cons_of_neg (p := fun d : BusTx => decide (d.start < q)) (by simpa using hlt), htl, List.append_nil]
      exact hq1

/-- A request that has been transmitted gets finished. -/
theorem sent_finished (hE : Outcomes x Ok M) (hw : cfgM.MWF) (hx : x.Exec cfgM) (hD : ∀ n, BusInv Ok x n (g n) (D n)) {a : Nat} (hs : x.Sends a) :
    ∃ n, ∃ d ∈ D n, d.start = a := by
  obtain ⟨r, F⟩ := hx.sends hw hs
  obtain ⟨b, hb⟩ := F.out
  obtain ⟨v, evs, hne, hok, -⟩ := hE.entry hb F.qty F.data
  have hR : ReportedAt x a v evs := hE.reported _ hok
  have hav := hR.after
  refine ⟨v + 1, ?_⟩
  rcases (hD (v + 1)).starts a (by omega) hs with h | ⟨-, h⟩
  · exact h
  · exact absurd (h v hav (Nat.lt_succ_self _)) (reported_loud hR hne)

/-! ### The slave -/

theorem app_step {cfg : Config} (hc : cfg.WF) {s s' : SlaveSys} {op : SOp} {o : List HOut} (h : slaveSysStep cfg s (.main op) = .ok (s', o))
    (hr : s.rtof = false) (ha : isAppOp op = true) : s'.lib.mem = appAct s.lib.mem op := by
  have hlib : ∀ {t0 t : SlaveSys} {o : List HOut}, slaveSends t0 [] = .ok (t, o) → t.lib = t0.lib := by
    intro t0 t o h
    simp only [slaveSends, Except.ok.injEq, Prod.mk.injEq] at h
    rw [← h.1]
  cases op with
  | register tab a p =>
    simp only [slaveSysStep, hr, SOp.isMain, Bool.false_eq_true, or_self, if_false, reduceCtorEq] at h
    obtain ⟨⟨l, o1⟩, h1, h⟩ := bind_ok h
    simp only [slaveStep] at h1
    obtain ⟨m, h2, h1⟩ := bind_ok h1
    simp only [pure_eq, Except.ok.injEq, Prod.mk.injEq] at h1
    obtain ⟨rfl, rfl⟩ := h1
    rw [slaveRegister_ok cfg hc] at h2
    by_cases hq : a.toNat < tab.qty cfg
    · rw [if_pos hq] at h2
      have h2 := Except.ok.inj h2
      rw [hlib h, ← h2]
      cases tab <;> rfl
    · rw [if_neg hq] at h2
      cases h2
  | appBool p v =>
    simp only [slaveSysStep, hr, SOp.isMain, Bool.false_eq_true, or_self, if_false, reduceCtorEq] at h
    obtain ⟨⟨l, o1⟩, h1, h⟩ := bind_ok h
    simp only [slaveStep, Except.ok.injEq, Prod.mk.injEq] at h1
    obtain ⟨rfl, rfl⟩ := h1
    rw [hlib h]
    rfl
  | appReg p v =>
    simp only [slaveSysStep, hr, SOp.isMain, Bool.false_eq_true, or_self, if_false, reduceCtorEq] at h
    obtain ⟨⟨l, o1⟩, h1, h⟩ := bind_ok h
    simp only [slaveStep, Except.ok.injEq, Prod.mk.injEq] at h1
    obtain ⟨rfl, rfl⟩ := h1
    rw [hlib h]
    rfl
  | _ => cases ha

/-! ### Consequences -/

theorem Spec.SerialSlave.grows {Ds : Nat → List Tx} {H : Nat → List Act} (S : SerialSlave l id x y Ds H) {a b : Nat} (h : a ≤ b) : H a <+: H b := by
  induction h with
  | refl => exact List.prefix_refl _
  | @step b _ ih =>
    refine List.IsPrefix.trans ih ?_
    rcases S.step b with ⟨op, -, -, h⟩ | ⟨r, -, h⟩ | h
    · rw [h]; exact List.prefix_append ..
    · rw [h]; exact List.prefix_append ..
    · rw [h]; exact List.prefix_refl _

/-- From then on. -/
theorem Spec.SerialSlave.finished_at {Ds : Nat → List Tx} {H : Nat → List Act} (S : SerialSlave l id x y Ds H) {q k : Nat} (h : x.time q < y.time k) :
    forSlave id ((Ds q).map Tx.req) <+: (H k).filterMap Act.req? ∧ reportsOf id (Ds q) <+: (runActs l (y.st 0).lib.mem (H k)).2 := by
  obtain ⟨k', h1, h2, h3⟩ := S.finished q
  have hk : k' ≤ k := Nat.le_of_not_lt fun hn => by have := h1 k hn; omega
  have hp := S.grows hk
  refine ⟨List.IsPrefix.trans h2 (hp.filterMap _), List.IsPrefix.trans h3 ?_⟩
  obtain ⟨t, ht⟩ := hp
  rw [← ht, runActs_append]
  exact List.prefix_append ..

end

end Modbus
