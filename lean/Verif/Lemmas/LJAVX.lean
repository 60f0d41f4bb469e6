import Verif.Model.LJFunctorAVX
import Verif.Lemmas.LJTraversal
import Mathlib.Tactic.FinCases
import Mathlib.Tactic.IntervalCases
import Mathlib.Algebra.BigOperators.Intervals
/-! The kernels of the AVX functor as additions. -/
namespace Verif
open Spec

section
variable {K : Type} [Field K] [LinearOrder K] [IsStrictOrderedRing K]
variable {c : LJCfg K} {par : LJParams K}

/-- Number of lanes in use. -/
def avxLanes (rest : Option Nat) : Nat := rest.getD 4

theorem avxMask_eq {rest : Option Nat} (hr : ∀ r, rest = some r → 1 ≤ r ∧ r ≤ 3) :
    avxMaskOf rest =
      some fun l => decide (l.val < avxLanes rest) := by
  cases rest with
  | none =>
    simp only [avxLanes, Option.getD_none, avxMaskOf]
    congr 1
    funext l
    exact (decide_eq_true l.isLt).symm
  | some r =>
    obtain ⟨h1, h2⟩ := hr r rfl
    simp only [avxLanes, Option.getD_some]
    have e : ∀ (a b : Reg Bool), (∀ l, a l = b l) → some a = some b := fun a b h => congrArg some (funext h)
    interval_cases r <;> (refine e _ _ ?_; decide)

theorem avxReadsType_eq {rest : Option Nat} (hr : ∀ r, rest = some r → 1 ≤ r ∧ r ≤ 3) (l : Fin 4) :
    avxReadsType rest l = decide (l.val < avxLanes rest) := by
  cases rest with
  | none => exact (decide_eq_true l.isLt).symm
  | some r =>
    obtain ⟨h1, h2⟩ := hr r rfl
    simp only [avxLanes, avxReadsType, Option.getD_some]
    interval_cases r <;> revert l <;> decide

theorem lanes_sum {M : Type} [AddCommMonoid M] (g : Nat → M) (j : Nat) {m : Nat} (hm : m ≤ 4) (x : Fin 4 → M)
    (hx : ∀ l : Fin 4, x l = if l.val < m then g (j + l.val) else 0) :
    (x 0 + x 1) + (x 2 + x 3) = ((List.range' j m).map g).sum := by
  rw [hx 0, hx 1, hx 2, hx 3]
  interval_cases m <;> simp [List.range', add_assoc]

theorem sum_single_apply {P M : Type} [DecidableEq P] [AddCommMonoid M] {l : List P} (hl : l.Nodup) (g : P → M) (x : P) :
    (l.map fun k => (Pi.single k (g k) : P → M)).sum x = if x ∈ l then g x else 0 := by
  induction l with
  | nil => simp
  | cons k l ih =>
    rw [List.nodup_cons] at hl
    rw [List.map_cons, List.sum_cons, Pi.add_apply, ih hl.2]
    by_cases hx : x = k
    · subst hx
      rw [if_neg hl.1, Pi.single_eq_same, if_pos List.mem_cons_self, add_zero]
    · rw [Pi.single_eq_of_ne hx, zero_add]
      simp [hx]

theorem hsum_add (a b : Reg (Num K)) : avxHSum (fun l => a l + b l) = avxHSum a + avxHSum b := by
  unfold avxHSum
  simp only [add_assoc, add_left_comm, add_comm]

theorem hsumV_eq (a : Reg (V3 (Num K))) : avxHSumV a = (a 0 + a 1) + (a 2 + a 3) := rfl

theorem hsumV_add (a b : Reg (V3 (Num K))) : avxHSumV (fun l => a l + b l) = avxHSumV a + avxHSumV b := by
  simp only [hsumV_eq]
  simp only [add_assoc, add_left_comm, add_comm]

/-- The lanes of two particles that interact. -/
theorem avx_lane (h : SetUp c par) {i q : Mol K} (hI : Interact c.cutoffSquared i q) (hd : i.pos ≠ q.pos) :
    let dr := i.pos - q.pos
    let invdr2 : Num K := .fin 1 / .fin (normSq dr)
    let lj2 : Num K := .fin (c.sig i.type q.type) * invdr2
    let lj6 : Num K := lj2 * (lj2 * lj2)
    let lj12m6 : Num K := lj6 * lj6 - lj6
    dr.fin.scale ((lj12m6 + lj6 * lj6) * .fin (c.eps i.type q.type) * invdr2) = (ljForceOn par c.cutoffSquared i q).fin ∧
    .fin (c.eps i.type q.type) * lj12m6 + .fin (c.shift i.type q.type) = Num.fin (6 * ljEnergyOf par c.cutoffSquared i q) := by
  have h0 : normSq (i.pos - q.pos) ≠ 0 := fun h' => hd (normSq_eq_zero h')
  have k := kernelAoS_eq h hI hd
  unfold ljKernelAoS at k
  simp only [inner_normSq, Num.fin_div h0, Num.fin_mul, Num.fin_sub, Num.fin_add] at k ⊢
  obtain ⟨k1, k2⟩ := Prod.ext_iff.1 k
  obtain ⟨-, k3⟩ := Prod.ext_iff.1 k2
  dsimp only at k1 k3
  rw [← k1, ← k3]
  refine ⟨?_, ?_⟩
  · congr 2; ring
  · congr 1; ring

/-- A lane outside of the mask. -/
theorem avxLane_off (newton3 : Bool) (i : Mol K) (reads : Bool) (q : Mol K) :
    avxLane c newton3 i false reads q = ⟨false, 0, 0, 0⟩ := by
  unfold avxLane
  simp only [Bool.false_eq_true, if_false, ne_eq, not_true, decide_false, Bool.and_false]
  have z : ∀ v : V3 K, v.fin.scale (Num.fin 0) = 0 := fun v => by
    rw [← V3.fin_zero]; refine V3.ext' ?_ ?_ ?_ <;> simp
  have z2 : ∀ (v : V3 K) (x : Num K), (∃ y, x = .fin y) → ((0 : V3 (Num K)) * v.fin).scale x = 0 := by
    rintro v _ ⟨y, rfl⟩
    rw [← V3.fin_zero]; refine V3.ext' ?_ ?_ ?_ <;> simp
  have z3 : ∀ (x : Num K), (∃ y, x = .fin y) → x * .fin 0 = 0 := by
    rintro _ ⟨y, rfl⟩
    rw [Num.fin_mul, mul_zero]; rfl
  have fac : ∃ y, ((if i.own = .owned then .fin 1 else .fin 0) +
      (if newton3 = true then (if Ownership.dummy = Ownership.owned then .fin 1 else .fin 0) else .fin 0) : Num K) = .fin y := by
    cases newton3 <;> by_cases h1 : i.own = .owned <;> simp [h1]
  rw [z, z2 _ _ fac, z3 _ fac]

/-- A lane inside of it. -/
theorem avxLane_on (h : SetUp c par) (hs : par.Symmetric) (newton3 : Bool) {i q : Mol K} (hi : i.own ≠ .dummy)
    (hd : Interact c.cutoffSquared i q → i.pos ≠ q.pos) :
    let r := avxLane c newton3 i true true q
    (r.cutoffDummyMask = true ↔ Interact c.cutoffSquared i q) ∧ r.f = (ljForceOn par c.cutoffSquared i q).fin ∧
    (⟨r.virial, r.upot⟩ : LJGlobals K) = ljShare par c.cutoffSquared i q + if newton3 then ljShare par c.cutoffSquared q i else 0 := by
  intro r
  have e1 : r.cutoffDummyMask = true ↔ Interact c.cutoffSquared i q := by
    simp only [r, avxLane, if_true, prod_normSq, Bool.and_eq_true, decide_eq_true_eq]
    exact ⟨fun h' => ⟨hi, h'.2, h'.1⟩, fun h' => ⟨h'.2.2, h'.2.1⟩⟩
  refine ⟨e1, ?_⟩
  have share := energyFactor_share (c := c) hs newton3 i q
  unfold ljEnergyFactor at share
  have fac : ∃ y, ((if i.own = .owned then .fin 1 else .fin 0) +
      (if newton3 = true then (if q.own = Ownership.owned then .fin 1 else .fin 0) else .fin 0) : Num K) = .fin y := by
    cases newton3 <;> by_cases h1 : i.own = .owned <;> by_cases h2 : q.own = .owned <;> simp [h1, h2]
  have v : r.virial = (r.f * (i.pos - q.pos).fin).scale ((if i.own = .owned then .fin 1 else .fin 0) +
      (if newton3 = true then (if q.own = Ownership.owned then .fin 1 else .fin 0) else .fin 0)) := by
    simp only [r, avxLane, if_true]
  have fu : r.f = (ljForceOn par c.cutoffSquared i q).fin ∧ r.upot = ((if i.own = .owned then .fin 1 else .fin 0) +
        (if newton3 = true then (if q.own = Ownership.owned then .fin 1 else .fin 0) else .fin 0)) * .fin (6 * ljEnergyOf par c.cutoffSquared i q) := by
    by_cases hI : Interact c.cutoffSquared i q
    · obtain ⟨l1, l2⟩ := avx_lane h hI (hd hI)
      have m : (decide (normSq (i.pos - q.pos) ≤ c.cutoffSquared) && decide (q.own ≠ .dummy)) = true := by
        rw [decide_eq_true hI.2.2, decide_eq_true hI.2.1]; rfl
      constructor
      · simp only [r, avxLane, if_true, prod_normSq, m, Bool.and_true]
        exact l1
      · simp only [r, avxLane, if_true, prod_normSq, m, Bool.and_true]
        rw [← l2]; rfl
    · have m : (decide (normSq (i.pos - q.pos) ≤ c.cutoffSquared) && decide (q.own ≠ .dummy)) = false := by
        rw [← Bool.not_eq_true, Bool.and_eq_true, decide_eq_true_eq, decide_eq_true_eq]
        exact fun h' => hI ⟨hi, h'.2, h'.1⟩
      unfold ljForceOn ljEnergyOf
      rw [if_neg hI, if_neg hI, mul_zero]
      constructor
      · simp only [r, avxLane, if_true, prod_normSq, m, Bool.and_true, Bool.false_eq_true, if_false]
        refine V3.ext' ?_ ?_ ?_ <;> simp
      · simp only [r, avxLane, if_true, prod_normSq, m, Bool.and_true, Bool.false_eq_true, if_false]
  refine ⟨fu.1, ?_⟩
  rw [v, fu.2, fu.1, ← share]
  obtain ⟨y, hy⟩ := fac
  rw [hy]
  unfold ljVirialOf
  refine LJGlobals.ext' ?_ ?_
  · refine V3.ext' ?_ ?_ ?_ <;> simp [mul_comm]
  · simp [mul_comm]

/-- The forces and accumulators `t` are those of `s` and what the first particle and those of `js` add. -/
structure AvxAdds (par : LJParams K) (rc2 : K) (newton3 : Bool) (i : Mol K) (mol : Nat → Mol K) (js : List Nat) (s t : ForceArr K × AvxAcc K) : Prop where
  force : t.1 = s.1 + (js.map fun k => if newton3 then (Pi.single k (ljForceOn par rc2 (mol k) i).fin : Nat → V3 (Num K)) else 0).sum
  acc : avxHSumV t.2.acc = avxHSumV s.2.acc + (js.map fun k => (ljForceOn par rc2 i (mol k)).fin).sum
  sums : (⟨avxHSumV t.2.virial, avxHSum t.2.upot⟩ : LJGlobals K) = ⟨avxHSumV s.2.virial, avxHSum s.2.upot⟩ +
    (js.map fun k => ljShare par rc2 i (mol k) + if newton3 then ljShare par rc2 (mol k) i else 0).sum

theorem AvxAdds.nil {rc2 : K} {newton3 : Bool} {i : Mol K} {mol : Nat → Mol K} (s : ForceArr K × AvxAcc K) : AvxAdds par rc2 newton3 i mol [] s s :=
  ⟨by simp, by simp, by simp⟩

theorem AvxAdds.trans {rc2 : K} {newton3 : Bool} {i : Mol K} {mol : Nat → Mol K} {l₁ l₂ : List Nat} {s t u : ForceArr K × AvxAcc K}
    (h₁ : AvxAdds par rc2 newton3 i mol l₁ s t) (h₂ : AvxAdds par rc2 newton3 i mol l₂ t u) : AvxAdds par rc2 newton3 i mol (l₁ ++ l₂) s u := by
  refine ⟨?_, ?_, ?_⟩
  · rw [h₂.force, h₁.force, List.map_append, List.sum_append, add_assoc]
  · rw [h₂.acc, h₁.acc, List.map_append, List.sum_append, add_assoc]
  · rw [h₂.sums, h₁.sums, List.map_append, List.sum_append, add_assoc]

theorem avxKernel_eq (h : SetUp c par) (hs : par.Symmetric) (newton3 : Bool) {rest : Option Nat} (hr : ∀ r, rest = some r → 1 ≤ r ∧ r ≤ 3)
    {i : Mol K} (hi : i.own ≠ .dummy) {n : Nat} {mol : Nat → Mol K} {j : Nat} (hj : j + avxLanes rest ≤ n)
    (hd : ∀ k ∈ List.range' j (avxLanes rest), Interact c.cutoffSquared i (mol k) → i.pos ≠ (mol k).pos) (s : ForceArr K × AvxAcc K) :
    ∃ t, avxKernel c newton3 rest i n mol j s = some t ∧
      AvxAdds par c.cutoffSquared newton3 i mol (List.range' j (avxLanes rest)) s t := by
  have hm : avxLanes rest ≤ 4 := by
    cases rest with
    | none => exact le_rfl
    | some r => have := hr r rfl; simp only [avxLanes, Option.getD_some]; omega
  unfold avxKernel
  rw [avxMask_eq hr]
  simp only [avxReadsType_eq hr]
  generalize hm' : avxLanes rest = m at *
  rw [if_pos (by
    intro l hl
    have : l.val < m := by
      rcases hl with hl | hl
      · exact of_decide_eq_true hl
      · exact of_decide_eq_true hl.2
    omega)]
  have on : ∀ l : Fin 4, l.val < m → _ := fun l hl => avxLane_on h hs newton3 hi (hd (j + l.val) (by rw [List.mem_range'_1]; omega))
  have off : ∀ l : Fin 4, ¬ l.val < m → avxLane c newton3 i (decide (l.val < m)) (decide (l.val < m)) (mol (j + l.val)) = ⟨false, 0, 0, 0⟩ := by
    intro l hl
    rw [decide_eq_false hl]
    exact avxLane_off _ _ _ _
  have on' : ∀ l : Fin 4, l.val < m → avxLane c newton3 i (decide (l.val < m)) (decide (l.val < m)) (mol (j + l.val)) =
      avxLane c newton3 i true true (mol (j + l.val)) := by
    intro l hl
    rw [decide_eq_true hl]
  have hF : ∀ l : Fin 4, (avxLane c newton3 i (decide (l.val < m)) (decide (l.val < m)) (mol (j + l.val))).f =
      if l.val < m then (ljForceOn par c.cutoffSquared i (mol (j + l.val))).fin else 0 := by
    intro l
    by_cases hl : l.val < m
    · rw [if_pos hl, on' l hl, (on l hl).2.1]
    · rw [if_neg hl, off l hl]
  have hG : ∀ l : Fin 4, (⟨(avxLane c newton3 i (decide (l.val < m)) (decide (l.val < m)) (mol (j + l.val))).virial,
      (avxLane c newton3 i (decide (l.val < m)) (decide (l.val < m)) (mol (j + l.val))).upot⟩ : LJGlobals K) =
      if l.val < m then ljShare par c.cutoffSquared i (mol (j + l.val)) + (if newton3 then ljShare par c.cutoffSquared (mol (j + l.val)) i else 0)
        else 0 := by
    intro l
    by_cases hl : l.val < m
    · rw [if_pos hl, on' l hl, (on l hl).2.2]
    · rw [if_neg hl, off l hl]; rfl
  by_cases hall : ∀ l : Fin 4, (avxLane c newton3 i (decide (l.val < m)) (decide (l.val < m)) (mol (j + l.val))).cutoffDummyMask = false
  · rw [if_pos hall]
    have no : ∀ k ∈ List.range' j m, ¬ Interact c.cutoffSquared i (mol k) := by
      intro k hk hI
      rw [List.mem_range'_1] at hk
      have e : j + (k - j) = k := by omega
      have h1 := hall ⟨k - j, by omega⟩
      have h2 := (on ⟨k - j, by omega⟩ (show k - j < m by omega)).1
      rw [on' ⟨k - j, by omega⟩ (show k - j < m by omega)] at h1
      simp only [e] at h1 h2
      rw [h2.2 hI] at h1
      cases h1
    refine ⟨s, rfl, ?_, ?_, ?_⟩
    · rw [List.sum_eq_zero, add_zero]
      intro x hx
      obtain ⟨k, hk, rfl⟩ := List.mem_map.1 hx
      cases newton3
      · rfl
      · simp only [if_true]
        unfold ljForceOn
        rw [if_neg (fun h' => no k hk (interact_comm.1 h')), V3.fin_zero, Pi.single_zero]
    · rw [List.sum_eq_zero, add_zero]
      intro x hx
      obtain ⟨k, hk, rfl⟩ := List.mem_map.1 hx
      unfold ljForceOn
      rw [if_neg (no k hk), V3.fin_zero]
    · rw [List.sum_eq_zero, add_zero]
      intro x hx
      obtain ⟨k, hk, rfl⟩ := List.mem_map.1 hx
      rw [ljShare_zero (no k hk), ljShare_zero (fun h' => no k hk (interact_comm.1 h'))]
      simp
  · rw [if_neg hall]
    refine ⟨_, rfl, ?_, ?_, ?_⟩
    · dsimp only
      cases newton3
      · simp
      · simp only [if_true]
        funext k
        rw [Pi.add_apply, sum_single_apply List.nodup_range']
        unfold avxSubForces
        by_cases hk : j ≤ k ∧ k < j + 4
        · rw [dif_pos hk]
          have hf := hF ⟨k - j, by omega⟩
          simp only [show j + (k - j) = k by omega] at hf ⊢
          rw [hf]
          by_cases hkm : k - j < m
          · rw [if_pos (decide_eq_true hkm), if_pos hkm, if_pos (by rw [List.mem_range'_1]; omega), forceOn_swap hs _ i (mol k), V3.fin_neg]
            rfl
          · rw [if_neg (by rw [decide_eq_false hkm]; decide), if_neg (by rw [List.mem_range'_1]; omega), add_zero]
        · rw [dif_neg hk, if_neg (by rw [List.mem_range'_1]; omega), add_zero]
    · dsimp only
      rw [hsumV_add]
      congr 1
      exact lanes_sum (fun k => (ljForceOn par c.cutoffSquared i (mol k)).fin) j hm _ hF
    · have e := lanes_sum (fun k => ljShare par c.cutoffSquared i (mol k) + (if newton3 then ljShare par c.cutoffSquared (mol k) i else 0)) j hm
        (fun l => (⟨(avxLane c newton3 i (decide (l.val < m)) (decide (l.val < m)) (mol (j + l.val))).virial,
      (avxLane c newton3 i (decide (l.val < m)) (decide (l.val < m)) (mol (j + l.val))).upot⟩ : LJGlobals K)) hG
      rw [← e]
      dsimp only
      rw [hsumV_add, hsum_add, add_comm (avxHSumV _), add_comm (avxHSum _)]
      rfl

theorem avxRest_eq (n : Nat) : avxRest n = n % 4 := Nat.and_two_pow_sub_one_eq_mod n 2

theorem avxStarts_eq (n : Nat) : avxStarts n = List.range' 0 (n / 4) 4 := by
  unfold avxStarts
  rw [avxRest_eq]
  congr 1
  omega

theorem avxBlocks_eq (h : SetUp c par) (hs : par.Symmetric) (newton3 : Bool) {i : Mol K} (hi : i.own ≠ .dummy) {n : Nat} {mol : Nat → Mol K} (q : Nat) :
    ∀ (j : Nat) (s : ForceArr K × AvxAcc K), j + 4 * q ≤ n →
    (∀ k ∈ List.range' j (4 * q), Interact c.cutoffSquared i (mol k) → i.pos ≠ (mol k).pos) →
    ∃ t, (List.range' j q 4).foldlM (fun s j => avxKernel c newton3 none i n mol j s) s = some t ∧
      AvxAdds par c.cutoffSquared newton3 i mol (List.range' j (4 * q)) s t := by
  induction q with
  | zero => intro j s _ _; exact ⟨s, rfl, .nil s⟩
  | succ q ih =>
    intro j s hj hd
    have e : List.range' j (4 * (q + 1)) = List.range' j 4 ++ List.range' (j + 4) (4 * q) := by
      rw [List.range'_append_1]; congr 1; omega
    rw [e] at hd ⊢
    obtain ⟨t, ht, h1⟩ := avxKernel_eq h hs newton3 (rest := none) (by simp) hi (mol := mol) (j := j) (n := n)
      (by simp only [avxLanes, Option.getD_none]; omega) (fun k hk => hd k (List.mem_append_left _ hk)) s
    obtain ⟨u, hu, h2⟩ := ih (j + 4) t (by omega) (fun k hk => hd k (List.mem_append_right _ hk))
    refine ⟨u, ?_, h1.trans h2⟩
    rw [List.range'_succ, List.foldlM_cons, ht]
    exact hu

theorem avxInner_eq (h : SetUp c par) (hs : par.Symmetric) (newton3 : Bool) {i : Mol K} (hi : i.own ≠ .dummy) {n : Nat} {mol : Nat → Mol K} {m : Nat}
    (hm : m ≤ n) (hd : ∀ k, k < m → Interact c.cutoffSquared i (mol k) → i.pos ≠ (mol k).pos) (s : ForceArr K × AvxAcc K) :
    ∃ t, avxInner c newton3 i n mol m s = some t ∧ AvxAdds par c.cutoffSquared newton3 i mol (List.range m) s t := by
  unfold avxInner
  obtain ⟨t, ht, h1⟩ := avxBlocks_eq h hs newton3 hi (mol := mol) (n := n) (m / 4) 0 s (by omega) (fun k hk => hd k (by
    rw [List.mem_range'_1] at hk; omega))
  rw [avxStarts_eq, ht]
  simp only [Option.bind_eq_bind, Option.bind_some, avxRest_eq]
  by_cases hr : 0 < m % 4
  · rw [if_pos hr]
    obtain ⟨u, hu, h2⟩ := avxKernel_eq h hs newton3 (rest := some (m % 4)) (by intro r hr'; cases hr'; omega) hi (mol := mol) (j := m - m % 4) (n := n)
      (by simp only [avxLanes, Option.getD_some]; omega) (fun k hk => hd k (by
        simp only [avxLanes, Option.getD_some] at hk
        rw [List.mem_range'_1] at hk; omega)) t
    refine ⟨u, hu, ?_⟩
    have := h1.trans h2
    simp only [avxLanes, Option.getD_some] at this
    have e : List.range m = List.range' 0 (4 * (m / 4)) ++ List.range' (m - m % 4) (m % 4) := by
      rw [show m - m % 4 = 0 + 4 * (m / 4) by omega, List.range'_append_1, List.range_eq_range']
      congr 1; omega
    rw [e]
    exact this
  · rw [if_neg hr]
    refine ⟨t, rfl, ?_⟩
    have e : 4 * (m / 4) = m := by omega
    rw [e] at h1
    rw [List.range_eq_range']
    exact h1

/-- Both directions of every pair with a second particle before the first. -/
def avxBothWays (is : List Nat) : List (Nat × Nat) := is.flatMap fun i => bothWays i (List.range i)

theorem avxSingleOuter_eq (h : SetUp c par) (hs : par.Symmetric) {mol : Nat → Mol K} {n i : Nat} (hi : i < n) (s : ForceArr K × AvxAcc K)
    (hd : ∀ j, j < i → Interact c.cutoffSquared (mol i) (mol j) → (mol i).pos ≠ (mol j).pos) :
    ∃ t, avxSingleOuter c mol n s i = some t ∧ (⟨t.1, ⟨avxHSumV t.2.virial, avxHSum t.2.upot⟩⟩ : LJState Nat K) =
      ⟨s.1, ⟨avxHSumV s.2.virial, avxHSum s.2.upot⟩⟩ + ((bothWays i (List.range i)).map (ljEvent par c.cutoffSquared mol)).sum := by
  unfold avxSingleOuter
  by_cases hdum : (mol i).own = .dummy
  · rw [if_pos hdum]
    refine ⟨s, rfl, ?_⟩
    rw [List.sum_eq_zero, add_zero]
    intro x hx
    obtain ⟨t, ht, rfl⟩ := List.mem_map.1 hx
    unfold bothWays at ht
    obtain ⟨j, -, ht⟩ := List.mem_flatMap.1 ht
    simp only [List.mem_cons, List.not_mem_nil, or_false] at ht
    rcases ht with rfl | rfl
    · exact ljEvent_zero (fun h' => h'.1 hdum)
    · exact ljEvent_zero (fun h' => h'.2.1 hdum)
  · rw [if_neg hdum]
    obtain ⟨r, hr, h1⟩ := avxInner_eq h hs true hdum (mol := mol) (n := n) (m := i) (by omega) hd (s.1, { s.2 with acc := fun _ => 0 })
    rw [hr]
    refine ⟨_, rfl, ?_⟩
    rw [pairEvents_sum]
    have z : avxHSumV (fun _ => 0 : Reg (V3 (Num K))) = 0 := by rw [hsumV_eq]; simp
    have hf := h1.force
    have ha := h1.acc
    have hg := h1.sums
    simp only [if_true, z, zero_add] at hf ha hg
    refine LJState.ext' ?_ ?_
    · simp only [LJState.add_force]
      rw [update_add, hf, ha, add_assoc]
    · simp only [LJState.add_globals]
      exact hg

theorem avxSingle_fold (h : SetUp c par) (hs : par.Symmetric) {mol : Nat → Mol K} {n : Nat} (is : List Nat) :
    ∀ s : ForceArr K × AvxAcc K, (∀ i ∈ is, i < n ∧ ∀ j, j < i → Interact c.cutoffSquared (mol i) (mol j) → (mol i).pos ≠ (mol j).pos) →
    ∃ t, is.foldlM (avxSingleOuter c mol n) s = some t ∧ (⟨t.1, ⟨avxHSumV t.2.virial, avxHSum t.2.upot⟩⟩ : LJState Nat K) =
      ⟨s.1, ⟨avxHSumV s.2.virial, avxHSum s.2.upot⟩⟩ + ((avxBothWays is).map (ljEvent par c.cutoffSquared mol)).sum := by
  induction is with
  | nil => intro s _; exact ⟨s, rfl, by simp [avxBothWays]⟩
  | cons i is ih =>
    intro s hd
    obtain ⟨t, ht, h1⟩ := avxSingleOuter_eq h hs (hd i List.mem_cons_self).1 s (hd i List.mem_cons_self).2
    obtain ⟨u, hu, h2⟩ := ih t (fun x hx => hd x (List.mem_cons_of_mem _ hx))
    refine ⟨u, ?_, ?_⟩
    · rw [List.foldlM_cons, ht]; exact hu
    · have e : avxBothWays (i :: is) = bothWays i (List.range i) ++ avxBothWays is := rfl
      rw [h2, h1, e, List.map_append, List.sum_append, add_assoc]

theorem bothWays_sum {M : Type} [AddCommMonoid M] (f : Nat × Nat → M) (i : Nat) (js : List Nat) :
    ((bothWays i js).map f).sum = (js.map fun j => f (i, j) + f (j, i)).sum := by
  unfold bothWays
  rw [sum_flatMap]
  simp [add_assoc]

/-- The pairs `j < i` are the pairs `i < j`. -/
theorem avxBothWays_sum {M : Type} [AddCommMonoid M] (f : Nat × Nat → M) (n : Nat) :
    ((avxBothWays (List.range n).reverse).map f).sum = ((allBothWays n).map f).sum := by
  unfold avxBothWays allBothWays
  simp only [sum_flatMap, bothWays_sum]
  induction n with
  | zero => rfl
  | succ n ih =>
    rw [List.range_succ, List.reverse_append, List.reverse_singleton, List.singleton_append, List.map_cons, List.sum_cons, ih, List.map_append,
      List.sum_append, List.map_singleton, List.sum_singleton, show n + 1 - (n + 1) = 0 by omega, List.range'_zero, List.map_nil, List.sum_nil, add_zero]
    have e : ((List.range n).map fun i => ((List.range' (i + 1) (n + 1 - (i + 1))).map fun j => f (i, j) + f (j, i)).sum) =
        (List.range n).map fun i => (((List.range' (i + 1) (n - (i + 1))).map fun j => f (i, j) + f (j, i)).sum + (f (n, i) + f (i, n))) := by
      refine List.map_congr_left ?_
      intro i hi
      rw [List.mem_range] at hi
      rw [show n + 1 - (i + 1) = (n - (i + 1)) + 1 by omega, List.range'_concat, List.map_append, List.sum_append, List.map_singleton,
        List.sum_singleton, show i + 1 + 1 * (n - (i + 1)) = n by omega, add_comm (f (n, i))]
    rw [e, List.sum_map_add (f := fun i => ((List.range' (i + 1) (n - (i + 1))).map fun j => f (i, j) + f (j, i)).sum)
      (g := fun i => f (n, i) + f (i, n)), add_comm]

/-- `SoAFunctorSingle` of the AVX functor. -/
theorem avxSoASingle_eq (h : SetUp c par) (hs : par.Symmetric) {mol : Nat → Mol K} {n : Nat} (F : ForceArr K) (g : LJGlobals K)
    (hd : ∀ i j, i < n → j < i → Interact c.cutoffSquared (mol i) (mol j) → (mol i).pos ≠ (mol j).pos) :
    ∃ t, avxSoASingle c mol n F g = some t ∧
      (⟨t.1, t.2⟩ : LJState Nat K) = ⟨F, g⟩ + ((allBothWays n).map (ljEvent par c.cutoffSquared mol)).sum := by
  unfold avxSoASingle
  by_cases h0 : n = 0
  · subst h0
    exact ⟨(F, g), rfl, by simp [allBothWays]⟩
  · rw [if_neg h0]
    obtain ⟨t, ht, h1⟩ := avxSingle_fold h hs (mol := mol) (n := n) (List.range n).reverse (F, .zero) (by
      intro i hi
      rw [List.mem_reverse, List.mem_range] at hi
      exact ⟨hi, fun j hj => hd i j hi hj⟩)
    rw [ht]
    refine ⟨_, rfl, ?_⟩
    rw [avxBothWays_sum] at h1
    have e1 := congrArg LJState.force h1
    have e2 := congrArg LJState.globals h1
    simp only [LJState.add_force, LJState.add_globals] at e1 e2
    refine LJState.ext' e1 ?_
    simp only [LJState.add_globals]
    unfold AvxAcc.addTo
    rw [LJGlobals.plus_eq, e2]
    congr 1
    have z : (⟨avxHSumV (AvxAcc.zero : AvxAcc K).virial, avxHSum (AvxAcc.zero : AvxAcc K).upot⟩ : LJGlobals K) = 0 := by
      refine LJGlobals.ext' ?_ ?_
      · simp only [hsumV_eq, AvxAcc.zero, add_zero]; rfl
      · simp only [avxHSum, AvxAcc.zero, add_zero]; rfl
    rw [z, zero_add]

private theorem foldUpdate_eq {M : Type} (h : Nat → M) (l : List Nat) : ∀ (F : Nat → M) (x : Nat),
    l.foldl (fun F k => Function.update F k (h k)) F x = if x ∈ l then h x else F x := by
  induction l with
  | nil => intro F x; simp
  | cons k l ih =>
    intro F x
    rw [List.foldl_cons, ih]
    by_cases hx : x ∈ l
    · rw [if_pos hx, if_pos (List.mem_cons_of_mem _ hx)]
    · rw [if_neg hx]
      by_cases hk : x = k
      · subst hk; simp
      · rw [Function.update_of_ne hk, if_neg (by simp [hk, hx])]

theorem avxVerletBlock_eq (h : SetUp c par) (hs : par.Symmetric) (newton3 : Bool) {rest : Option Nat} (hr : ∀ r, rest = some r → 1 ≤ r ∧ r ≤ 3)
    {i : Mol K} (hi : i.own ≠ .dummy) {n : Nat} {mol : Nat → Mol K} {block : List Nat} (hb : block.Nodup) (hl : block.length = avxLanes rest)
    (hn : ∀ k ∈ block, k < n) (hd : ∀ k ∈ block, Interact c.cutoffSquared i (mol k) → i.pos ≠ (mol k).pos) (s : AvxVerlet K) :
    ∃ t, avxVerletBlock c newton3 rest i mol n s block = some t ∧
      AvxAdds par c.cutoffSquared newton3 i mol block (s.force, s.acc) (t.force, t.acc) := by
  have hm : avxLanes rest ≤ 4 := by
    cases rest with
    | none => exact le_rfl
    | some r => have := hr r rfl; simp only [avxLanes, Option.getD_some]; omega
  unfold avxVerletBlock
  rw [if_pos hn]
  have hmol : ∀ v ∈ List.range' 0 (avxLanes rest), avxFillMols mol block s.molTmp v = mol (block.getD v 0) := by
    intro v hv
    rw [List.mem_range'_1] at hv
    unfold avxFillMols
    rw [List.getElem?_eq_getElem (by omega), List.getD_eq_getElem _ _ (by omega)]
  obtain ⟨r, hr', h1⟩ := avxKernel_eq h hs newton3 hr hi (n := 4) (mol := avxFillMols mol block s.molTmp) (j := 0)
    (by omega) (by
      intro v hv
      simp only [hmol v hv]
      rw [List.mem_range'_1] at hv
      rw [List.getD_eq_getElem _ _ (by omega)]
      exact hd _ (List.getElem_mem _))
    (avxFillForces newton3 s.force block s.forceTmp, s.acc)
  rw [hr']
  refine ⟨_, rfl, ?_⟩
  have eb : block = (List.range' 0 (avxLanes rest)).map fun v => block.getD v 0 := by
    conv_lhs => rw [list_range_getD block 0, hl, List.range_eq_range']
  have hf := h1.force
  have ha := h1.acc
  have hg := h1.sums
  refine ⟨?_, ?_, ?_⟩
  · cases newton3
    · simp
    · simp only [if_true] at hf ⊢
      rw [List.foldl_ext (f := fun (F : ForceArr K) v => Function.update F (block.getD v 0) (r.1 v))
        (g := fun (F : ForceArr K) v => Function.update F (block.getD v 0)
          (s.force (block.getD v 0) + (ljForceOn par c.cutoffSquared (mol (block.getD v 0)) i).fin))]
      · have e : ((List.range block.length).foldl (fun (F : ForceArr K) v => Function.update F (block.getD v 0)
          (s.force (block.getD v 0) + (ljForceOn par c.cutoffSquared (mol (block.getD v 0)) i).fin)) s.force) =
            block.foldl (fun (F : ForceArr K) k => Function.update F k (s.force k + (ljForceOn par c.cutoffSquared (mol k) i).fin)) s.force := by
          conv_rhs => rw [list_range_getD block 0, List.foldl_map]
        rw [e]
        funext x
        rw [foldUpdate_eq, Pi.add_apply, sum_single_apply hb (fun k => (ljForceOn par c.cutoffSquared (mol k) i).fin)]
        by_cases hx : x ∈ block
        · rw [if_pos hx, if_pos hx]
        · rw [if_neg hx, if_neg hx, add_zero]
      · intro F v hv
        rw [List.mem_range] at hv
        congr 1
        rw [hf, Pi.add_apply, sum_single_apply List.nodup_range', if_pos (by rw [List.mem_range'_1]; omega),
          hmol v (by rw [List.mem_range'_1]; omega)]
        congr 1
        simp only [avxFillForces]
        rw [List.getElem?_eq_getElem hv, List.getD_eq_getElem _ _ hv]
        exact if_pos trivial
  · rw [ha]
    conv_rhs => rw [eb, List.map_map]
    congr 2
    refine List.map_congr_left fun v hv => ?_
    simp only [hmol v hv, Function.comp]
  · rw [hg]
    conv_rhs => rw [eb, List.map_map]
    congr 2
    refine List.map_congr_left fun v hv => ?_
    simp only [hmol v hv, Function.comp]

theorem avxVerletBlocks_eq (h : SetUp c par) (hs : par.Symmetric) (newton3 : Bool) {i : Mol K} (hi : i.own ≠ .dummy) {n : Nat} {mol : Nat → Mol K}
    {list : List Nat} (hb : list.Nodup) (hn : ∀ k ∈ list, k < n) (hd : ∀ k ∈ list, Interact c.cutoffSquared i (mol k) → i.pos ≠ (mol k).pos) (q : Nat) :
    ∀ (j : Nat) (s : AvxVerlet K), j + 4 * q ≤ list.length →
    ∃ t, (List.range' j q 4).foldlM (fun s j => avxVerletBlock c newton3 none i mol n s ((list.drop j).take 4)) s = some t ∧
      AvxAdds par c.cutoffSquared newton3 i mol ((list.drop j).take (4 * q)) (s.force, s.acc) (t.force, t.acc) := by
  induction q with
  | zero => intro j s _; exact ⟨s, rfl, by simpa using AvxAdds.nil _⟩
  | succ q ih =>
    intro j s hj
    have sub : ∀ k ∈ (list.drop j).take 4, k ∈ list := fun k hk => List.mem_of_mem_drop (List.mem_of_mem_take hk)
    obtain ⟨t, ht, h1⟩ := avxVerletBlock_eq h hs newton3 (rest := none) (by simp) hi (n := n) (mol := mol) (block := (list.drop j).take 4)
      ((hb.sublist (List.drop_sublist _ _)).sublist (List.take_sublist _ _))
      (by simp only [avxLanes, Option.getD_none, List.length_take, List.length_drop]; omega) (fun k hk => hn k (sub k hk)) (fun k hk => hd k (sub k hk)) s
    obtain ⟨u, hu, h2⟩ := ih (j + 4) t (by omega)
    refine ⟨u, ?_, ?_⟩
    · rw [List.range'_succ, List.foldlM_cons, ht]; exact hu
    · have := h1.trans h2
      have e : (list.drop j).take (4 * (q + 1)) = (list.drop j).take 4 ++ (list.drop (j + 4)).take (4 * q) := by
        rw [show 4 * (q + 1) = 4 + 4 * q by omega, List.take_add, List.drop_drop]
      rw [e]
      exact this

theorem listEvents_sum (newton3 : Bool) (mol : Nat → Mol K) (first : Nat) (list : List Nat) :
    ((contributions (list.map fun j => (⟨first, j, newton3⟩ : PairCall Nat))).map (ljEvent par c.cutoffSquared mol)).sum =
      ⟨(list.map fun j => if newton3 then (Pi.single j (ljForceOn par c.cutoffSquared (mol j) (mol first)).fin : Nat → V3 (Num K)) else 0).sum +
        Pi.single first (list.map fun j => (ljForceOn par c.cutoffSquared (mol first) (mol j)).fin).sum,
      (list.map fun j => ljShare par c.cutoffSquared (mol first) (mol j) +
        if newton3 then ljShare par c.cutoffSquared (mol j) (mol first) else 0).sum⟩ := by
  induction list with
  | nil => simp [contributions]; rfl
  | cons j list ih =>
    rw [List.map_cons, contributions_cons, List.map_append, List.sum_append, ih]
    refine LJState.ext' ?_ ?_
    · cases newton3
      · simp only [contributions, ljEvent, List.flatMap_cons, List.flatMap_nil, List.map_cons, List.map_nil, List.sum_cons, List.sum_nil,
          Bool.false_eq_true, if_false, add_zero, List.append_nil, LJState.add_force, Pi.single_add]
        abel
      · simp only [contributions, ljEvent, List.flatMap_cons, List.flatMap_nil, List.map_cons, List.map_nil, List.sum_cons, List.sum_nil,
          if_true, add_zero, List.append_nil, LJState.add_force, Pi.single_add]
        abel
    · cases newton3 <;>
        simp [contributions, ljEvent, add_assoc]

theorem avxZero_sums : (⟨avxHSumV (AvxAcc.zero : AvxAcc K).virial, avxHSum (AvxAcc.zero : AvxAcc K).upot⟩ : LJGlobals K) = 0 := by
  refine LJGlobals.ext' ?_ ?_
  · simp only [hsumV_eq, AvxAcc.zero, add_zero]; rfl
  · simp only [avxHSum, AvxAcc.zero, add_zero]; rfl

theorem avxZero_acc : avxHSumV (AvxAcc.zero : AvxAcc K).acc = 0 := by
  simp only [hsumV_eq, AvxAcc.zero, add_zero]

/-- `SoAFunctorVerlet` of the AVX functor. -/
theorem avxSoAVerlet_eq (h : SetUp c par) (hs : par.Symmetric) (newton3 : Bool) {mol : Nat → Mol K} {n first : Nat}
    (hn : first < n) {list : List Nat} (hb : list.Nodup) (hl : ∀ k ∈ list, k < n) (F : ForceArr K) (g : LJGlobals K)
    (hd : ∀ j ∈ list, Interact c.cutoffSquared (mol first) (mol j) → (mol first).pos ≠ (mol j).pos) :
    ∃ t, avxSoAVerlet c newton3 mol n first list F g = some t ∧ (⟨t.1, t.2⟩ : LJState Nat K) =
      ⟨F, g⟩ + ((contributions (list.map fun j => (⟨first, j, newton3⟩ : PairCall Nat))).map (ljEvent par c.cutoffSquared mol)).sum := by
  rw [listEvents_sum]
  unfold avxSoAVerlet
  by_cases h0 : n = 0 ∨ list = []
  · rcases h0 with h0 | h0
    · omega
    · subst h0
      rw [if_pos (.inr rfl)]
      refine ⟨_, rfl, ?_⟩
      simp only [List.map_nil, List.sum_nil, Pi.single_zero, add_zero]
      exact (add_zero _).symm
  · rw [if_neg h0]
    by_cases hi : (mol first).own = .dummy
    · rw [if_pos hi]
      refine ⟨_, rfl, ?_⟩
      have z1 : ∀ j, ljForceOn par c.cutoffSquared (mol first) (mol j) = 0 := fun j => if_neg (fun h' => h'.1 hi)
      have z2 : ∀ j, ljForceOn par c.cutoffSquared (mol j) (mol first) = 0 := fun j => if_neg (fun h' => h'.2.1 hi)
      have z3 : ∀ j, ljShare par c.cutoffSquared (mol first) (mol j) = 0 := fun j => ljShare_zero (fun h' => h'.1 hi)
      have z4 : ∀ j, ljShare par c.cutoffSquared (mol j) (mol first) = 0 := fun j => ljShare_zero (fun h' => h'.2.1 hi)
      simp only [z1, z2, z3, z4, V3.fin_zero]
      refine LJState.ext' ?_ ?_ <;> simp
    · rw [if_neg hi]
      obtain ⟨t, ht, h1⟩ := avxVerletBlocks_eq h hs newton3 hi (n := n) (mol := mol) hb hl hd (list.length / 4) 0
        ⟨F, fun _ => ⟨0, 0, .dummy⟩, fun _ => 0, .zero⟩ (by omega)
      have whole : ∃ u, (if 0 < avxRest list.length then
          avxVerletBlock c newton3 (some (avxRest list.length)) (mol first) mol n t (list.drop (list.length - avxRest list.length))
          else some t) = some u ∧ AvxAdds par c.cutoffSquared newton3 (mol first) mol list (F, .zero) (u.force, u.acc) := by
        rw [avxRest_eq]
        rw [List.drop_zero] at h1
        by_cases hr : 0 < list.length % 4
        · rw [if_pos hr]
          have sub : ∀ k ∈ list.drop (list.length - list.length % 4), k ∈ list := fun k hk => List.mem_of_mem_drop hk
          obtain ⟨u, hu, h2⟩ := avxVerletBlock_eq h hs newton3 (rest := some (list.length % 4)) (by intro r hr'; cases hr'; omega) hi (n := n)
            (mol := mol) (block := list.drop (list.length - list.length % 4)) (hb.sublist (List.drop_sublist _ _))
            (by simp only [avxLanes, Option.getD_some, List.length_drop]; omega) (fun k hk => hl k (sub k hk)) (fun k hk => hd k (sub k hk)) t
          refine ⟨u, hu, ?_⟩
          have := h1.trans h2
          rw [show list.length - list.length % 4 = 4 * (list.length / 4) by omega] at this
          rw [List.take_append_drop] at this
          exact this
        · rw [if_neg hr]
          refine ⟨t, rfl, ?_⟩
          rw [List.take_of_length_le (by omega)] at h1
          exact h1
      obtain ⟨u, hu, h2⟩ := whole
      have loops : avxVerletLoops c newton3 mol n first list F = some u := by
        unfold avxVerletLoops
        rw [avxStarts_eq, ht]
        exact hu
      rw [loops]
      refine ⟨_, rfl, ?_⟩
      have hf := h2.force
      have ha := h2.acc
      have hg := h2.sums
      simp only [avxZero_sums, avxZero_acc, zero_add] at hf ha hg
      refine LJState.ext' ?_ ?_
      · simp only [LJState.add_force]
        rw [update_add, hf, ha, add_assoc]
      · simp only [LJState.add_globals]
        unfold AvxAcc.addTo
        rw [LJGlobals.plus_eq, hg]

end
end Verif
