import Verif.Spec.LennardJones
import Verif.Spec.Forces
import Verif.Lemmas.Num
import Mathlib.Tactic.Ring
import Mathlib.Tactic.Linarith
import Mathlib.Tactic.FieldSimp
import Mathlib.Algebra.Group.Pi.Lemmas
/-! The kernels of the Lennard-Jones functor as additions. -/
namespace Verif
open Spec

section
variable {K : Type} [Field K] [LinearOrder K] [IsStrictOrderedRing K]

instance : Add (LJGlobals K) := ⟨fun a b => ⟨a.virialSum + b.virialSum, a.potentialEnergySum + b.potentialEnergySum⟩⟩
instance : Zero (LJGlobals K) := ⟨.zero⟩

omit [IsStrictOrderedRing K] in
theorem LJGlobals.ext' {a b : LJGlobals K} (h1 : a.virialSum = b.virialSum) (h2 : a.potentialEnergySum = b.potentialEnergySum) : a = b := by
  cases a; cases b; simp only at h1 h2; subst h1 h2; rfl

instance : AddCommMonoid (LJGlobals K) where
  add_assoc _ _ _ := LJGlobals.ext' (add_assoc _ _ _) (add_assoc _ _ _)
  zero_add _ := LJGlobals.ext' (zero_add _) (zero_add _)
  add_zero _ := LJGlobals.ext' (add_zero _) (add_zero _)
  add_comm _ _ := LJGlobals.ext' (add_comm _ _) (add_comm _ _)
  nsmul := nsmulRec

omit [IsStrictOrderedRing K] in
theorem LJGlobals.plus_eq (g : LJGlobals K) (v : V3 (Num K)) (u : Num K) : g.plus v u = g + ⟨v, u⟩ := rfl

omit [IsStrictOrderedRing K] in
theorem LJGlobals.zero_eq : (LJGlobals.zero : LJGlobals K) = 0 := rfl

variable {P : Type}

instance : Add (LJState P K) := ⟨fun a b => ⟨a.force + b.force, a.globals + b.globals⟩⟩
instance : Zero (LJState P K) := ⟨⟨0, 0⟩⟩

omit [IsStrictOrderedRing K] in
theorem LJState.ext' {a b : LJState P K} (h1 : a.force = b.force) (h2 : a.globals = b.globals) : a = b := by
  cases a; cases b; simp only at h1 h2; subst h1 h2; rfl

instance : AddCommMonoid (LJState P K) where
  add_assoc _ _ _ := LJState.ext' (add_assoc _ _ _) (add_assoc _ _ _)
  zero_add _ := LJState.ext' (zero_add _) (zero_add _)
  add_zero _ := LJState.ext' (add_zero _) (add_zero _)
  add_comm _ _ := LJState.ext' (add_comm _ _) (add_comm _ _)
  nsmul := nsmulRec

omit [IsStrictOrderedRing K] in
@[simp] theorem LJState.add_force (a b : LJState P K) : (a + b).force = a.force + b.force := rfl
omit [IsStrictOrderedRing K] in
@[simp] theorem LJState.add_globals (a b : LJState P K) : (a + b).globals = a.globals + b.globals := rfl
omit [IsStrictOrderedRing K] in
@[simp] theorem LJState.zero_force : (0 : LJState P K).force = 0 := rfl
omit [IsStrictOrderedRing K] in
@[simp] theorem LJState.zero_globals : (0 : LJState P K).globals = 0 := rfl

/-- `F[j] += x` -/
theorem update_add {M : Type} [AddCommMonoid M] [DecidableEq P] (F : P → M) (j : P) (x : M) :
    Function.update F j (F j + x) = F + Pi.single j x := by
  funext k
  by_cases h : k = j
  · subst h; simp
  · simp [h]

omit [IsStrictOrderedRing K] in
theorem inner_normSq (d : V3 K) : d.inner d = normSq d := by unfold V3.inner normSq; ring

omit [IsStrictOrderedRing K] in
theorem prod_normSq (d : V3 K) : d.x * d.x + d.y * d.y + d.z * d.z = normSq d := by unfold normSq; ring

theorem normSq_nonneg (d : V3 K) : 0 ≤ normSq d := by unfold normSq; positivity

theorem normSq_eq_zero {a b : V3 K} (h : normSq (a - b) = 0) : a = b := by
  unfold normSq at h
  simp only [V3.sub_x, V3.sub_y, V3.sub_z] at h
  have hx := sq_nonneg (a.x - b.x)
  have hy := sq_nonneg (a.y - b.y)
  have hz := sq_nonneg (a.z - b.z)
  refine V3.ext' ?_ ?_ ?_
  · exact sub_eq_zero.1 (pow_eq_zero_iff (two_ne_zero) |>.1 (le_antisymm (by linarith) hx))
  · exact sub_eq_zero.1 (pow_eq_zero_iff (two_ne_zero) |>.1 (le_antisymm (by linarith) hy))
  · exact sub_eq_zero.1 (pow_eq_zero_iff (two_ne_zero) |>.1 (le_antisymm (by linarith) hz))

omit [IsStrictOrderedRing K] in
theorem normSq_comm (a b : V3 K) : normSq (a - b) = normSq (b - a) := by
  unfold normSq
  simp only [V3.sub_x, V3.sub_y, V3.sub_z]
  ring

variable {c : LJCfg K} {par : LJParams K}

omit [IsStrictOrderedRing K] in
theorem interact_comm {rc2 : K} {i j : Mol K} : Interact rc2 i j ↔ Interact rc2 j i := by
  unfold Interact; rw [normSq_comm]; tauto

omit [IsStrictOrderedRing K] in
theorem forceOn_swap (hs : par.Symmetric) (rc2 : K) (i j : Mol K) : ljForceOn par rc2 j i = -ljForceOn par rc2 i j := by
  unfold ljForceOn
  by_cases h : Interact rc2 i j
  · rw [if_pos h, if_pos (interact_comm.1 h), hs.epsilon, hs.sigma]
    unfold ljF
    rw [normSq_comm]
    refine V3.ext' ?_ ?_ ?_ <;> simp only [V3.scale_x, V3.scale_y, V3.scale_z, V3.neg_x, V3.neg_y, V3.neg_z, V3.sub_x, V3.sub_y, V3.sub_z] <;> ring
  · rw [if_neg h, if_neg (fun h' => h (interact_comm.1 h'))]
    refine V3.ext' ?_ ?_ ?_ <;> simp

omit [IsStrictOrderedRing K] in
theorem energyOf_swap (hs : par.Symmetric) (rc2 : K) (i j : Mol K) : ljEnergyOf par rc2 j i = ljEnergyOf par rc2 i j := by
  unfold ljEnergyOf
  rw [normSq_comm, hs.epsilon, hs.sigma, hs.shift]
  exact if_congr interact_comm rfl rfl

omit [IsStrictOrderedRing K] in
theorem virialOf_swap (hs : par.Symmetric) (rc2 : K) (i j : Mol K) : ljVirialOf par rc2 j i = ljVirialOf par rc2 i j := by
  unfold ljVirialOf
  rw [forceOn_swap hs]
  refine V3.ext' ?_ ?_ ?_ <;> simp only [V3.mul_x, V3.mul_y, V3.mul_z, V3.neg_x, V3.neg_y, V3.neg_z, V3.sub_x, V3.sub_y, V3.sub_z] <;> ring

/-- The AoS kernel computes the textbook formulas. -/
theorem kernelAoS_eq (h : SetUp c par) {rc2 : K} {i j : Mol K} (hi : Interact rc2 i j) (hd : i.pos ≠ j.pos) :
    ljKernelAoS c i j = ((ljForceOn par rc2 i j).fin, (ljVirialOf par rc2 i j).fin, .fin (6 * ljEnergyOf par rc2 i j)) := by
  have h0 : normSq (i.pos - j.pos) ≠ 0 := fun h' => hd (normSq_eq_zero h')
  unfold ljKernelAoS ljVirialOf ljForceOn ljEnergyOf
  simp only [if_pos hi, inner_normSq, Num.fin_div h0, Num.fin_mul, Num.fin_sub, Num.fin_add, h.epsilon, h.sigma, h.shift]
  have key : 24 * par.epsilon i.type j.type *
      (par.sigma i.type j.type ^ 2 * (1 / normSq (i.pos - j.pos)) * (par.sigma i.type j.type ^ 2 * (1 / normSq (i.pos - j.pos))) *
        (par.sigma i.type j.type ^ 2 * (1 / normSq (i.pos - j.pos))) *
        (par.sigma i.type j.type ^ 2 * (1 / normSq (i.pos - j.pos)) * (par.sigma i.type j.type ^ 2 * (1 / normSq (i.pos - j.pos))) *
        (par.sigma i.type j.type ^ 2 * (1 / normSq (i.pos - j.pos)))) +
        (par.sigma i.type j.type ^ 2 * (1 / normSq (i.pos - j.pos)) * (par.sigma i.type j.type ^ 2 * (1 / normSq (i.pos - j.pos))) *
        (par.sigma i.type j.type ^ 2 * (1 / normSq (i.pos - j.pos))) *
        (par.sigma i.type j.type ^ 2 * (1 / normSq (i.pos - j.pos)) * (par.sigma i.type j.type ^ 2 * (1 / normSq (i.pos - j.pos))) *
        (par.sigma i.type j.type ^ 2 * (1 / normSq (i.pos - j.pos)))) -
        par.sigma i.type j.type ^ 2 * (1 / normSq (i.pos - j.pos)) * (par.sigma i.type j.type ^ 2 * (1 / normSq (i.pos - j.pos))) *
        (par.sigma i.type j.type ^ 2 * (1 / normSq (i.pos - j.pos))))) * (1 / normSq (i.pos - j.pos)) =
      24 * par.epsilon i.type j.type * (2 * (par.sigma i.type j.type ^ 2 / normSq (i.pos - j.pos)) ^ 6 -
        (par.sigma i.type j.type ^ 2 / normSq (i.pos - j.pos)) ^ 3) / normSq (i.pos - j.pos) := by ring
  rw [key]
  refine Prod.ext ?_ (Prod.ext ?_ ?_)
  · rfl
  · rfl
  · unfold ljU
    simp only [Num.fin.injEq]
    ring

/-- The SoA kernels compute the textbook formulas if the first particle exists and the two do not coincide. -/
theorem kernelSoA_eq (h : SetUp c par) {i j : Mol K} (hi : i.own ≠ .dummy) (hd : i.pos ≠ j.pos) :
    ljKernelSoA c i j = ((ljForceOn par c.cutoffSquared i j).fin, (ljVirialOf par c.cutoffSquared i j).fin,
      .fin (6 * ljEnergyOf par c.cutoffSquared i j)) := by
  have h0 : normSq (i.pos - j.pos) ≠ 0 := fun h' => hd (normSq_eq_zero h')
  by_cases hI : Interact c.cutoffSquared i j
  · rw [← kernelAoS_eq h hI hd]
    unfold ljKernelSoA ljKernelAoS
    have hm : (decide (normSq (i.pos - j.pos) ≤ c.cutoffSquared ∧ j.own ≠ .dummy)) = true := decide_eq_true ⟨hI.2.2, hI.2.1⟩
    simp only [inner_normSq, prod_normSq, hm, Num.ofBool, if_true, Num.fin_div h0, Num.fin_mul, Num.fin_sub, Num.fin_add, one_mul]
  · unfold ljKernelSoA ljVirialOf ljForceOn ljEnergyOf
    have hm : (decide (normSq (i.pos - j.pos) ≤ c.cutoffSquared ∧ j.own ≠ .dummy)) = false :=
      decide_eq_false (fun h' => hI ⟨hi, h'.2, h'.1⟩)
    simp only [prod_normSq, hm, Num.ofBool, Bool.false_eq_true, if_false, Num.fin_div h0, Num.fin_mul, Num.fin_sub, Num.fin_add, zero_mul, if_neg hI,
      mul_zero]
    refine Prod.ext ?_ (Prod.ext ?_ rfl)
    · refine V3.ext' ?_ ?_ ?_ <;> simp
    · refine V3.ext' ?_ ?_ ?_ <;> simp

/-- What one directed interaction adds: `a` receives the force of `b`; if `a` is owned its share of the sums is added. -/
def ljShare (par : LJParams K) (rc2 : K) (a b : Mol K) : LJGlobals K :=
  if a.own = .owned then ⟨(ljVirialOf par rc2 a b).fin, .fin (6 * ljEnergyOf par rc2 a b)⟩ else 0

def ljEvent [DecidableEq P] (par : LJParams K) (rc2 : K) (mol : P → Mol K) (t : P × P) : LJState P K :=
  ⟨Pi.single t.1 (ljForceOn par rc2 (mol t.1) (mol t.2)).fin, ljShare par rc2 (mol t.1) (mol t.2)⟩

theorem ljShare_zero {rc2 : K} {a b : Mol K} (h : ¬ Interact rc2 a b) : ljShare par rc2 a b = 0 := by
  unfold ljShare ljVirialOf ljForceOn ljEnergyOf
  rw [if_neg h, if_neg h]
  split
  · refine LJGlobals.ext' ?_ (by simp; rfl)
    refine V3.ext' ?_ ?_ ?_ <;> simp <;> rfl
  · rfl

theorem ljEvent_zero [DecidableEq P] {rc2 : K} {mol : P → Mol K} {t : P × P} (h : ¬ Interact rc2 (mol t.1) (mol t.2)) :
    ljEvent par rc2 mol t = 0 := by
  unfold ljEvent
  rw [ljShare_zero h]
  unfold ljForceOn
  rw [if_neg h, V3.fin_zero, Pi.single_zero]
  rfl

/-- A call of the AoS kernel is one or two directed interactions. -/
theorem ljAoSCall_eq [DecidableEq P] (h : SetUp c par) (hs : par.Symmetric) (mol : P → Mol K) (s : LJState P K) (call : PairCall P)
    (hne : call.p ≠ call.q) (hd : Interact c.cutoffSquared (mol call.p) (mol call.q) → (mol call.p).pos ≠ (mol call.q).pos) :
    ljAoSCall c mol s call = s + ((contributions [call]).map (ljEvent par c.cutoffSquared mol)).sum := by
  have hsum : ((contributions [call]).map (ljEvent par c.cutoffSquared mol)).sum =
      ljEvent par c.cutoffSquared mol (call.p, call.q) + (if call.newton3 then ljEvent par c.cutoffSquared mol (call.q, call.p) else 0) := by
    unfold contributions
    obtain ⟨p, q, n3⟩ := call
    cases n3 <;> simp
  rw [hsum]
  by_cases hI : Interact c.cutoffSquared (mol call.p) (mol call.q)
  · have e : ljAoS c call.newton3 (mol call.p) (mol call.q) = some ((ljForceOn par c.cutoffSquared (mol call.p) (mol call.q)).fin,
        if call.newton3 then (ljForceOn par c.cutoffSquared (mol call.q) (mol call.p)).fin else 0,
        (ljShare par c.cutoffSquared (mol call.p) (mol call.q)).virialSum +
          (if call.newton3 then (ljShare par c.cutoffSquared (mol call.q) (mol call.p)).virialSum else 0),
        (ljShare par c.cutoffSquared (mol call.p) (mol call.q)).potentialEnergySum +
          (if call.newton3 then (ljShare par c.cutoffSquared (mol call.q) (mol call.p)).potentialEnergySum else 0)) := by
      unfold ljAoS
      rw [if_neg (by rintro (h1 | h1); exacts [hI.1 h1, hI.2.1 h1]), if_neg (by rw [inner_normSq]; exact not_lt.2 hI.2.2)]
      simp only [kernelAoS_eq h hI (hd hI), ljShare]
      rw [forceOn_swap hs _ (mol call.p) (mol call.q), virialOf_swap hs _ (mol call.p) (mol call.q),
        energyOf_swap hs _ (mol call.p) (mol call.q)]
      have z1 : (0 : LJGlobals K).virialSum = 0 := rfl
      have z2 : (0 : LJGlobals K).potentialEnergySum = 0 := rfl
      cases call.newton3 <;> by_cases h1 : (mol call.p).own = .owned <;> by_cases h2 : (mol call.q).own = .owned <;>
        simp [h1, h2, V3.fin_neg, z1, z2]
    unfold ljAoSCall
    rw [e]
    simp only
    refine LJState.ext' ?_ ?_
    · simp only [LJState.add_force]
      rw [update_add s.force]
      rw [update_add]
      cases call.newton3
      · simp [ljEvent]
      · simp [ljEvent, add_assoc]
    · simp only [LJState.add_globals]
      rw [LJGlobals.plus_eq]
      congr 1
      cases call.newton3
      · simp [ljEvent]
      · simp only [ljEvent, if_true]; rfl
  · have e : ljAoS c call.newton3 (mol call.p) (mol call.q) = none := by
      unfold ljAoS
      by_cases hdum : (mol call.p).own = .dummy ∨ (mol call.q).own = .dummy
      · rw [if_pos hdum]
      · rw [if_neg hdum, if_pos]
        rw [inner_normSq]
        by_contra hc
        exact hI ⟨fun h' => hdum (.inl h'), fun h' => hdum (.inr h'), not_lt.1 hc⟩
    unfold ljAoSCall
    rw [e, ljEvent_zero hI, ljEvent_zero (t := (call.q, call.p)) (fun h' => hI (interact_comm.1 h'))]
    simp

theorem contributions_cons (call : PairCall P) (calls : List (PairCall P)) :
    contributions (call :: calls) = contributions [call] ++ contributions calls := by
  unfold contributions; simp

theorem contributions_append (a b : List (PairCall P)) : contributions (a ++ b) = contributions a ++ contributions b := by
  unfold contributions; simp

/-- The two particles of a call are different, and if they interact they do not sit on the same spot. -/
def CallOk [DecidableEq P] (rc2 : K) (mol : P → Mol K) (call : PairCall P) : Prop :=
  call.p ≠ call.q ∧ (Interact rc2 (mol call.p) (mol call.q) → (mol call.p).pos ≠ (mol call.q).pos)

theorem ljRun_eq [DecidableEq P] (h : SetUp c par) (hs : par.Symmetric) (mol : P → Mol K) (calls : List (PairCall P)) :
    ∀ s : LJState P K, (∀ call ∈ calls, CallOk c.cutoffSquared mol call) →
    ljRun c mol s calls = s + ((contributions calls).map (ljEvent par c.cutoffSquared mol)).sum := by
  induction calls with
  | nil => intro s _; simp [ljRun, contributions]
  | cons call calls ih =>
    intro s hk
    have h1 := hk call List.mem_cons_self
    have e : ljRun c mol s (call :: calls) = ljRun c mol (ljAoSCall c mol s call) calls := rfl
    rw [e, ih _ (fun x hx => hk x (List.mem_cons_of_mem _ hx)), ljAoSCall_eq h hs mol s call h1.1 h1.2, contributions_cons call calls, List.map_append,
      List.sum_append, add_assoc]

end
end Verif
