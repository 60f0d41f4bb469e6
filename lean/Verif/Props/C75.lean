import Verif.Lemmas.LJ
import Verif.Spec.Gradient
import Mathlib.Analysis.Calculus.Deriv.Inv
import Mathlib.Analysis.Calculus.Deriv.Pow
import Mathlib.Analysis.Calculus.Deriv.Add
/-!
# C75 — the Lennard-Jones forces are the negative gradient of the reported potential energy

The kernels are polymorphic in the numbers (`Num K`); here they run on the reals.
-/
namespace Verif
open Spec

/-- A particle with its position changed. -/
def Mol.at (i : Mol ℝ) (p : V3 ℝ) : Mol ℝ := { i with pos := p }

theorem ljU_deriv (ε σ shift : ℝ) {r2 : ℝ} (h : r2 ≠ 0) :
    HasDerivAt (ljU ε σ shift) (-(12 * ε * (2 * (σ ^ 2 / r2) ^ 6 - (σ ^ 2 / r2) ^ 3) / r2)) r2 := by
  have h1 : HasDerivAt (fun r => σ ^ 2 / r) (-(σ ^ 2) / r2 ^ 2) r2 := by
    have := (hasDerivAt_inv h).const_mul (σ ^ 2)
    simp only [div_eq_mul_inv]
    exact this.congr_deriv (by rw [neg_mul, mul_neg])
  have h2 := (((h1.pow 6).sub (h1.pow 3)).const_mul (4 * ε)).add_const shift
  refine h2.congr_deriv ?_
  norm_num
  field_simp
  ring

theorem ljU_gradient (ε σ shift : ℝ) {p q : V3 ℝ} (h : p ≠ q) :
    MinusGradient (fun p => ljU ε σ shift (normSq (p - q))) (ljF ε σ (p - q)) p := by
  have h0 : normSq (p - q) ≠ 0 := fun h' => h (normSq_eq_zero h')
  have sq : ∀ a b : ℝ, HasDerivAt (fun t : ℝ => (t - b) ^ 2) (2 * (a - b)) a := by
    intro a b
    have := ((hasDerivAt_id a).sub_const b).pow 2
    exact this.congr_deriv (by simp)
  have hU := ljU_deriv ε σ shift h0
  refine ⟨?_, ?_, ?_⟩
  · have hn : HasDerivAt (fun t => normSq ((⟨t, p.y, p.z⟩ : V3 ℝ) - q)) (2 * (p.x - q.x)) p.x := by
      unfold normSq
      simp only [V3.sub_x, V3.sub_y, V3.sub_z]
      exact ((sq p.x q.x).add_const _).add_const _
    have := HasDerivAt.comp p.x (h₂ := ljU ε σ shift) (h := fun t => normSq ((⟨t, p.y, p.z⟩ : V3 ℝ) - q)) hU hn
    refine this.congr_deriv ?_
    unfold ljF
    simp only [V3.scale_x, V3.sub_x]
    ring
  · have hn : HasDerivAt (fun t => normSq ((⟨p.x, t, p.z⟩ : V3 ℝ) - q)) (2 * (p.y - q.y)) p.y := by
      unfold normSq
      simp only [V3.sub_x, V3.sub_y, V3.sub_z]
      exact ((sq p.y q.y).const_add _).add_const _
    have := HasDerivAt.comp p.y (h₂ := ljU ε σ shift) (h := fun t => normSq ((⟨p.x, t, p.z⟩ : V3 ℝ) - q)) hU hn
    refine this.congr_deriv ?_
    unfold ljF
    simp only [V3.scale_y, V3.sub_y]
    ring
  · have hn : HasDerivAt (fun t => normSq ((⟨p.x, p.y, t⟩ : V3 ℝ) - q)) (2 * (p.z - q.z)) p.z := by
      unfold normSq
      simp only [V3.sub_x, V3.sub_y, V3.sub_z]
      exact (sq p.z q.z).const_add _
    have := HasDerivAt.comp p.z (h₂ := ljU ε σ shift) (h := fun t => normSq ((⟨p.x, p.y, t⟩ : V3 ℝ) - q)) hU hn
    refine this.congr_deriv ?_
    unfold ljF
    simp only [V3.scale_z, V3.sub_z]
    ring

variable {c : LJCfg ℝ} {par : LJParams ℝ}

/-- C75, one pair. There is a function `U` of the position of the first particle such that the kernel reports (six times) `U`, wherever that
particle is, and the force the kernel adds to it is minus the gradient of `U`. -/
theorem C75_pair_force (h : SetUp c par) (i j : Mol ℝ) (hi : i.own ≠ .dummy) (hj : j.own ≠ .dummy) (hd : i.pos ≠ j.pos) :
    ∃ (U : V3 ℝ → ℝ) (F : V3 ℝ), (∀ p, p ≠ j.pos → (ljKernelAoS c (i.at p) j).2.2 = .fin (6 * U p)) ∧
      (ljKernelAoS c i j).1 = F.fin ∧ MinusGradient U F i.pos := by
  refine ⟨fun p => ljU (par.epsilon i.type j.type) (par.sigma i.type j.type) (par.shift i.type j.type) (normSq (p - j.pos)),
    ljF (par.epsilon i.type j.type) (par.sigma i.type j.type) (i.pos - j.pos), ?_, ?_, ljU_gradient _ _ _ hd⟩
  · intro p hp
    have hI : Interact (normSq (p - j.pos)) (i.at p) j := ⟨hi, hj, le_refl _⟩
    rw [kernelAoS_eq h hI hp]
    simp only [ljEnergyOf, if_pos hI]
    rfl
  · have hI : Interact (normSq (i.pos - j.pos)) i j := ⟨hi, hj, le_refl _⟩
    rw [kernelAoS_eq h hI hd]
    simp only [ljForceOn, if_pos hI]

/-- The energy with a partner, along a coordinate axis: near the place the partner is in or out of reach throughout. -/
private theorem energy_along (rc2 : ℝ) (a b : Mol ℝ) (γ : ℝ → V3 ℝ) (t₀ : ℝ) (hγ : γ t₀ = a.pos)
    (hc : ContinuousAt (fun t => normSq (γ t - b.pos)) t₀) (hne : a.own ≠ .dummy → b.own ≠ .dummy → normSq (a.pos - b.pos) ≠ rc2) {D : ℝ}
    (hD : HasDerivAt (fun t => ljU (par.epsilon a.type b.type) (par.sigma a.type b.type) (par.shift a.type b.type) (normSq (γ t - b.pos))) D t₀) :
    HasDerivAt (fun t => ljEnergyOf par rc2 (a.at (γ t)) b) (if Interact rc2 a b then D else 0) t₀ := by
  by_cases hdum : a.own = .dummy ∨ b.own = .dummy
  · have hn : ∀ p, ¬ Interact rc2 (a.at p) b := fun p hI => hdum.elim hI.1 hI.2.1
    have hn' : ¬ Interact rc2 a b := fun hI => hdum.elim hI.1 hI.2.1
    rw [if_neg hn']
    refine (hasDerivAt_const t₀ (0 : ℝ)).congr_of_eventuallyEq (Filter.Eventually.of_forall fun t => ?_)
    exact if_neg (hn _)
  · have ha : a.own ≠ .dummy := fun h => hdum (.inl h)
    have hb : b.own ≠ .dummy := fun h => hdum (.inr h)
    have h0 : normSq (γ t₀ - b.pos) ≠ rc2 := by rw [hγ]; exact hne ha hb
    by_cases hI : Interact rc2 a b
    · rw [if_pos hI]
      have hlt : normSq (γ t₀ - b.pos) < rc2 := lt_of_le_of_ne (by rw [hγ]; exact hI.2.2) h0
      refine hD.congr_of_eventuallyEq ?_
      filter_upwards [hc.eventually_lt continuousAt_const hlt] with t ht
      exact if_pos ⟨ha, hb, le_of_lt ht⟩
    · rw [if_neg hI]
      have hgt : rc2 < normSq (γ t₀ - b.pos) := by
        rw [hγ]
        by_contra hx
        exact hI ⟨ha, hb, not_lt.1 hx⟩
      refine (hasDerivAt_const t₀ (0 : ℝ)).congr_of_eventuallyEq ?_
      filter_upwards [continuousAt_const.eventually_lt hc hgt] with t ht
      exact if_neg fun hI' => absurd hI'.2.2 (not_le.2 ht)

private theorem sum_deriv {X : Type} (f : X → ℝ → ℝ) (D : X → ℝ) (t₀ : ℝ) (l : List X) (h : ∀ x ∈ l, HasDerivAt (f x) (D x) t₀) :
    HasDerivAt (fun t => (l.map fun x => f x t).sum) ((l.map D).sum) t₀ := by
  induction l with
  | nil => exact hasDerivAt_const t₀ 0
  | cons x l ih =>
    simp only [List.map_cons, List.sum_cons]
    exact (h x List.mem_cons_self).add (ih fun y hy => h y (List.mem_cons_of_mem _ hy))

private theorem sum_comp {X : Type} (F : X → V3 ℝ) (l : List X) :
    (l.map F).sum.x = (l.map fun x => (F x).x).sum ∧ (l.map F).sum.y = (l.map fun x => (F x).y).sum ∧ (l.map F).sum.z = (l.map fun x => (F x).z).sum := by
  induction l with
  | nil => exact ⟨rfl, rfl, rfl⟩
  | cons x l ih => simp only [List.map_cons, List.sum_cons, V3.add_x, V3.add_y, V3.add_z, ih.1, ih.2.1, ih.2.2, and_self]

private theorem sum_neg' {X : Type} (F : X → ℝ) (l : List X) : (l.map fun x => -F x).sum = -(l.map F).sum := by
  induction l with
  | nil => simp
  | cons x l ih => rw [List.map_cons, List.sum_cons, ih, List.map_cons, List.sum_cons]; ring

/-- C75, a particle and all others. The energy of a particle with all others, as a function of its position, has the sum of the forces on it
(C73, C74) as its negative gradient, as long as no other particle is exactly at the cutoff distance or on the same spot. -/
theorem C75_force_is_minus_gradient (rc2 : ℝ) (a : Mol ℝ) (others : List (Mol ℝ))
    (hd : ∀ b ∈ others, a.pos ≠ b.pos ∧ (a.own ≠ .dummy → b.own ≠ .dummy → normSq (a.pos - b.pos) ≠ rc2)) :
    MinusGradient (fun p => (others.map fun b => ljEnergyOf par rc2 (a.at p) b).sum) ((others.map fun b => ljForceOn par rc2 a b).sum) a.pos := by
  obtain ⟨s1, s2, s3⟩ := sum_comp (fun b => ljForceOn par rc2 a b) others
  have cont : ∀ (γ : ℝ → V3 ℝ) (t₀ : ℝ) (q : V3 ℝ), ContinuousAt (fun t => (γ t).x) t₀ → ContinuousAt (fun t => (γ t).y) t₀ →
      ContinuousAt (fun t => (γ t).z) t₀ → ContinuousAt (fun t => normSq (γ t - q)) t₀ := by
    intro γ t₀ q h1 h2 h3
    unfold normSq
    simp only [V3.sub_x, V3.sub_y, V3.sub_z]
    exact (((h1.sub continuousAt_const).pow 2).add ((h2.sub continuousAt_const).pow 2)).add ((h3.sub continuousAt_const).pow 2)
  refine ⟨?_, ?_, ?_⟩
  · rw [s1, ← sum_neg']
    refine sum_deriv (fun b t => ljEnergyOf par rc2 (a.at ⟨t, a.pos.y, a.pos.z⟩) b) _ _ _ fun b hb => ?_
    refine (energy_along rc2 a b (fun t => ⟨t, a.pos.y, a.pos.z⟩) a.pos.x rfl
      (cont (fun t => ⟨t, a.pos.y, a.pos.z⟩) a.pos.x b.pos continuousAt_id continuousAt_const continuousAt_const) (hd b hb).2
      (ljU_gradient _ _ _ (hd b hb).1).x).congr_deriv ?_
    unfold ljForceOn
    split
    · rfl
    · simp
  · rw [s2, ← sum_neg']
    refine sum_deriv (fun b t => ljEnergyOf par rc2 (a.at ⟨a.pos.x, t, a.pos.z⟩) b) _ _ _ fun b hb => ?_
    refine (energy_along rc2 a b (fun t => ⟨a.pos.x, t, a.pos.z⟩) a.pos.y rfl
      (cont (fun t => ⟨a.pos.x, t, a.pos.z⟩) a.pos.y b.pos continuousAt_const continuousAt_id continuousAt_const) (hd b hb).2
      (ljU_gradient _ _ _ (hd b hb).1).y).congr_deriv ?_
    unfold ljForceOn
    split
    · rfl
    · simp
  · rw [s3, ← sum_neg']
    refine sum_deriv (fun b t => ljEnergyOf par rc2 (a.at ⟨a.pos.x, a.pos.y, t⟩) b) _ _ _ fun b hb => ?_
    refine (energy_along rc2 a b (fun t => ⟨a.pos.x, a.pos.y, t⟩) a.pos.z rfl
      (cont (fun t => ⟨a.pos.x, a.pos.y, t⟩) a.pos.z b.pos continuousAt_const continuousAt_const continuousAt_id) (hd b hb).2
      (ljU_gradient _ _ _ (hd b hb).1).z).congr_deriv ?_
    unfold ljForceOn
    split
    · rfl
    · simp

/-! Concrete: an owned particle at the origin, a halo particle at distance 1, a deleted one and one out of reach. -/

private noncomputable def exC : LJCfg ℝ := ⟨false, false, 4, 24, 1, 6, fun _ _ => 0, fun _ _ => 0, fun _ _ => 0⟩
private noncomputable def exP : LJParams ℝ := ⟨fun _ _ => 1, fun _ _ => 1, fun _ _ => 1⟩

example : ∃ (U : V3 ℝ → ℝ) (F : V3 ℝ), (∀ p, p ≠ ⟨1, 0, 0⟩ → (ljKernelAoS exC ((⟨⟨0, 0, 0⟩, 0, .owned⟩ : Mol ℝ).at p) ⟨⟨1, 0, 0⟩, 0, .halo⟩).2.2 = .fin (6 * U p)) ∧
    (ljKernelAoS exC ⟨⟨0, 0, 0⟩, 0, .owned⟩ ⟨⟨1, 0, 0⟩, 0, .halo⟩).1 = F.fin ∧ MinusGradient U F ⟨0, 0, 0⟩ :=
  C75_pair_force (par := exP) ⟨fun _ _ => by simp [exC, exP, LJCfg.eps], fun _ _ => by simp [exC, exP, LJCfg.sig],
    fun _ _ => by simp [exC, exP, LJCfg.shift]⟩ ⟨⟨0, 0, 0⟩, 0, .owned⟩ ⟨⟨1, 0, 0⟩, 0, .halo⟩ (by simp) (by simp) (by simp)

example := C75_force_is_minus_gradient (par := exP) 4 ⟨⟨0, 0, 0⟩, 0, .owned⟩
  [⟨⟨1, 0, 0⟩, 0, .halo⟩, ⟨⟨0, 2, 0⟩, 0, .dummy⟩, ⟨⟨0, 0, 5⟩, 0, .owned⟩] (by
    intro b hb
    simp only [List.mem_cons, List.not_mem_nil, or_false] at hb
    rcases hb with rfl | rfl | rfl <;> simp [normSq] <;> norm_num)

/-- The force of the halo particle at distance 1 is 24 to the left. -/
example : (ljForceOn exP 4 ⟨⟨0, 0, 0⟩, 0, .owned⟩ ⟨⟨1, 0, 0⟩, 0, .halo⟩).x = -24 := by
  simp [ljForceOn, Interact, normSq, ljF, exP]
  norm_num

end Verif
