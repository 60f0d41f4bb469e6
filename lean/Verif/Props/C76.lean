import Verif.Lemmas.ParticleProperties
import Verif.Spec.LennardJones
import Mathlib.Analysis.SpecialFunctions.Pow.Real
import Mathlib.Tactic.FieldSimp
import Mathlib.Tactic.Linarith
/-! # C76: the particle properties library returns what was registered and mixes it by the Lorentz-Berthelot rules -/
namespace Verif
open Spec
variable {K : Type} [Field K] [LinearOrder K]

/-- No history of calls leads to undefined behaviour, if no molecule with sites is registered before Lennard-Jones parameters are; masses and
parameters of every registered site are the last ones given. -/
theorem C76_registered_values_partial (R : RootFns K) (cutoff : K) (h : List (PPLAction K)) (hm : MoleculesAfterLJ h) :
    ∃ s, (PPL.new cutoff).run R h = .ok s ∧ s.numSites = (registered h).sites ∧
      (∀ i, i < (registered h).sites → s.getSiteMass i = .ok ((registered h).mass i)) ∧
      ((registered h).anyLJ = true → ∀ i, i < (registered h).sites →
        s.getEpsilonSigma i = .ok ((registered h).epsilon i, (registered h).sigma i)) := by
  obtain ⟨s, h1, h2, _⟩ := ppl_history R cutoff h hm
  refine ⟨s, h1, h2.n, ?_, ?_⟩
  · intro i hi; simp [PPL.getSiteMass, h2.masses, hi]
  · intro hb i hi; simp [PPL.getEpsilonSigma, h2.eps, h2.sig, hb, hi]

/-- A call throws exactly if it is not accepted, and then it changes nothing. -/
theorem C76_rejected_calls_partial (R : RootFns K) (cutoff : K) (h : List (PPLAction K)) (a : PPLAction K) (hm : MoleculesAfterLJ (h ++ [a])) :
    ∃ s, (PPL.new cutoff).run R h = .ok s ∧ (s.step R a = .throws ↔ ¬ (registered h).Accepts a) ∧
      (¬ (registered h).Accepts a → (PPL.new cutoff).run R (h ++ [a]) = .ok s) := by
  have hm' : MoleculesAfterLJ h := by
    intro p id l ps I q e hl
    exact hm p id l ps I (q ++ [a]) (by rw [e]; simp) hl
  obtain ⟨s, h1, h2, _⟩ := ppl_history R cutoff h hm'
  have hstep := pplInv_step R h2 a (fun id l ps I e hl => hm h id l ps I [] (by rw [e]) hl)
  refine ⟨s, h1, ?_, ?_⟩
  · by_cases hacc : (registered h).Accepts a
    · rw [if_pos hacc] at hstep
      obtain ⟨s', e, _⟩ := hstep
      rw [e]; simp [hacc]
    · rw [if_neg hacc] at hstep
      simp [hstep, hacc]
  · intro hacc
    rw [if_neg hacc] at hstep
    rw [PPL.run_append R _ h [a] h1]
    simp only [PPL.run, hstep]

/-- The state after `p`, the calculation of the coefficients, and `q` without another calculation or another registered site type. -/
private theorem mixed (R : RootFns K) (cutoff : K) (p q : List (PPLAction K)) (hm : MoleculesAfterLJ (p ++ .mix :: q))
    (hq : PPLAction.mix ∉ q) (hn : (registered (p ++ .mix :: q)).sites = (registered p).sites) :
    ∃ s0 s, PPLInv s0 (registered p) ∧ s0.cutoff = cutoff ∧ (PPL.new cutoff).run R (p ++ .mix :: q) = .ok s ∧
      s.numSites = (registered p).sites ∧
      ((registered p).anyLJ = true → s.ljMix = (List.range (registered p).sites).flatMap fun i => (List.range (registered p).sites).map
        fun j => s0.ljEntry R i j) ∧
      ((registered p).anyAT = true → s.atMix = (List.range (registered p).sites).flatMap fun i => (List.range (registered p).sites).flatMap
        fun j => (List.range (registered p).sites).map fun k => R.cbrt (s0.nus.getD i 0 * s0.nus.getD j 0 * s0.nus.getD k 0)) := by
  have hm' : MoleculesAfterLJ p := by
    intro p' id l ps I q' e hl
    exact hm p' id l ps I (q' ++ .mix :: q) (by rw [e]; simp) hl
  obtain ⟨s0, h1, h2, h3⟩ := ppl_history R cutoff p hm'
  obtain ⟨s1, k1, k2, k3, k4, k5, k6⟩ := pplInv_mix R h2
  have e1 : p ++ .mix :: q = (p ++ [.mix]) ++ q := by simp
  have er : registered (p ++ [.mix]) = registered p := by
    have hacc : (registered p).Accepts .mix := trivial
    rw [registered_snoc, if_pos hacc]; rfl
  obtain ⟨s2, l1, l2, _, _, l5⟩ := ppl_run (R := R) (p ++ [.mix]) q s1 (by rw [er]; exact k2) (by rw [← e1]; exact hm)
  refine ⟨s0, s2, h2, h3, ?_, ?_, ?_, ?_⟩
  · rw [PPL.run_append R _ p _ h1]
    simp only [PPL.run, PPL.step, k1]; exact l1
  · rw [l2.n, ← e1, hn]
  · intro hb; rw [(l5 hq).1, k5 hb]
  · intro hb; rw [(l5 hq).2, k6 hb]

private theorem entry (R : RootFns K) (L : RootLaws R) {s : PPL K} {r : Registry K} (H : PPLInv s r) (hb : r.anyLJ = true)
    (hc : s.cutoff ≠ 0) (i j : Nat) (hi : i < r.sites) (hj : j < r.sites) (hε : 0 ≤ r.epsilon i * r.epsilon j) :
    ∃ ε, 0 ≤ ε ∧ ε ^ 2 = r.epsilon i * r.epsilon j ∧
      s.ljEntry R i j = ⟨.fin (24 * ε), .fin (((r.sigma i + r.sigma j) / 2) ^ 2),
        .fin (24 * ε * ((((r.sigma i + r.sigma j) / 2) ^ 2 / s.cutoff ^ 2) ^ 3 - (((r.sigma i + r.sigma j) / 2) ^ 2 / s.cutoff ^ 2) ^ 6))⟩ := by
  obtain ⟨ε, h1, h2, h3⟩ := L.sqrt _ hε
  refine ⟨ε, h2, h3, ?_⟩
  have g : ∀ (f : Nat → K) (i : Nat), i < r.sites → ((List.range r.sites).map f).getD i 0 = f i := by
    intro f i hi
    rw [List.getD_eq_getElem _ _ (by simpa using hi)]; simp
  have he : s.epsilons = (List.range r.sites).map r.epsilon := by rw [H.eps, if_pos hb]
  have hs : s.sigmas = (List.range r.sites).map r.sigma := by rw [H.sig, if_pos hb]
  unfold PPL.ljEntry calcShift6
  rw [he, hs, g _ i hi, g _ j hj, g _ i hi, g _ j hj, h1]
  have hcc : s.cutoff * s.cutoff ≠ 0 := mul_ne_zero hc hc
  simp only [Num.fin_mul, Num.fin_div hcc, Num.fin_sub]
  congr 2
  · ring
  · ring

/-- Between the calculation of the mixing coefficients and the registration of another site type: the coefficients looked up are those of
the Lorentz-Berthelot rules for the parameters registered when they were calculated, `ε = √(εᵢ εⱼ)` and `σ = (σᵢ + σⱼ) / 2`, in
the form the functor uses (`24 ε`, `σ²` and six times the shift), and with the shift the potential is 0 at the cutoff distance. -/
theorem C76_lennard_jones_mixing_partial [CharZero K] (R : RootFns K) (L : RootLaws R) (cutoff : K) (hc : cutoff ≠ 0) (p q : List (PPLAction K))
    (hm : MoleculesAfterLJ (p ++ .mix :: q)) (hq : PPLAction.mix ∉ q)
    (hn : (registered (p ++ .mix :: q)).sites = (registered p).sites) (hb : (registered p).anyLJ = true) :
    ∃ s, (PPL.new cutoff).run R (p ++ .mix :: q) = .ok s ∧ ∀ i j, i < (registered p).sites → j < (registered p).sites →
      0 ≤ (registered p).epsilon i * (registered p).epsilon j →
      ∃ ε σ shift, 0 ≤ ε ∧ ε ^ 2 = (registered p).epsilon i * (registered p).epsilon j ∧
        σ = ((registered p).sigma i + (registered p).sigma j) / 2 ∧ ljU ε σ shift (cutoff ^ 2) = 0 ∧
        s.getLJMixingData i j = .ok ⟨.fin (24 * ε), .fin (σ ^ 2), .fin (6 * shift)⟩ := by
  obtain ⟨s0, s, h1, h2, h3, h4, h5, _⟩ := mixed R cutoff p q hm hq hn
  refine ⟨s, h3, fun i j hi hj hε => ?_⟩
  obtain ⟨ε, k1, k2, k3⟩ := entry R L h1 hb (by rw [h2]; exact hc) i j hi hj hε
  rw [h2] at k3
  refine ⟨ε, _, 4 * ε * ((((((registered p).sigma i + (registered p).sigma j) / 2) ^ 2 / cutoff ^ 2) ^ 3 -
    ((((registered p).sigma i + (registered p).sigma j) / 2) ^ 2 / cutoff ^ 2) ^ 6)), k1, k2, rfl, ?_, ?_⟩
  · unfold ljU; ring
  · unfold PPL.getLJMixingData
    rw [h4, h5 hb, grid_get _ _ i j hi hj]
    simp only [k3]
    congr 3
    ring

/-- The coefficients do not depend on the order of the two types. -/
theorem C76_lennard_jones_symmetric_partial (R : RootFns K) (cutoff : K) (p q : List (PPLAction K)) (hm : MoleculesAfterLJ (p ++ .mix :: q))
    (hq : PPLAction.mix ∉ q) (hn : (registered (p ++ .mix :: q)).sites = (registered p).sites) (hb : (registered p).anyLJ = true) :
    ∃ s, (PPL.new cutoff).run R (p ++ .mix :: q) = .ok s ∧ ∀ i j, i < (registered p).sites → j < (registered p).sites →
      ∃ d, s.getLJMixingData i j = .ok d ∧ s.getLJMixingData j i = .ok d := by
  obtain ⟨s0, s, h1, h2, h3, h4, h5, _⟩ := mixed R cutoff p q hm hq hn
  refine ⟨s, h3, fun i j hi hj => ⟨s0.ljEntry R i j, ?_, ?_⟩⟩
  · unfold PPL.getLJMixingData
    rw [h4, h5 hb, grid_get _ _ i j hi hj]
  · unfold PPL.getLJMixingData
    rw [h4, h5 hb, grid_get _ _ j i hj hi]
    simp only [PPL.ljEntry]
    rw [mul_comm (s0.epsilons.getD j 0), add_comm (s0.sigmas.getD j 0)]

/-- The same for the Axilrod-Teller parameter: `ν³ = νᵢ νⱼ νₖ`. -/
theorem C76_axilrod_teller_mixing_partial (R : RootFns K) (L : RootLaws R) (cutoff : K) (p q : List (PPLAction K))
    (hm : MoleculesAfterLJ (p ++ .mix :: q)) (hq : PPLAction.mix ∉ q)
    (hn : (registered (p ++ .mix :: q)).sites = (registered p).sites) (hb : (registered p).anyAT = true) :
    ∃ s, (PPL.new cutoff).run R (p ++ .mix :: q) = .ok s ∧ ∀ i j k, i < (registered p).sites → j < (registered p).sites →
      k < (registered p).sites →
      ∃ ν, ν ^ 3 = (registered p).nu i * (registered p).nu j * (registered p).nu k ∧ s.getMixingNu i j k = .ok ν ∧
        s.getMixingNu j i k = .ok ν ∧ s.getMixingNu i k j = .ok ν := by
  obtain ⟨s0, s, h1, h2, h3, h4, _, h5⟩ := mixed R cutoff p q hm hq hn
  refine ⟨s, h3, fun i j k hi hj hk => ?_⟩
  have g : ∀ (f : Nat → K) (i : Nat), i < (registered p).sites → ((List.range (registered p).sites).map f).getD i 0 = f i := by
    intro f i hi
    rw [List.getD_eq_getElem _ _ (by simpa using hi)]; simp
  have he : s0.nus = (List.range (registered p).sites).map (registered p).nu := by rw [h1.nus, if_pos hb]
  have get : ∀ i j k, i < (registered p).sites → j < (registered p).sites → k < (registered p).sites →
      s.getMixingNu i j k = .ok (R.cbrt ((registered p).nu i * (registered p).nu j * (registered p).nu k)) := by
    intro i j k hi hj hk
    unfold PPL.getMixingNu
    rw [h4, h5 hb, cube_get _ _ i j k hi hj hk, he]
    simp only [g _ _ hi, g _ _ hj, g _ _ hk]
  refine ⟨_, L.cbrt _, get i j k hi hj hk, ?_, ?_⟩
  · rw [get j i k hj hi hk, mul_comm ((registered p).nu j)]
  · rw [get i k j hi hk hj, mul_right_comm]

/-- A registered type of molecules keeps its sites; its mass is the sum of the masses of the sites and its largest sigma (used as the size of
the molecule) that of its sites when it was registered. -/
theorem C76_molecules_partial (R : RootFns K) (cutoff : K) (p q : List (PPLAction K)) (id : Nat) (l : List Nat) (ps : List (V3 K)) (I : V3 K)
    (hm : MoleculesAfterLJ (p ++ .mol id l ps I :: q)) (hacc : (registered p).Accepts (.mol id l ps I)) :
    ∃ s t, (PPL.new cutoff).run R (p ++ .mol id l ps I :: q) = .ok s ∧ s.getMolType id = .ok t ∧ t.siteIds = l ∧ t.relPos = ps ∧
      t.numSites = l.length ∧ t.inertia = I ∧ t.mass = (l.map (registered p).mass).sum ∧ 0 ≤ t.largestSigma ∧
      (∀ i ∈ l, (registered p).sigma i ≤ t.largestSigma) ∧ (t.largestSigma = 0 ∨ ∃ i ∈ l, t.largestSigma = (registered p).sigma i) := by
  have hm' : MoleculesAfterLJ p := by
    intro p' id' l' ps' I' q' e hl
    exact hm p' id' l' ps' I' (q' ++ .mol id l ps I :: q) (by rw [e]; simp) hl
  obtain ⟨s0, h1, h2, h3⟩ := ppl_history R cutoff p hm'
  have hstep := pplInv_mol h2 id l ps I (fun hl => hm p id l ps I q rfl hl)
  rw [if_pos hacc] at hstep
  obtain ⟨s1, e, k1, k2, _⟩ := hstep
  have e1 : p ++ .mol id l ps I :: q = (p ++ [.mol id l ps I]) ++ q := by simp
  obtain ⟨s2, l1, _, ⟨t, l3⟩, _⟩ := ppl_run (R := R) (p ++ [.mol id l ps I]) q s1 (by rw [registered_snoc, if_pos hacc]; exact k1)
    (by rw [← e1]; exact hm)
  refine ⟨s2, ⟨l, ps, (l.map (registered p).mass).sum, I, l.length, maxSigma (registered p) l⟩, ?_, ?_, rfl, rfl, rfl, rfl, rfl, ?_⟩
  · rw [PPL.run_append R _ p _ h1]
    simp only [PPL.run, PPL.step, e]; exact l1
  · unfold PPL.getMolType
    have hid : id = s0.mols.length := by rw [h2.m]; exact hacc.1
    rw [l3, k2, hid, List.append_assoc, List.getElem?_append_right (Nat.le_refl _)]
    simp
  · have key : ∀ (l : List Nat) (b : K),
        b ≤ l.foldl (fun m i => max m ((registered p).sigma i)) b ∧
        (∀ i ∈ l, (registered p).sigma i ≤ l.foldl (fun m i => max m ((registered p).sigma i)) b) ∧
        (l.foldl (fun m i => max m ((registered p).sigma i)) b = b ∨
          ∃ i ∈ l, l.foldl (fun m i => max m ((registered p).sigma i)) b = (registered p).sigma i) := by
      intro l
      induction l with
      | nil => intro b; simp
      | cons a as ih =>
        intro b
        obtain ⟨h1, h2, h3⟩ := ih (max b ((registered p).sigma a))
        simp only [List.foldl_cons, List.mem_cons]
        refine ⟨le_trans (le_max_left _ _) h1, ?_, ?_⟩
        · rintro i (rfl | hi)
          · exact le_trans (le_max_right _ _) h1
          · exact h2 i hi
        · rcases h3 with h3 | ⟨i, hi, h3⟩
          · rcases max_choice b ((registered p).sigma a) with h | h
            · exact Or.inl (h3.trans h)
            · exact Or.inr ⟨a, Or.inl rfl, h3.trans h⟩
          · exact Or.inr ⟨i, Or.inr hi, h3⟩
    exact key l 0

/-- Missing in the theorems above: a molecule registered when only Axilrod-Teller parameters were given reads outside of a vector. -/
theorem C76_violated_molecule_without_lennard_jones (R : RootFns K) (cutoff : K) :
    (registered [.site 0 1, .at 0 1] : Registry K).Accepts (.mol 0 [0] [⟨0, 0, 0⟩] ⟨0, 0, 0⟩) ∧
      (PPL.new cutoff).run R [.site 0 1, .at 0 1, .mol 0 [0] [⟨0, 0, 0⟩] ⟨0, 0, 0⟩] = .ub := by
  constructor
  · simp [registered, Registry.Accepts, Registry.after, Registry.empty]
  · rfl

/-- Missing in the theorems above: a site type registered after the calculation makes the lookups return the coefficients of other types
(for the types 1 and 0 those of the types 1 and 1). -/
theorem C76_violated_stale_coefficients (R : RootFns K) (cutoff : K) [CharZero K] :
    ∃ (p : List (PPLAction K)) (a : PPLAction K) (s t : PPL K) (d e : LJMix K), MoleculesAfterLJ (p ++ [a]) ∧
      (PPL.new cutoff).run R p = .ok s ∧ s.getLJMixingData 1 0 = .ok d ∧ (PPL.new cutoff).run R (p ++ [a]) = .ok t ∧
      t.getLJMixingData 1 0 = .ok e ∧ d.sigmaSquared ≠ e.sigmaSquared ∧
      (∀ i, i < 2 → (registered p).epsilon i = (registered (p ++ [a])).epsilon i ∧
        (registered p).sigma i = (registered (p ++ [a])).sigma i) := by
  refine ⟨[.site 0 1, .site 1 1, .lj 0 1 1, .lj 1 1 3, .mix], .site 2 1, _, _, _, _, ?_, rfl, rfl, rfl, rfl, ?_, ?_⟩
  · intro p id l ps I q e
    have : PPLAction.mol id l ps I ∈ ([.site 0 1, .site 1 1, .lj 0 1 1, .lj 1 1 3, .mix] ++ [.site 2 1] : List (PPLAction K)) := by
      rw [e]; simp
    simp at this
  · change (Num.fin (((3 : K) + 1) / 2 * ((3 + 1) / 2))) ≠ .fin ((3 + 3) / 2 * ((3 + 3) / 2))
    rw [ne_eq, Num.fin.injEq]; norm_num
  · intro i _; rw [registered_snoc]; split <;> exact ⟨rfl, rfl⟩

/-- The documentation says that values are overwritten if the id of a type of molecules exists (:87), and the code constructs an exception
if the coefficients are calculated without site types (:444-447): registering an id again throws, and the calculation does not. -/
theorem C76_violated_documentation (R : RootFns K) (cutoff : K) :
    (∃ s t, (PPL.new cutoff).run R [.site 0 1, .lj 0 1 1, .mol 0 [0] [⟨0, 0, 0⟩] ⟨0, 0, 0⟩] = .ok s ∧ s.getMolType 0 = .ok t ∧
      s.step R (.mol 0 [0, 0] [⟨0, 0, 0⟩, ⟨1, 0, 0⟩] ⟨0, 0, 0⟩) = .throws) ∧
    ∃ s, (PPL.new cutoff).step R .mix = .ok s := by
  refine ⟨⟨_, _, rfl, rfl, rfl⟩, _, rfl⟩

/-! ## The hypotheses can be met -/

/-- The real roots. -/
noncomputable def realRoots : RootFns ℝ where
  sqrt x := if x < 0 then .nonFinite else .fin (Real.sqrt x)
  cbrt x := if x < 0 then -((-x) ^ ((1 : ℝ) / 3)) else x ^ ((1 : ℝ) / 3)

theorem realRoots_laws : RootLaws realRoots where
  sqrt x hx := ⟨Real.sqrt x, by simp [realRoots, not_lt.2 hx], Real.sqrt_nonneg x, Real.sq_sqrt hx⟩
  sqrt_neg x hx := by simp [realRoots, hx]
  cbrt x := by
    have key : ∀ y : ℝ, 0 ≤ y → (y ^ ((1 : ℝ) / 3)) ^ 3 = y := by
      intro y hy
      rw [← Real.rpow_natCast, ← Real.rpow_mul hy]; norm_num
    simp only [realRoots]
    split
    next h => rw [Odd.neg_pow (by decide), key _ (by linarith)]; ring
    next h => exact key x (not_lt.1 h)

/-- Two types, one of them given twice, a rejected call, the calculation and a molecule: the coefficients of the types 0 and 1 are
those of `ε = 6` and `σ = 2`. -/
private noncomputable def exBefore : List (PPLAction ℝ) := [.site 0 1, .site 1 2, .lj 0 5 5, .lj 1 9 3, .lj 0 4 1, .lj 7 1 1, .at 1 8]
private noncomputable def exAfter : List (PPLAction ℝ) := [.mol 0 [0, 1] [⟨0, 0, 0⟩, ⟨1, 0, 0⟩] ⟨1, 1, 1⟩, .lj 0 6 6]

private theorem exRegistered : (registered exBefore).sites = 2 ∧ (registered (exBefore ++ .mix :: exAfter)).sites = 2 ∧
    (registered exBefore).anyLJ = true ∧ (registered exBefore).anyAT = true ∧ (registered exBefore).epsilon 0 = 4 ∧
    (registered exBefore).epsilon 1 = 9 ∧ (registered exBefore).sigma 0 = 1 ∧ (registered exBefore).sigma 1 = 3 := by
  simp [exBefore, exAfter, registered, Registry.Accepts, Registry.after, Registry.empty]

private theorem exMolecules : MoleculesAfterLJ (exBefore ++ .mix :: exAfter) := by
  intro p id l ps I q e hl
  have h8 : p.length = 8 := by
    have hget : (exBefore ++ .mix :: exAfter)[p.length]? = some (.mol id l ps I) := by
      rw [e, List.getElem?_append_right (Nat.le_refl _)]; simp
    have hlt : p.length < 10 := by
      have := congrArg List.length e
      simp [exBefore, exAfter] at this; omega
    generalize hpn : p.length = n at hget hlt
    match n, hlt with
    | 0, _ | 1, _ | 2, _ | 3, _ | 4, _ | 5, _ | 6, _ | 7, _ | 9, _ => simp [exBefore, exAfter] at hget
    | 8, _ => rfl
  have hp : p = exBefore ++ [.mix] := by
    have h1 : (exBefore ++ .mix :: exAfter).take 8 = exBefore ++ [.mix] := by simp [exBefore]
    rw [← h1, e, ← h8]; simp
  rw [hp, registered_snoc]
  have hacc : (registered exBefore).Accepts .mix := trivial
  rw [if_pos hacc]
  exact exRegistered.2.2.1

example : ∃ s, (PPL.new 10).run realRoots (exBefore ++ .mix :: exAfter) = .ok s ∧
    ∃ shift, ljU 6 2 shift 100 = 0 ∧ s.getLJMixingData 0 1 = .ok ⟨.fin 144, .fin 4, .fin (6 * shift)⟩ := by
  obtain ⟨r1, r2, r3, r4, r5, r6, r7, r8⟩ := exRegistered
  obtain ⟨s, h1, h2⟩ := C76_lennard_jones_mixing_partial realRoots realRoots_laws 10 (by norm_num) exBefore exAfter exMolecules
    (by simp [exAfter]) (by rw [r1, r2]) r3
  obtain ⟨ε, σ, shift, k1, k2, k3, k4, k5⟩ := h2 0 1 (by omega) (by omega) (by rw [r5, r6]; norm_num)
  rw [r5, r6] at k2
  rw [r7, r8] at k3
  have hσ : σ = 2 := by rw [k3]; norm_num
  have hε : ε = 6 := by nlinarith
  subst hσ hε
  refine ⟨s, h1, shift, ?_, ?_⟩
  · rw [← k4]; norm_num
  · rw [k5]; norm_num

end Verif
