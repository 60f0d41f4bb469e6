import Verif.Lemmas.AxilrodTeller
import Mathlib.Tactic.NormNum
/-!
# C77 — the Axilrod-Teller functor computes the gradient of the Axilrod-Teller energy

The kernel runs on the reals. The energy `atU` is stated with distances and cosines of angles (Spec/AxilrodTeller.lean); the kernel uses
neither.
-/
namespace Verif
open Spec

private theorem not_far {c : ATCfg ℝ} {i j k : Mol ℝ} :
    Interact3 c.cutoffSquared i j k ↔ (i.own ≠ .dummy ∧ j.own ≠ .dummy ∧ k.own ≠ .dummy) ∧ ¬ atFar c i j k := by
  unfold Interact3 Interact atFar
  rw [inner_normSq, inner_normSq, inner_normSq, normSq_comm i.pos j.pos, normSq_comm j.pos k.pos, normSq_comm k.pos i.pos]
  simp only [not_or, not_lt]
  tauto

/-- The result for interacting particles. -/
private theorem aos_eq {c : ATCfg ℝ} {i j k : Mol ℝ} (n3 : Bool) (h : Interact3 c.cutoffSquared i j k) :
    atAoS sqrtR c n3 i j k =
      (let r := atKernel sqrtR c i j k
       some ⟨r.1, if n3 then r.2.1 else 0, if n3 then r.2.2.1 else 0,
        (if i.own = .owned then ⟨r.1 * i.pos.fin, r.2.2.2⟩ else 0) +
        (if n3 = true ∧ j.own = .owned then ⟨r.2.1 * j.pos.fin, r.2.2.2⟩ else 0) +
        (if n3 = true ∧ k.own = .owned then ⟨r.2.2.1 * k.pos.fin, r.2.2.2⟩ else 0)⟩) := by
  obtain ⟨⟨h1, h2, h3⟩, h4⟩ := not_far.1 h
  unfold atAoS
  rw [if_neg (by tauto), if_neg h4]
  simp only [LJGlobals.plus_eq, LJGlobals.zero_eq]
  congr 2
  split <;> split <;> split <;> simp

/-- Where the functor computes forces, they are minus the gradients of the energy with respect to the positions of the three particles
(with Newton 3; otherwise only the first particle gets a force), and they sum up to zero. -/
theorem C77_forces_are_gradients (c : ATCfg ℝ) (i j k : Mol ℝ) (n3 : Bool) (h : Interact3 c.cutoffSquared i j k) (h1 : i.pos ≠ j.pos)
    (h2 : j.pos ≠ k.pos) (h3 : k.pos ≠ i.pos) :
    ∃ a Fi Fj Fk, atAoS sqrtR c n3 i j k = some a ∧ a.forceI = Fi.fin ∧ a.forceJ = (if n3 then Fj.fin else 0) ∧
      a.forceK = (if n3 then Fk.fin else 0) ∧
      MinusGradient (fun x => atU (c.nuOf i.type j.type k.type) x j.pos k.pos) Fi i.pos ∧
      MinusGradient (fun x => atU (c.nuOf i.type j.type k.type) i.pos x k.pos) Fj j.pos ∧
      MinusGradient (fun x => atU (c.nuOf i.type j.type k.type) i.pos j.pos x) Fk k.pos ∧ Fi + Fj + Fk = 0 := by
  refine ⟨_, _, _, _, aos_eq n3 h, ?_, ?_, ?_, atU_gradient _ h1 h2 h3, ?_, ?_, atF_sum _ _ _ _⟩
  · simp only [atKernel_eq c i j k h1 h2 h3]
  · simp only [atKernel_eq c i j k h1 h2 h3]
  · simp only [atKernel_eq c i j k h1 h2 h3]
  · have : (fun x => atU (c.nuOf i.type j.type k.type) i.pos x k.pos) = fun x => atU (c.nuOf i.type j.type k.type) x k.pos i.pos := by
      funext x; rw [atU_rotate]
    rw [this]; exact atU_gradient _ h2 h3 h1
  · have : (fun x => atU (c.nuOf i.type j.type k.type) i.pos j.pos x) = fun x => atU (c.nuOf i.type j.type k.type) x i.pos j.pos := by
      funext x; rw [atU_rotate, atU_rotate]
    rw [this]; exact atU_gradient _ h3 h1 h2

/-- The energy sum grows by three times the energy of the triplet for every owned particle that gets a force. -/
theorem C77_energy (c : ATCfg ℝ) (i j k : Mol ℝ) (n3 : Bool) (h : Interact3 c.cutoffSquared i j k) (h1 : i.pos ≠ j.pos)
    (h2 : j.pos ≠ k.pos) (h3 : k.pos ≠ i.pos) :
    ∃ a, atAoS sqrtR c n3 i j k = some a ∧ a.globals.potentialEnergySum =
      .fin (((if i.own = .owned then 1 else 0) + (if n3 = true ∧ j.own = .owned then 1 else 0) +
        (if n3 = true ∧ k.own = .owned then 1 else 0)) * (3 * atU (c.nuOf i.type j.type k.type) i.pos j.pos k.pos)) := by
  refine ⟨_, aos_eq n3 h, ?_⟩
  simp only [atKernel_eq c i j k h1 h2 h3]
  have e : ∀ (q : Prop) [Decidable q] (v : V3 (Num ℝ)) (x : ℝ),
      (if q then (⟨v, .fin x⟩ : LJGlobals ℝ) else 0).potentialEnergySum = .fin ((if q then 1 else 0) * x) := by
    intro q _ v x
    split
    · simp
    · rw [zero_mul]; rfl
  change (if i.own = .owned then (⟨_, _⟩ : LJGlobals ℝ) else 0).potentialEnergySum +
    (if n3 = true ∧ j.own = .owned then (⟨_, _⟩ : LJGlobals ℝ) else 0).potentialEnergySum +
    (if n3 = true ∧ k.own = .owned then (⟨_, _⟩ : LJGlobals ℝ) else 0).potentialEnergySum = _
  rw [e, e, e, Num.fin_add, Num.fin_add]
  congr 1
  ring

/-- Nothing is added if a particle is deleted or a distance above the cutoff. -/
theorem C77_nothing_beyond_cutoff (c : ATCfg ℝ) (i j k : Mol ℝ) (n3 : Bool) :
    atAoS sqrtR c n3 i j k = none ↔ ¬ Interact3 c.cutoffSquared i j k := by
  constructor
  · intro e h
    rw [aos_eq n3 h] at e
    simp at e
  · intro h
    rw [not_far] at h
    unfold atAoS
    split
    · rfl
    · rename_i hd
      rw [if_pos]
      by_contra hf
      exact h ⟨⟨fun e => hd (Or.inl e), fun e => hd (Or.inr (Or.inl e)), fun e => hd (Or.inr (Or.inr e))⟩, hf⟩

/-- A call with Newton 3 does the same as three calls without, one for each particle. -/
theorem C77_newton3_is_three_calls (c : ATCfg ℝ) (hν : SymmetricNu c) (i j k : Mol ℝ) (h : Interact3 c.cutoffSquared i j k)
    (h1 : i.pos ≠ j.pos) (h2 : j.pos ≠ k.pos) (h3 : k.pos ≠ i.pos) :
    ∃ a ai aj ak, atAoS sqrtR c true i j k = some a ∧ atAoS sqrtR c false i j k = some ai ∧ atAoS sqrtR c false j i k = some aj ∧
      atAoS sqrtR c false k i j = some ak ∧ a.forceI = ai.forceI ∧ a.forceJ = aj.forceI ∧ a.forceK = ak.forceI ∧
      a.globals.virialSum = ai.globals.virialSum + aj.globals.virialSum + ak.globals.virialSum ∧
      a.globals.potentialEnergySum = ai.globals.potentialEnergySum + aj.globals.potentialEnergySum + ak.globals.potentialEnergySum := by
  have hj : Interact3 c.cutoffSquared j i k := by
    unfold Interact3 at h ⊢
    exact ⟨interact_comm.1 h.1, interact_comm.1 h.2.2, interact_comm.1 h.2.1⟩
  have hk : Interact3 c.cutoffSquared k i j := ⟨h.2.2, h.1, h.2.1⟩
  have ν1 : c.nuOf j.type i.type k.type = c.nuOf i.type j.type k.type := (hν.swap _ _ _).symm
  have ν2 : c.nuOf k.type i.type j.type = c.nuOf i.type j.type k.type := hν.rotate _ _ _
  have F1 := fun ν => (atF_swap ν j.pos i.pos k.pos).symm
  have U1 := fun ν => atU_swap ν j.pos i.pos k.pos
  have U2 := fun ν => atU_rotate ν k.pos i.pos j.pos
  refine ⟨_, _, _, _, aos_eq true h, aos_eq false h, aos_eq false hj, aos_eq false hk, ?_⟩
  simp only [atKernel_eq c i j k h1 h2 h3, atKernel_eq c j i k h1.symm h3.symm h2.symm, atKernel_eq c k i j h3 h1 h2, ν1, ν2, if_true,
    true_and, Bool.false_eq_true, false_and, if_false, add_zero, F1, U1, U2]
  exact ⟨rfl, rfl⟩

/-- Three particles at a right angle, the first one owned, the others halo particles. -/
private def exI : Mol ℝ := ⟨⟨0, 0, 0⟩, 0, .owned⟩
private def exJ : Mol ℝ := ⟨⟨3, 0, 0⟩, 0, .halo⟩
private def exK : Mol ℝ := ⟨⟨0, 4, 0⟩, 0, .halo⟩
private def exCfg : ATCfg ℝ := ⟨false, 100, 1, fun _ _ _ => 0⟩
private def Mol.shifted (m : Mol ℝ) (d : V3 ℝ) : Mol ℝ := { m with pos := m.pos + d }

private theorem exInteract (d : V3 ℝ) : Interact3 exCfg.cutoffSquared (exI.shifted d) (exJ.shifted d) (exK.shifted d) := by
  refine ⟨⟨?_, ?_, ?_⟩, ⟨?_, ?_, ?_⟩, ⟨?_, ?_, ?_⟩⟩ <;>
    norm_num [exCfg, exI, exJ, exK, Mol.shifted, normSq] <;> decide

private theorem exApart (d : V3 ℝ) : (exI.shifted d).pos ≠ (exJ.shifted d).pos ∧ (exJ.shifted d).pos ≠ (exK.shifted d).pos ∧
    (exK.shifted d).pos ≠ (exI.shifted d).pos := by
  refine ⟨?_, ?_, ?_⟩
  · intro h; have := congrArg V3.x h; simp [exI, exJ, Mol.shifted] at this
  · intro h; have := congrArg V3.x h; simp [exK, exJ, Mol.shifted] at this
  · intro h; have := congrArg V3.y h; simp [exI, exK, Mol.shifted] at this

private theorem exForce (d : V3 ℝ) : (atF 1 (exI.shifted d).pos (exJ.shifted d).pos (exK.shifted d).pos).x ≠ 0 := by
  have hs : Real.sqrt (3600 : ℝ) = 60 := by
    rw [show (3600 : ℝ) = 60 ^ 2 by norm_num]; exact Real.sqrt_sq (by norm_num)
  have hD : atD (exI.shifted d).pos (exJ.shifted d).pos (exK.shifted d).pos = 3600 := by
    norm_num [atD, exI, exJ, exK, Mol.shifted, normSq]
  unfold atF
  rw [hD, hs]
  norm_num [atDirComp, exI, exJ, exK, Mol.shifted, normSq, V3.inner]

private noncomputable def exAdds (d : V3 ℝ) : ATAdds ℝ :=
  ⟨(atF 1 exI.pos exJ.pos exK.pos).fin, (atF 1 exJ.pos exK.pos exI.pos).fin, (atF 1 exK.pos exI.pos exJ.pos).fin,
    ⟨(atF 1 exI.pos exJ.pos exK.pos).fin * (exI.shifted d).pos.fin,
      .fin (3 * atU 1 (exI.shifted d).pos (exJ.shifted d).pos (exK.shifted d).pos)⟩⟩

private theorem exResult (d : V3 ℝ) : atAoS sqrtR exCfg true (exI.shifted d) (exJ.shifted d) (exK.shifted d) = some (exAdds d) := by
  obtain ⟨h1, h2, h3⟩ := exApart d
  have hF : ∀ p q s : V3 ℝ, ∀ d : V3 ℝ, atF 1 (p + d) (q + d) (s + d) = atF 1 p q s := by
    intro p q s d
    have hd : ∀ p q : V3 ℝ, (q + d) - (p + d) = q - p := by
      intro p q
      refine V3.ext' ?_ ?_ ?_ <;> simp
    unfold atF atD
    simp only [hd, V3.add_x, V3.add_y, V3.add_z, add_sub_add_right_eq_sub]
  have oj : ¬ (exJ.shifted d).own = .owned := by change ¬ Ownership.halo = .owned; decide
  have ok : ¬ (exK.shifted d).own = .owned := by change ¬ Ownership.halo = .owned; decide
  have oi : (exI.shifted d).own = .owned := rfl
  have hν : exCfg.nuOf (exI.shifted d).type (exJ.shifted d).type (exK.shifted d).type = 1 := rfl
  rw [aos_eq true (exInteract d)]
  simp only [atKernel_eq _ _ _ _ h1 h2 h3, if_true, true_and, if_pos oi, if_neg oj, if_neg ok, add_zero, hν]
  have p : ∀ m : Mol ℝ, (m.shifted d).pos = m.pos + d := fun _ => rfl
  simp only [p, hF, exAdds]

/-- The hypotheses can be met. -/
example : ∃ a Fi Fj Fk, atAoS sqrtR exCfg true (exI.shifted 0) (exJ.shifted 0) (exK.shifted 0) = some a ∧ a.forceI = V3.fin Fi ∧
    a.forceJ = V3.fin Fj ∧ a.forceK = V3.fin Fk ∧ Fi.x ≠ 0 ∧ Fi + Fj + Fk = 0 := by
  obtain ⟨h1, h2, h3⟩ := exApart 0
  refine ⟨_, _, _, _, aos_eq true (exInteract 0), ?_, ?_, ?_, exForce 0, atF_sum _ _ _ _⟩
  all_goals
    simp only [atKernel_eq _ _ _ _ h1 h2 h3, if_true]
    rfl

/-- The virial depends on the origin of the coordinates: moving three particles together, the first one owned and the others halo particles,
changes it. (`f·r` is summed over owned particles only, and their forces do not sum up to zero.) -/
theorem C77_violated_virial_depends_on_origin :
    ∃ (c : ATCfg ℝ) (i j k : Mol ℝ) (d : V3 ℝ) (a b : ATAdds ℝ), Interact3 c.cutoffSquared i j k ∧
      atAoS sqrtR c true i j k = some a ∧
      atAoS sqrtR c true { i with pos := i.pos + d } { j with pos := j.pos + d } { k with pos := k.pos + d } = some b ∧
      a.forceI = b.forceI ∧ a.forceJ = b.forceJ ∧ a.forceK = b.forceK ∧
      ljVirial (atEndTraversal [a.globals]) ≠ ljVirial (atEndTraversal [b.globals]) := by
  have es : ∀ m : Mol ℝ, ({ m.shifted 0 with pos := (m.shifted 0).pos + ⟨1, 0, 0⟩ } : Mol ℝ) = m.shifted ⟨1, 0, 0⟩ := by
    intro m; unfold Mol.shifted; simp
  have hx := exForce 0
  have e0 : ∀ m : Mol ℝ, (m.shifted 0).pos = m.pos := by intro m; unfold Mol.shifted; simp
  rw [e0, e0, e0] at hx
  have hb : atAoS sqrtR exCfg true { exI.shifted 0 with pos := (exI.shifted 0).pos + ⟨1, 0, 0⟩ }
      { exJ.shifted 0 with pos := (exJ.shifted 0).pos + ⟨1, 0, 0⟩ }
      { exK.shifted 0 with pos := (exK.shifted 0).pos + ⟨1, 0, 0⟩ } = some (exAdds ⟨1, 0, 0⟩) := by
    rw [← exResult ⟨1, 0, 0⟩, ← es, ← es, ← es]
  refine ⟨exCfg, exI.shifted 0, exJ.shifted 0, exK.shifted 0, ⟨1, 0, 0⟩, exAdds 0, exAdds ⟨1, 0, 0⟩, exInteract 0, exResult 0, hb, rfl, rfl, rfl, ?_⟩
  · simp [exAdds, exI, Mol.shifted, ljVirial, atEndTraversal, Num.zero_def]
    intro h
    exact hx h.symm

/-- The operation counters are not reset between traversals: the second of two equal traversals reports twice the number of a first one. -/
theorem C77_violated_operation_count :
    ∃ (c : ATCfg ℝ) (mol : Nat → Mol ℝ) (t : List (TripleCall Nat)), 0 < (ATFlops.traversals c mol [t]).getNumFLOPs ∧
      (ATFlops.traversals c mol [t, t]).getNumFLOPs = 2 * (ATFlops.traversals c mol [t]).getNumFLOPs := by
  refine ⟨exCfg, fun n => if n = 0 then exI else if n = 1 then exJ else exK, [⟨0, 1, 2, true⟩], ?_⟩
  have hf : ¬ atFar exCfg exI exJ exK := by
    unfold atFar; norm_num [exCfg, exI, exJ, exK, V3.inner]
  have hd : ¬ (exI.own = .dummy ∨ exJ.own = .dummy ∨ exK.own = .dummy) := by simp [exI, exJ, exK]
  simp only [ATFlops.traversals, List.foldl_cons, List.foldl_nil, ATFlops.initTraversal, ATFlops.call]
  simp [hf, hd, ATFlops.zero, ATFlops.getNumFLOPs]

end Verif
