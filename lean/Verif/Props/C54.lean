import Verif.Lemmas.DirectSum
/-!
# C54 — DirectSum lets every owned particle feel every other particle within the cutoff exactly once

`home p` is the position by which `p` was put into its cell; since then it moved by at most half the skin.
-/
namespace Verif
open Spec

section
variable {P : Type} [DecidableEq P] {bMin bMax : V3 Rat} {cutoff skin : Rat} {pos home : P → V3 Rat} {own : P → Ownership}
  {cells pb hb : List (List P)} {f : CellFunctorCfg P}

/-- `computeInteractions` with DirectSum and the insertion buffers `pb` (owned) and `hb` (halo). -/
def dsInteractions (pos : P → V3 Rat) (own : P → Ownership) (cutoff : Rat) (f : CellFunctorCfg P) (cells pb hb : List (List P)) :
    List (PairCall P) :=
  dsCalls f cells ++ remainder2B pos own f.newton3 cutoff cells.flatten pb hb

/-- Missing for the full property: AoS with a skin larger than the cutoff, where it fails (`C54_violated_large_skin`). -/
theorem C54_every_neighbour_once_partial (hcut : 0 ≤ cutoff) (hskin : 0 ≤ skin) (hsc : skin ≤ cutoff ∨ f.soa = true)
    (hs : DSSorted bMin bMax home cells) (hf : DSFunctor cutoff pos own f)
    (hm : ∀ p ∈ cells.flatten, 4 * distSq (pos p) (home p) ≤ skin * skin)
    (ho : ∀ p ∈ cells.flatten, own p = .owned → InBox (home p) bMin bMax)
    (hin : RemInput cells.flatten pb hb) (hhb : ∀ x ∈ hb.flatten, own x = .halo) (a b : P)
    (ha : a ∈ cells.flatten ++ (pb.flatten ++ hb.flatten)) (hb' : b ∈ cells.flatten ++ (pb.flatten ++ hb.flatten)) (hab : a ≠ b)
    (hao : own a = .owned) (hbo : own b ≠ .dummy) (hd : distSq (pos a) (pos b) < cutoff * cutoff) :
    timesReceived (dsInteractions pos own cutoff f cells pb hb) a b = 1 :=
  ((ds_complete hcut hskin hs hf hsc hm ho).with_remainder hcut hin hhb _).once a ha b hb' hab hao hbo hd

/-- No contribution is received twice, and only stored particles take part. (Whatever the skin and the movement.) -/
theorem C54_nothing_twice (hs : DSSorted bMin bMax home cells) (hf : DSFunctor cutoff pos own f)
    (hin : RemInput cells.flatten pb hb) (a b : P) :
    timesReceived (dsInteractions pos own cutoff f cells pb hb) a b ≤ 1 ∧
    (timesReceived (dsInteractions pos own cutoff f cells pb hb) a b ≠ 0 →
      a ∈ cells.flatten ++ (pb.flatten ++ hb.flatten) ∧ b ∈ cells.flatten ++ (pb.flatten ++ hb.flatten) ∧ a ≠ b) := by
  have hc := (ds_noDouble hs hf.sorts).with_remainder hin pos own cutoff f.newton3
  exact ⟨hc.most a b, hc.mem a b⟩

/-- What the user sees: the sum over all other particles. -/
theorem C54_accumulates_sum_partial {M : Type} [AddCommMonoid M] (hcut : 0 ≤ cutoff) (hskin : 0 ≤ skin)
    (hsc : skin ≤ cutoff ∨ f.soa = true)
    (hs : DSSorted bMin bMax home cells) (hf : DSFunctor cutoff pos own f)
    (hm : ∀ p ∈ cells.flatten, 4 * distSq (pos p) (home p) ≤ skin * skin)
    (ho : ∀ p ∈ cells.flatten, own p = .owned → InBox (home p) bMin bMax)
    (hin : RemInput cells.flatten pb hb) (hhb : ∀ x ∈ hb.flatten, own x = .halo) (F : P → P → M)
    (hz : ∀ a b, (own b = .dummy ∨ cutoff * cutoff ≤ distSq (pos a) (pos b)) → F a b = 0) (a : P)
    (ha : a ∈ cells.flatten ++ (pb.flatten ++ hb.flatten)) (hao : own a = .owned) :
    accumulated F (dsInteractions pos own cutoff f cells pb hb) a =
      (((cells.flatten ++ (pb.flatten ++ hb.flatten)).filter fun b => b ≠ a).map (F a)).sum :=
  ((ds_complete hcut hskin hs hf hsc hm ho).with_remainder hcut hin hhb _).accumulated hin.nodup F hz a ha hao

end

/-! The violation: box `[0,10)³`, cutoff 1, skin 3. -/

private def vP : Particle := ⟨1, ⟨-1, 5, 5⟩, .owned⟩
private def vQ1 : Particle := ⟨2, ⟨1, 5, 5⟩, .halo⟩
private def vQ2 : Particle := ⟨3, ⟨-6/5, 5, 5⟩, .halo⟩
private def vCells : List (List Particle) := [[vP], [vQ1, vQ2], [], [], [], [], []]
private def vHome (p : Particle) : V3 Rat := if p = vP then ⟨1/5, 5, 5⟩ else ⟨-2/5, 5, 5⟩
private def vF : CellFunctorCfg Particle :=
  ⟨fun p => decide (p.own = .halo), false, false, false, 0, 1, ⟨10, 10, 10⟩, sortByProjection Particle.pos⟩

private theorem v_sorted2 : sortByProjection Particle.pos ⟨-1, 0, 0⟩ [vQ1, vQ2] = [(-1, vQ1), (6/5, vQ2)] := by
  obtain ⟨h1, h2⟩ := sortByProjection_sorted Particle.pos ⟨-1, 0, 0⟩ [vQ1, vQ2]
  have e : [vQ1, vQ2].map (fun p => (p.pos.dot ⟨-1, 0, 0⟩, p)) = [(-1, vQ1), (6/5, vQ2)] := by decide +kernel
  rw [e] at h1
  exact h1.eq_of_pairwise (le := fun a b => a.1 ≤ b.1) (by
    intro a b ha hb h3 h4
    have ha := h1.subset ha
    simp only [List.mem_cons, List.not_mem_nil, or_false] at ha hb
    rcases ha with rfl | rfl <;> rcases hb with rfl | rfl <;> first | rfl | (exfalso; revert h3 h4; decide +kernel)) h2
    (by decide +kernel)

private theorem v_sorted1 : sortByProjection Particle.pos ⟨-1, 0, 0⟩ [vP] = [(1, vP)] := by
  obtain ⟨h1, -⟩ := sortByProjection_sorted Particle.pos ⟨-1, 0, 0⟩ [vP]
  have e : [vP].map (fun p => (p.pos.dot ⟨-1, 0, 0⟩, p)) = [(1, vP)] := by decide +kernel
  rw [e] at h1
  exact List.perm_singleton.1 h1

/-- With a skin of three cutoffs an owned particle and a halo particle at distance 1/5 may not interact: sorting the halo cell by the
distance from the box puts a particle first that moved far into the box, and the loop ends there. -/
theorem C54_violated_large_skin : ∃ (cells : List (List Particle)) (home : Particle → V3 Rat) (f : CellFunctorCfg Particle) (a b : Particle),
    DSSorted ⟨0, 0, 0⟩ ⟨10, 10, 10⟩ home cells ∧ DSFunctor 1 Particle.pos Particle.own f ∧
    (∀ p ∈ cells.flatten, 4 * distSq p.pos (home p) ≤ 3 * 3) ∧
    (∀ p ∈ cells.flatten, p.own = .owned → InBox (home p) ⟨0, 0, 0⟩ ⟨10, 10, 10⟩) ∧
    a ∈ cells.flatten ∧ b ∈ cells.flatten ∧ a ≠ b ∧ a.own = .owned ∧ b.own = .halo ∧ distSq a.pos b.pos < 1 * 1 ∧
    timesReceived (dsInteractions Particle.pos Particle.own 1 f cells [] []) a b = 0 := by
  refine ⟨vCells, vHome, vF, vP, vQ2, ⟨rfl, by decide +kernel, ?_⟩, ⟨rfl, rfl, sortByProjection_sorted _, fun _ => rfl⟩, by decide +kernel,
    by decide +kernel, by decide +kernel, by decide +kernel, by decide +kernel, rfl, rfl, by decide +kernel, ?_⟩
  · intro k p hp
    have hk : k < 7 := by
      by_contra hk
      rw [List.getD_eq_getElem?_getD, List.getElem?_eq_none (by simpa [vCells] using hk)] at hp
      simp at hp
    have hk : k = 0 ∨ k = 1 ∨ k = 2 ∨ k = 3 ∨ k = 4 ∨ k = 5 ∨ k = 6 := by omega
    rcases hk with rfl | rfl | rfl | rfl | rfl | rfl | rfl <;> revert p <;> decide +kernel
  · have e0 : remainder2B Particle.pos Particle.own vF.newton3 1 vCells.flatten [] [] = [] := by decide +kernel
    have e1 : dsCalls vF vCells = [] := by
      unfold dsCalls CellFunctorCfg.run
      have : ([[dsOps vCells.length]] : List (List (List CellOp))).flatten.flatten = [CellOp.self 0, .pair 0 1 ⟨-1, 0, 0⟩, .pair 0 2 ⟨1, 0, 0⟩,
        .pair 0 3 ⟨0, -1, 0⟩, .pair 0 4 ⟨0, 1, 0⟩, .pair 0 5 ⟨0, 0, -1⟩, .pair 0 6 ⟨0, 0, 1⟩] := rfl
      rw [this]
      simp only [List.flatMap_cons, List.flatMap_nil, List.append_eq_nil_iff]
      refine ⟨?_, ?_, ?_, ?_, ?_, ?_, ?_, trivial⟩
      · have : vF.op (dsPCells vCells) (.self 0) = processCellAoS vF.isHalo false 0 1 ⟨10, 10, 10⟩ [vP] (sortByProjection Particle.pos ⟨10, 10, 10⟩ [vP]) := rfl
        rw [this]
        obtain ⟨h1, -⟩ := sortByProjection_sorted Particle.pos ⟨10, 10, 10⟩ [vP]
        rw [List.map_singleton, List.perm_singleton] at h1
        rw [h1]
        rfl
      · have : vF.op (dsPCells vCells) (.pair 0 1 ⟨-1, 0, 0⟩) = processCellPairAoS false false 0 1 ⟨-1, 0, 0⟩ [vP] [vQ1, vQ2]
          (sortByProjection Particle.pos ⟨-1, 0, 0⟩ [vP]) (sortByProjection Particle.pos ⟨-1, 0, 0⟩ [vQ1, vQ2]) := rfl
        rw [this, v_sorted1, v_sorted2]
        decide +kernel
      all_goals rfl
    unfold dsInteractions
    rw [e0, e1]
    rfl

/-! Non-vacuity. -/

private def xCells : List (List Particle) := [[⟨1, ⟨1/2, 5, 5⟩, .owned⟩, ⟨2, ⟨1, 5, 5⟩, .owned⟩], [⟨3, ⟨-1/4, 5, 5⟩, .halo⟩], [], [], [], [], []]

example (soa n3 : Bool) : timesReceived (dsInteractions Particle.pos Particle.own 1
    ⟨fun p => decide (p.own = .halo), soa, n3, false, 0, 1, ⟨10, 10, 10⟩, sortByProjection Particle.pos⟩ xCells exVecs [[]])
    ⟨1, ⟨1/2, 5, 5⟩, .owned⟩ ⟨3, ⟨-1/4, 5, 5⟩, .halo⟩ = 1 := by
  have hs : DSSorted ⟨0, 0, 0⟩ ⟨10, 10, 10⟩ Particle.pos xCells := by
    refine ⟨rfl, by decide +kernel, ?_⟩
    intro k p hp
    have hk : k < 7 := by
      by_contra hk
      rw [List.getD_eq_getElem?_getD, List.getElem?_eq_none (by simpa [xCells] using hk)] at hp
      simp at hp
    have hk : k = 0 ∨ k = 1 ∨ k = 2 ∨ k = 3 ∨ k = 4 ∨ k = 5 ∨ k = 6 := by omega
    rcases hk with rfl | rfl | rfl | rfl | rfl | rfl | rfl <;> revert p <;> decide +kernel
  have h1 : (⟨1, ⟨1/2, 5, 5⟩, .owned⟩ : Particle) ∈ xCells.flatten ++ (exVecs.flatten ++ [[]].flatten) := by decide +kernel
  have h2 : (⟨3, ⟨-1/4, 5, 5⟩, .halo⟩ : Particle) ∈ xCells.flatten ++ (exVecs.flatten ++ [[]].flatten) := by decide +kernel
  have hr : RemInput xCells.flatten exVecs [[]] := ⟨by decide +kernel, rfl⟩
  have hf : DSFunctor 1 Particle.pos Particle.own
      ⟨fun p => decide (p.own = .halo), soa, n3, false, 0, 1, ⟨10, 10, 10⟩, sortByProjection Particle.pos⟩ :=
    ⟨rfl, rfl, sortByProjection_sorted _, fun _ => rfl⟩
  have hd : distSq (⟨1/2, 5, 5⟩ : V3 Rat) ⟨-1/4, 5, 5⟩ < 1 * 1 := by decide +kernel
  exact C54_every_neighbour_once_partial (skin := 1/2) (by norm_num) (by norm_num) (.inl (by norm_num)) hs
    hf (fun p _ => by simp [distSq]) (by decide +kernel) hr (by simp) _ _ h1 h2 (by decide)
    rfl (by decide) hd

end Verif
