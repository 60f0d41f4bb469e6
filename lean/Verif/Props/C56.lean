import Verif.Lemmas.VerletListsCells
import Verif.Props.C53
/-!
# C56 — VerletListsCells: every neighbour once while the lists are kept

The VerletListsCells container with the traversals `vlc_c01`, `vlc_c18`, `vlc_sliced`, `vlc_sliced_balanced` and `vlc_sliced_c02`, for both
layouts of the list construction and of the computation, with Newton 3 and without. The circumstances are those of C53
(`ListsKept`): `pos₀`, `own₀` are positions and ownership states when the lists were built, `pos`, `own` those of the moment in which
interactions are computed.
-/
namespace Verif
open Spec

section
variable {P : Type} [DecidableEq P] {bMin bMax : V3 Rat} {cutoff skin csf : Rat} {pos₀ pos : P → V3 Rat} {own₀ own : P → Ownership}
  {f : CellFunctorCfg P} {cells : List (List P)}

/-- How often the lists let `a` receive the contribution of `b`, in terms of the traversal that built them. -/
theorem vlc_received {il : Rat} (hbox : GoodBox bMin bMax il csf) (t : VLCTraversal)
    (ht : t.Applicable f.newton3 (CellBlock.rebuild id bMin bMax il csf).dims (CellBlock.rebuild id bMin bMax il csf).cellLength il)
    (hf : FunctorFor .c18 pos₀ il f) (hs : SortedIn (CellBlock.rebuild id bMin bMax il csf) pos₀ cells) (soa : Bool) (a b : P) :
    timesReceived (vlcCalls soa f.newton3 (CellBlock.rebuild id bMin bMax il csf).dims cells.flatten cells
      (vlcBuild pos₀ own₀ (CellBlock.rebuild id bMin bMax il csf) il f cells)
      (t.bases (CellBlock.rebuild id bMin bMax il csf).dims (CellBlock.rebuild id bMin bMax il csf).cellLength il)) a b =
    if vlcIsNeighbour pos₀ own₀ il f.soa a b = true ∧ t.Visits (CellBlock.rebuild id bMin bMax il csf).dims
        (CellBlock.rebuild id bMin bMax il csf).cellLength il ((CellBlock.rebuild id bMin bMax il csf).indexOfPosition id (pos₀ a))
    then timesReceived (f.run (lcCells (CellBlock.rebuild id bMin bMax il csf) cells) (LCTraversal.c18.ops
      (CellBlock.rebuild id bMin bMax il csf).dims (CellBlock.rebuild id bMin bMax il csf).cellLength il)) a b else 0 := by
  have h0 : il + 0 = il := add_zero il
  have hcalls := fun c => C51_linked_cells_calls bMin bMax il 0 csf (by rw [h0]; exact hbox) .c18 pos₀ pos₀ f cells c
  simp only [h0] at hcalls
  have hcalls := fun c => hcalls c trivial hf hs
  unfold vlcBuild
  have hperm := vlcCalls_perm hbox t ht hs (own := own₀) soa hcalls
  rw [show timesReceived _ a b = _ from (contributions_perm hperm).count_eq (a, b)]
  have hgrid : ∀ p, InGrid ((CellBlock.rebuild id bMin bMax il csf).indexOfPosition id p) (CellBlock.rebuild id bMin bMax il csf).dims :=
    fun p => hbox.inGrid p
  generalize f.run (lcCells (CellBlock.rebuild id bMin bMax il csf) cells) (LCTraversal.c18.ops
      (CellBlock.rebuild id bMin bMax il csf).dims (CellBlock.rebuild id bMin bMax il csf).cellLength il) = calls at hcalls ⊢
  refine (timesReceived_filter calls (fun p q => vlcIsNeighbour pos₀ own₀ il f.soa p q && decide (t.Visits (CellBlock.rebuild id bMin bMax il csf).dims
      (CellBlock.rebuild id bMin bMax il csf).cellLength il ((CellBlock.rebuild id bMin bMax il csf).indexOfPosition id (pos₀ p)))) a b ?_).trans ?_
  · by_cases h1 : t = .c01
    · subst h1
      left
      intro c hc
      rw [(hcalls c hc).2.2.2]
      exact ht
    · right
      have hv : ∀ p, t.Visits (CellBlock.rebuild id bMin bMax il csf).dims
        (CellBlock.rebuild id bMin bMax il csf).cellLength il ((CellBlock.rebuild id bMin bMax il csf).indexOfPosition id (pos₀ p)) :=
        fun p => ⟨hgrid _, fun h => absurd h h1⟩
      simp only [hv, decide_true, Bool.and_true]
      exact vlcIsNeighbour_symm a b
  · simp only [Bool.and_eq_true, decide_eq_true_eq]

/-- The container part of `computeInteractions`. -/
theorem vlc_complete (hcut : 0 ≤ cutoff) (hskin : 0 ≤ skin) (hbox : GoodBox bMin bMax (cutoff + skin) csf) (t : VLCTraversal)
    (ht : t.Applicable f.newton3 (CellBlock.rebuild id bMin bMax (cutoff + skin) csf).dims
      (CellBlock.rebuild id bMin bMax (cutoff + skin) csf).cellLength (cutoff + skin))
    (hf : FunctorFor .c18 pos₀ (cutoff + skin) f) (hh : ∀ p, f.isHalo p = decide (own₀ p = .halo))
    (hs : SortedIn (CellBlock.rebuild id bMin bMax (cutoff + skin) csf) pos₀ cells)
    (hk : ListsKept bMin bMax skin f.soa pos₀ pos own₀ own cells.flatten) (soa : Bool) :
    CompleteCalls pos own cutoff cells.flatten
      (vlcCalls soa f.newton3 (CellBlock.rebuild id bMin bMax (cutoff + skin) csf).dims cells.flatten cells
        (vlcBuild pos₀ own₀ (CellBlock.rebuild id bMin bMax (cutoff + skin) csf) (cutoff + skin) f cells)
        (t.bases (CellBlock.rebuild id bMin bMax (cutoff + skin) csf).dims
          (CellBlock.rebuild id bMin bMax (cutoff + skin) csf).cellLength (cutoff + skin))) := by
  have hil : 0 ≤ cutoff + skin := by linarith
  have h0 : (cutoff + skin) + 0 = cutoff + skin := add_zero _
  have hcalls := fun c => C51_linked_cells_calls bMin bMax (cutoff + skin) 0 csf (by rw [h0]; exact hbox) .c18 pos₀ pos₀ f cells c
  have honce := fun a b => C51_linked_cells_exactly_once bMin bMax (cutoff + skin) 0 csf hil (le_refl 0) (by rw [h0]; exact hbox) .c18
    pos₀ pos₀ f cells a b
  have hmost := fun a b => C51_linked_cells_at_most_once bMin bMax (cutoff + skin) 0 csf (by rw [h0]; exact hbox) .c18 pos₀ pos₀ f cells a b
  simp only [h0] at hcalls honce hmost
  have hmem : ∀ a b, timesReceived (f.run (lcCells (CellBlock.rebuild id bMin bMax (cutoff + skin) csf) cells) (LCTraversal.c18.ops
      (CellBlock.rebuild id bMin bMax (cutoff + skin) csf).dims (CellBlock.rebuild id bMin bMax (cutoff + skin) csf).cellLength
      (cutoff + skin))) a b ≠ 0 → a ∈ cells.flatten ∧ b ∈ cells.flatten ∧ a ≠ b := by
    intro a b hab
    obtain ⟨c, hc, hm⟩ := mem_contributions_calls hab
    obtain ⟨k1, k2, k3, -⟩ := hcalls c trivial hf hs hc
    rcases hm with ⟨rfl, rfl⟩ | ⟨-, rfl, rfl⟩
    · exact ⟨k1, k2, k3⟩
    · exact ⟨k2, k1, k3.symm⟩
  have hrec := fun a b => vlc_received (own₀ := own₀) hbox t ht hf hs soa a b
  refine ⟨?_, ?_, ?_⟩
  · intro a ha b hb hab hao hbo hd
    obtain ⟨o1, o2⟩ := hk.owned a ha hao
    have hd₀ : distSq (pos₀ a) (pos₀ b) < (cutoff + skin) * (cutoff + skin) := by
      have m1 := hk.moved a ha
      have m2 := hk.moved b hb
      have e1 : distSq (pos a) (pos₀ a) ≤ (skin / 2) * (skin / 2) := by linarith
      have e2 : distSq (pos b) (pos₀ b) ≤ (skin / 2) * (skin / 2) := by linarith
      have k2 := distSq_triangle_lt (by linarith) (by linarith) hd e2
      rw [distSq_symm] at k2
      have k3 := distSq_triangle_lt (by linarith) (by linarith) k2 e1
      rw [distSq_symm]
      calc _ < _ := k3
        _ = _ := by ring
    have hnb : vlcIsNeighbour pos₀ own₀ (cutoff + skin) f.soa a b = true := by
      unfold vlcIsNeighbour
      rw [Bool.and_eq_true, Bool.or_eq_true, decide_eq_true_eq, decide_eq_true_eq]
      refine ⟨?_, hd₀⟩
      by_cases hsoa : f.soa = true
      · exact .inl hsoa
      · right
        refine ⟨by rw [o1]; decide, fun hy => hbo (hk.deleted (by simpa using hsoa) b hb hy)⟩
    have hvis : t.Visits (CellBlock.rebuild id bMin bMax (cutoff + skin) csf).dims
        (CellBlock.rebuild id bMin bMax (cutoff + skin) csf).cellLength (cutoff + skin)
        ((CellBlock.rebuild id bMin bMax (cutoff + skin) csf).indexOfPosition id (pos₀ a)) := by
      refine ⟨hbox.inGrid _, fun _ => ?_⟩
      have hnh := hbox.not_halo o2
      obtain ⟨q1, q2, q3⟩ := hbox.overlap_le
      obtain ⟨d1, d2, d3⟩ := hbox.dims_ge
      simp only [IsHalo] at hnh
      simp only [InRange, V3.toNat, V3.sub]
      omega
    rw [hrec, if_pos ⟨hnb, hvis⟩]
    refine honce a b trivial hf hs ?_ ha hb hab ?_ o2 (le_of_lt hd₀)
    · intro p _
      simp [distSq]
    · rw [hh, o1]; rfl
  · intro a b
    rw [hrec]
    by_cases hab : a = b
    · by_contra hx
      split at hx
      · exact (hmem a b (by omega)).2.2 hab
      · omega
    · have := hmost a b trivial hf hs hab
      split <;> omega
  · intro a b hx
    rw [hrec] at hx
    split at hx
    · exact hmem a b hx
    · exact absurd rfl hx

/-- `computeInteractions` with the VerletListsCells container: the lists and the remainder traversal over the buffers `pb` of the owned and
`hb` of the halo particles. -/
def vlcInteractions (pos₀ pos : P → V3 Rat) (own₀ own : P → Ownership) (blk : CellBlock) (cutoff skin : Rat)
    (f : CellFunctorCfg P) (t : VLCTraversal) (soa : Bool) (cells pb hb : List (List P)) : List (PairCall P) :=
  vlcCalls soa f.newton3 blk.dims cells.flatten cells (vlcBuild pos₀ own₀ blk (cutoff + skin) f cells)
      (t.bases blk.dims blk.cellLength (cutoff + skin)) ++
    remainder2B pos own f.newton3 cutoff cells.flatten pb hb

variable {pb hb : List (List P)}

/-- C56. Every owned particle receives the contribution of every other particle closer than the cutoff exactly once. -/
theorem C56_every_neighbour_once (hcut : 0 ≤ cutoff) (hskin : 0 ≤ skin) (hbox : GoodBox bMin bMax (cutoff + skin) csf) (t : VLCTraversal)
    (ht : t.Applicable f.newton3 (CellBlock.rebuild id bMin bMax (cutoff + skin) csf).dims
      (CellBlock.rebuild id bMin bMax (cutoff + skin) csf).cellLength (cutoff + skin))
    (hf : FunctorFor .c18 pos₀ (cutoff + skin) f) (hh : ∀ p, f.isHalo p = decide (own₀ p = .halo))
    (hs : SortedIn (CellBlock.rebuild id bMin bMax (cutoff + skin) csf) pos₀ cells)
    (hk : ListsKept bMin bMax skin f.soa pos₀ pos own₀ own cells.flatten)
    (hin : RemInput cells.flatten pb hb) (hhb : ∀ x ∈ hb.flatten, own x = .halo) (soa : Bool) (a b : P)
    (ha : a ∈ cells.flatten ++ (pb.flatten ++ hb.flatten)) (hb' : b ∈ cells.flatten ++ (pb.flatten ++ hb.flatten)) (hab : a ≠ b)
    (hao : own a = .owned) (hbo : own b ≠ .dummy) (hd : distSq (pos a) (pos b) < cutoff * cutoff) :
    timesReceived (vlcInteractions pos₀ pos own₀ own (CellBlock.rebuild id bMin bMax (cutoff + skin) csf) cutoff skin f t soa cells pb hb)
      a b = 1 :=
  ((vlc_complete hcut hskin hbox t ht hf hh hs hk soa).with_remainder hcut hin hhb f.newton3).once a ha b hb' hab hao hbo hd

/-- No contribution is received twice, and only stored particles take part. -/
theorem C56_nothing_twice (hcut : 0 ≤ cutoff) (hskin : 0 ≤ skin) (hbox : GoodBox bMin bMax (cutoff + skin) csf) (t : VLCTraversal)
    (ht : t.Applicable f.newton3 (CellBlock.rebuild id bMin bMax (cutoff + skin) csf).dims
      (CellBlock.rebuild id bMin bMax (cutoff + skin) csf).cellLength (cutoff + skin))
    (hf : FunctorFor .c18 pos₀ (cutoff + skin) f) (hh : ∀ p, f.isHalo p = decide (own₀ p = .halo))
    (hs : SortedIn (CellBlock.rebuild id bMin bMax (cutoff + skin) csf) pos₀ cells)
    (hk : ListsKept bMin bMax skin f.soa pos₀ pos own₀ own cells.flatten)
    (hin : RemInput cells.flatten pb hb) (hhb : ∀ x ∈ hb.flatten, own x = .halo) (soa : Bool) (a b : P) :
    let calls := vlcInteractions pos₀ pos own₀ own (CellBlock.rebuild id bMin bMax (cutoff + skin) csf) cutoff skin f t soa cells pb hb
    timesReceived calls a b ≤ 1 ∧ (timesReceived calls a b ≠ 0 →
      a ∈ cells.flatten ++ (pb.flatten ++ hb.flatten) ∧ b ∈ cells.flatten ++ (pb.flatten ++ hb.flatten) ∧ a ≠ b) :=
  have h := (vlc_complete hcut hskin hbox t ht hf hh hs hk soa).with_remainder hcut hin hhb f.newton3
  ⟨h.most a b, h.mem a b⟩

/-- What the user sees: the sum over all other particles. -/
theorem C56_accumulates_sum {M : Type} [AddCommMonoid M] (hcut : 0 ≤ cutoff) (hskin : 0 ≤ skin)
    (hbox : GoodBox bMin bMax (cutoff + skin) csf) (t : VLCTraversal)
    (ht : t.Applicable f.newton3 (CellBlock.rebuild id bMin bMax (cutoff + skin) csf).dims
      (CellBlock.rebuild id bMin bMax (cutoff + skin) csf).cellLength (cutoff + skin))
    (hf : FunctorFor .c18 pos₀ (cutoff + skin) f) (hh : ∀ p, f.isHalo p = decide (own₀ p = .halo))
    (hs : SortedIn (CellBlock.rebuild id bMin bMax (cutoff + skin) csf) pos₀ cells)
    (hk : ListsKept bMin bMax skin f.soa pos₀ pos own₀ own cells.flatten)
    (hin : RemInput cells.flatten pb hb) (hhb : ∀ x ∈ hb.flatten, own x = .halo) (soa : Bool) (F : P → P → M)
    (hz : ∀ a b, (own b = .dummy ∨ cutoff * cutoff ≤ distSq (pos a) (pos b)) → F a b = 0) (a : P)
    (ha : a ∈ cells.flatten ++ (pb.flatten ++ hb.flatten)) (hao : own a = .owned) :
    accumulated F (vlcInteractions pos₀ pos own₀ own (CellBlock.rebuild id bMin bMax (cutoff + skin) csf) cutoff skin f t soa cells pb hb) a =
      (((cells.flatten ++ (pb.flatten ++ hb.flatten)).filter fun b => b ≠ a).map (F a)).sum :=
  ((vlc_complete hcut hskin hbox t ht hf hh hs hk soa).with_remainder hcut hin hhb f.newton3).accumulated hin.nodup F hz a ha hao

end

/-! Non-vacuity: the situation of the example of C53 (the particles moved by a twentieth since the lists were built, one was deleted, one is
in a buffer), for all five traversals. -/

private def exF56 (soa newton3 : Bool) : CellFunctorCfg Particle :=
  ⟨fun p => p.own = .halo, soa, newton3, true, 0, 3/4 + 1/4, ⟨1, 1, 1⟩, sortByProjection Particle.pos⟩

private theorem exF56_for (soa newton3 : Bool) : FunctorFor .c18 Particle.pos (3/4 + 1/4) (exF56 soa newton3) :=
  ⟨rfl, rfl, (fun h => by cases h), sortByProjection_sorted _⟩

private theorem exBox56 : GoodBox ⟨0, 0, 0⟩ ⟨1, 1, 1⟩ (3/4 + 1/4) 1 := by
  have e : (3/4 + 1/4 : Rat) = 1 := by norm_num
  rw [e]; exact exGood

private theorem exRem56 : RemInput exCells.flatten exVecs [[]] := ⟨by decide +kernel, rfl⟩

private def exPos56 (p : Particle) : V3 Rat := ⟨p.pos.x + 1/20, p.pos.y, p.pos.z⟩

private def exOwn56 (p : Particle) : Ownership := if p = exOwned2 then .dummy else p.own

private theorem exKept56 (soaBuild : Bool) : ListsKept ⟨0, 0, 0⟩ ⟨1, 1, 1⟩ (1/4) soaBuild Particle.pos exPos56 Particle.own exOwn56 exCells.flatten := by
  refine ⟨?_, by decide +kernel, fun _ => by decide +kernel⟩
  intro p _
  unfold distSq exPos56
  simp only [add_sub_cancel_left, sub_self]
  norm_num

/-- The traversals can be used there; `vlc_sliced` has one slice of three layers. -/
private theorem exApplicable56 (newton3 : Bool) : ∀ t ∈ [VLCTraversal.c18, .sliced [3], .slicedC02] ++ (if newton3 then [] else [.c01]),
    t.Applicable newton3 (CellBlock.rebuild id ⟨0, 0, 0⟩ ⟨1, 1, 1⟩ (3/4 + 1/4) 1).dims
      (CellBlock.rebuild id ⟨0, 0, 0⟩ ⟨1, 1, 1⟩ (3/4 + 1/4) 1).cellLength (3/4 + 1/4) := by
  have h : [3] = sliceThickness false ((CellBlock.rebuild id ⟨0, 0, 0⟩ ⟨1, 1, 1⟩ (3/4 + 1/4) 1).dims.get (longestAxis
      (CellBlock.rebuild id ⟨0, 0, 0⟩ ⟨1, 1, 1⟩ (3/4 + 1/4) 1).dims))
      ((doubleOverlap (overlapOf (3/4 + 1/4) (CellBlock.rebuild id ⟨0, 0, 0⟩ ⟨1, 1, 1⟩ (3/4 + 1/4) 1).cellLength).toNat).get (longestAxis
      (CellBlock.rebuild id ⟨0, 0, 0⟩ ⟨1, 1, 1⟩ (3/4 + 1/4) 1).dims) + 1)
      ((doubleOverlap (overlapOf (3/4 + 1/4) (CellBlock.rebuild id ⟨0, 0, 0⟩ ⟨1, 1, 1⟩ (3/4 + 1/4) 1).cellLength).toNat).get (longestAxis
      (CellBlock.rebuild id ⟨0, 0, 0⟩ ⟨1, 1, 1⟩ (3/4 + 1/4) 1).dims)) := by decide +kernel
  intro t ht
  cases newton3 <;> simp only [List.mem_append, List.mem_cons, List.not_mem_nil, or_false, if_true, if_false, Bool.false_eq_true] at ht
  · rcases ht with (rfl | rfl | rfl) | rfl
    · trivial
    · exact .inl h
    · trivial
    · rfl
  · rcases ht with rfl | rfl | rfl
    · trivial
    · exact .inl h
    · trivial

example (soaBuild soa newton3 : Bool) (t : VLCTraversal) (ht : t ∈ [VLCTraversal.c18, .sliced [3], .slicedC02] ++ (if newton3 then [] else [.c01])) :
    timesReceived (vlcInteractions Particle.pos exPos56 Particle.own exOwn56 (CellBlock.rebuild id ⟨0, 0, 0⟩ ⟨1, 1, 1⟩ (3/4 + 1/4) 1)
      (3/4) (1/4) (exF56 soaBuild newton3) t soa exCells exVecs [[]]) exOwned ⟨5, ⟨1/8, 1/8, 1/8⟩, .owned⟩ = 1 := by
  have h1 : exOwned ∈ exCells.flatten ++ (exVecs.flatten ++ [[]].flatten) := by decide +kernel
  have h2 : (⟨5, ⟨1/8, 1/8, 1/8⟩, .owned⟩ : Particle) ∈ exCells.flatten ++ (exVecs.flatten ++ [[]].flatten) := by decide +kernel
  have h3 : exOwned ≠ (⟨5, ⟨1/8, 1/8, 1/8⟩, .owned⟩ : Particle) := by decide +kernel
  have h4 : exOwn56 exOwned = .owned ∧ exOwn56 ⟨5, ⟨1/8, 1/8, 1/8⟩, .owned⟩ ≠ .dummy := by decide +kernel
  have h5 : distSq (exPos56 exOwned) (exPos56 ⟨5, ⟨1/8, 1/8, 1/8⟩, .owned⟩) < 3/4 * (3/4) := by decide +kernel
  exact C56_every_neighbour_once (by norm_num) (by norm_num) exBox56 t (exApplicable56 newton3 t ht) (exF56_for soaBuild newton3)
    (fun _ => rfl) exSortedIn (exKept56 _) exRem56 (by simp) soa _ _ h1 h2 h3 h4.1 h4.2 h5

end Verif
