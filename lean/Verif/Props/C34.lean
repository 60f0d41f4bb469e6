import Verif.Model.DeleteParticle
import Verif.Lemmas.IterDelete
import Verif.Lemmas.ExampleStore
/-!
# C34 — deleteParticle reports reference validity truthfully
-/
namespace Verif
open Spec

/-- All stored particles. -/
def Stored.all (s : Stored) : List Particle := s.bufs.flatten ++ s.haloBufs.flatten ++ s.cells.flatten

/-- Replacing one list of a list of lists by the same without one element. -/
private theorem flatten_set_perm {l : List (List Particle)} {k : Nat} {a : List Particle} {p : Particle} (hk : k < l.length)
    (h : (a ++ [p]).Perm (l.getD k [])) : ((l.set k a).flatten ++ [p]).Perm l.flatten := by
  induction l generalizing k with
  | nil => simp at hk
  | cons x l ih =>
    cases k with
    | zero =>
      simp only [List.set_cons_zero, List.flatten_cons, List.getD_cons_zero] at *
      refine List.Perm.trans ?_ (h.append_right _)
      rw [List.append_assoc, List.append_assoc]
      exact List.Perm.append_left _ List.perm_append_comm
    | succ k =>
      simp only [List.set_cons_succ, List.flatten_cons, List.getD_cons_succ] at *
      rw [List.append_assoc]
      exact (ih (by simpa using hk) h).append_left _

private theorem getD_lt {l : List (List Particle)} {k i : Nat} {p : Particle} (h : (l.getD k [])[i]? = some p) : k < l.length := by
  by_contra hc
  rw [List.getD, List.getElem?_eq_none (Nat.le_of_not_lt hc)] at h
  simp at h

theorem set_dropLast_swapDelete {l : List Particle} {i : Nat} {z : Particle} (hi : i < l.length) (hz : l.getLast? = some z) :
    (l.set i z).dropLast = swapDelete l i := by
  unfold swapDelete; rw [hz]; simp [hi]

/-- Insertion buffers hold owned particles and halo buffers do not; a particle in a cell of the container is in the cell its
current position belongs to. -/
def PlacedRight (b : CellBlock) (s : Stored) (r : Place) : Prop :=
  ∀ p, s.get r = some p →
    match r with
    | .buf _ _ => p.own = .owned
    | .haloBuf _ _ => p.own ≠ .owned
    | .cell k _ => b.flatIndexOfPosition p.pos = k

/-- With a linked-cells container, deleting the particle behind a valid reference removes exactly that particle, and `true` is
returned iff the reference still denotes a stored particle. Missing for the full property: particles that have left the cell
they are stored in (`C34_violated_moved`), and the direct-sum container (`C34_violated_directSum_return`,
`C34_violated_directSum_halo`). -/
theorem C34_linkedCells_partial (b : CellBlock) (s : Stored) (r : Place) (p : Particle) (hp : s.get r = some p)
    (hr : PlacedRight b s r) :
    ∃ s' ret, apasDelete (lcDelete b) s r = .ok (s', ret) ∧ (s'.all ++ [p]).Perm s.all ∧
      (ret = true ↔ (s'.get r).isSome) := by
  have hplace := hr p hp
  have side : ∀ (l : List (List Particle)) (k i : Nat), (l.getD k [])[i]? = some p →
      ((l.set k (swapDelete (l.getD k []) i)).flatten ++ [p]).Perm l.flatten ∧
      ((i + 1 ≠ (l.getD k []).length) ↔ (((l.set k (swapDelete (l.getD k []) i)).getD k [])[i]?).isSome) := by
    intro l k i h
    refine ⟨flatten_set_perm (getD_lt h) (swapDelete_perm h), ?_⟩
    have hlen := swapDelete_length h
    have hi : i < (l.getD k []).length := by
      obtain ⟨h1, -⟩ := List.getElem?_eq_some_iff.1 h; exact h1
    have hg : (l.set k (swapDelete (l.getD k []) i)).getD k [] = swapDelete (l.getD k []) i := by
      rw [List.getD, List.getElem?_set_self (getD_lt h)]; rfl
    rw [hg]
    rw [Option.isSome_iff_exists]
    constructor
    · intro hne
      exact ⟨(swapDelete (l.getD k []) i)[i]'(by omega), List.getElem?_eq_getElem (by omega)⟩
    · rintro ⟨q, hq⟩
      obtain ⟨h1, -⟩ := List.getElem?_eq_some_iff.1 hq
      omega
  have rot : ∀ a c d : List Particle, (a ++ c ++ d ++ [p]).Perm (a ++ (c ++ [p]) ++ d) := by
    intro a c d
    simp only [List.append_assoc]
    exact List.Perm.append_left _ (List.Perm.append_left _ List.perm_append_comm)
  unfold apasDelete
  rw [hp]
  cases r with
  | buf k i =>
    obtain ⟨h1, h2⟩ := side s.bufs k i hp
    simp only at hplace
    refine ⟨{ s with bufs := s.bufs.set k (swapDelete (s.bufs.getD k []) i) }, decide (i + 1 ≠ (s.bufs.getD k []).length), by simp only [deleteFromBuffers, hplace, if_true], ?_, ?_⟩
    · show ((s.bufs.set k _).flatten ++ s.haloBufs.flatten ++ s.cells.flatten ++ [p]).Perm (s.bufs.flatten ++ s.haloBufs.flatten ++ s.cells.flatten)
      refine List.Perm.trans ?_ ((h1.append_right s.haloBufs.flatten).append_right s.cells.flatten)
      refine (rot _ _ _).trans (List.Perm.append_right _ ?_)
      rw [List.append_assoc]
      exact List.Perm.append_left _ List.perm_append_comm
    · rw [decide_eq_true_eq]; exact h2
  | haloBuf k i =>
    obtain ⟨h1, h2⟩ := side s.haloBufs k i hp
    simp only at hplace
    refine ⟨{ s with haloBufs := s.haloBufs.set k (swapDelete (s.haloBufs.getD k []) i) }, decide (i + 1 ≠ (s.haloBufs.getD k []).length), by simp only [deleteFromBuffers, hplace, if_false], ?_, ?_⟩
    · show (s.bufs.flatten ++ (s.haloBufs.set k _).flatten ++ s.cells.flatten ++ [p]).Perm (s.bufs.flatten ++ s.haloBufs.flatten ++ s.cells.flatten)
      exact (rot _ _ _).trans ((h1.append_left _).append_right _)
    · rw [decide_eq_true_eq]; exact h2
  | cell k i =>
    obtain ⟨h1, h2⟩ := side s.cells k i hp
    simp only at hplace
    have hi : i < (s.cells.getD k []).length := by
      obtain ⟨h1, -⟩ := List.getElem?_eq_some_iff.1 hp; exact h1
    obtain ⟨z, hz⟩ : ∃ z, (s.cells.getD k []).getLast? = some z := by
      cases h : (s.cells.getD k []).getLast? with
      | some z => exact ⟨z, rfl⟩
      | none => rw [List.getLast?_eq_none_iff] at h; rw [h] at hi; exact absurd hi (Nat.not_lt_zero _)
    have hpop : (s.write (.cell k i) z).popCell k = { s with cells := s.cells.set k (swapDelete (s.cells.getD k []) i) } := by
      unfold Stored.popCell Stored.write
      simp only
      have hg : (s.cells.set k ((s.cells.getD k []).set i z)).getD k [] = (s.cells.getD k []).set i z := by
        rw [List.getD, List.getElem?_set_self (getD_lt hp)]; rfl
      rw [hg, set_dropLast_swapDelete hi hz, List.set_set]
    refine ⟨{ s with cells := s.cells.set k (swapDelete (s.cells.getD k []) i) }, !decide (Place.cell k i = Place.cell k ((s.cells.getD k []).length - 1)), ?_, ?_, ?_⟩
    · simp only [deleteFromBuffers, lcDelete, swapDelFromCell, hplace, hz, Outcome.bind, hpop]
    · show (s.bufs.flatten ++ s.haloBufs.flatten ++ (s.cells.set k _).flatten ++ [p]).Perm _
      rw [List.append_assoc]
      exact h1.append_left _
    · rw [Bool.not_eq_true', decide_eq_false_iff_not]
      refine Iff.trans ?_ h2
      simp only [Place.cell.injEq, true_and, ne_eq]
      omega

/-- Removing an element of a cell with a reference into that cell. -/
theorem swapDel_own {s : Stored} {k i : Nat} {p : Particle} (hp : s.get (.cell k i) = some p) :
    ∃ s' ret, swapDelFromCell s (.cell k i) k = .ok (s', ret) ∧ (s'.all ++ [p]).Perm s.all := by
  have hi : i < (s.cells.getD k []).length := by
    obtain ⟨h1, -⟩ := List.getElem?_eq_some_iff.1 hp; exact h1
  obtain ⟨z, hz⟩ : ∃ z, (s.cells.getD k []).getLast? = some z := by
    cases h : (s.cells.getD k []).getLast? with
    | some z => exact ⟨z, rfl⟩
    | none => rw [List.getLast?_eq_none_iff] at h; rw [h] at hi; exact absurd hi (Nat.not_lt_zero _)
  have hpop : (s.write (.cell k i) z).popCell k = { s with cells := s.cells.set k (swapDelete (s.cells.getD k []) i) } := by
    unfold Stored.popCell Stored.write
    simp only
    have hg : (s.cells.set k ((s.cells.getD k []).set i z)).getD k [] = (s.cells.getD k []).set i z := by
      rw [List.getD, List.getElem?_set_self (getD_lt hp)]; rfl
    rw [hg, set_dropLast_swapDelete hi hz, List.set_set]
  refine ⟨{ s with cells := s.cells.set k (swapDelete (s.cells.getD k []) i) }, decide (Place.cell k i = Place.cell k ((s.cells.getD k []).length - 1)),
    by rw [swapDelFromCell, hz]; simp only [hpop], ?_⟩
  show (s.bufs.flatten ++ s.haloBufs.flatten ++ (s.cells.set k _).flatten ++ [p]).Perm _
  rw [List.append_assoc]
  exact (flatten_set_perm (getD_lt hp) (swapDelete_perm hp)).append_left _

/-- The coordinate is farther than half a skin from both faces, inside of the box. -/
def FarInside (pos lo hi skinHalf : Rat) : Prop := lo + skinHalf ≤ pos ∧ pos < hi - skinHalf

/-- The halo cell of direct sum on the side of dimension `d` where the coordinate is: cells 1, 3, 5 below and 2, 4, 6 above the box. -/
def HaloSide (pos lo hi skinHalf : Rat) (d k : Nat) : Prop := (pos < lo + skinHalf ∧ k = 2 * d + 1) ∨ (lo + skinHalf ≤ pos ∧ hi - skinHalf ≤ pos ∧ k = 2 * d + 2)

theorem dsDim_inside {s : Stored} {r : Place} {pos lo hi skinHalf : Rat} {d : Nat} (h : FarInside pos lo hi skinHalf) : dsDeleteDim s r pos lo hi skinHalf d = .ok (.inr s) := by
  unfold dsDeleteDim
  rw [if_neg (not_lt.2 h.1), if_neg (not_le.2 h.2)]

theorem dsDim_side {s : Stored} {k i : Nat} {p : Particle} (hp : s.get (.cell k i) = some p) {pos lo hi skinHalf : Rat} {d : Nat} (h : HaloSide pos lo hi skinHalf d k) :
    ∃ s', (dsDeleteDim s (.cell k i) pos lo hi skinHalf d = .ok (.inl (s', true)) ∨ dsDeleteDim s (.cell k i) pos lo hi skinHalf d = .ok (.inr s')) ∧
      (s'.all ++ [p]).Perm s.all := by
  obtain ⟨s', ret, h1, h2⟩ := swapDel_own hp
  refine ⟨s', ?_, h2⟩
  rcases h with ⟨h3, rfl⟩ | ⟨h3, h4, rfl⟩
  · unfold dsDeleteDim
    rw [if_pos h3, h1]
    cases ret
    · exact .inr rfl
    · exact .inl rfl
  · unfold dsDeleteDim
    rw [if_neg (not_lt.2 h3), if_pos h4, h1]
    cases ret
    · exact .inr rfl
    · exact .inl rfl

/-- With a direct-sum container, deleting removes exactly the particle of the reference if it is owned, or a halo particle that is near the faces of only one
dimension. Missing: halo particles near several dimensions (`C34_violated_directSum_halo`) and the returned value (`C34_violated_directSum_return`). -/
theorem C34_directSum_partial (bMin bMax : V3 Rat) (skinHalf : Rat) (s : Stored) (k i : Nat) (p : Particle) (hp : s.get (.cell k i) = some p)
    (hplace : (p.own = .owned ∧ k = 0) ∨ (p.own = .halo ∧
      ((HaloSide p.pos.x bMin.x bMax.x skinHalf 0 k ∧ FarInside p.pos.y bMin.y bMax.y skinHalf ∧ FarInside p.pos.z bMin.z bMax.z skinHalf) ∨
       (FarInside p.pos.x bMin.x bMax.x skinHalf ∧ HaloSide p.pos.y bMin.y bMax.y skinHalf 1 k ∧ FarInside p.pos.z bMin.z bMax.z skinHalf) ∨
       (FarInside p.pos.x bMin.x bMax.x skinHalf ∧ FarInside p.pos.y bMin.y bMax.y skinHalf ∧ HaloSide p.pos.z bMin.z bMax.z skinHalf 2 k)))) :
    ∃ s' ret, apasDelete (dsDelete bMin bMax skinHalf) s (.cell k i) = .ok (s', ret) ∧ (s'.all ++ [p]).Perm s.all := by
  unfold apasDelete
  rw [hp]
  simp only [deleteFromBuffers]
  rcases hplace with ⟨ho, rfl⟩ | ⟨ho, h⟩
  · obtain ⟨s', ret, h1, h2⟩ := swapDel_own hp
    exact ⟨s', ret, by rw [dsDelete, ho]; exact h1, h2⟩
  · unfold dsDelete
    rw [ho]
    simp only
    rcases h with ⟨hx, hy, hz⟩ | ⟨hx, hy, hz⟩ | ⟨hx, hy, hz⟩
    · obtain ⟨s', h1, h2⟩ := dsDim_side hp hx
      rcases h1 with h1 | h1
      · exact ⟨s', true, by rw [h1]; rfl, h2⟩
      · exact ⟨s', false, by rw [h1]; simp only [Outcome.bind]; rw [dsDim_inside hy]; simp only; rw [dsDim_inside hz], h2⟩
    · obtain ⟨s', h1, h2⟩ := dsDim_side hp hy
      rw [dsDim_inside hx]
      simp only [Outcome.bind]
      rcases h1 with h1 | h1
      · exact ⟨s', true, by rw [h1], h2⟩
      · exact ⟨s', false, by rw [h1]; simp only; rw [dsDim_inside hz], h2⟩
    · obtain ⟨s', h1, h2⟩ := dsDim_side hp hz
      rw [dsDim_inside hx]
      simp only [Outcome.bind]
      rw [dsDim_inside hy]
      simp only
      rcases h1 with h1 | h1
      · exact ⟨s', true, by rw [h1], h2⟩
      · exact ⟨s', false, by rw [h1], h2⟩

/-- With the Verlet-list containers the particle stays in memory as a dummy: the other particles are unchanged, and `false` is
returned, unless the particle was in a buffer. -/
theorem C34_verlet_lists_mark (s : Stored) (k i : Nat) (p : Particle) (hp : s.get (.cell k i) = some p) :
    ∃ s', apasDelete markDelete s (.cell k i) = .ok (s', false) ∧ s'.get (.cell k i) = some { p with own := .dummy } ∧
      (s'.all ++ [p]).Perm (s.all ++ [{ p with own := .dummy }]) := by
  have hk := getD_lt hp
  have hi : i < (s.cells.getD k []).length := by
    obtain ⟨h1, -⟩ := List.getElem?_eq_some_iff.1 hp; exact h1
  refine ⟨s.write (.cell k i) { p with own := .dummy }, ?_, ?_, ?_⟩
  · unfold apasDelete; rw [hp]; rfl
  · show ((s.cells.set k ((s.cells.getD k []).set i _)).getD k [])[i]? = _
    rw [List.getD, List.getElem?_set_self hk, Option.getD_some, List.getElem?_set_self hi]
  · show (s.bufs.flatten ++ s.haloBufs.flatten ++ (s.cells.set k ((s.cells.getD k []).set i { p with own := .dummy })).flatten ++ [p]).Perm _
    rw [List.append_assoc]
    show List.Perm _ (s.bufs.flatten ++ s.haloBufs.flatten ++ s.cells.flatten ++ [{ p with own := .dummy }])
    rw [List.append_assoc (s.bufs.flatten ++ s.haloBufs.flatten)]
    refine List.Perm.append_left _ ?_
    have h2 : (s.cells.getD k [])[i]? = some p := hp
    clear hp hi
    generalize s.cells = l at hk h2
    induction l generalizing k with
    | nil => simp at hk
    | cons x l ih =>
      cases k with
      | zero =>
        simp only [List.getD_cons_zero, List.set_cons_zero, List.flatten_cons] at *
        have := set_perm h2 { p with own := .dummy }
        have sw : ∀ (a b : List Particle) (q : Particle), (a ++ b ++ [q]).Perm (a ++ [q] ++ b) := by
          intro a b q; simp only [List.append_assoc]; exact List.Perm.append_left _ List.perm_append_comm
        exact (sw _ _ _).trans ((this.append_right _).trans (sw _ _ _).symm)
      | succ k =>
        simp only [List.getD_cons_succ, List.set_cons_succ, List.flatten_cons, List.append_assoc] at *
        exact (ih k (by simpa using hk) h2).append_left _

/-- An owned particle that moved to the neighbour cell. -/
def strayed : Particle := ⟨1, ⟨5/4, 1/2, 1/2⟩, .owned⟩

/-- The linked-cells container looks for the particle in the cell its current position belongs to. If the particle has moved
out of the cell it is stored in, this is undefined behaviour when that other cell is empty. -/
theorem C34_violated_moved :
    (⟨[], [], oneCell 13 [strayed]⟩ : Stored).get (.cell 13 0) = some strayed ∧
    apasDelete (lcDelete exBlock) ⟨[], [], oneCell 13 [strayed]⟩ (.cell 13 0) = .ub := by
  refine ⟨rfl, ?_⟩
  have hidx : exBlock.flatIndexOfPosition strayed.pos = 14 := by
    have := exBlock_flat strayed.pos
    have e1 : ⌊strayed.pos.x⌋ = 1 := Int.floor_eq_iff.2 ⟨by norm_num [strayed], by norm_num [strayed]⟩
    have e2 : ⌊strayed.pos.y⌋ = 0 := Int.floor_eq_iff.2 ⟨by norm_num [strayed], by norm_num [strayed]⟩
    have e3 : ⌊strayed.pos.z⌋ = 0 := Int.floor_eq_iff.2 ⟨by norm_num [strayed], by norm_num [strayed]⟩
    rw [e1, e2, e3] at this
    omega
  have hg : (⟨[], [], oneCell 13 [strayed]⟩ : Stored).get (.cell 13 0) = some strayed := rfl
  unfold apasDelete
  rw [hg]
  simp only [deleteFromBuffers, lcDelete, swapDelFromCell, hidx]
  rw [oneCell_get (by decide)]
  rfl

/-- The direct-sum container returns the opposite: after deleting the first of two owned particles the reference denotes the
second, but `false` is returned; after deleting the last one the reference dangles, but `true` is returned. -/
theorem C34_violated_directSum_return (bMin bMax : V3 Rat) (skinHalf : Rat) :
    apasDelete (dsDelete bMin bMax skinHalf) ⟨[], [], [[exOwned, exOwned2], [], [], [], [], [], []]⟩ (.cell 0 0) =
      .ok (⟨[], [], [[exOwned2], [], [], [], [], [], []]⟩, false) ∧
    apasDelete (dsDelete bMin bMax skinHalf) ⟨[], [], [[exOwned, exOwned2], [], [], [], [], [], []]⟩ (.cell 0 1) =
      .ok (⟨[], [], [[exOwned], [], [], [], [], [], []]⟩, true) := ⟨rfl, rfl⟩

/-- Three halo particles of the direct-sum container. -/
def dsHalo1 : Particle := ⟨1, ⟨-1/2, -1/2, 1/2⟩, .halo⟩
def dsHalo2 : Particle := ⟨2, ⟨-1/4, 1/2, 1/2⟩, .halo⟩
def dsHalo3 : Particle := ⟨3, ⟨1/2, -1/2, 1/2⟩, .halo⟩

/-- The direct-sum container can lose another particle: deleting the first of two halo particles in the halo cell for small x
also removes the last one of the halo cell for small y. -/
theorem C34_violated_directSum_halo :
    apasDelete (dsDelete ⟨0, 0, 0⟩ ⟨1, 1, 1⟩ (1/10)) ⟨[], [], [[], [dsHalo1, dsHalo2], [], [dsHalo3], [], [], []]⟩ (.cell 1 0) =
      .ok (⟨[], [], [[], [dsHalo3], [], [], [], [], []]⟩, false) := by decide +kernel

/-- A halo particle below the box in y, at a coordinate x where half a skin ends. -/
example : (⟨[], [], [[], [dsHalo2], [], [⟨4, ⟨1/10, -1/2, 1/2⟩, .halo⟩, dsHalo3], [], [], []]⟩ : Stored).get (.cell 3 0) = some ⟨4, ⟨1/10, -1/2, 1/2⟩, .halo⟩ ∧
    FarInside (1/10) 0 1 (1/10) ∧ HaloSide (-1/2) 0 1 (1/10) 1 3 ∧ FarInside (1/2) 0 1 (1/10) := by
  refine ⟨rfl, ⟨by norm_num, by norm_num⟩, .inl ⟨by norm_num, rfl⟩, ⟨by norm_num, by norm_num⟩⟩

/-- The hypotheses can be met: a reference to the first particle of an insertion buffer, and one into the container. -/
example : PlacedRight exBlock ⟨exVecs, [], oneCell 13 [exOwned, exOwned2]⟩ (.buf 0 0) ∧
    PlacedRight exBlock ⟨exVecs, [], oneCell 13 [exOwned, exOwned2]⟩ (.cell 13 0) := by
  constructor
  · intro p hp; cases hp; rfl
  · intro p hp
    have : exOwned = p := Option.some.inj hp
    subst this
    have := exBlock_flat exOwned.pos
    have e1 : ⌊exOwned.pos.x⌋ = 0 := Int.floor_eq_iff.2 ⟨by norm_num [exOwned], by norm_num [exOwned]⟩
    have e2 : ⌊exOwned.pos.y⌋ = 0 := Int.floor_eq_iff.2 ⟨by norm_num [exOwned], by norm_num [exOwned]⟩
    have e3 : ⌊exOwned.pos.z⌋ = 0 := Int.floor_eq_iff.2 ⟨by norm_num [exOwned], by norm_num [exOwned]⟩
    rw [e1, e2, e3] at this
    show exBlock.flatIndexOfPosition exOwned.pos = 13
    omega

end Verif
