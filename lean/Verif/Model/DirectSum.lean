import Verif.Model.LCInteract
import Verif.Model.Iterator
import Verif.Spec.Geometry
/-!
The container DirectSum, /repo/src/autopas/containers/directSum/DirectSum.h and traversals/DSSequentialTraversal.h. Cell 0 is for the
inside of the box, cells 1 to 6 are for the halo.
-/
namespace Verif

/-- The number of the cell in `addHaloParticleImpl`, DirectSum.h:100-114; 0 stands for "not stored" (the position is inside the box). -/
def dsCellOf (bMin bMax pos : V3 Rat) : Nat :=
  if pos.x < bMin.x then 1 else if pos.x ≥ bMax.x then 2
  else if pos.y < bMin.y then 3 else if pos.y ≥ bMax.y then 4
  else if pos.z < bMin.z then 5 else if pos.z ≥ bMax.z then 6
  else 0

/-- `addParticleImpl`, DirectSum.h:95. -/
def dsAdd (cells : List (List Particle)) (p : Particle) : List (List Particle) := cells.set 0 (cells.getD 0 [] ++ [p])

/-- `addHaloParticleImpl`, DirectSum.h:100-114. -/
def dsAddHalo (bMin bMax : V3 Rat) (cells : List (List Particle)) (p : Particle) : List (List Particle) :=
  let k := dsCellOf bMin bMax p.pos
  if k = 0 then cells else cells.set k (cells.getD k [] ++ [p])

/-- `checkParticleInCellAndUpdateByIDAndPosition`, /repo/src/autopas/utils/ParticleCellHelpers.h:38-56. -/
def updateByIdAndPosition (absError : Rat) (p : Particle) : List Particle → Option (List Particle)
  | [] => none
  | q :: l =>
    if q.id = p.id ∧ Spec.distSq q.pos p.pos < absError * absError then some (p :: l)
    else (updateByIdAndPosition absError p l).map (q :: ·)

/-- The cells searched in `updateHaloParticle`, in this order, DirectSum.h:126-136. -/
def dsUpdateCells (bMin bMax pos : V3 Rat) (skinHalf : Rat) : List Nat :=
  (if pos.x < bMin.x + skinHalf then [1] else if pos.x ≥ bMax.x - skinHalf then [2] else []) ++
  (if pos.y < bMin.y + skinHalf then [3] else if pos.y ≥ bMax.y - skinHalf then [4] else []) ++
  (if pos.z < bMin.z + skinHalf then [5] else if pos.z ≥ bMax.z - skinHalf then [6] else [])

/-- Search in several cells, returning after the first success. -/
def updateFirst (absError : Rat) (p : Particle) (cells : List (List Particle)) : List Nat → Option (List (List Particle))
  | [] => none
  | k :: ks =>
    match updateByIdAndPosition absError p (cells.getD k []) with
    | some l => some (cells.set k l)
    | none => updateFirst absError p cells ks

/-- `updateHaloParticle`, DirectSum.h:119-138. `none`: the function returns false. -/
def dsUpdateHalo (bMin bMax : V3 Rat) (skin : Rat) (cells : List (List Particle)) (p : Particle) : Option (List (List Particle)) :=
  let skinHalf := skin / 2
  updateFirst skinHalf p cells (dsUpdateCells bMin bMax p.pos skinHalf)

/-- `deleteHaloParticles`, DirectSum.h:140-144. -/
def dsDeleteHalo (cells : List (List Particle)) : List (List Particle) := cells.zipIdx.map fun e => if e.2 = 0 then e.1 else []

/-- The loop in `updateContainer`, DirectSum.h:170-179, from index `i` on: (particles that left, in the order in which they are found;
the remaining vector). -/
def dsTakeOutside (bMin bMax : V3 Rat) (l : List Particle) (i : Nat) : List Particle × List Particle :=
  match h : l[i]? with
  | none => ([], l)
  | some p =>
    if inBoxB p.pos bMin bMax = false then
      let r := dsTakeOutside bMin bMax (swapDelete l i) i
      (p :: r.1, r.2)
    else dsTakeOutside bMin bMax l (i + 1)
termination_by l.length - i
decreasing_by
  · obtain ⟨hl, -⟩ := List.getElem?_eq_some_iff.1 h
    unfold swapDelete
    split
    · rename_i hn; rw [List.getLast?_eq_none_iff] at hn; subst hn; simp at hl
    · rw [if_pos hl]; simp; omega
  · obtain ⟨hl, -⟩ := List.getElem?_eq_some_iff.1 h
    omega

/-- `updateContainer(false)`, DirectSum.h:164-180 (`deleteDummyParticles`: /repo/src/autopas/cells/FullParticleCell.h:227-231): the particles that
left and the new cells. -/
def dsUpdateContainer (bMin bMax : V3 Rat) (cells : List (List Particle)) : List Particle × List (List Particle) :=
  let cells := dsDeleteHalo cells
  let r := dsTakeOutside bMin bMax ((cells.getD 0 []).filter fun p => p.own ≠ .dummy) 0
  (r.1, cells.set 0 r.2)

section
variable {P : Type}

/-- `haloDirections`, DSSequentialTraversal.h:103-104. -/
def dsDirections : List (V3 Rat) :=
  [⟨0, 0, 0⟩, ⟨-1, 0, 0⟩, ⟨1, 0, 0⟩, ⟨0, -1, 0⟩, ⟨0, 1, 0⟩, ⟨0, 0, -1⟩, ⟨0, 0, 1⟩]

/-- `traverseParticles` for pair functors, DSSequentialTraversal.h:93-109; `n` is `cells.size()`. -/
def dsOps (n : Nat) : List CellOp :=
  .self 0 :: (List.range (n - 1)).map fun i => .pair 0 ((i + 1 : Nat) : Int) (dsDirections.getD (i + 1) ⟨0, 0, 0⟩)

/-- The ownership flags of the cells, DirectSum.h:71-75. -/
def dsPCells (cells : List (List P)) : List (PCell P) := cells.zipIdx.map fun e => ⟨e.1, decide (e.2 = 0)⟩

/-- `computeInteractions` of DirectSum, DirectSum.h:152-158. -/
def dsCalls (f : CellFunctorCfg P) (cells : List (List P)) : List (PairCall P) := f.run (dsPCells cells) [[dsOps cells.length]]

end
end Verif
