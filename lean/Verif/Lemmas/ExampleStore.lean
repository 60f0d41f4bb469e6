import Verif.Spec.Iteration
import Verif.Model.CellBlock3D
import Verif.Lemmas.CellGeometry
/-! A small concrete container, used to show that hypotheses can be met. -/
namespace Verif
open Spec

/-- Box `[0,1)³`, interaction length 1, cell size factor 1: 3 × 3 × 3 cells, the middle one (number 13) inside the box. -/
def exBlock : CellBlock := CellBlock.rebuild id ⟨0, 0, 0⟩ ⟨1, 1, 1⟩ 1 1

def exOwned : Particle := ⟨1, ⟨1/2, 1/2, 1/2⟩, .owned⟩
def exOwned2 : Particle := ⟨2, ⟨1/4, 1/2, 1/2⟩, .owned⟩
def exHalo : Particle := ⟨3, ⟨-1/2, -1/2, -1/2⟩, .halo⟩
def exDummy : Particle := ⟨4, ⟨1/2, 1/2, 3/4⟩, .dummy⟩

/-- Two owned particles and a dummy in the middle cell, a halo particle in cell 0. -/
def exCells : List (List Particle) :=
  (List.range 27).map fun i => if i = 13 then [exOwned, exDummy, exOwned2] else if i = 0 then [exHalo] else []

/-- An insertion buffer with one more owned particle. -/
def exVecs : List (List Particle) := [[⟨5, ⟨1/8, 1/8, 1/8⟩, .owned⟩]]

theorem exBlock_dim : exBlock.x.dim = 3 ∧ exBlock.y.dim = 3 ∧ exBlock.z.dim = 3 ∧ exBlock.x.cpil = 1 := by
  have h : (1:Rat) ≥ 1 := le_refl _
  simp [exBlock, CellBlock.rebuild, AxisBlock.rebuild, cellsPerDim, cellsPerInteractionLength]

theorem exBlock_halo (c : Nat) : exBlock.cellCanContainHalo c = decide (c ≠ 13) := by
  obtain ⟨h1, h2, h3, h4⟩ := exBlock_dim
  have hf : exBlock.firstOwned = 13 := by unfold CellBlock.firstOwned; rw [h1, h2, h4]
  have hl : exBlock.lastOwned = 13 := by unfold CellBlock.lastOwned; rw [hf, h1, h2, h3]
  unfold CellBlock.cellCanContainHalo
  rw [hf, hl]
  by_cases hc : c = 13
  · subst hc
    simp [CellBlock.dims, h1, h2, h3, h4, oneToThreeD]
  · rw [if_pos (by omega)]; simp [hc]

theorem exCells_get (c : Nat) : exCells.getD c [] = if c = 13 then [exOwned, exDummy, exOwned2] else if c = 0 then [exHalo] else [] := by
  unfold exCells
  rw [List.getD, List.getElem?_map]
  by_cases h : c < 27
  · rw [List.getElem?_range h]; simp
  · rw [List.getElem?_eq_none (by simpa using h)]
    rw [if_neg (by omega), if_neg (by omega)]; rfl

theorem exStorage (vecs : List (List Particle)) (h1 : ∀ l ∈ vecs, l.length < 2 ^ 64) (h2 : vecs.length < 2 ^ 64) :
    LCStorage exBlock exCells vecs := by
  obtain ⟨d1, d2, d3, d4⟩ := exBlock_dim
  refine ⟨?_, ?_, ?_, ?_, ?_, h1, h2⟩
  · unfold CellBlock.numCells exCells; rw [d1, d2, d3]; simp
  · unfold CellBlock.numCells; rw [d1, d2, d3]; decide
  · intro c p hp ho
    rw [exCells_get] at hp
    rw [exBlock_halo]
    split at hp
    · simp_all
    · split at hp
      · simp only [List.mem_singleton] at hp; subst hp; cases ho
      · cases hp
  · intro c p hp ho
    rw [exCells_get] at hp
    rw [exBlock_halo]
    split at hp
    · simp only [List.mem_cons, List.not_mem_nil, or_false] at hp
      rcases hp with rfl | rfl | rfl <;> cases ho
    · simp_all
  · intro l hl
    unfold exCells at hl
    rw [List.mem_map] at hl
    obtain ⟨i, -, rfl⟩ := hl
    split
    · decide
    · split <;> decide

theorem ex_axis_index (p : Rat) :
    ((AxisBlock.rebuild id 0 1 1 1).indexOfPosition id p : Int) = max 0 (min (⌊p⌋ + 1) 2) := by
  have h := exact_index (bMin := 0) (bMax := 1) (il := 1) (csf := 1) (by norm_num) (by norm_num) p
  have hl : (AxisBlock.rebuild id 0 1 1 1).cellLength = 1 := by simp [AxisBlock.rebuild, cellsPerDim]
  have hd : (AxisBlock.rebuild id 0 1 1 1).dim = 3 := exBlock_dim.1
  have hc : (AxisBlock.rebuild id 0 1 1 1).cpil = 1 := exBlock_dim.2.2.2
  simp only [hl, hd, hc] at h
  rw [h]; norm_num

theorem exBlock_flat (p : V3 Rat) : (exBlock.flatIndexOfPosition p : Int) =
    (max 0 (min (⌊p.z⌋ + 1) 2) * 3 + max 0 (min (⌊p.y⌋ + 1) 2)) * 3 + max 0 (min (⌊p.x⌋ + 1) 2) := by
  have hd : exBlock.dims = ⟨3, 3, 3⟩ := by
    obtain ⟨h1, h2, h3, -⟩ := exBlock_dim
    simp [CellBlock.dims, h1, h2, h3]
  unfold CellBlock.flatIndexOfPosition threeToOneD
  rw [hd]
  push_cast
  rw [← ex_axis_index p.x, ← ex_axis_index p.y, ← ex_axis_index p.z]
  rfl

/-- The 27 cells of `exBlock`, all empty but cell `k`. -/
def oneCell (k : Nat) (ps : List Particle) : List (List Particle) := (List.range 27).map fun i => if i = k then ps else []

theorem oneCell_get {k : Nat} (hk : k < 27) (ps : List Particle) (c : Nat) :
    (oneCell k ps).getD c [] = if c = k then ps else [] := by
  unfold oneCell
  rw [List.getD, List.getElem?_map]
  by_cases h : c < 27
  · rw [List.getElem?_range h]; simp
  · rw [List.getElem?_eq_none (by simpa using h)]
    rw [if_neg (by omega)]; rfl

theorem oneCell_storage {k : Nat} (hk : k < 27) (ps : List Particle) (hl : ps.length < 2 ^ 64)
    (h1 : ∀ p ∈ ps, p.own = .owned → k = 13) (h2 : ∀ p ∈ ps, p.own = .halo → k ≠ 13) :
    LCStorage exBlock (oneCell k ps) [] := by
  obtain ⟨d1, d2, d3, d4⟩ := exBlock_dim
  refine ⟨?_, ?_, ?_, ?_, ?_, by simp, by simp⟩
  · unfold CellBlock.numCells oneCell; rw [d1, d2, d3]; simp
  · unfold CellBlock.numCells; rw [d1, d2, d3]; decide
  · intro c p hp ho
    rw [oneCell_get hk] at hp
    rw [exBlock_halo]
    split at hp
    · have := h1 p hp ho; simp; omega
    · cases hp
  · intro c p hp ho
    rw [oneCell_get hk] at hp
    rw [exBlock_halo]
    split at hp
    · have := h2 p hp ho; simp; omega
    · cases hp
  · intro l hl'
    unfold oneCell at hl'
    rw [List.mem_map] at hl'
    obtain ⟨i, -, rfl⟩ := hl'
    split
    · exact hl
    · decide

theorem exGood : GoodBox ⟨0, 0, 0⟩ ⟨1, 1, 1⟩ 1 1 := by constructor <;> norm_num

end Verif
