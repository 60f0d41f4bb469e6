import Verif.Lemmas.CellGeometry
/-!
# C04 — The boxes of the cells tile the domain, and lookup agrees with them
-/
namespace Verif
open Spec

/-- The box that `getCellBoundingBox` reports for cell `c` contains `p` (lower faces included, upper faces excluded). -/
def InCellBox (b : CellBlock) (c : V3 Nat) (p : V3 Rat) : Prop :=
  InBox p ⟨(b.x.boundingBox id c.x).1, (b.y.boundingBox id c.y).1, (b.z.boundingBox id c.z).1⟩
    ⟨(b.x.boundingBox id c.x).2, (b.y.boundingBox id c.y).2, (b.z.boundingBox id c.z).2⟩

/-- Every position of the box including the halo layer lies in the reported box of exactly one cell, namely of the
cell that position lookup returns. -/
theorem C04_boxes_tile (bMin bMax : V3 Rat) (il csf : Rat) (hbox : GoodBox bMin bMax il csf) (p : V3 Rat)
    (hp : InBox p
      ⟨(CellBlock.rebuild id bMin bMax il csf).x.haloBoxMin, (CellBlock.rebuild id bMin bMax il csf).y.haloBoxMin,
       (CellBlock.rebuild id bMin bMax il csf).z.haloBoxMin⟩
      ⟨(CellBlock.rebuild id bMin bMax il csf).x.haloBoxMax, (CellBlock.rebuild id bMin bMax il csf).y.haloBoxMax,
       (CellBlock.rebuild id bMin bMax il csf).z.haloBoxMax⟩)
    (c : V3 Nat) (hc : InGrid c (CellBlock.rebuild id bMin bMax il csf).dims) :
    InCellBox (CellBlock.rebuild id bMin bMax il csf) c p ↔
      c = (CellBlock.rebuild id bMin bMax il csf).indexOfPosition id p := by
  have h1 := axis_tile (il := il) hbox.hx hbox.csfPos hc.1 hp.1.1 hp.1.2
  have h2 := axis_tile (il := il) hbox.hy hbox.csfPos hc.2.1 hp.2.1.1 hp.2.1.2
  have h3 := axis_tile (il := il) hbox.hz hbox.csfPos hc.2.2 hp.2.2.1 hp.2.2.2
  unfold InCellBox InBox
  obtain ⟨cx, cy, cz⟩ := c
  simp only [CellBlock.rebuild, CellBlock.indexOfPosition, V3.mk.injEq] at *
  rw [h1, h2, h3]

/-- The halo layer reaches at least one interaction length beyond the box on every side. -/
theorem C04_halo_layer_contains_interaction_length (bMin bMax : V3 Rat) (il csf : Rat)
    (hbox : GoodBox bMin bMax il csf) :
    let b := CellBlock.rebuild id bMin bMax il csf
    (b.x.haloBoxMin ≤ bMin.x - il ∧ b.y.haloBoxMin ≤ bMin.y - il ∧ b.z.haloBoxMin ≤ bMin.z - il) ∧
    (bMax.x + il ≤ b.x.haloBoxMax ∧ bMax.y + il ≤ b.y.haloBoxMax ∧ bMax.z + il ≤ b.z.haloBoxMax) := by
  intro b
  have hx := cellLength_ge hbox.hx hbox.ilPos hbox.csfPos hbox.wx
  have hy := cellLength_ge hbox.hy hbox.ilPos hbox.csfPos hbox.wy
  have hz := cellLength_ge hbox.hz hbox.ilPos hbox.csfPos hbox.wz
  have e1 : b.x.haloBoxMin = bMin.x - cellsPerInteractionLength id csf * (AxisBlock.rebuild id bMin.x bMax.x il csf).cellLength := rfl
  have e2 : b.y.haloBoxMin = bMin.y - cellsPerInteractionLength id csf * (AxisBlock.rebuild id bMin.y bMax.y il csf).cellLength := rfl
  have e3 : b.z.haloBoxMin = bMin.z - cellsPerInteractionLength id csf * (AxisBlock.rebuild id bMin.z bMax.z il csf).cellLength := rfl
  have e4 : b.x.haloBoxMax = bMax.x + cellsPerInteractionLength id csf * (AxisBlock.rebuild id bMin.x bMax.x il csf).cellLength := rfl
  have e5 : b.y.haloBoxMax = bMax.y + cellsPerInteractionLength id csf * (AxisBlock.rebuild id bMin.y bMax.y il csf).cellLength := rfl
  have e6 : b.z.haloBoxMax = bMax.z + cellsPerInteractionLength id csf * (AxisBlock.rebuild id bMin.z bMax.z il csf).cellLength := rfl
  rw [e1, e2, e3, e4, e5, e6]
  refine ⟨⟨?_, ?_, ?_⟩, ?_, ?_, ?_⟩ <;> linarith

-- a 10×20×30 box, interaction length 3, cell size factor 1/2 (two halo layers)
example : GoodBox ⟨0, 0, 0⟩ ⟨10, 20, 30⟩ 3 (1 / 2) := by constructor <;> norm_num

end Verif
