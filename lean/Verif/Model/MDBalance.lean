import Verif.Model.MDDomain
/-!
# The inverted pressure load balancer of md-flexible

/repo/examples/md-flexible/src/domainDecomposition/RegularGridDecomposition.cpp:598-676. All ranks at once: `work r` is the load measured by rank
`r`. The messages between neighbours carry the average work of the plane and the old bounds of the box.
-/
namespace Verif

/-- The other two dimensions, `(i + 1) % 3` and `(i + 2) % 3`. -/
def Axis.next : Axis → Axis
  | .x => .y
  | .y => .z
  | .z => .x

/-- `averageWorkInPlane[d]`, RegularGridDecomposition.cpp:609-619: the sum over all ranks with the same index along `d` (the planar communicators,
RegularGridDecomposition.cpp:115-121), divided by their number. -/
def RGD.planeWork (D : RGD) (work : V3 Nat → Rat) (d : Axis) (r : V3 Nat) : Rat :=
  let u := d.next
  let v := d.next.next
  let count := D.dec.at u * D.dec.at v
  if count > 1 then
    (((List.range (D.dec.at u)).flatMap fun i => (List.range (D.dec.at v)).map fun j => work ((r.put u i).put v j)).sum) / (count : Rat)
  else work r

/-- The minimum width of a domain, RegularGridDecomposition.cpp:656. -/
def RGD.minWidth (D : RGD) : Rat := 2 * (D.cutoff + D.skin)

/-- The new `_localBoxMin[d]`, RegularGridDecomposition.cpp:643-658; `none`: not a number. -/
def RGD.balanceLo (D : RGD) (work : V3 Nat → Rat) (d : Axis) (r : V3 Nat) : Option Rat :=
  let lo := (D.lo r).at d
  if D.atMin d r then some lo
  else (balanceAdjacentDomains (D.planeWork work d (D.left d r)) (D.planeWork work d r) ((D.lo (D.left d r)).at d) ((D.hi r).at d) D.minWidth).map
    fun b => lo + (b - lo) / 2

/-- The new `_localBoxMax[d]`, RegularGridDecomposition.cpp:660-674. -/
def RGD.balanceHi (D : RGD) (work : V3 Nat → Rat) (d : Axis) (r : V3 Nat) : Option Rat :=
  let hi := (D.hi r).at d
  if D.atMax d r then some hi
  else (balanceAdjacentDomains (D.planeWork work d r) (D.planeWork work d (D.right d r)) ((D.lo r).at d) ((D.hi (D.right d r)).at d) D.minWidth).map
    fun b => hi + (b - hi) / 2

/-- `balanceWithInvertedPressureLoadBalancer` on rank `r`: its new local box, if all bounds are numbers. -/
def RGD.balanceBox (D : RGD) (work : V3 Nat → Rat) (r : V3 Nat) : Option (V3 Rat × V3 Rat) := do
  let x0 ← D.balanceLo work .x r
  let x1 ← D.balanceHi work .x r
  let y0 ← D.balanceLo work .y r
  let y1 ← D.balanceHi work .y r
  let z0 ← D.balanceLo work .z r
  let z1 ← D.balanceHi work .z r
  return (⟨x0, y0, z0⟩, ⟨x1, y1, z1⟩)

end Verif
