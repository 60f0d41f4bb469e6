import Verif.Model.LogicParticles
import Verif.Model.Outcome
/-!
Model of `LogicHandler::resizeBox` and of the container regeneration in
/repo/src/autopas/tuning/selectors/ContainerSelector.h, for LinkedCells.
-/
namespace Verif

/-- Adding one particle of the old container to the new one, ContainerSelector.h:176-180, with the box checks of
/repo/src/autopas/containers/ParticleContainerInterface.h:96-108 and :127-140. -/
def containerAdd (c : LHParams) (cells : List (List Particle)) (p : Particle) : Outcome (List (List Particle)) :=
  if p.own = .owned then
    if inBoxB p.pos c.bMin c.bMax then .ok (lcAdd c.block cells p) else .throws
  else
    if inBoxB p.pos c.bMin c.bMax then .throws else .ok (lcAdd c.block cells p)

/-- `generateContainer` with LinkedCells for both the old container (parameters `c`) and the new one (parameters `c'`),
ContainerSelector.h:99-185. `reserve` has no effect on the content. -/
def regenerate (c c' : LHParams) (cells : List (List Particle)) : Outcome (List (List Particle)) :=
  let cfg := lcIterCfg c.block (ibOwned ||| ibHalo) 1 0
  match iterLoop cfg (fun _ p => some p) (cells.flatten.length + 1) [] (iterBegin cfg cells []) with
  | none => .diverges
  | some (vs, _) =>
    (vs.map Visit.before).foldl (fun acc p => acc.bind fun cs => containerAdd c' cs p) (.ok (List.replicate c'.block.numCells []))

/-- The loop body of `resizeBox`, LogicHandler.h:247-252 (for owned particles). -/
def resizeBody (lo hi : V3 Rat) : List Particle → Particle → Option Particle := fun _ p =>
  if inBoxB p.pos lo hi = false then some { p with own := .dummy } else some p

/-- `resizeBox`, LogicHandler.h:200-266. Result: the new parameters, the new state, the particles handed back. The warnings and the
spatial locks are left out. The loop is run to its end before it is checked whether it met a particle that is not owned; in the code it
stops there with the same exception. -/
def LHState.resizeBox (c : LHParams) (s : LHState) (lo hi : V3 Rat) : Outcome (LHParams × LHState × List Particle) :=
  if c.bMin = lo ∧ c.bMax = hi then .ok (c, s, [])
  else if hi.x ≤ lo.x ∨ hi.y ≤ lo.y ∨ hi.z ≤ lo.z then .throws
  else
    let cfg := lcIterCfg c.block (ibOwned ||| ibHalo) 1 0
    match iterLoop cfg (resizeBody lo hi) (s.cells.flatten.length + 1) [] (iterBegin cfg s.cells []) with
    | none => .diverges
    | some (vs, t) =>
      let seen := vs.map Visit.before
      if seen.any fun p => decide (p.own ≠ .owned) then .throws
      else
        let outside := seen.filter fun p => !inBoxB p.pos lo hi
        let c' := { c with bMin := lo, bMax := hi }
        (regenerate c c' t.cells).bind fun cells =>
          .ok (c', { s with cells := cells, contSteps := 0, valid := false, nOwned := s.nOwned - outside.length }, outside)

end Verif
