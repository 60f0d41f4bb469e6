import Verif.Model.MDMigrate
import Verif.Model.MDBalance
import Verif.Spec.MDDomain
/-!
# The time loop of md-flexible, on all ranks

/repo/examples/md-flexible/src/Simulation.cpp:212-270. The container of a rank is represented by the list of its owned particles. Its calls are used
as the API promises them: `updateContainer` hands back the owned particles outside the box and removes the halo particles, `resizeBox` hands back the
owned particles outside the new box (it misses particles in the insertion buffers until the next update, see C29), `addParticle` throws if the particle is
outside the box, `addHaloParticle` throws if it is inside.
-/
namespace Verif
open Spec

/-- All ranks: their boxes and their owned particles. -/
structure MDState where
  D : RGD
  own : V3 Nat → List Particle

/-- What happens in one iteration from outside: how the particles move (`updatePositionsAndResetForces`; the new positions may depend on everything),
and, in a load balancing iteration, the loads. -/
structure MDInput where
  move : (V3 Nat → List Particle) → V3 Nat → List Particle
  balance : Option (V3 Nat → Rat)

/-- The outcome for all ranks: one rank throwing ends the program. -/
def allRanks {α : Type} (dec : V3 Nat) (f : V3 Nat → Outcome α) (dflt : α) : Outcome (V3 Nat → α) :=
  if (ranks dec).all (fun r => match f r with | .ok _ => true | _ => false) then
    .ok fun r => match f r with | .ok a => a | _ => dflt
  else .throws

/-- `_domainDecomposition->update`, RegularGridDecomposition.cpp:84-101 and Simulation.cpp:236, with the inverted pressure load balancer. A bound that is
not a number is undefined behaviour from here on. -/
def RGD.update (D : RGD) : Option (V3 Nat → Rat) → Outcome RGD
  | none => .ok D
  | some work =>
    if (ranks D.dec).all (fun r => (D.balanceBox work r).isSome) then
      .ok { D with lo := fun r => ((D.balanceBox work r).getD (D.lo r, D.hi r)).1, hi := fun r => ((D.balanceBox work r).getD (D.lo r, D.hi r)).2 }
    else .ub

/-- The container accepts the box, LogicHandler.h:210-217 and 970-981. -/
def RGD.boxAccepted (D : RGD) (r : V3 Nat) : Bool :=
  [Axis.x, .y, .z].all fun d => decide ((D.lo r).at d < (D.hi r).at d) && decide (D.cutoff + D.skin ≤ (D.hi r).at d - (D.lo r).at d)

/-- `emigrants` after `updateContainer` and, in a load balancing iteration, after the reinsertion, Simulation.cpp:229-260. -/
def mdEmigrants (D D' : RGD) (moved : V3 Nat → List Particle) (r : V3 Nat) : List Particle :=
  let emigrants := (moved r).filter fun p => !inBoxB p.pos (D.lo r) (D.hi r)
  let kept := (moved r).filter fun p => inBoxB p.pos (D.lo r) (D.hi r)
  let additional := kept.filter fun p => !inBoxB p.pos (D'.lo r) (D'.hi r)
  (emigrants.filter fun p => !inBoxB p.pos (D'.lo r) (D'.hi r)) ++ additional

/-- The owned particles in the container at that point. -/
def mdKept (D D' : RGD) (moved : V3 Nat → List Particle) (r : V3 Nat) : List Particle :=
  let emigrants := (moved r).filter fun p => !inBoxB p.pos (D.lo r) (D.hi r)
  let kept := (moved r).filter fun p => inBoxB p.pos (D.lo r) (D.hi r)
  (kept.filter fun p => inBoxB p.pos (D'.lo r) (D'.hi r)) ++ emigrants.filter fun p => inBoxB p.pos (D'.lo r) (D'.hi r)

/-- One iteration up to the halo exchange, Simulation.cpp:222-270: the new state and the halo particles of every rank. -/
def mdStep (wr : Wrap) (st : MDState) (inp : MDInput) : Outcome (MDState × (V3 Nat → List Particle)) :=
  (st.D.update inp.balance).bind fun D' =>
    if !(ranks D'.dec).all D'.boxAccepted then .throws
    else
      let em := mdEmigrants st.D D' (inp.move st.own)
      let kept := mdKept st.D D' (inp.move st.own)
      (allRanks D'.dec (D'.exchangeMigrating wr em) []).bind fun added =>
        let own := fun r => kept r ++ added r
        if !(ranks D'.dec).all (fun r => (added r).all fun p => inBoxB p.pos (D'.lo r) (D'.hi r)) then .throws
        else
          let halo := D'.exchangeHalo own
          if !(ranks D'.dec).all (fun r => (halo r).all fun p => !inBoxB p.pos (D'.lo r) (D'.hi r)) then .throws
          else .ok ({ D := D', own := own }, halo)

/-- Any number of iterations. -/
def mdRun (wr : Wrap) (st : MDState) : List MDInput → Outcome MDState
  | [] => .ok st
  | inp :: inputs => (mdStep wr st inp).bind fun x => mdRun wr x.1 inputs

end Verif
