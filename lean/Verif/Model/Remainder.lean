import Verif.Model.CellFunctor
import Verif.Model.Ownership
import Verif.Model.BalanceVectors
/-!
Model of the remainder traversals of /repo/src/autopas/LogicHandler.h: interactions of the particles that are not (yet) in
the container but in the insertion buffers.

* The container is a list of particles; `forEachInRegion` and the region iterator visit the particles of the region with the
  right ownership (that they really do is C30 and C32).
* `SoAFunctorSingle(soa, true)` and `SoAFunctorPair(soa1, soa2, false)` stand for the functor calls they perform according to
  their documentation (/repo/src/autopas/baseFunctors/PairwiseFunctor.h:60-107).
* The result is the list of functor calls of one possible schedule.
-/
namespace Verif

section
variable {P : Type} (pos : P → V3 Rat) (own : P → Ownership)

/-- `container.forEachInRegion(…, pos - cutoff, pos + cutoff, behavior)`, LogicHandler.h:1222-1240, 1245-1259. -/
def regionAround (cutoff : Rat) (cont : List P) (behavior : Nat) (center : V3 Rat) : List P :=
  cont.filter fun p => fulfillsOwnership behavior (own p) &&
    inBoxB (pos p) ⟨center.x - cutoff, center.y - cutoff, center.z - cutoff⟩
      ⟨center.x + cutoff, center.y + cutoff, center.z + cutoff⟩

/-- Lambda of step 1, LogicHandler.h:1227-1237. Each call comes with the particle whose spatial lock is held. -/
def remStep1 (newton3 : Bool) (p1 p2 : P) : List (Option P × PairCall P) :=
  if newton3 then [(some p2, ⟨p1, p2, true⟩)]
  else (none, ⟨p1, p2, false⟩) :: (if own p2 ≠ .halo then [(some p2, ⟨p2, p1, false⟩)] else [])

/-- Iteration `bufferId` of the parallel loop of `remainderHelperBufferContainer`, LogicHandler.h:1220-1263. -/
def remBufferContainerTask (newton3 : Bool) (cutoff : Rat) (cont : List P) (pb hb : List (List P)) (bufferId : Nat) :
    List (Option P × PairCall P) :=
  ((pb.getD bufferId []).flatMap fun p1 =>
    (regionAround pos own cutoff cont ibOwnedOrHalo (pos p1)).flatMap fun p2 => remStep1 own newton3 p1 p2) ++
  ((hb.getD bufferId []).flatMap fun p1halo =>
    (regionAround pos own cutoff cont ibOwned (pos p1halo)).map fun p2 => (some p2, ⟨p2, p1halo, newton3⟩))

/-- `remainderHelperBufferContainer`, LogicHandler.h:1192-1264. -/
def remBufferContainer (newton3 : Bool) (cutoff : Rat) (cont : List P) (pb hb : List (List P)) : List (PairCall P) :=
  ((List.range pb.length).flatMap (remBufferContainerTask pos own newton3 cutoff cont pb hb)).map fun c => c.2

/-- `SoAFunctorSingle(soa, true)`. -/
def soaSingleN3 (l : List P) : List (PairCall P) := (pairLoop (fun _ _ => false) l).map fun t => ⟨t.1, t.2, true⟩

/-- `SoAFunctorPair(soa1, soa2, false)`. -/
def soaPairNoN3 (l₁ l₂ : List P) : List (PairCall P) :=
  (crossLoop (fun _ _ => false) l₁ l₂).map fun t => ⟨t.1, t.2, false⟩

/-- Iteration `i` of the parallel loop of `remainderHelperBufferBuffer`, LogicHandler.h:1285-1296. -/
def remBufferBufferTask (pb : List (List P)) (i : Nat) : List (PairCall P) :=
  (List.range pb.length).flatMap fun jj =>
    let j := (i + jj) % pb.length
    if i = j then soaSingleN3 (pb.getD i []) else soaPairNoN3 (pb.getD i []) (pb.getD j [])

/-- `remainderHelperBufferBuffer`, LogicHandler.h:1268-1298. -/
def remBufferBuffer (pb : List (List P)) : List (PairCall P) := (List.range pb.length).flatMap (remBufferBufferTask pb)

/-- Iteration `i` of the parallel loop in phase `off` of `remainderHelperBufferHaloBuffer`, LogicHandler.h:1309-1314. -/
def remBufferHaloBufferTask (pb hb : List (List P)) (off i : Nat) : List (PairCall P) :=
  soaPairNoN3 (pb.getD i []) (hb.getD ((i + off) % hb.length) [])

/-- `remainderHelperBufferHaloBuffer`, LogicHandler.h:1302-1316. -/
def remBufferHaloBuffer (pb hb : List (List P)) : List (PairCall P) :=
  (List.range hb.length).flatMap fun off => (List.range pb.length).flatMap fun i => remBufferHaloBufferTask pb hb off i

/-- `computeRemainderInteractions2B`, LogicHandler.h:1127-1188. -/
def remainder2B (newton3 : Bool) (cutoff : Rat) (cont : List P) (pb hb : List (List P)) : List (PairCall P) :=
  let pb := balanceVectors pb
  let hb := balanceVectors hb
  remBufferContainer pos own newton3 cutoff cont pb hb ++ remBufferBuffer pb ++ remBufferHaloBuffer pb hb

/-- `remainderHelper3bBufferBufferBuffer`, LogicHandler.h:1401-1420; `nOwned` is `numOwnedBufferParticles`. -/
def rem3BufferBufferBuffer (nOwned : Nat) (buf : List P) : List (TripleCall P) :=
  (List.range nOwned).flatMap fun i => (List.range buf.length).flatMap fun j =>
    if i = j then [] else
      (List.range buf.length).flatMap fun k =>
        if k < j + 1 then [] else if k = i then [] else
          match buf[i]?, buf[j]?, buf[k]? with
          | some p1, some p2, some p3 => [⟨p1, p2, p3, false⟩]
          | _, _, _ => []

/-- `remainderHelper3bBufferBufferContainer`, LogicHandler.h:1424-1457. -/
def rem3BufferBufferContainer (nOwned : Nat) (buf : List P) (cutoff : Rat) (cont : List P) : List (TripleCall P) :=
  (List.range buf.length).flatMap fun i => (List.range buf.length).flatMap fun j =>
    if j = i then [] else
      match buf[i]?, buf[j]? with
      | some p1, some p2 =>
        (regionAround pos own cutoff cont ibOwnedOrHalo (pos p1)).flatMap fun p3 =>
          (if i < nOwned then [⟨p1, p2, p3, false⟩] else []) ++
            (if own p3 ≠ .halo ∧ i < j then [⟨p3, p1, p2, false⟩] else [])
      | _, _ => []

/-- `remainderHelper3bBufferContainerContainer`, LogicHandler.h:1461-1503. The iterator `p3Iter` starts behind `p2Iter`. -/
def rem3BufferContainerContainer (newton3 : Bool) (nOwned : Nat) (buf : List P) (cutoff : Rat) (cont : List P) :
    List (TripleCall P) :=
  (List.range buf.length).flatMap fun i =>
    match buf[i]? with
    | some p1 =>
      (pairLoop (fun _ _ => false)
        (regionAround pos own cutoff cont (ibOwnedOrHalo ||| ibForceSequential) (pos p1))).flatMap fun t =>
        if newton3 then [⟨p1, t.1, t.2, true⟩]
        else
          (if i < nOwned then [⟨p1, t.1, t.2, false⟩] else []) ++
            (if own t.1 = .owned then [⟨t.1, p1, t.2, false⟩] else []) ++
            (if own t.2 = .owned then [⟨t.2, p1, t.1, false⟩] else [])
    | none => []

/-- `computeRemainderInteractions3B` with `collectBufferParticles`, LogicHandler.h:1320-1397. -/
def remainder3B (newton3 : Bool) (cutoff : Rat) (cont : List P) (pb hb : List (List P)) : List (TripleCall P) :=
  let buf := pb.flatten ++ hb.flatten
  let nOwned := pb.flatten.length
  rem3BufferBufferBuffer nOwned buf ++ rem3BufferBufferContainer pos own nOwned buf cutoff cont ++
    rem3BufferContainerContainer pos own newton3 nOwned buf cutoff cont

end
end Verif
