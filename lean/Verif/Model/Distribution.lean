import Verif.Model.SearchSpace
/-!
Model of the distribution of the options among MPI ranks: /repo/src/autopas/utils/AutoPasConfigurationCommunicator.cpp:17-157 (`getSearchSpaceSize`,
`generateDistribution`, `distributeConfigurations`) and utils/ConfigurationAndRankIteratorHandler.cpp.

* `std::set` of options: a list in ascending order; an iterator is the list of the elements from its position on, `[]` is `end()`.
* Dereferencing or incrementing `end()` is undefined (`ub`).
* `int` is `Nat`; all values are non-negative.
* The sets a rank collects are lists with repetitions.
* The loops of `generateDistribution` get a bound on the number of steps; running out of it is `diverges`.
-/
namespace Verif

/-- The references the handler holds, ConfigurationAndRankIteratorHandler.h:165-171. -/
structure DistOptions where
  conts : List Cont
  csfs : List Rat
  travs : List Trav
  les : List LoadEst
  lays : List Layout
  n3s : List Bool
  it : IxType

/-- The iterators over configurations, ConfigurationAndRankIteratorHandler.h:172-179. -/
structure ConfIter where
  contIt : List Cont
  csfIt : List Rat
  travSet : List Trav
  travIt : List Trav
  leSet : List LoadEst
  leIt : List LoadEst
  layIt : List Layout
  n3It : List Bool

/-- `selectTraversalsForCurrentContainer`, ConfigurationAndRankIteratorHandler.cpp:90-100. -/
def ConfIter.selectTraversals (a : DistOptions) (s : ConfIter) : Outcome ConfIter :=
  match s.contIt with
  | [] => .ub
  | c :: _ =>
    match compatibleTraversals c a.it with
    | none => .throws
    | some ts =>
      let set := a.travs.filter fun t => ts.contains t
      .ok { s with travSet := set, travIt := set }

/-- `selectLoadEstimatorsForCurrentContainerAndTraversal`, ConfigurationAndRankIteratorHandler.cpp:102-107. -/
def ConfIter.selectEstimators (a : DistOptions) (s : ConfIter) : Outcome ConfIter :=
  match s.contIt, s.travIt with
  | c :: _, t :: _ =>
    let set := applicableLoadEstimators c t a.les
    .ok { s with leSet := set, leIt := set }
  | _, _ => .ub

/-- `advanceConfigIterators`, ConfigurationAndRankIteratorHandler.cpp:14-41. -/
def ConfIter.advance (a : DistOptions) (s : ConfIter) : Outcome ConfIter :=
  match s.n3It with
  | [] => .ub
  | _ :: n :: ns => .ok { s with n3It := n :: ns }
  | [_] =>
    match s.layIt with
    | [] => .ub
    | _ :: d :: ds => .ok { s with n3It := a.n3s, layIt := d :: ds }
    | [_] =>
      match s.leIt with
      | [] => .ub
      | _ :: e :: es => .ok { s with n3It := a.n3s, layIt := a.lays, leIt := e :: es }
      | [_] =>
        match s.travIt with
        | [] => .ub
        | _ :: t :: ts => ConfIter.selectEstimators a { s with n3It := a.n3s, layIt := a.lays, leIt := s.leSet, travIt := t :: ts }
        | [_] =>
          (ConfIter.selectEstimators a { s with n3It := a.n3s, layIt := a.lays, leIt := s.leSet, travIt := s.travSet }).bind fun s =>
          match s.csfIt with
          | [] => .ub
          | _ :: f :: fs => .ok { s with csfIt := f :: fs }
          | [_] =>
            match s.contIt with
            | [] => .ub
            | _ :: c :: cs => (ConfIter.selectTraversals a { s with csfIt := a.csfs, contIt := c :: cs }).bind (ConfIter.selectEstimators a)
            | [_] => .ok { s with csfIt := a.csfs, contIt := [] }

/-- The iterators in `reset`, ConfigurationAndRankIteratorHandler.cpp:77-82. -/
def ConfIter.start (a : DistOptions) : Outcome ConfIter :=
  (ConfIter.selectTraversals a ⟨a.conts, a.csfs, [], [], [], [], a.lays, a.n3s⟩).bind (ConfIter.selectEstimators a)

/-- A configuration without the interaction type. -/
structure DistConf where
  cont : Cont
  csf : Rat
  trav : Trav
  le : LoadEst
  lay : Layout
  n3 : Bool
deriving DecidableEq, Repr

/-- Dereferencing all iterators, AutoPasConfigurationCommunicator.cpp:102-107. -/
def ConfIter.current (s : ConfIter) : Outcome DistConf :=
  match s.contIt, s.csfIt, s.travIt, s.leIt, s.layIt, s.n3It with
  | c :: _, f :: _, t :: _, e :: _, d :: _, n :: _ => .ok ⟨c, f, t, e, d, n⟩
  | _, _, _, _, _, _ => .ub

/-- The other members of the handler, ConfigurationAndRankIteratorHandler.h:180-184. -/
structure DistHandler where
  conf : ConfIter
  rank : Nat
  remainingBlockSize : Nat
  remainder : Nat
  offset : Nat
  blockSize : Nat

/-- `reset`, ConfigurationAndRankIteratorHandler.cpp:76-89. -/
def DistHandler.start (a : DistOptions) (numConfigs commSize : Nat) : Outcome DistHandler :=
  (ConfIter.start a).bind fun conf =>
  .ok { conf := conf, rank := 0,
        remainingBlockSize := if commSize ≥ numConfigs then commSize / numConfigs - 1 else numConfigs / commSize - 1,
        remainder := if commSize ≥ numConfigs then commSize % numConfigs else numConfigs % commSize,
        offset := 0,
        blockSize := if commSize ≥ numConfigs then commSize / numConfigs else numConfigs / commSize }

/-- The part of `advanceIterators` that does not concern the configurations, ConfigurationAndRankIteratorHandler.cpp:48-73. -/
def DistHandler.advanceRank (numConfigs commSize : Nat) (h : DistHandler) : DistHandler :=
  let h1 := if commSize ≥ numConfigs ∨ h.remainingBlockSize = 0 then { h with rank := h.rank + 1, offset := h.offset + 1 } else h
  let h2 :=
    if h1.remainingBlockSize = 0 then
      let h3 := if numConfigs ≥ commSize then { h1 with remainingBlockSize := numConfigs / commSize }
        else { h1 with remainingBlockSize := commSize / numConfigs, blockSize := commSize / numConfigs, offset := 0 }
      if h3.remainder > 0 then { h3 with remainingBlockSize := h3.remainingBlockSize + 1, remainder := h3.remainder - 1 } else h3
    else h1
  { h2 with remainingBlockSize := h2.remainingBlockSize - 1 }

/-- `advanceIterators`, ConfigurationAndRankIteratorHandler.cpp:43-74. -/
def DistHandler.advance (a : DistOptions) (numConfigs commSize : Nat) (h : DistHandler) : Outcome DistHandler :=
  (if numConfigs ≥ commSize ∨ h.remainingBlockSize = 0 then h.conf.advance a else .ok h.conf).bind fun conf =>
  .ok { h.advanceRank numConfigs commSize with conf := conf }

/-- `getSearchSpaceSize`, AutoPasConfigurationCommunicator.cpp:17-45, with `csfs` the finite factors or the dummy. `none`: exception. -/
def searchSpaceSize (a : DistOptions) : Option Nat :=
  (a.conts.mapM fun c => (compatibleTraversals c a.it).map fun ts =>
    ((a.travs.filter fun t => ts.contains t).map fun t =>
      a.csfs.length * (applicableLoadEstimators c t a.les).length * a.lays.length * a.n3s.length).sum).map List.sum

/-- The first loop of `generateDistribution`, AutoPasConfigurationCommunicator.cpp:92-94. -/
def distSkip (a : DistOptions) (numConfigs commSize rank : Nat) : Nat → DistHandler → Outcome DistHandler
  | 0, _ => .diverges
  | fuel + 1, h => if h.rank < rank then (h.advance a numConfigs commSize).bind (distSkip a numConfigs commSize rank fuel) else .ok h

/-- The second loop, AutoPasConfigurationCommunicator.cpp:100-110: what is emplaced. -/
def distCollect (a : DistOptions) (numConfigs commSize rank : Nat) : Nat → DistHandler → Outcome (List DistConf)
  | 0, _ => .diverges
  | fuel + 1, h =>
    if h.rank = rank then
      h.conf.current.bind fun c =>
      (h.advance a numConfigs commSize).bind fun h =>
      (distCollect a numConfigs commSize rank fuel h).bind fun cs => .ok (c :: cs)
    else .ok []

/-- The sets of options of a rank. -/
structure LocalOptions where
  conts : List Cont
  csfs : CsfSet
  travs : List Trav
  les : List LoadEst
  lays : List Layout
  n3s : List Bool
deriving DecidableEq, Repr

/-- The finite factors of the search, AutoPasConfigurationCommunicator.cpp:77-84 (and :25 for their number). -/
def distCsfs : CsfSet → List Rat
  | .finite l => l
  | .interval _ _ => [-1]

/-- `generateDistribution`, AutoPasConfigurationCommunicator.cpp:60-129. -/
def generateDistribution (fuel : Nat) (a : DistOptions) (csfs : CsfSet) (numConfigs commSize rank : Nat) : Outcome LocalOptions :=
  (DistHandler.start a numConfigs commSize).bind fun h0 =>
  (distSkip a numConfigs commSize rank fuel h0).bind fun h =>
  (distCollect a numConfigs commSize rank fuel h).bind fun cs =>
  .ok { conts := cs.map DistConf.cont,
        csfs := match csfs with
          | .finite _ => .finite (cs.map DistConf.csf)
          | .interval lo hi =>
            let delta := (hi - lo) / h.blockSize
            .interval (lo + delta * h.offset) (lo + delta * (h.offset + 1)),
        travs := cs.map DistConf.trav, les := cs.map DistConf.le, lays := cs.map DistConf.lay, n3s := cs.map DistConf.n3 }

/-- `distributeConfigurations`, AutoPasConfigurationCommunicator.cpp:131-157. -/
def distributeConfigurations (fuel : Nat) (conts : List Cont) (csfs : CsfSet) (travs : List Trav) (les : List LoadEst) (lays : List Layout)
    (n3s : List Bool) (it : IxType) (rank commSize : Nat) : Outcome LocalOptions :=
  let a : DistOptions := ⟨conts, distCsfs csfs, travs, les, lays, n3s, it⟩
  match searchSpaceSize a with
  | none => .throws
  | some n => if n = 0 then .throws else generateDistribution fuel a csfs n commSize rank

end Verif
