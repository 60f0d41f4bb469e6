import Verif.Model.AxilrodTeller
import Verif.Model.LJTraversal
/-! A whole `computeInteractions` with the `AxilrodTellerFunctor`. -/
namespace Verif

section
variable {K : Type} [Field K] [LinearOrder K] {P : Type} [DecidableEq P]

/-- Thread `job.1` calls the functor, which adds to the sums of that thread (AxilrodTellerFunctor.h:188, 266-279). -/
def atJob (sqrt : K → Num K) (c : ATCfg K) (mol : P → Mol K) (s : LJThreads P K) (job : Nat × TripleCall P) : LJThreads P K :=
  let r := atAoSCall sqrt c mol ⟨s.force, s.threadData.getD job.1 .zero⟩ job.2
  ⟨r.force, s.threadData.set job.1 r.globals⟩

/-- `functor.initTraversal()` (AxilrodTellerFunctor.h:336-343), the calls in the order in which they happen, each with the thread that makes
it, `functor.endTraversal()` (LogicHandler.h:1072-1086). The result is the forces, `_potentialEnergySum` and `_virialSum`. -/
def atCompute (sqrt : K → Num K) (c : ATCfg K) (threads : Nat) (mol : P → Mol K) (force : P → V3 (Num K)) (jobs : List (Nat × TripleCall P)) :
    (P → V3 (Num K)) × (Num K × V3 (Num K)) :=
  let r := jobs.foldl (atJob sqrt c mol) ⟨force, List.replicate threads .zero⟩
  (r.force, atEndTraversal r.threadData)

end

end Verif
