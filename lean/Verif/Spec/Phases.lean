import Mathlib.Data.List.Perm.Subperm
/-! What the configurations measured in a tuning phase are, for strategies that only reorder the queue and remove configurations from it. -/
namespace Verif.Spec

/-- `ws` are the configurations measured after those in `D`, with the times. `L` is what is in the queue, the next one first. `Good D L c L'`: the
queue `c :: L'` can be made of `L` when `D` was measured; `Done D L`: the phase can end then. -/
def Chosen {C : Type} (Good : List (C × Int) → List C → C → List C → Prop) (Done : List (C × Int) → List C → Prop) :
    List (C × Int) → List C → List (C × Int) → Prop
  | D, L, [] => Done D L
  | D, L, cw :: ws => ∃ L', (cw.1 :: L').Subperm L ∧ Good D L cw.1 L' ∧ Chosen Good Done (D ++ [cw]) L' ws

end Verif.Spec
