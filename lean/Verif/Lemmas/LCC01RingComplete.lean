import Verif.Lemmas.LCC01RingCalls
import Verif.Props.C51
import Verif.Props.C52
/-! `lc_c01_combined_SoA` lies between `lc_c01` and `lc_c01` without the check for halo cells. -/
namespace Verif
open Spec

section
variable {P : Type} {cells : List (PCell P)} {dims : V3 Nat} {cl : V3 Rat} {il : Rat} {f : CellFunctorCfg P}

/-- The same cells, all of which may hold owned particles. -/
def openCells (cells : List (PCell P)) : List (PCell P) := cells.map fun c => ⟨c.particles, true⟩

theorem cellAt_open (i : Int) : (cellAt (openCells cells) i).particles = (cellAt cells i).particles ∧
    ((cellAt cells i).particles ≠ [] → (cellAt (openCells cells) i).hasOwned = true) := by
  unfold cellAt openCells
  rw [List.getD_eq_getElem?_getD, List.getD_eq_getElem?_getD, List.getElem?_map]
  cases cells[i.toNat]? <;> simp

/-- Fewer calls. -/
private def Fewer [DecidableEq P] (l₁ l₂ : List (PairCall P)) : Prop := ∀ a b, timesReceived l₁ a b ≤ timesReceived l₂ a b

private theorem fewer_refl [DecidableEq P] (l : List (PairCall P)) : Fewer l l := fun _ _ => le_rfl

private theorem fewer_nil [DecidableEq P] (l : List (PairCall P)) : Fewer [] l := fun a b => by
  simp [timesReceived, contributions]

private theorem fewer_flatMap [DecidableEq P] {X : Type} {L : List X} {g h : X → List (PairCall P)} (H : ∀ x ∈ L, Fewer (g x) (h x)) :
    Fewer (L.flatMap g) (L.flatMap h) := by
  intro a b
  induction L with
  | nil => exact le_rfl
  | cons x L ih =>
    rw [List.flatMap_cons, List.flatMap_cons, timesReceived_append', timesReceived_append']
    exact Nat.add_le_add (H x (by simp) a b) (ih fun y hy => H y (by simp [hy]))

private theorem cell_soa (hf : CombinedFunctor f) (B : PCell P) :
    f.cell B = if B.hasOwned = true then soaSingle false B.particles else [] := by
  unfold CellFunctorCfg.cell
  simp only [hf.soa, hf.newton3, if_true]
  by_cases h : B.particles.isEmpty = true
  · rw [if_pos h, List.isEmpty_iff.1 h]
    simp [soaSingle, pairLoop]
  · rw [if_neg h]
    cases B.hasOwned <;> simp

private theorem entry_between [DecidableEq P] (hf : CombinedFunctor f) (base : Int) (e : Int × Int × Int) (d : V3 Rat) :
    Fewer (f.op cells (baseCellOp base (c01Flat dims e) d)) (combinedEntry f cells dims base e) ∧
    Fewer (combinedEntry f cells dims base e) (f.op (openCells cells) (baseCellOp base (c01Flat dims e) d)) := by
  unfold baseCellOp combinedEntry
  by_cases hz : c01Flat dims e = 0
  · rw [if_pos hz, if_pos (by omega)]
    simp only [CellFunctorCfg.op]
    refine ⟨fewer_refl _, ?_⟩
    rw [cell_soa hf, cell_soa hf, (cellAt_open base).1]
    by_cases hp : (cellAt cells base).particles = []
    · rw [hp]; simp only [soaSingle, pairLoop, List.flatMap_nil]
      split <;> exact fewer_nil _
    · rw [(cellAt_open base).2 hp, if_pos rfl]
      split
      · exact fewer_refl _
      · exact fewer_nil _
  · rw [if_neg hz, if_neg (by omega)]
    simp only [CellFunctorCfg.op, hf.cellPair, (cellAt_open _).1]
    have hup : Fewer (soaPair false (cellAt cells base).particles (cellAt cells (base + c01Flat dims e)).particles)
        (if (cellAt (openCells cells) base).hasOwned = true then
          soaPair false (cellAt cells base).particles (cellAt cells (base + c01Flat dims e)).particles else []) := by
      by_cases hp : (cellAt cells base).particles = []
      · rw [hp]; simp only [soaPair_pairs, List.flatMap_nil]
        exact fewer_nil _
      · rw [(cellAt_open base).2 hp, if_pos rfl]
        exact fewer_refl _
    have hlo : Fewer (if (cellAt cells base).hasOwned = true then
          soaPair false (cellAt cells base).particles (cellAt cells (base + c01Flat dims e)).particles else [])
        (soaPair false (cellAt cells base).particles (cellAt cells (base + c01Flat dims e)).particles) := by
      split
      · exact fewer_refl _
      · exact fewer_nil _
    by_cases he : e.1 = 0
    · rw [if_pos he]
      exact ⟨hlo, hup⟩
    · rw [if_neg he]
      exact ⟨fewer_refl _, fun a b => (hlo a b).trans (hup a b)⟩

theorem run_c01_eq (cells : List (PCell P)) (dims : V3 Nat) (cl : V3 Rat) (il : Rat) (f : CellFunctorCfg P) :
    f.run cells (lcC01 dims cl il) = (c01Bases dims (overlapOf il cl).toNat).flatten.flatMap fun b => (c01Entries dims cl il).flatMap fun e =>
      f.op cells (baseCellOp ((threeToOneD b dims : Nat) : Int) (c01Flat dims e) (offsetSortDir cl e.1 e.2.1 e.2.2)) := by
  unfold CellFunctorCfg.run lcC01 c01ProcessBaseCell
  rw [← List.map_flatten, List.flatten_eq_flatMap, List.flatMap_map, List.flatMap_assoc]
  apply List.flatMap_congr
  intro b _
  rw [id_eq, List.flatMap_map]
  rfl

theorem combined_between [DecidableEq P] [Inhabited P] (h : C18Dims dims cl il) (hf : CombinedFunctor f)
    {threads : List (C01Ring P × List (Nat × Nat))}
    (ht : (threads.flatMap Prod.snd).Perm (c01Rows dims (overlapOf il cl).toNat)) (a b : P) :
    timesReceived (f.run cells (lcC01 dims cl il)) a b ≤ timesReceived (lcC01Combined f cells dims cl il threads) a b ∧
    timesReceived (lcC01Combined f cells dims cl il threads) a b ≤ timesReceived (f.run (openCells cells) (lcC01 dims cl il)) a b := by
  have hp : timesReceived (lcC01Combined f cells dims cl il threads) a b = _ :=
    (contributions_perm (lcC01Combined_perm (cells := cells) h hf ht)).count_eq _
  rw [hp, run_c01_eq, run_c01_eq]
  exact ⟨fewer_flatMap (fun _ _ => fewer_flatMap fun _ _ => (entry_between hf _ _ _).1) a b,
    fewer_flatMap (fun _ _ => fewer_flatMap fun _ _ => (entry_between hf _ _ _).2) a b⟩

end

end Verif
