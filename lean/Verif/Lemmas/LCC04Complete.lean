import Verif.Lemmas.LCC04Setup
import Mathlib.Tactic.Abel
/-! `lc_c04_combined_SoA` computes what `lc_c08` computes on cells all of which may hold owned particles. -/
namespace Verif
open Spec

section
variable {P M : Type} [DecidableEq P] [AddCommMonoid M] {cells : List (PCell P)} {dims : V3 Nat} {cl : V3 Rat} {il : Rat} {f : CellFunctorCfg P}

theorem acc_both_append (F : P → P → M) (n3 : Bool) (A B C : List P) (p : P) :
    accumulated F (bothCalls n3 A (B ++ C)) p = accumulated F (bothCalls n3 A B) p + accumulated F (bothCalls n3 A C) p := by
  have h1 : accumulated F (soaPair n3 A (B ++ C)) p = accumulated F (soaPair n3 A B) p + accumulated F (soaPair n3 A C) p := by
    rw [← accumulated_append]
    exact accumulated_perm F (soaPair_append n3 A B C) p
  have h2 : soaPair n3 (B ++ C) A = soaPair n3 B A ++ soaPair n3 C A := by
    simp only [soaPair_pairs, List.flatMap_append]
  unfold bothCalls
  cases n3
  · simp only [Bool.false_eq_true, if_false, accumulated_append, h1, h2]
    abel
  · simpa using h1

/-- The particles of cell `i`. -/
def partsOf (cells : List (PCell P)) (i : Nat) : List P := (cellAt cells i).particles

/-- A cell functor call of `lc_c08` on open cells. -/
def openOp (parts : Nat → List P) (n3 : Bool) (b : Nat) (e : Nat × Nat) : List (PairCall P) :=
  if e.1 = e.2 then soaSingle n3 (parts (b + e.1)) else bothCalls n3 (parts (b + e.1)) (parts (b + e.2))

theorem op_open (hsoa : f.soa = true) (hbi : f.bidirectional = true) (b : Nat) (e : Nat × Nat) (o : Int × Int × V3 Rat)
    (ho : (o.1, o.2.1) = ((e.1 : Int), (e.2 : Int))) :
    f.op (openCells cells) (cellOpOf (b : Int) o) = openOp (partsOf cells) f.newton3 b e := by
  obtain ⟨h1, h2⟩ := Prod.mk.inj ho
  unfold cellOpOf openOp partsOf
  rw [h1, h2]
  by_cases he : e.1 = e.2
  · rw [if_pos he, if_pos (by omega)]
    simp only [CellFunctorCfg.op, CellFunctorCfg.cell, hsoa, if_true]
    rw [← Nat.cast_add, (cellAt_open _).1]
    by_cases hp : (cellAt cells ((b + e.1 : Nat) : Int)).particles = []
    · rw [hp]; simp [soaSingle_nil]
    · rw [(cellAt_open _).2 hp]
      simp only [List.isEmpty_iff, hp, if_false, Bool.not_true, Bool.false_eq_true]
  · rw [if_neg he, if_neg (by omega)]
    simp only [CellFunctorCfg.op, CellFunctorCfg.cellPair, hsoa, hbi, if_true]
    rw [← Nat.cast_add, ← Nat.cast_add, (cellAt_open _).1, (cellAt_open _).1]
    by_cases hp : (cellAt cells ((b + e.1 : Nat) : Int)).particles = []
    · rw [hp]; simp [bothCalls_nil_left]
    · by_cases hq : (cellAt cells ((b + e.2 : Nat) : Int)).particles = []
      · rw [hq]; simp [bothCalls_nil_right]
      · rw [(cellAt_open _).2 hp, (cellAt_open _).2 hq]
        simp only [List.isEmpty_iff, hp, hq, or_self, if_false, Bool.true_eq_false, false_and, bothCalls]
        cases f.newton3 <;> simp

theorem base_open (hov : overlapOf il cl = ⟨1, 1, 1⟩) (hdx : 2 ≤ dims.x) (hA : dims.x + 2 ≤ dims.x * dims.y)
    (hsoa : f.soa = true) (hbi : f.bidirectional = true) (F : P → P → M) (b : V3 Nat) (p : P) :
    accumulated F (c04BaseCalls (partsOf cells) dims.x (dims.x * dims.y) f.newton3 (threeToOneD b dims)) p =
    accumulated F ((c08ProcessBaseCell dims cl il b).flatMap (f.op (openCells cells))) p := by
  have hops : (c08ProcessBaseCell dims cl il b).flatMap (f.op (openCells cells)) =
      ((c08Offsets dims cl il).map (fun o => (o.1, o.2.1))).flatMap fun e => openOp (partsOf cells) f.newton3 (threeToOneD b dims)
        (e.1.toNat, e.2.toNat) := by
    unfold c08ProcessBaseCell
    rw [List.flatMap_map, List.flatMap_map]
    apply List.flatMap_congr
    intro o ho
    have hm : (o.1, o.2.1) ∈ (c08Offsets dims cl il).map (fun o => (o.1, o.2.1)) := List.mem_map_of_mem ho
    rw [c08Offsets_one hov] at hm
    obtain ⟨e, -, he⟩ := List.mem_map.1 hm
    refine op_open hsoa hbi _ _ o ?_
    rw [← he]
    simp
  rw [hops, c08Offsets_one hov, List.flatMap_map]
  simp only [Int.toNat_natCast]
  generalize threeToOneD b dims = b
  generalize dims.x * dims.y = A at hA ⊢
  generalize dims.x = dx at hA hdx ⊢
  generalize partsOf cells = parts
  simp (disch := omega) only [c04BaseCalls, c04One, List.getD_cons_zero, List.getD_cons_succ, List.flatMap_cons, List.flatMap_nil, List.append_nil,
    entryCalls, intervalParts, openOp, accumulated_append, if_neg]
  simp [acc_both_append]
  rw [accumulated_append]
  abel

omit [DecidableEq P] [AddCommMonoid M] in
/-- The rows of base cells are the base cells of the `c04` colouring. -/
theorem rows_eq_c04Bases (dims ov : V3 Nat) :
    ((c04Rows dims ov).flatten.flatMap fun r => (forUp 0 (dims.x - ov.x) 1).map fun x => (⟨x, r.1, r.2⟩ : V3 Nat)) = (c04Bases dims ov).flatten := by
  unfold c04Rows c04Bases colorTraversal
  rw [List.flatten_eq_flatMap, List.flatten_eq_flatMap, List.flatMap_assoc, List.flatMap_map, List.flatMap_map, Nat.one_mul]
  apply List.flatMap_congr
  intro col hcol
  have hb := oneToThreeD_bounds (i := col) (dims := ⟨1, ov.y + 1, ov.z + 1⟩) (by simpa [numCells] using hcol)
  have hx : (oneToThreeD col ⟨1, ov.y + 1, ov.z + 1⟩).x = 0 := by
    have := hb.1.1
    simp only at this
    omega
  unfold colorCells
  simp only [hx, id_eq, List.flatMap_assoc, List.flatMap_map, V3.sub]
  rfl

omit [DecidableEq P] [AddCommMonoid M] in
theorem c04_c08_bases (dims ov : V3 Nat) : (c04Bases dims ov).flatten.Perm (c08Bases dims ov).flatten := by
  refine (List.perm_ext_iff_of_nodup (nodup_colorTraversal _ _ _) (nodup_colorTraversal _ _ _)).2 fun c => ?_
  rw [mem_colorTraversal (by simp) (by simp) (by simp), mem_colorTraversal (by simp) (by simp) (by simp)]

theorem rows_open (hov : overlapOf il cl = ⟨1, 1, 1⟩) (hdx : 2 ≤ dims.x) (hA : dims.x + 2 ≤ dims.x * dims.y)
    (hsoa : f.soa = true) (hbi : f.bidirectional = true) (F : P → P → M) {rows : List (Nat × Nat)}
    (hr : rows.Perm (c04Rows dims ⟨1, 1, 1⟩).flatten) (p : P) :
    accumulated F (rows.flatMap fun r => rowCalls (partsOf cells) dims f.newton3 r.1 r.2 (forUp 0 (dims.x - 1) 1)) p =
    accumulated F (f.run (openCells cells) (lcC08 dims cl il)) p := by
  have h1 : (rows.flatMap fun r => rowCalls (partsOf cells) dims f.newton3 r.1 r.2 (forUp 0 (dims.x - 1) 1)).Perm
      ((c08Bases dims ⟨1, 1, 1⟩).flatten.flatMap fun b => c04BaseCalls (partsOf cells) dims.x (dims.x * dims.y) f.newton3 (threeToOneD b dims)) := by
    refine (hr.flatMap_right _).trans (((c04_c08_bases dims ⟨1, 1, 1⟩).flatMap_right _).symm.trans ?_).symm
    rw [← rows_eq_c04Bases, List.flatMap_assoc]
    apply List.Perm.of_eq
    apply List.flatMap_congr
    intro r _
    rw [List.flatMap_map]
    rfl
  rw [accumulated_perm F h1]
  have h2 : f.run (openCells cells) (lcC08 dims cl il) = (c08Bases dims ⟨1, 1, 1⟩).flatten.flatMap fun b =>
      (c08ProcessBaseCell dims cl il b).flatMap (f.op (openCells cells)) := by
    unfold CellFunctorCfg.run lcC08
    rw [hov, ← List.map_flatten, List.flatten_eq_flatMap, List.flatMap_map, List.flatMap_assoc]
    rfl
  rw [h2]
  exact accumulated_flatMap_congr F fun b _ => base_open hov hdx hA hsoa hbi F b p

end

end Verif
