import Verif.Lemmas.LCC04Row
import Verif.Lemmas.LCC01RingComplete
/-! The tables of `lc_c04_combined_SoA` for overlap 1, and the comparison with `lc_c08`. -/
namespace Verif
open Spec

section
variable {dims : V3 Nat} {cl : V3 Rat} {il : Rat}

theorem c08DistVec_one {x y z : Int} (hx : x = 0 ∨ x = 1) (hy : y = 0 ∨ y = 1) (hz : z = 0 ∨ z = 1) (d : C08Dir) (cl : V3 Rat) :
    c08DistVec ⟨1, 1, 1⟩ cl x y z d = ⟨0, 0, 0⟩ := by
  rcases hx with rfl | rfl <;> rcases hy with rfl | rfl <;> rcases hz with rfl | rfl <;> cases d <;> simp [c08DistVec, C08Dir.maskXY]

theorem c08Indices_one (hov : overlapOf il cl = ⟨1, 1, 1⟩) : c08Indices cl il =
    [(0, 0, 0, .frontLeft), (0, 0, 1, .frontLeft), (0, 0, 1, .backLeft), (0, 0, 1, .frontRight), (0, 0, 1, .backRight),
     (0, 1, 0, .frontLeft), (0, 1, 0, .frontRight), (0, 1, 1, .frontLeft), (0, 1, 1, .frontRight),
     (1, 0, 0, .frontLeft), (1, 0, 1, .frontLeft), (1, 0, 1, .backLeft), (1, 1, 0, .frontLeft), (1, 1, 1, .frontLeft)] := by
  have hd : ∀ (x y z : Int) (d : C08Dir), x = 0 ∨ x = 1 → y = 0 ∨ y = 1 → z = 0 ∨ z = 1 →
      ((c08DistVec ⟨1, 1, 1⟩ cl x y z d).dot (c08DistVec ⟨1, 1, 1⟩ cl x y z d) ≤ il * il) := by
    intro x y z d hx hy hz
    rw [c08DistVec_one hx hy hz]
    simp [V3.dot]
    exact mul_self_nonneg il
  have hr : forInt 0 1 = [0, 1] := by decide
  unfold c08Indices
  simp only [hov, hr, List.flatMap_cons, List.flatMap_nil, C08Dir.all, C08Dir.includeCellPair, hd _ _ _ _ (.inl rfl) (.inl rfl) (.inl rfl),
    hd _ _ _ _ (.inl rfl) (.inl rfl) (.inr rfl), hd _ _ _ _ (.inl rfl) (.inr rfl) (.inl rfl), hd _ _ _ _ (.inl rfl) (.inr rfl) (.inr rfl),
    hd _ _ _ _ (.inr rfl) (.inl rfl) (.inl rfl), hd _ _ _ _ (.inr rfl) (.inl rfl) (.inr rfl), hd _ _ _ _ (.inr rfl) (.inr rfl) (.inl rfl),
    hd _ _ _ _ (.inr rfl) (.inr rfl) (.inr rfl), if_true]
  simp

private theorem collect_same (bo : List Nat) (c s e x : Nat) (out : List (Nat × Nat × Nat)) :
    c04CollectStep bo ((c, s, e), out) (c, x) = ((c, s, e + 1), out) := by
  simp [c04CollectStep]

private theorem collect_new (bo : List Nat) (c c' s e x : Nat) (out : List (Nat × Nat × Nat)) (h : c ≠ c') :
    c04CollectStep bo ((c, s, e), out) (c', x) = ((c', bo.idxOf x, bo.idxOf x + 1), out ++ [(c, s, e)]) := by
  simp [c04CollectStep, h]

private theorem intervals_zero {dx A : Nat} (hdx : 2 ≤ dx) (hA : dx + 2 ≤ A) :
    c04Intervals [0, dx] [(0, 0), (A, 0), (A + dx, 0), (A + 1, 0), (A + dx + 1, 0), (0, dx), (1, dx), (A, dx), (A + 1, dx)] =
      [(0, 0, 2), (1, 1, 2), (A, 0, 2), (A + 1, 0, 2), (A + dx, 0, 1), (A + dx + 1, 0, 1)] := by
  have s0 : [(0, 0), (A, 0), (A + dx, 0), (A + 1, 0), (A + dx + 1, 0), (0, dx), (1, dx), (A, dx), (A + 1, dx)].insertionSort
      (fun (a b : Nat × Nat) => a.1 ≤ b.1) =
      [(0, 0), (0, dx), (1, dx), (A, 0), (A, dx), (A + 1, 0), (A + 1, dx), (A + dx, 0), (A + dx + 1, 0)] := by
    simp (disch := (first | omega | (simp only; omega))) only [List.insertionSort_cons, List.insertionSort_nil, List.orderedInsert_nil, List.orderedInsert_cons,
      if_pos, if_neg]
  have i0 : [0, dx].idxOf 0 = 0 := by simp
  have i1 : [0, dx].idxOf dx = 1 := by
    rw [List.idxOf_cons_ne _ (by omega), List.idxOf_cons_self]
  unfold c04Intervals
  rw [s0]
  simp (disch := omega) only [List.foldl_cons, List.foldl_nil, collect_same, collect_new, i0, i1]
  rfl

private theorem intervals_one {dx A : Nat} (hdx : 2 ≤ dx) (hA : dx + 2 ≤ A) :
    c04Intervals [1, dx + 1] [(0, 1), (A, 1), (A + dx, 1), (0, dx + 1), (A, dx + 1)] = [(0, 0, 2), (A, 0, 2), (A + dx, 0, 1)] := by
  have s0 : [(0, 1), (A, 1), (A + dx, 1), (0, dx + 1), (A, dx + 1)].insertionSort (fun (a b : Nat × Nat) => a.1 ≤ b.1) =
      [(0, 1), (0, dx + 1), (A, 1), (A, dx + 1), (A + dx, 1)] := by
    simp (disch := (first | omega | (simp only; omega))) only [List.insertionSort_cons, List.insertionSort_nil, List.orderedInsert_nil, List.orderedInsert_cons,
      if_pos, if_neg]
  have i0 : [1, dx + 1].idxOf 1 = 0 := by simp
  have i1 : [1, dx + 1].idxOf (dx + 1) = 1 := by
    rw [List.idxOf_cons_ne _ (by omega), List.idxOf_cons_self]
  unfold c04Intervals
  rw [s0]
  simp (disch := omega) only [List.foldl_cons, List.foldl_nil, collect_same, collect_new, i0, i1]
  rfl

theorem c08Offsets_one (hov : overlapOf il cl = ⟨1, 1, 1⟩) : (c08Offsets dims cl il).map (fun o => (o.1, o.2.1)) =
    ([(0, 0), (dims.x * dims.y, 0), (dims.x * dims.y + dims.x, 0), (dims.x * dims.y + 1, 0),
      (dims.x * dims.y + dims.x + 1, 0), (0, dims.x), (1, dims.x), (dims.x * dims.y, dims.x), (dims.x * dims.y + 1, dims.x),
      (0, 1), (dims.x * dims.y, 1), (dims.x * dims.y + dims.x, 1), (0, dims.x + 1), (dims.x * dims.y, dims.x + 1)].map
      fun (e : Nat × Nat) => ((e.1 : Int), (e.2 : Int))) := by
  unfold c08Offsets
  rw [List.map_map, c08Indices_one hov]
  simp only [List.map_cons, List.map_nil, Function.comp]
  simp only [c08Offset, hov, threeToOneDInt, C08Dir.maskXY, V3.toInt]
  push_cast
  simp [mul_comm, add_comm]
  exact ⟨by ring, by ring, by ring⟩

theorem c04Setup_one (hov : overlapOf il cl = ⟨1, 1, 1⟩) (hdx : 2 ≤ dims.x) (hA : dims.x + 2 ≤ dims.x * dims.y) :
    c04Setup dims cl il = c04One dims.x (dims.x * dims.y) := by
  have key : (c08Indices cl il).map (fun t => ((c08Offset dims cl il t).1.toNat, (c08Offset dims cl il t).2.1.toNat)) =
      ((c08Offsets dims cl il).map (fun o => (o.1, o.2.1))).map fun e => (e.1.toNat, e.2.toNat) := by
    unfold c08Offsets
    rw [List.map_map, List.map_map]
    rfl
  rw [c08Offsets_one hov] at key
  have e0 : c04CellPairs dims cl il 0 = [(0, 0), (dims.x * dims.y, 0), (dims.x * dims.y + dims.x, 0), (dims.x * dims.y + 1, 0),
      (dims.x * dims.y + dims.x + 1, 0), (0, dims.x), (1, dims.x), (dims.x * dims.y, dims.x), (dims.x * dims.y + 1, dims.x)] := by
    have hf : (c08Indices cl il).filter (fun t => t.1 = ((0 : Nat) : Int)) = (c08Indices cl il).take 9 := by rw [c08Indices_one hov]; rfl
    unfold c04CellPairs
    rw [hf, List.map_take, key]
    simp only [List.map_cons, List.map_nil, Int.toNat_natCast, List.take_succ_cons, List.take_zero]
  have e1 : c04CellPairs dims cl il 1 = [(0, 1), (dims.x * dims.y, 1), (dims.x * dims.y + dims.x, 1), (0, dims.x + 1),
      (dims.x * dims.y, dims.x + 1)] := by
    have hf : (c08Indices cl il).filter (fun t => t.1 = ((1 : Nat) : Int)) = (c08Indices cl il).drop 9 := by rw [c08Indices_one hov]; rfl
    unfold c04CellPairs
    rw [hf, List.map_drop, key]
    simp only [List.map_cons, List.map_nil, Int.toNat_natCast, List.drop_succ_cons, List.drop_zero]
  have hb : c04BaseOffsets dims ⟨1, 1, 1⟩ = [[0, dims.x], [1, dims.x + 1]] := by
    simp [c04BaseOffsets, threeToOneD, show List.range 2 = [0, 1] from rfl]
  unfold c04Setup c04One
  simp only [hov, V3.toNat, Int.toNat_one, hb, show List.range (1 + 1) = [0, 1] from rfl, List.map_cons, List.map_nil, List.getD_cons_zero,
    List.getD_cons_succ, e0, e1, intervals_zero hdx hA, intervals_one hdx hA]

end

end Verif
