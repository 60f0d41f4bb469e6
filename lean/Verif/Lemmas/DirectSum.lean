import Verif.Model.DirectSum
import Verif.Lemmas.WithRemainder
import Verif.Props.C51
/-! DirectSum: cells, interactions, `updateContainer`. -/
namespace Verif
open Spec

section
variable {P : Type} [DecidableEq P]

/-- Every particle is in the cell that belongs to its home position. -/
structure DSSorted (bMin bMax : V3 Rat) (home : P → V3 Rat) (cells : List (List P)) : Prop where
  length : cells.length = 7
  nodup : cells.flatten.Nodup
  home : ∀ k, ∀ p ∈ cells.getD k [], dsCellOf bMin bMax (home p) = k

omit [DecidableEq P] in
theorem cellAt_dsPCells {cells : List (List P)} (i : Int) :
    (cellAt (dsPCells cells) i).particles = cells.getD i.toNat [] ∧
    (i.toNat < cells.length → (cellAt (dsPCells cells) i).hasOwned = decide (i.toNat = 0)) := by
  unfold cellAt dsPCells
  rw [List.getD_eq_getElem?_getD, List.getD_eq_getElem?_getD, List.getElem?_map, List.getElem?_zipIdx]
  by_cases h : i.toNat < cells.length
  · rw [List.getElem?_eq_getElem h]
    simp
  · rw [List.getElem?_eq_none (by omega)]
    simp [h]

omit [DecidableEq P] in
theorem nodup_getD {cells : List (List P)} (h : cells.flatten.Nodup) (k : Nat) : (cells.getD k []).Nodup := by
  rw [List.getD_eq_getElem?_getD]
  cases hk : cells[k]? with
  | none => simp
  | some l => exact (List.nodup_flatten.1 h).1 l (List.mem_of_getElem? hk)

theorem ds_cells_ok {bMin bMax : V3 Rat} {home : P → V3 Rat} {cells : List (List P)} (h : DSSorted bMin bMax home cells) :
    CellsOk (dsPCells cells) (fun p => (dsCellOf bMin bMax (home p) : Int)) := by
  refine ⟨fun i => ?_, fun i p hi hp => ?_⟩
  · rw [(cellAt_dsPCells i).1]; exact nodup_getD h.nodup _
  · rw [(cellAt_dsPCells i).1] at hp
    have := h.home _ p hp
    omega

theorem dsCellOf_le (bMin bMax pos : V3 Rat) : dsCellOf bMin bMax pos ≤ 6 := by
  unfold dsCellOf
  repeat' split
  all_goals omega

theorem dsCellOf_zero {bMin bMax pos : V3 Rat} : dsCellOf bMin bMax pos = 0 ↔ InBox pos bMin bMax := by
  unfold dsCellOf InBox
  constructor
  · intro h
    repeat' split at h
    all_goals first | omega | skip
    refine ⟨⟨?_, ?_⟩, ⟨?_, ?_⟩, ⟨?_, ?_⟩⟩ <;> linarith
  · rintro ⟨⟨h1, h2⟩, ⟨h3, h4⟩, ⟨h5, h6⟩⟩
    rw [if_neg (by linarith), if_neg (by linarith), if_neg (by linarith), if_neg (by linarith), if_neg (by linarith), if_neg (by linarith)]

theorem dsOps_valid : ∀ op ∈ dsOps 7, ValidOp op := by
  intro op hop
  have : op ∈ [CellOp.self 0, .pair 0 1 ⟨-1, 0, 0⟩, .pair 0 2 ⟨1, 0, 0⟩, .pair 0 3 ⟨0, -1, 0⟩, .pair 0 4 ⟨0, 1, 0⟩, .pair 0 5 ⟨0, 0, -1⟩, .pair 0 6 ⟨0, 0, 1⟩] := hop
  simp only [List.mem_cons, List.not_mem_nil, or_false] at this
  rcases this with rfl | rfl | rfl | rfl | rfl | rfl | rfl <;> simp [ValidOp, touched]

theorem dsOps_once (both : Bool) {k : Nat} (hk : k ≤ 6) : (dsOps 7).countP (hits both 0 (k : Int)) = 1 := by
  have : k = 0 ∨ k = 1 ∨ k = 2 ∨ k = 3 ∨ k = 4 ∨ k = 5 ∨ k = 6 := by omega
  rcases this with rfl | rfl | rfl | rfl | rfl | rfl | rfl <;> cases both <;> decide +kernel

theorem dsOps_most (both : Bool) {j k : Nat} (hj : j ≤ 6) (hk : k ≤ 6) : (dsOps 7).countP (hits both (j : Int) (k : Int)) ≤ 1 := by
  have h1 : j = 0 ∨ j = 1 ∨ j = 2 ∨ j = 3 ∨ j = 4 ∨ j = 5 ∨ j = 6 := by omega
  have h2 : k = 0 ∨ k = 1 ∨ k = 2 ∨ k = 3 ∨ k = 4 ∨ k = 5 ∨ k = 6 := by omega
  cases both <;> rcases h1 with rfl | rfl | rfl | rfl | rfl | rfl | rfl <;>
    rcases h2 with rfl | rfl | rfl | rfl | rfl | rfl | rfl <;> decide +kernel

variable {bMin bMax : V3 Rat} {cutoff skin : Rat} {pos home : P → V3 Rat} {cells : List (List P)} {f : CellFunctorCfg P}

/-- Halo particles are hardly behind owned particles in the direction of their cell. -/
theorem ds_notBehind (h : DSSorted bMin bMax home cells) (hskin : 0 ≤ skin) (hsc : skin ≤ cutoff)
    (hm : ∀ p ∈ cells.flatten, 4 * distSq (pos p) (home p) ≤ skin * skin) {i j : Int} {dir : V3 Rat} (ho : CellOp.pair i j dir ∈ dsOps 7) :
    NotBehind pos dir cutoff (cellAt (dsPCells cells) i).particles (cellAt (dsPCells cells) j).particles := by
  intro p hp q hq hlt
  rw [(cellAt_dsPCells _).1] at hp hq
  have mp := hm p (mem_flatten_getD'.2 ⟨_, hp⟩)
  have mq := hm q (mem_flatten_getD'.2 ⟨_, hq⟩)
  have hp := h.home _ p hp
  have hq := h.home _ q hq
  have hx : ∀ u v : V3 Rat, 4 * distSq u v ≤ skin * skin → |u.x - v.x| ≤ skin / 2 ∧ |u.y - v.y| ≤ skin / 2 ∧ |u.z - v.z| ≤ skin / 2 := by
    intro u v huv
    unfold distSq at huv
    have s1 := sq_nonneg (u.x - v.x)
    have s2 := sq_nonneg (u.y - v.y)
    have s3 := sq_nonneg (u.z - v.z)
    refine ⟨abs_le_of_sq_le_sq (by nlinarith) (by linarith), abs_le_of_sq_le_sq (by nlinarith) (by linarith),
      abs_le_of_sq_le_sq (by nlinarith) (by linarith)⟩
  obtain ⟨px, py, pz⟩ := hx _ _ mp
  obtain ⟨qx, qy, qz⟩ := hx _ _ mq
  rw [abs_le] at px py pz qx qy qz
  have hop : CellOp.pair i j dir ∈ [CellOp.self 0, .pair 0 1 ⟨-1, 0, 0⟩, .pair 0 2 ⟨1, 0, 0⟩, .pair 0 3 ⟨0, -1, 0⟩, .pair 0 4 ⟨0, 1, 0⟩,
    .pair 0 5 ⟨0, 0, -1⟩, .pair 0 6 ⟨0, 0, 1⟩] := ho
  have hin : i = 0 := by
    simp only [List.mem_cons, List.not_mem_nil, or_false, CellOp.pair.injEq, reduceCtorEq, false_or] at hop
    omega
  subst hin
  have hpin := dsCellOf_zero.1 hp
  obtain ⟨⟨b1, b2⟩, ⟨b3, b4⟩, ⟨b5, b6⟩⟩ := hpin
  simp only [List.mem_cons, List.not_mem_nil, or_false, CellOp.pair.injEq, reduceCtorEq, false_or, true_and] at hop
  unfold V3.dot at hlt ⊢
  have fin : ∀ d : Rat, 0 < d → d ≤ skin → d ^ 2 ≤ cutoff * cutoff := fun d d0 d1 => by nlinarith
  have cellq : ∀ k, dsCellOf bMin bMax (home q) = k → (k = 1 → (home q).x < bMin.x) ∧ (k = 2 → bMax.x ≤ (home q).x) ∧
      (k = 3 → (home q).y < bMin.y) ∧ (k = 4 → bMax.y ≤ (home q).y) ∧ (k = 5 → (home q).z < bMin.z) ∧ (k = 6 → bMax.z ≤ (home q).z) := by
    rintro k rfl
    unfold dsCellOf
    repeat' split
    all_goals simp_all
  obtain ⟨c1, c2, c3, c4, c5, c6⟩ := cellq _ hq
  rcases hop with ⟨rfl, rfl⟩ | ⟨rfl, rfl⟩ | ⟨rfl, rfl⟩ | ⟨rfl, rfl⟩ | ⟨rfl, rfl⟩ | ⟨rfl, rfl⟩ <;> dsimp only at hlt ⊢ <;>
    ring_nf at hlt ⊢
  · have := c1 rfl
    have := fin ((pos q).x - (pos p).x) (by linarith) (by linarith)
    linarith
  · have := c2 rfl
    have := fin ((pos p).x - (pos q).x) (by linarith) (by linarith)
    linarith
  · have := c3 rfl
    have := fin ((pos q).y - (pos p).y) (by linarith) (by linarith)
    linarith
  · have := c4 rfl
    have := fin ((pos p).y - (pos q).y) (by linarith) (by linarith)
    linarith
  · have := c5 rfl
    have := fin ((pos q).z - (pos p).z) (by linarith) (by linarith)
    linarith
  · have := c6 rfl
    have := fin ((pos p).z - (pos q).z) (by linarith) (by linarith)
    linarith

/-- The cell functor of `ds_sequential` (DSSequentialTraversal.h:40-45, 78-80). -/
structure DSFunctor (cutoff : Rat) (pos : P → V3 Rat) (own : P → Ownership) (f : CellFunctorCfg P) : Prop where
  cutoff : f.cutoff = cutoff
  bidirectional : f.bidirectional = false
  sorts : f.Sorts pos
  halo : ∀ p, f.isHalo p = decide (own p = .halo)

/-- The functor calls do not depend on the positions in SoA mode. -/
theorem run_soa (hsoa : f.soa = true) (s : V3 Rat → List P → List (Rat × P)) (cells : List (PCell P)) (ops : List (List (List CellOp))) :
    ({ f with sorted := s } : CellFunctorCfg P).run cells ops = f.run cells ops := by
  unfold CellFunctorCfg.run
  apply List.flatMap_congr
  intro op _
  cases op <;> simp [CellFunctorCfg.op, CellFunctorCfg.cell, CellFunctorCfg.cellPair, hsoa]

theorem ds_noDouble (hs : DSSorted bMin bMax home cells) (hsort : f.Sorts pos) : NoDoubleCalls cells.flatten (dsCalls f cells) := by
  have hok := ds_cells_ok hs
  have h7 : dsCalls f cells = f.run (dsPCells cells) [[dsOps 7]] := by unfold dsCalls; rw [hs.length]
  have hcalls : ∀ a b, timesReceived (dsCalls f cells) a b ≠ 0 → a ∈ cells.flatten ∧ b ∈ cells.flatten ∧ a ≠ b := by
    intro a b hx
    obtain ⟨c, hc, hab⟩ := mem_contributions_calls hx
    rw [h7] at hc
    unfold CellFunctorCfg.run at hc
    obtain ⟨op, hop, hc⟩ := List.mem_flatMap.1 hc
    have hop : op ∈ dsOps 7 := by simpa using hop
    obtain ⟨i, j, hi, hj, hne, -⟩ := op_calls hok hsort (dsOps_valid op hop) hc
    rw [(cellAt_dsPCells _).1] at hi hj
    have m1 := mem_flatten_getD'.2 ⟨_, hi⟩
    have m2 := mem_flatten_getD'.2 ⟨_, hj⟩
    rcases hab with ⟨rfl, rfl⟩ | ⟨-, rfl, rfl⟩
    · exact ⟨m1, m2, hne⟩
    · exact ⟨m2, m1, hne.symm⟩
  refine ⟨?_, hcalls⟩
  · intro a b
    by_cases hab : a = b
    · by_contra hx
      exact (hcalls a b (by omega)).2.2 hab
    rw [h7]
    unfold CellFunctorCfg.run
    have e : ([[dsOps 7]] : List (List (List CellOp))).flatten.flatten = dsOps 7 := by simp
    rw [e]
    refine le_trans (timesReceived_flatMap_le (q := hits (f.newton3 || f.bidirectional) (dsCellOf bMin bMax (home a) : Int)
      (dsCellOf bMin bMax (home b) : Int)) ?_) (dsOps_most _ (dsCellOf_le _ _ _) (dsCellOf_le _ _ _))
    intro op hop
    exact op_received_le hok hsort hab (dsOps_valid op hop)

theorem ds_complete {own : P → Ownership} (hcut : 0 ≤ cutoff) (hskin : 0 ≤ skin) (hs : DSSorted bMin bMax home cells)
    (hf : DSFunctor cutoff pos own f) (hsc : skin ≤ cutoff ∨ f.soa = true)
    (hm : ∀ p ∈ cells.flatten, 4 * distSq (pos p) (home p) ≤ skin * skin)
    (hin : ∀ p ∈ cells.flatten, own p = .owned → InBox (home p) bMin bMax) :
    CompleteCalls pos own cutoff cells.flatten (dsCalls f cells) := by
  have hok := ds_cells_ok hs
  have hmem : ∀ p ∈ cells.flatten, p ∈ (cellAt (dsPCells cells) (dsCellOf bMin bMax (home p) : Int)).particles := by
    intro p hp
    obtain ⟨k, hk⟩ := mem_flatten_getD'.1 hp
    rw [(cellAt_dsPCells _).1, Int.toNat_natCast, hs.home k p hk]
    exact hk
  have h7 : dsCalls f cells = f.run (dsPCells cells) [[dsOps 7]] := by unfold dsCalls; rw [hs.length]
  have hno := ds_noDouble hs hf.sorts
  refine ⟨?_, hno.most, hno.mem⟩
  · intro a ha b hb hab hao hbo hd
    have h0 : dsCellOf bMin bMax (home a) = 0 := dsCellOf_zero.2 (hin a ha hao)
    have key : ∀ (pos : P → V3 Rat) (f : CellFunctorCfg P), f.Sorts pos → f.isHalo a = false → Near pos f.cutoff a b →
        (∀ i j dir, CellOp.pair i j dir ∈ dsOps 7 → NotBehind pos dir f.cutoff (cellAt (dsPCells cells) i).particles (cellAt (dsPCells cells) j).particles) →
        timesReceived (f.run (dsPCells cells) [[dsOps 7]]) a b = 1 := by
      intro pos f hsort hhalo hnear hnb
      unfold CellFunctorCfg.run
      rw [timesReceived_flatMap_indicator (q := hits (f.newton3 || f.bidirectional) (dsCellOf bMin bMax (home a) : Int) (dsCellOf bMin bMax (home b) : Int))]
      · rw [h0]
        have : ([[dsOps 7]] : List (List (List CellOp))).flatten.flatten = dsOps 7 := by simp
        rw [this]
        exact dsOps_once _ (dsCellOf_le _ _ _)
      · intro op hop
        have hop : op ∈ dsOps 7 := by simpa using hop
        refine op_received hok hsort hab (hmem a ha) (hmem b hb) ?_ hhalo hnear (dsOps_valid op hop) ?_
        · rw [(cellAt_dsPCells _).2 (by rw [h0, hs.length]; decide), h0]; rfl
        · rintro i j dir rfl
          exact hnb i j dir hop
    rw [h7]
    have hh : f.isHalo a = false := by rw [hf.halo, hao]; rfl
    rcases hsc with hsc | hsoa
    · exact key pos f hf.sorts hh (by unfold Near; rw [hf.cutoff]; exact le_of_lt hd) fun i j dir ho => by
        rw [hf.cutoff]; exact ds_notBehind hs hskin hsc hm ho
    · rw [← run_soa hsoa (sortByProjection fun _ => ⟨0, 0, 0⟩)]
      refine key (fun _ => ⟨0, 0, 0⟩) _ (sortByProjection_sorted _) hh ?_ ?_
      · unfold Near
        show distSq _ _ ≤ f.cutoff * f.cutoff
        rw [hf.cutoff]
        unfold distSq
        simp only [sub_self]
        nlinarith
      · intro i j dir _ p _ q _ hlt
        exact absurd hlt (lt_irrefl _)

end
end Verif
