import Verif.Lemmas.LCC01Ring
/-! The functor calls of `lc_c01_combined_SoA`. -/
namespace Verif
open Spec

/-- The configuration with which `lc_c01_combined_SoA` is used. -/
structure CombinedFunctor {P : Type} (f : CellFunctorCfg P) : Prop where
  soa : f.soa = true
  newton3 : f.newton3 = false
  bidirectional : f.bidirectional = false

section
variable {P : Type} {cells : List (PCell P)} {dims : V3 Nat} {cl : V3 Rat} {il : Rat} {f : CellFunctorCfg P}

theorem soaPair_pairs (n3 : Bool) (l₁ l₂ : List P) : soaPair n3 l₁ l₂ = l₁.flatMap fun x => l₂.map fun y => ⟨x, y, n3⟩ := by
  unfold soaPair crossLoop
  simp only [untilBreak_false, List.map_flatMap, List.map_map]
  rfl

theorem soaPair_append (n3 : Bool) (l A B : List P) : (soaPair n3 l (A ++ B)).Perm (soaPair n3 l A ++ soaPair n3 l B) := by
  simp only [soaPair_pairs, List.map_append]
  induction l with
  | nil => simp
  | cons x l ih =>
    simp only [List.flatMap_cons]
    refine (List.Perm.append_left _ ih).trans ?_
    simp only [List.append_assoc]
    refine List.Perm.append_left _ ?_
    rw [← List.append_assoc, ← List.append_assoc]
    exact List.Perm.append_right _ List.perm_append_comm

theorem soaPair_flatMap {X : Type} (n3 : Bool) (l : List P) (L : List X) (g : X → List P) :
    (soaPair n3 l (L.flatMap g)).Perm (L.flatMap fun e => soaPair n3 l (g e)) := by
  induction L with
  | nil =>
    simp [soaPair_pairs]
  | cons e L ih =>
    simp only [List.flatMap_cons]
    exact (soaPair_append n3 l _ _).trans (List.Perm.append_left _ ih)

theorem CombinedFunctor.cellPair (hf : CombinedFunctor f) (d : V3 Rat) (B C : PCell P) :
    f.cellPair d B C = if B.hasOwned = true then soaPair false B.particles C.particles else [] := by
  unfold CellFunctorCfg.cellPair
  simp only [hf.soa, hf.newton3, hf.bidirectional, if_true]
  by_cases h1 : B.particles.isEmpty = true ∨ C.particles.isEmpty = true
  · rw [if_pos h1]
    rcases h1 with h1 | h1
    · rw [List.isEmpty_iff.1 h1]; simp [soaPair_pairs]
    · rw [List.isEmpty_iff.1 h1]; simp [soaPair_pairs]
  · rw [if_neg h1]
    cases hB : B.hasOwned <;> simp

/-- What the combined traversal does for one entry of the offset table. -/
def combinedEntry (f : CellFunctorCfg P) (cells : List (PCell P)) (dims : V3 Nat) (base : Int) (e : Int × Int × Int) : List (PairCall P) :=
  if c01Flat dims e = 0 then f.cell (cellAt cells base)
  else if e.1 = 0 then soaPair false (cellAt cells base).particles (cellAt cells (base + c01Flat dims e)).particles
  else f.cellPair ⟨0, 0, 0⟩ (cellAt cells base) (cellAt cells (base + c01Flat dims e))

theorem range_ring_perm {n c : Nat} (hc : c < n) : (List.range n).Perm ((List.range n).map fun k => (c + k) % n) := by
  rw [List.perm_ext_iff_of_nodup List.nodup_range]
  · intro k
    simp only [List.mem_range, List.mem_map]
    constructor
    · intro hk
      by_cases h : c ≤ k
      · exact ⟨k - c, by omega, by rw [show c + (k - c) = k by omega, Nat.mod_eq_of_lt hk]⟩
      · refine ⟨k + n - c, by omega, ?_⟩
        rw [show c + (k + n - c) = k + n by omega, Nat.add_mod_right, Nat.mod_eq_of_lt hk]
    · rintro ⟨j, -, rfl⟩
      exact Nat.mod_lt _ (by omega)
  · refine List.Nodup.map_on ?_ List.nodup_range
    intro i hi j hj hij
    by_contra hne
    exact mod_shift_ne (List.mem_range.1 hi) (List.mem_range.1 hj) hne hij

theorem flat_ne_zero {e : Int × Int × Int} (h0 : e.1 ≠ 0) (h1 : (e.1.natAbs : Int) < dims.x) : c01Flat dims e ≠ 0 := by
  unfold c01Flat threeToOneDInt V3.toInt
  intro h
  simp only at h
  have hd : (dims.x : Int) ∣ e.1 := ⟨-(e.2.2 * dims.y + e.2.1), by linear_combination h⟩
  have := Int.natAbs_dvd_natAbs.2 hd
  have := Nat.le_of_dvd (by omega) this
  omega

theorem flat_eq_zero (h : C18Dims dims cl il) {e : Int × Int × Int} (h0 : e.1 = 0)
    (hy : -(overlapOf il cl).y ≤ e.2.1 ∧ e.2.1 ≤ (overlapOf il cl).y) (he : c01Flat dims e = 0) : e = (0, 0, 0) := by
  obtain ⟨x, y, z⟩ := e
  simp only at h0 hy
  subst h0
  obtain ⟨o1, o2, o3⟩ := h.pos.ov
  have hx := h.x
  have := flat_yz_inj (dims := dims) (x := 0) (y := y) (z := z) (y' := 0) (z' := 0) (by omega) h.y hy (by omega)
    (by unfold c01Flat at he; simp only at he; rw [he]; simp [threeToOneDInt])
  rw [this.1, this.2]

theorem ringCalls_perm (h : C18Dims dims cl il) (hf : CombinedFunctor f) {base : Int} {r : C01Ring P} (hr : RingOk cells dims cl il base r) :
    (c01RingCalls f cells (overlapOf il cl).x.toNat (2 * (overlapOf il cl).x.toNat + 1) base r).Perm
      ((c01Entries dims cl il).flatMap (combinedEntry f cells dims base)) := by
  obtain ⟨o1, o2, o3⟩ := h.pos.ov
  have hdx := h.x
  unfold c01RingCalls c01Entries
  simp only
  refine ((range_ring_perm hr.current).flatMap_right _).trans ?_
  rw [List.flatMap_map, List.flatMap_assoc]
  refine List.Perm.flatMap_left _ ?_
  intro k hk
  rw [List.mem_range] at hk
  have hmem : ∀ e ∈ c01Slices dims cl il k, e.1 = k - (overlapOf il cl).x ∧ -(overlapOf il cl).y ≤ e.2.1 ∧ e.2.1 ≤ (overlapOf il cl).y := by
    intro e he
    have := (mem_c01Entries h (x := e.1) (y := e.2.1) (z := e.2.2)).1
      (List.mem_flatMap.2 ⟨k, List.mem_range.2 hk, he⟩)
    exact ⟨c01Slices_x h he, this.2.1⟩
  rw [hr.slot k hk]
  by_cases hko : k = (overlapOf il cl).x.toNat
  · subst hko
    rw [if_pos rfl]
    obtain ⟨R, hR⟩ := c01Slices_mid h
    have hnd := (c01_slices_inv h (overlapOf il cl).x.toNat).1
    rw [hR] at hmem hnd ⊢
    have hz : c01Flat dims (0, 0, 0) = 0 := by simp [c01Flat, threeToOneDInt]
    have hap : c01Append cells dims base ((0, 0, 0) :: R) = (cellAt cells base).particles ++ c01Append cells dims base R := by
      unfold c01Append
      rw [List.flatMap_cons, hz, add_zero]
    rw [hap, List.drop_left, List.flatMap_cons]
    have h1 : combinedEntry f cells dims base (0, 0, 0) = f.cell (cellAt cells base) := by
      unfold combinedEntry; rw [if_pos hz]
    rw [h1]
    refine List.perm_append_comm.trans (List.Perm.append_left _ ?_)
    unfold c01Append
    refine (soaPair_flatMap _ _ _ _).trans (List.Perm.of_eq ?_)
    apply List.flatMap_congr
    intro e he
    have hme := hmem e (List.mem_cons_of_mem _ he)
    have e0 : e.1 = 0 := by omega
    unfold combinedEntry
    rw [if_neg, if_pos e0]
    intro hfe
    have := flat_eq_zero h e0 hme.2 hfe
    subst this
    exact (List.nodup_cons.1 hnd).1 he
  · have hne : (r.current + k) % (2 * (overlapOf il cl).x.toNat + 1) ≠
        (r.current + (overlapOf il cl).x.toNat) % (2 * (overlapOf il cl).x.toNat + 1) := mod_shift_ne hk (by omega) hko
    rw [if_neg hne, hf.cellPair]
    have hent : (c01Slices dims cl il k).flatMap (combinedEntry f cells dims base) = (c01Slices dims cl il k).flatMap fun e =>
        if (cellAt cells base).hasOwned = true then
          soaPair false (cellAt cells base).particles (cellAt cells (base + c01Flat dims e)).particles else [] := by
      apply List.flatMap_congr
      intro e he
      have hme := hmem e he
      have e0 : e.1 ≠ 0 := by omega
      unfold combinedEntry
      rw [if_neg (flat_ne_zero e0 (by omega)), if_neg e0, hf.cellPair]
    rw [hent]
    split
    · exact soaPair_flatMap _ _ _ _
    · simp

theorem forUp_one_cons {a b : Nat} (h : a < b) : forUp a b 1 = a :: forUp (a + 1) b 1 := by
  rw [forUp, dif_pos ⟨h, Nat.one_pos⟩]

theorem forUp_one_nil {a b : Nat} (h : b ≤ a) : forUp a b 1 = [] := by
  rw [forUp, dif_neg (by omega)]

variable [Inhabited P]

/-- A thread goes on along a row. -/
private theorem thread_tail (h : C18Dims dims cl il) (hf : CombinedFunctor f) (row : Nat × Nat) (stop : Nat) (m : Nat) :
    ∀ (x : Nat) (r : C01Ring P), stop ≤ x + m → (overlapOf il cl).x.toNat ≤ x →
    RingOk cells dims cl il ((threeToOneD ⟨x, row.1, row.2⟩ dims : Nat) : Int) r → ∃ r', ∀ bs,
    (c01CombinedThread f cells dims cl il r (((forUp (x + 1) stop 1).map fun x => ⟨x, row.1, row.2⟩) ++ bs)).Perm
      ((((forUp (x + 1) stop 1).map fun x => (⟨x, row.1, row.2⟩ : V3 Nat)).flatMap fun b =>
        (c01Entries dims cl il).flatMap (combinedEntry f cells dims ((threeToOneD b dims : Nat) : Int))) ++
        c01CombinedThread f cells dims cl il r' bs) := by
  induction m with
  | zero =>
    intro x r hs _ _
    refine ⟨r, fun bs => ?_⟩
    rw [forUp_one_nil (by omega)]
    exact List.Perm.refl _
  | succ m ih =>
    intro x r hs hx hr
    by_cases hlt : x + 1 < stop
    · have hb : ((threeToOneD ⟨x + 1, row.1, row.2⟩ dims : Nat) : Int) = ((threeToOneD ⟨x, row.1, row.2⟩ dims : Nat) : Int) + 1 := by
        unfold threeToOneD; push_cast; ring
      have hr' := ringOk_shift h hr
      rw [← hb] at hr'
      obtain ⟨r', hr''⟩ := ih (x + 1) _ (by omega) (by omega) hr'
      refine ⟨r', fun bs => ?_⟩
      rw [forUp_one_cons hlt, List.map_cons, List.cons_append, List.flatMap_cons, List.append_assoc]
      have hne : ¬ (x + 1 = (overlapOf il cl).x.toNat) := by omega
      simp only [c01CombinedThread, c01CombinedCell, if_neg hne]
      exact (ringCalls_perm h hf hr').append (hr'' bs)
    · refine ⟨r, fun bs => ?_⟩
      rw [forUp_one_nil (by omega)]
      exact List.Perm.refl _

theorem thread_row (h : C18Dims dims cl il) (hf : CombinedFunctor f) (row : Nat × Nat) (r : C01Ring P) : ∃ r', ∀ bs,
    (c01CombinedThread f cells dims cl il r (c01Row dims (overlapOf il cl).toNat row ++ bs)).Perm
      (((c01Row dims (overlapOf il cl).toNat row).flatMap fun b =>
        (c01Entries dims cl il).flatMap (combinedEntry f cells dims ((threeToOneD b dims : Nat) : Int))) ++
        c01CombinedThread f cells dims cl il r' bs) := by
  have hlt : (overlapOf il cl).toNat.x < (dims.sub (overlapOf il cl).toNat).x := by
    have h1 := h.x
    have h2 := h.pos.ov
    unfold V3.sub V3.toNat
    simp only
    omega
  have hr := ringOk_init (cells := cells) (dims := dims) (cl := cl) (il := il)
    ((threeToOneD ⟨(overlapOf il cl).toNat.x, row.1, row.2⟩ dims : Nat) : Int)
  obtain ⟨r', hr'⟩ := thread_tail h hf row (dims.sub (overlapOf il cl).toNat).x (dims.sub (overlapOf il cl).toNat).x
    (overlapOf il cl).toNat.x _ (by omega) (le_refl _) hr
  refine ⟨r', fun bs => ?_⟩
  unfold c01Row
  rw [forUp_one_cons hlt, List.map_cons, List.cons_append, List.flatMap_cons, List.append_assoc]
  have he : (overlapOf il cl).toNat.x = (overlapOf il cl).x.toNat := rfl
  simp only [c01CombinedThread, c01CombinedCell, if_pos he]
  exact (ringCalls_perm h hf hr).append (hr' bs)

theorem thread_rows (h : C18Dims dims cl il) (hf : CombinedFunctor f) (rows : List (Nat × Nat)) : ∀ r : C01Ring P,
    (c01CombinedThread f cells dims cl il r (rows.flatMap (c01Row dims (overlapOf il cl).toNat))).Perm
      ((rows.flatMap (c01Row dims (overlapOf il cl).toNat)).flatMap fun b =>
        (c01Entries dims cl il).flatMap (combinedEntry f cells dims ((threeToOneD b dims : Nat) : Int))) := by
  induction rows with
  | nil => intro r; exact List.Perm.refl _
  | cons row rows ih =>
    intro r
    obtain ⟨r', hr'⟩ := thread_row (cells := cells) h hf row r
    simp only [List.flatMap_cons, List.flatMap_append]
    exact (hr' _).trans (List.Perm.append_left _ (ih r'))

omit [Inhabited P] in
theorem rows_eq_bases (dims ov : V3 Nat) : (c01Rows dims ov).flatMap (c01Row dims ov) = (c01Bases dims ov).flatten := by
  unfold c01Rows c01Row c01Bases colorTraversal colorCells
  simp [oneToThreeD, List.flatMap_assoc, List.flatMap_map]

/-- Whatever thread gets which rows and whatever is in its buffers: the calls of the whole traversal. -/
theorem lcC01Combined_perm (h : C18Dims dims cl il) (hf : CombinedFunctor f) {threads : List (C01Ring P × List (Nat × Nat))}
    (ht : (threads.flatMap Prod.snd).Perm (c01Rows dims (overlapOf il cl).toNat)) :
    (lcC01Combined f cells dims cl il threads).Perm ((c01Bases dims (overlapOf il cl).toNat).flatten.flatMap fun b =>
      (c01Entries dims cl il).flatMap (combinedEntry f cells dims ((threeToOneD b dims : Nat) : Int))) := by
  unfold lcC01Combined
  refine (List.Perm.flatMap_left _ fun t _ => thread_rows h hf t.2 t.1).trans ?_
  rw [← rows_eq_bases]
  refine List.Perm.trans (List.Perm.of_eq ?_) ((ht.flatMap_right (c01Row dims (overlapOf il cl).toNat)).flatMap_right _)
  simp only [List.flatMap_assoc]

end

end Verif
