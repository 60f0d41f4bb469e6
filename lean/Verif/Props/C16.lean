import Verif.Lemmas.Sliced
/-!
# C16 — the slice computations partition the grid

`n` is the number of cells along the sliced axis, `m` the minimum thickness handed to the computation, `ov` the overlap
by which the last slice is shortened when base cells only interact with cells in forward direction.
-/
namespace Verif

/-- Thicknesses of a partition of `n` layers into slices of at least `m` layers, up to the shortened last slice. -/
def Spec.PartitionsLayers (forward : Bool) (n m ov : Nat) (thick : List Nat) : Prop :=
  thick ≠ [] ∧ thick.sum + (if forward then ov else 0) = n ∧
  (∀ s, s + 1 < thick.length → m ≤ thick.getD s 0) ∧
  m ≤ thick.getD (thick.length - 1) 0 + (if forward then ov else 0)

theorem SlicesOf.partitions {forward : Bool} {n m ov : Nat} {thick : List Nat} (h : SlicesOf forward n m ov thick)
    (hov : ov ≤ m) : Spec.PartitionsLayers forward n m ov thick := by
  refine ⟨h.ne_nil, ?_, fun s hs => h.thick_ge hs, ?_⟩
  · cases forward with
    | true =>
      have := h.sum hov
      obtain ⟨l, h1, h2, h3, -⟩ := h
      rcases List.eq_nil_or_concat l with e | ⟨init, a, rfl⟩
      · exact absurd e h1
      · have := h3 a (by simp)
        simp at h2 ⊢
        omega
    | false =>
      obtain ⟨l, h1, h2, h3, rfl⟩ := h
      simpa [shortenLast] using h2
  · obtain ⟨l, h1, h2, h3, rfl⟩ := h
    rcases List.eq_nil_or_concat l with e | ⟨init, a, rfl⟩
    · exact absurd e h1
    · simp only [List.concat_eq_append] at *
      have := h3 a (by simp)
      cases forward with
      | true =>
        rw [shortenLast_concat]
        simp [List.getD_eq_getElem?_getD]
        omega
      | false =>
        simp [shortenLast, List.getD_eq_getElem?_getD]
        omega

/-- The plain slice computation. -/
theorem C16_plain_slices_partition (forward : Bool) (n m ov : Nat) (hm : 0 < m) (hov : ov ≤ m) (hn : m ≤ n) :
    Spec.PartitionsLayers forward n m ov (sliceThickness forward n m ov) :=
  (sliceThickness_slices hm hn).partitions hov

/-- The plain computation uses as many slices as fit. -/
theorem C16_plain_number_of_slices (forward : Bool) (n m ov : Nat) (hm : 0 < m) (hn : m ≤ n) :
    (sliceThickness forward n m ov).length = n / m := by
  have h1 : 1 ≤ n / m := (Nat.one_le_div_iff hm).2 hn
  unfold sliceThickness
  simp only
  rw [if_neg (by omega)]
  have hl := length_addRest (List.replicate (n / m) m) (min (n - m * (n / m)) (n / m)) (n - m * (n / m))
  rw [List.length_replicate] at hl
  generalize addRest (min (n - m * (n / m)) (n / m)) (n - m * (n / m)) (List.replicate (n / m) m) = l at *
  rcases List.eq_nil_or_concat l with e | ⟨init, a, rfl⟩
  · subst e; simp at hl; omega
  · rw [List.concat_eq_append] at *
    cases forward
    · simpa [shortenLast] using hl
    · rw [shortenLast_concat]; simpa using hl

/-- The load balanced slice computation, for arbitrary load estimates (including ones that overflow) and numbers of
threads: it never accesses memory out of bounds and partitions the layers. -/
theorem C16_balanced_slices_partition (loads : Nat → Nat) (forward : Bool) (n m ov threads : Nat) (hov : ov ≤ m)
    (hn : m ≤ n) (ht : 1 ≤ threads) :
    ∃ thick, balancedSliceThickness loads forward n m ov threads = some thick ∧
      Spec.PartitionsLayers forward n m ov thick := by
  obtain ⟨thick, h1, h2⟩ := balancedSliceThickness_slices (loads := loads) (forward := forward) (ov := ov) hn ht
  exact ⟨thick, h1, h2.partitions hov⟩

/-- Working through all slices visits every layer exactly once. -/
theorem C16_slices_visit_every_layer_once (thick : List Nat) :
    (List.range thick.length).flatMap (sliceLayers thick) = List.range thick.sum :=
  slices_layers thick

/-- The axes are a permutation of the three axes, and the sliced one is longest. -/
theorem C16_axes (d : V3 Nat) :
    (longestAxis d < 3 ∧ mediumAxis d < 3 ∧ shortestAxis d < 3) ∧
    (longestAxis d ≠ mediumAxis d ∧ longestAxis d ≠ shortestAxis d ∧ mediumAxis d ≠ shortestAxis d) ∧
    ∀ i < 3, d.get (shortestAxis d) ≤ d.get i ∧ d.get i ≤ d.get (longestAxis d) :=
  axes_spec d

-- 11 layers, overlap 2, minimum thickness 3
example : sliceThickness true 11 3 2 = [4, 4, 1] := by decide +kernel
example : Spec.PartitionsLayers true 11 3 2 [4, 4, 1] := by
  simpa [show sliceThickness true 11 3 2 = [4, 4, 1] by decide +kernel] using
    C16_plain_slices_partition true 11 3 2 (by norm_num) (by norm_num) (by norm_num)
example : ∃ thick, balancedSliceThickness (fun i => 10 * (i + 1)) true 12 3 2 8 = some thick ∧
    Spec.PartitionsLayers true 12 3 2 thick :=
  C16_balanced_slices_partition _ true 12 3 2 8 (by norm_num) (by norm_num) (by norm_num)

end Verif
