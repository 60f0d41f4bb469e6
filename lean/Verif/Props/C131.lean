import Verif.Lemmas.SoALoad
/-!
C131: a structure of arrays behaves like a vector of records (whatever is done to it, in any order), and loading particles into it, computing, and writing the
result back gives each particle exactly the computed attributes of its own entry: no entry is shifted, lost or mixed up between attributes, cells or threads.

Violated for containers with 2^31 or more particles (`C131_violated_int`): the offsets of the cells are summed up in an `int`.
-/
namespace Verif

variable {V : Type}

/-- Every history of operations on the arrays has the outcome it has on a vector of records. -/
theorem C131_records [Zero V] {w : Nat} (hw : 0 < w) (ops : List (SoAOp V)) {s : SoAArrays V} {rows : List (AttrParticle V)} (hs : s.width = w) (h : HoldsRows s rows)
    (hv : ∀ op ∈ ops, op.Valid w) : SameOutcome w (runSoAOps s ops) (runRowOps rows ops) :=
  ops_run hw ops hs h hv

/-- What can be observed of the arrays is what can be observed of the records. -/
theorem C131_observe {s : SoAArrays V} {rows : List (AttrParticle V)} (hw : 0 < s.width) (h : HoldsRows s rows) (attrs : List Nat) (ha : ∀ a ∈ attrs, a < s.width) (i : Nat) :
    s.size = rows.length ∧
    s.readMultiple attrs i = (match rows[i]? with | some r => .ok (attrs.map r) | none => .throws) ∧
    ∀ a < s.width, s.read a i = (match rows[i]? with | some r => .ok (r a) | none => .throws) := by
  refine ⟨h.size hw, ?_, fun a haw => ?_⟩
  · unfold SoAArrays.readMultiple
    rw [h.size hw]
    by_cases hi : i < rows.length
    · rw [if_neg (by omega), readImpl_eq h hi ha, List.getElem?_eq_getElem hi]
    · rw [if_pos (by omega), List.getElem?_eq_none (by omega)]
  · unfold SoAArrays.read
    rw [h a haw]
    by_cases hi : i < rows.length
    · simp [List.getElem?_eq_getElem hi]
    · simp [List.getElem?_eq_none (Nat.le_of_not_lt hi)]

/-- A new structure holds no records. -/
theorem C131_new (w : Nat) : HoldsRows (SoAArrays.empty w : SoAArrays V) [] := fun _ _ => rfl

/-- Pushing a value to each array once, in any order, appends a record. -/
theorem C131_push {s : SoAArrays V} {rows : List (AttrParticle V)} (h : HoldsRows s rows) (r : AttrParticle V) {order : List Nat} (ho : order.Perm (List.range s.width)) :
    HoldsRows (order.foldl (fun s' a => s'.push a (r a)) s) (rows ++ [r]) := by
  have key : ∀ (l : List Nat) (s : SoAArrays V), l.Nodup → l.foldl (fun s' a => s'.push a (r a)) s =
      { s with col := fun b => if b ∈ l then s.col b ++ [r b] else s.col b } := by
    intro l
    induction l with
    | nil => intro s _; simp
    | cons a l ih =>
      intro s hn
      rw [List.foldl_cons, ih _ hn.of_cons]
      refine SoAArrays.ext (by rfl) fun b => ?_
      have : a ∉ l := (List.nodup_cons.1 hn).1
      by_cases hb : b = a
      · subst hb; simp [SoAArrays.push, this]
      · simp [SoAArrays.push, hb]
  rw [key order s (ho.nodup_iff.2 List.nodup_range)]
  intro a ha
  have : a ∈ order := ho.mem_iff.2 (List.mem_range.2 ha)
  simp [this, h a ha]

/-- One cell in its own arrays (linked cells, cluster towers, buffers of the logic handler). Loading never fails and does not depend on what was in the arrays: each
array has one entry for each particle, those of needed attributes are the attributes of the particles, in order. Extracting from any arrays of this size sets the
computed attributes of each particle to its own entries, and nothing else. -/
theorem C131_cell [Zero V] (needed computed : List Nat) (cell : List (AttrParticle V)) (s : SoAArrays V) :
    (∃ s', soaLoader needed cell s 0 false = .ok s' ∧ s'.width = s.width ∧ (∀ a, (s'.col a).length = cell.length) ∧ ∀ a ∈ needed, s'.col a = cell.map fun p => p a) ∧
    ∀ t : SoAArrays V, (∀ a ∈ computed, (t.col a).length = cell.length) → ∃ cell', soaExtractor computed t cell 0 = .ok cell' ∧ cell'.length = cell.length ∧
      ∀ k (h : k < cell.length) (h' : k < cell'.length) b, (b ∈ computed → (t.col b)[k]? = some (cell'[k] b)) ∧ (b ∉ computed → cell'[k] b = cell[k] b) := by
  refine ⟨?_, fun t ht => ?_⟩
  · rw [soaLoader_resize, soaLoader_skip (by intro a _; simp only [SoAArrays.resize]; rw [vecResize_length])]
    refine ⟨_, rfl, rfl, fun a => ?_, fun a ha => ?_⟩
    · by_cases h : a ∈ needed
      · simp only [h, if_true]
        rw [splice_length (by simp only [SoAArrays.resize]; rw [vecResize_length]; simp)]
        simp only [SoAArrays.resize]; rw [vecResize_length]; omega
      · simp only [h, if_false, SoAArrays.resize]; rw [vecResize_length]; omega
    · simp only [ha, if_true, splice, SoAArrays.resize]
      rw [List.drop_eq_nil_of_le (by rw [vecResize_length]; simp)]
      simp
  · rw [soaExtractor_eq t computed cell 0 fun a ha => by rw [ht a ha]; omega]
    refine ⟨_, rfl, by simp, fun k h h' b => ⟨fun hb => ?_, fun hb => by simp [hb]⟩⟩
    have hk : k < (t.col b).length := by rw [ht b hb]; exact h
    simp [hb, List.getElem?_eq_getElem hk]

/-- All cells in one set of arrays (Verlet lists), loaded by threads in any order: the entries of the cells follow each other. -/
theorem C131_load_partial [Zero V] (needed : List Nat) (cells : List (List (AttrParticle V))) (htot : cells.flatten.length < 2 ^ 31) {order : List Nat}
    (ho : order.Perm (List.range cells.length)) (s : SoAArrays V) :
    ∃ s', soaLoadCells needed cells order s = .ok s' ∧ s'.width = s.width ∧ (∀ a, (s'.col a).length = cells.flatten.length) ∧
      ∀ a ∈ needed, s'.col a = cells.flatten.map fun p => p a := by
  rw [List.length_flatten] at htot
  rw [loadCells_eq needed cells htot ho s]
  refine ⟨_, rfl, rfl, fun a => ?_, fun a ha => by simp [ha]⟩
  by_cases h : a ∈ needed
  · simp only [h, if_true, List.length_map]
  · simp only [h, if_false]; rw [vecResize_length, List.length_flatten]

/-- Extracting gives each particle of each cell its own entries. -/
theorem C131_extract [Zero V] (computed : List Nat) (cells : List (List (AttrParticle V))) (t : SoAArrays V) (ht : ∀ a ∈ computed, (t.col a).length = cells.flatten.length) :
    ∃ cells', soaExtractCells computed t cells 0 = .ok cells' ∧ cells'.map List.length = cells.map List.length ∧
      ∀ k (h : k < cells.flatten.length) (h' : k < cells'.flatten.length) b,
        (b ∈ computed → (t.col b)[k]? = some (cells'.flatten[k] b)) ∧ (b ∉ computed → cells'.flatten[k] b = cells.flatten[k] b) := by
  obtain ⟨cells', h1, h2, h3⟩ := extractCells_eq t computed cells 0 fun a ha => by rw [ht a ha, List.length_flatten]; omega
  refine ⟨cells', h1, h2, fun k h h' b => ?_⟩
  have hv := List.getElem_of_eq h3 h'
  rw [List.getElem_mapIdx] at hv
  rw [hv]
  refine ⟨fun hb => ?_, fun hb => by simp [hb]⟩
  have hk : k < (t.col b).length := by rw [ht b hb]; exact h
  simp [hb, List.getElem?_eq_getElem hk]

/-- Loading and extracting without computing changes nothing, if the computed attributes are loaded. -/
theorem C131_round_trip_partial [Zero V] (needed computed : List Nat) (hsub : ∀ a ∈ computed, a ∈ needed) (cells : List (List (AttrParticle V)))
    (htot : cells.flatten.length < 2 ^ 31) {order : List Nat} (ho : order.Perm (List.range cells.length)) (s : SoAArrays V) :
    (soaLoadCells needed cells order s).bind (fun s' => soaExtractCells computed s' cells 0) = .ok cells := by
  obtain ⟨s', h1, -, h3, h4⟩ := C131_load_partial needed cells htot ho s
  obtain ⟨cells', e1, e2, e3⟩ := C131_extract computed cells s' fun a _ => h3 a
  rw [h1]
  simp only [Outcome.bind]
  rw [e1]
  congr 1
  have hl : cells'.flatten.length = cells.flatten.length := by rw [List.length_flatten, List.length_flatten, e2]
  refine (List.eq_iff_flatten_eq (L := cells') (L' := cells)).2 ⟨?_, e2⟩
  apply List.ext_getElem hl
  intro k h h'
  funext b
  by_cases hb : b ∈ computed
  · have h5 := (e3 k h' h b).1 hb
    rw [h4 b (hsub b hb)] at h5
    rw [List.getElem?_eq_getElem (by rw [List.length_map]; exact h'), List.getElem_map] at h5
    exact (Option.some.inj h5).symm
  · exact (e3 k h' h b).2 hb

/-- For all functors the computed attributes are among those loaded, and none is listed twice. -/
theorem C131_functors : ∀ f ∈ functorAttrs, (∀ a ∈ f.computed, a ∈ f.needed) ∧ f.needed.Nodup ∧ f.computed.Nodup := by decide

/-- The sums of the numbers of particles are stored in an `int`: with 2^31 particles (and less than 2^32) the traversal ends with an exception. -/
theorem C131_violated_int [Zero V] (needed : List Nat) (cells : List (List (AttrParticle V))) (h1 : 2 ^ 31 ≤ cells.flatten.length) (h2 : cells.flatten.length < 2 ^ 32)
    (order : List Nat) (s : SoAArrays V) : soaLoadCells needed cells order s = .throws := by
  rw [List.length_flatten] at h1 h2
  have hlast : (soaCellOffsets cells).getLastD 0 = 2 ^ 64 - 2 ^ 32 + (cells.map List.length).sum := by
    unfold soaCellOffsets
    rw [offsets_last _ 0 0 0 (intSum_small (by norm_num)), Nat.zero_add]
    unfold intSum
    simp only
    rw [Nat.mod_eq_of_lt h2, if_neg (by omega)]
  unfold soaLoadCells
  simp only [hlast]
  rw [if_pos (by omega)]

/-! ### Examples -/

private def pa : AttrParticle Int := fun a => [1, 2, 3].getD a 0
private def pb : AttrParticle Int := fun a => [4, 5, 6].getD a 0
private def pc : AttrParticle Int := fun a => [7, 8, 9].getD a 0

/-- A history: two records, one attribute of a third, swap, remove the last. -/
example : ((runSoAOps (SoAArrays.empty 3) [.append [pa, pb], .appendSome [1] [pc], .swap 0 2, .popBack]).bind fun s => .ok ((List.range 3).map s.col)) =
    .ok [[0, 4], [8, 5], [0, 6]] := by decide
/-- Cells of different sizes, one of them empty, loaded out of order; the attribute 2 is not loaded. -/
example : ((soaLoadCells [0, 1] [[pa], [], [pb, pc]] [2, 0, 1] (SoAArrays.empty 3)).bind fun s => .ok ((List.range 3).map s.col)) =
    .ok [[1, 4, 7], [2, 5, 8], [0, 0, 0]] := by decide
/-- Extracting an attribute that was not loaded loses its value. -/
example : ((soaLoadCells [0] [[pa]] [0] (SoAArrays.empty 3)).bind fun s => (soaExtractCells [1] s [[pa]] 0).bind fun cs => .ok (cs.map fun c => c.map fun p => p 1)) =
    .ok [[0]] := by decide
/-- Reading beyond the end is noticed, extracting beyond the end is not. -/
example : (SoAArrays.ofRows 3 [pa]).readMultiple [0, 1] 1 = .throws := by decide
example : (match soaExtractor [0] (SoAArrays.ofRows 3 [pa]) [pa, pb] 0 with | .ub => true | _ => false) = true := by decide
/-- After a push to one array only, `size` is that of the longest array, and reading the others throws. -/
example : ((SoAArrays.ofRows 3 [pa]).push 0 5).size = 2 ∧ ((SoAArrays.ofRows 3 [pa]).push 0 5).readMultiple [0, 1] 1 = .throws := by decide
/-- So many particles exist. -/
example : 2 ^ 31 ≤ ([List.replicate (2 ^ 31) pa, [pb]].flatten).length ∧ ([List.replicate (2 ^ 31) pa, [pb]].flatten).length < 2 ^ 32 := by
  simp [-Nat.reducePow]; omega

end Verif
