import Verif.Props.C56
import Verif.Props.C10
/-!
# C57 — VerletListsCells computes interactions without data races

Packages of base cells of one phase run concurrently (colours for `vlc_c01` and `vlc_c18`, slices for `vlc_sliced_c02`); for `vlc_sliced`
and `vlc_sliced_balanced` all slices run concurrently and are coordinated by locks (the transition system of C14). A functor call
updates its first particle, with Newton 3 both.
-/
namespace Verif
open Spec

section
variable {P : Type}

/-- The particles that functor calls update. -/
def writtenBy (calls : List (PairCall P)) : List P := calls.flatMap fun c => if c.newton3 then [c.p, c.q] else [c.p]

theorem mem_writtenBy {calls : List (PairCall P)} {p : P} :
    p ∈ writtenBy calls ↔ ∃ c ∈ calls, p = c.p ∨ (c.newton3 = true ∧ p = c.q) := by
  unfold writtenBy
  rw [List.mem_flatMap]
  constructor
  · rintro ⟨c, hc, h⟩
    refine ⟨c, hc, ?_⟩
    split at h
    · simp only [List.mem_cons, List.not_mem_nil, or_false] at h
      rcases h with h | h
      · exact .inl h
      · exact .inr ⟨by assumption, h⟩
    · exact .inl (by simpa using h)
  · rintro ⟨c, hc, h⟩
    refine ⟨c, hc, ?_⟩
    rcases h with rfl | ⟨hn, rfl⟩
    · split <;> simp
    · rw [if_pos hn]; simp

variable [DecidableEq P] {f : CellFunctorCfg P} {pos : P → V3 Rat}

/-- The two cells of a call to the cell functor. -/
def CellOp.first : CellOp → Int
  | .self i => i
  | .pair i _ _ => i

def CellOp.second : CellOp → Int
  | .self i => i
  | .pair _ j _ => j

/-- With Newton 3 the first particle of a call is in the first cell, the second in the second one. -/
theorem op_cells (hs : f.Sorts pos) (hn : f.newton3 = true) {cells : List (PCell P)} {op : CellOp}
    {c : PairCall P} (h : c ∈ f.op cells op) :
    c.p ∈ (cellAt cells op.first).particles ∧ c.q ∈ (cellAt cells op.second).particles := by
  cases op with
  | self i =>
    simp only [CellFunctorCfg.op, CellOp.first, CellOp.second] at h ⊢
    unfold CellFunctorCfg.cell processCell soaSingle at h
    rw [processCellAoS_eq] at h
    split at h
    · split at h
      · simp at h
      · split at h
        · simp at h
        · obtain ⟨t, ht, h⟩ := List.mem_flatMap.1 h
          have hm := mem_pairLoop ht
          unfold interactCross at h
          rw [if_pos hn] at h
          simp at h; subst h; exact ⟨hm.1, hm.2⟩
    · split at h
      · simp at h
      · split at h
        · simp at h
        · obtain ⟨t, ht, h⟩ := List.mem_flatMap.1 h
          have hm := mem_cellPairs (hs _ _) ht
          unfold interactParticles at h
          rw [if_pos hn] at h
          simp at h; subst h; exact ⟨hm.1, hm.2⟩
  | pair i j dir =>
    simp only [CellFunctorCfg.op, CellOp.first, CellOp.second] at h ⊢
    unfold CellFunctorCfg.cellPair processCellPair at h
    rw [processCellPairAoS_eq] at h
    split at h
    · split at h
      · simp at h
      · split at h
        · simp at h
        · rw [List.mem_append, if_neg (by simp [hn])] at h
          rcases h with h | h
          · obtain ⟨t, ht, rfl⟩ := List.mem_map.1 h
            exact mem_crossLoop ht
          · cases h
    · split at h
      · simp at h
      · split at h
        · simp at h
        · obtain ⟨t, ht, h⟩ := List.mem_flatMap.1 h
          have := mem_crossPairs (hs _ _) (hs _ _) ht
          unfold interactCross at h
          rw [if_pos hn] at h
          simp at h; subst h; exact ⟨this.1, this.2⟩

variable {bMin bMax : V3 Rat} {il csf : Rat} {pos₀ : P → V3 Rat} {own₀ : P → Ownership} {cells : List (List P)}

/-- Where the particles of a call of the list-building traversal are. -/
theorem c18_call_cells (hbox : GoodBox bMin bMax il csf) (hf : FunctorFor .c18 pos₀ il f) (hn : f.newton3 = true)
    (hs : SortedIn (CellBlock.rebuild id bMin bMax il csf) pos₀ cells) {c : PairCall P}
    (hc : c ∈ f.run (lcCells (CellBlock.rebuild id bMin bMax il csf) cells) (LCTraversal.c18.ops
      (CellBlock.rebuild id bMin bMax il csf).dims (CellBlock.rebuild id bMin bMax il csf).cellLength il)) :
    let blk := CellBlock.rebuild id bMin bMax il csf
    let ov := (overlapOf il blk.cellLength).toNat
    let a := blk.indexOfPosition id (pos₀ c.p)
    let b := blk.indexOfPosition id (pos₀ c.q)
    (a.x ≤ b.x + ov.x ∧ b.x ≤ a.x + ov.x) ∧ (a.y ≤ b.y + ov.y ∧ b.y ≤ a.y + ov.y) ∧ (a.z ≤ b.z ∧ b.z ≤ a.z + ov.z) := by
  intro blk ov a b
  have h : C18Dims blk.dims blk.cellLength il := c18Dims_of hbox
  have hgrid : ∀ p, InGrid (blk.indexOfPosition id p) blk.dims := fun p => hbox.inGrid p
  have own : ∀ (k : V3 Nat) (p : P), InGrid k blk.dims → p ∈ (cellAt (lcCells blk cells) (threeToOneD k blk.dims : Int)).particles →
      blk.indexOfPosition id (pos₀ p) = k := by
    intro k p hk hp
    have := (cells_ok hs).mem _ p (by omega) hp
    exact flat_inj (hgrid _) hk (by exact_mod_cast this)
  obtain ⟨op, hop, hc⟩ := List.mem_flatMap.1 hc
  have hcell := op_cells hf.sorts hn hc
  simp only [LCTraversal.ops, lcC18, List.mem_flatten, List.mem_map] at hop
  obtain ⟨pack, ⟨colour, ⟨bases, hb1, rfl⟩, hpack⟩, hop⟩ := hop
  obtain ⟨base, hb2, rfl⟩ := List.mem_map.1 hpack
  have hb' : base ∈ (c18Bases false blk.dims (overlapOf il blk.cellLength).toNat).flatten := List.mem_flatten.2 ⟨bases, hb1, hb2⟩
  simp only [c18ProcessBaseCell, List.mem_map] at hop
  obtain ⟨⟨x, y, z⟩, ht, rfl⟩ := hop
  have hq : (base, x, y, z) ∈ c18Q blk.dims blk.cellLength il := mem_basePairsD.2 ⟨hb', ht⟩
  have hgf := (c18_coded h).gridf _ hq
  have hgg := (c18_coded h).gridg _ hq
  rw [mem_c18Q h] at hq
  simp only [baseCellOp] at hcell
  rw [flat_shift (by omega) (by omega) (by omega)] at hcell
  split_ifs at hcell with hz
  · simp only [CellOp.first, CellOp.second] at hcell
    obtain ⟨h1, h2⟩ := hcell
    have e1 := own _ _ hgf h1
    have e2 := own _ _ hgf h2
    simp only [a, b]
    rw [e1, e2]
    omega
  · simp only [CellOp.first, CellOp.second] at hcell
    obtain ⟨h1, h2⟩ := hcell
    have e1 := own _ _ hgf h1
    have e2 := own _ _ hgg h2
    simp only [a, b]
    rw [e1, e2]
    simp only [shift, ov, V3.toNat]
    omega

/-- Where the particles that a package of base cells updates are. -/
theorem vlcPackage_written (hbox : GoodBox bMin bMax il csf) (hf : FunctorFor .c18 pos₀ il f)
    (hs : SortedIn (CellBlock.rebuild id bMin bMax il csf) pos₀ cells) (soa : Bool) {bases : List (V3 Nat)}
    (hb : ∀ b ∈ bases, InGrid b (CellBlock.rebuild id bMin bMax il csf).dims) {p : P}
    (hp : p ∈ writtenBy (vlcPackage soa f.newton3 (CellBlock.rebuild id bMin bMax il csf).dims cells.flatten cells
      (vlcBuild pos₀ own₀ (CellBlock.rebuild id bMin bMax il csf) il f cells) bases)) :
    let blk := CellBlock.rebuild id bMin bMax il csf
    let ov := (overlapOf il blk.cellLength).toNat
    let b := blk.indexOfPosition id (pos₀ p)
    ∃ a ∈ bases, (a.x ≤ b.x + ov.x ∧ b.x ≤ a.x + ov.x) ∧ (a.y ≤ b.y + ov.y ∧ b.y ≤ a.y + ov.y) ∧ (a.z ≤ b.z ∧ b.z ≤ a.z + ov.z) ∧
      (f.newton3 = false → a = b) := by
  intro blk ov b
  have hgrid : ∀ p, InGrid (blk.indexOfPosition id p) blk.dims := fun p => hbox.inGrid p
  have h0 : il + 0 = il := add_zero il
  have hcalls := fun c => C51_linked_cells_calls bMin bMax il 0 csf (by rw [h0]; exact hbox) .c18 pos₀ pos₀ f cells c
  simp only [h0] at hcalls
  have hcalls := fun c => hcalls c trivial hf hs
  obtain ⟨-, hE⟩ := vlcFold_spec (pos := pos₀) (own := own₀) (il := il) (soa := f.soa) _ (fun c h => (hcalls c h).1) _ (vlcHeads_empty cells)
  have hE' : ∀ k, ∀ e ∈ vlcEntries ((vlcBuild pos₀ own₀ blk il f cells).getD k []), ∃ c ∈ f.run (lcCells blk cells) (LCTraversal.c18.ops
      blk.dims blk.cellLength il), c.p = e.1 ∧ c.q = e.2 ∧ (particleToCell cells c.p).1 = k := by
    intro k e he
    have := (hE k).mem_iff.1 he
    rw [vlcEntries_empty, List.nil_append, List.mem_map] at this
    obtain ⟨c, hc, rfl⟩ := this
    rw [List.mem_filter] at hc
    exact ⟨c, hc.1, rfl, rfl, by have := hc.2; simp at this; exact this.2⟩
  obtain ⟨call, hcall, hpc⟩ := mem_writtenBy.1 hp
  unfold vlcPackage at hcall
  obtain ⟨a, ha, hcall⟩ := List.mem_flatMap.1 hcall
  have hcall : call ∈ vlcProcessAoS f.newton3 (vlcBuild pos₀ own₀ blk il f cells) (threeToOneD a blk.dims) := by
    split at hcall
    · rwa [vlcProcessSoA_eq] at hcall
      intro e he
      obtain ⟨c, hc, h1, h2, -⟩ := hE' _ e he
      have := hcalls c hc
      rw [← h1, ← h2]
      exact ⟨this.1, this.2.1⟩
    · exact hcall
  rw [vlcProcessAoS_eq] at hcall
  obtain ⟨e, he, rfl⟩ := List.mem_map.1 hcall
  obtain ⟨c, hc, h1, h2, h3⟩ := hE' _ e he
  have hk := hcalls c hc
  rw [particleToCell_home hs hk.1] at h3
  have hcp : blk.indexOfPosition id (pos₀ c.p) = a := flat_inj (hgrid _) (hb a ha) h3
  refine ⟨a, ha, ?_⟩
  simp only at hpc
  rw [← h1, ← h2] at hpc
  rcases hpc with rfl | ⟨hn, rfl⟩
  · simp only [b]
    rw [hcp]
    simp
  · have := c18_call_cells hbox hf hn hs hc
    simp only at this
    change (_ ∧ _) ∧ (_ ∧ _) ∧ (_ ∧ _) at this
    obtain ⟨g1, g2, g3⟩ := this
    rw [show (CellBlock.rebuild id bMin bMax il csf).indexOfPosition id (pos₀ c.p) = a from hcp] at g1 g2 g3
    exact ⟨g1, g2, g3, fun hx => by rw [hn] at hx; cases hx⟩

/-- Layers more than twice the overlap apart. -/
theorem vlc_layers_disjoint (hbox : GoodBox bMin bMax il csf) (hf : FunctorFor .c18 pos₀ il f)
    (hs : SortedIn (CellBlock.rebuild id bMin bMax il csf) pos₀ cells) (soa : Bool) {B B' : List (V3 Nat)}
    (hB : ∀ b ∈ B, InGrid b (CellBlock.rebuild id bMin bMax il csf).dims) (hB' : ∀ b ∈ B', InGrid b (CellBlock.rebuild id bMin bMax il csf).dims)
    (far : ∀ b ∈ B, ∀ b' ∈ B', (doubleOverlap (overlapOf il (CellBlock.rebuild id bMin bMax il csf).cellLength).toNat).get
        (longestAxis (CellBlock.rebuild id bMin bMax il csf).dims) < axisDist
          (b.get (longestAxis (CellBlock.rebuild id bMin bMax il csf).dims)) (b'.get (longestAxis (CellBlock.rebuild id bMin bMax il csf).dims)))
    (p : P) (hp : p ∈ writtenBy (vlcPackage soa f.newton3 (CellBlock.rebuild id bMin bMax il csf).dims cells.flatten cells
      (vlcBuild pos₀ own₀ (CellBlock.rebuild id bMin bMax il csf) il f cells) B)) :
    p ∉ writtenBy (vlcPackage soa f.newton3 (CellBlock.rebuild id bMin bMax il csf).dims cells.flatten cells
      (vlcBuild pos₀ own₀ (CellBlock.rebuild id bMin bMax il csf) il f cells) B') := by
  intro hp'
  obtain ⟨a, ha, x1, y1, z1, -⟩ := vlcPackage_written hbox hf hs soa hB hp
  obtain ⟨a', ha', x2, y2, z2, -⟩ := vlcPackage_written hbox hf hs soa hB' hp'
  have := far a ha a' ha'
  rw [doubleOverlap_get] at this
  generalize (overlapOf il (CellBlock.rebuild id bMin bMax il csf).cellLength).toNat = o at *
  have hax := (axes_spec (CellBlock.rebuild id bMin bMax il csf).dims).1.1
  generalize longestAxis (CellBlock.rebuild id bMin bMax il csf).dims = ax at *
  unfold axisDist at this
  have hax : ax = 0 ∨ ax = 1 ∨ ax = 2 := by omega
  rcases hax with rfl | rfl | rfl <;> (simp only [V3.get] at *; simp at this; split at this <;> omega)

/-- C57. In every phase, two packages that may run at the same time update disjoint sets of particles. (`vlc_sliced` and
`vlc_sliced_balanced`, the lock based traversals, have their own theorem below.) -/
theorem C57_vlc_race_free (hbox : GoodBox bMin bMax il csf) (t : VLCTraversal) (hlock : ∀ thick, t ≠ .sliced thick)
    (ht : t.Applicable f.newton3 (CellBlock.rebuild id bMin bMax il csf).dims (CellBlock.rebuild id bMin bMax il csf).cellLength il)
    (hf : FunctorFor .c18 pos₀ il f) (hs : SortedIn (CellBlock.rebuild id bMin bMax il csf) pos₀ cells) (soa : Bool)
    (phase : List (List (V3 Nat)))
    (hphase : phase ∈ t.bases (CellBlock.rebuild id bMin bMax il csf).dims (CellBlock.rebuild id bMin bMax il csf).cellLength il)
    (n m : Nat) (hn : n < phase.length) (hm : m < phase.length) (hnm : n ≠ m) (p : P)
    (hp : p ∈ writtenBy (vlcPackage soa f.newton3 (CellBlock.rebuild id bMin bMax il csf).dims cells.flatten cells
      (vlcBuild pos₀ own₀ (CellBlock.rebuild id bMin bMax il csf) il f cells) phase[n])) :
    p ∉ writtenBy (vlcPackage soa f.newton3 (CellBlock.rebuild id bMin bMax il csf).dims cells.flatten cells
      (vlcBuild pos₀ own₀ (CellBlock.rebuild id bMin bMax il csf) il f cells) phase[m]) := by
  obtain ⟨hB1, hB2⟩ := vlcBases_facts hbox t f.newton3 ht
  obtain ⟨hl1, hl2⟩ := longest_dims2 hbox
  have hin : ∀ k (hk : k < phase.length), ∀ b ∈ phase[k], InGrid b (CellBlock.rebuild id bMin bMax il csf).dims := by
    intro k hk b hb
    exact ((hB2 b).1 (List.mem_flatten.2 ⟨_, List.mem_flatten.2 ⟨phase, hphase, List.getElem_mem hk⟩, hb⟩)).1
  cases t with
  | sliced thick => exact absurd rfl (hlock thick)
  | slicedC02 =>
    refine vlc_layers_disjoint hbox hf hs soa (hin n hn) (hin m hm) ?_ p hp
    clear hin hp hB1 hB2
    simp only [VLCTraversal.bases] at hphase
    generalize (CellBlock.rebuild id bMin bMax il csf).dims = dims at *
    generalize doubleOverlap (overlapOf il (CellBlock.rebuild id bMin bMax il csf).cellLength).toNat = ov2 at *
    have hS := sliceThickness_slices (forward := false) (ov := ov2.get (longestAxis dims)) hl2
      (show _ ≤ dims.get (longestAxis dims) by omega)
    generalize sliceThickness false (dims.get (longestAxis dims)) (ov2.get (longestAxis dims)) (ov2.get (longestAxis dims)) = thick at *
    unfold slicedC02Packs at hphase
    simp only [List.mem_map] at hphase
    obtain ⟨off, -, rfl⟩ := hphase
    simp only [List.length_map] at hn hm
    intro b hb b' hb'
    simp only [List.getElem_map, List.mem_flatMap] at hb hb'
    obtain ⟨d, hd, hb⟩ := hb
    obtain ⟨e, he, hb'⟩ := hb'
    have hss := nodup_getElem_ne (nodup_forUp off thick.length 2) hn hm hnm
    have hs1 := List.getElem_mem hn
    have hs2 := List.getElem_mem hm
    generalize (forUp off thick.length 2)[n] = s at *
    generalize (forUp off thick.length 2)[m] = s' at *
    rw [mem_forUp (by omega)] at hs1 hs2
    unfold sliceLayers at hd he
    rw [List.mem_map] at hd he
    obtain ⟨o, ho, rfl⟩ := hd
    obtain ⟨o', ho', rfl⟩ := he
    rw [List.mem_range] at ho ho'
    rw [layerBases_false, mem_layerBases] at hb hb'
    rw [hb.1, hb'.1]
    have far : ∀ s s' o o', s + 2 ≤ s' → s' < thick.length → o < thick.getD s 0 →
        sliceStart thick s + o + ov2.get (longestAxis dims) < sliceStart thick s' + o' := by
      intro s s' o o' h1 h2 h3
      have e1 := sliceStart_succ (thick := thick) (s := s) (by omega)
      have e2 := sliceStart_succ (thick := thick) (s := s + 1) (by omega)
      have e3 := sliceStart_mono (thick := thick) (s := s + 1 + 1) (s' := s') (by omega) (by omega)
      have e4 := hS.thick_ge (s := s + 1) (by omega)
      omega
    unfold axisDist
    rcases Nat.lt_or_gt_of_ne hss with h | h
    · have := far s s' o o' (by omega) (by omega) ho
      rw [if_pos (by omega)]
      omega
    · have := far s' s o' o (by omega) (by omega) ho'
      rw [if_neg (by omega)]
      omega
  | c18 =>
    intro hp'
    obtain ⟨a, ha, x1, y1, z1, -⟩ := vlcPackage_written hbox hf hs soa (hin n hn) hp
    obtain ⟨a', ha', x2, y2, z2, -⟩ := vlcPackage_written hbox hf hs soa (hin m hm) hp'
    simp only [VLCTraversal.bases, List.mem_map] at hphase
    obtain ⟨colour, hcol, rfl⟩ := hphase
    simp only [List.length_map] at hn hm
    simp only [List.getElem_map, List.mem_singleton] at ha ha'
    have hne : a ≠ a' := by
      rw [ha, ha']
      exact nodup_getElem_ne ((List.nodup_flatten.1 (nodup_colorTraversal _ _ _)).1 colour hcol) hn hm hnm
    obtain ⟨f1, f2, f3⟩ := C06_same_color_far_apart _ _ _ colour hcol a a' (by rw [ha]; exact List.getElem_mem hn)
      (by rw [ha']; exact List.getElem_mem hm)
    apply hne
    clear ha ha'
    rcases a with ⟨ax, ay, az⟩
    rcases a' with ⟨bx, by', bz⟩
    simp only [V3.mk.injEq] at *
    omega
  | c01 =>
    intro hp'
    obtain ⟨a, ha, -, -, -, x1⟩ := vlcPackage_written hbox hf hs soa (hin n hn) hp
    obtain ⟨a', ha', -, -, -, x2⟩ := vlcPackage_written hbox hf hs soa (hin m hm) hp'
    simp only [VLCTraversal.bases, List.mem_map] at hphase
    obtain ⟨colour, hcol, rfl⟩ := hphase
    simp only [List.length_map] at hn hm
    simp only [List.getElem_map, List.mem_singleton] at ha ha'
    have hne : a ≠ a' := by
      rw [ha, ha']
      exact nodup_getElem_ne ((List.nodup_flatten.1 (nodup_colorTraversal _ _ _)).1 colour hcol) hn hm hnm
    exact hne ((x1 ht).trans (x2 ht).symm)

/-- The same for `vlc_sliced` and `vlc_sliced_balanced`: in every state reachable with the locks, the layers two slices are processing update
disjoint sets of particles. -/
theorem C57_vlc_sliced_race_free (hbox : GoodBox bMin bMax il csf) (thick : List Nat)
    (ht : (VLCTraversal.sliced thick).Applicable f.newton3 (CellBlock.rebuild id bMin bMax il csf).dims
      (CellBlock.rebuild id bMin bMax il csf).cellLength il)
    (hf : FunctorFor .c18 pos₀ il f) (hs : SortedIn (CellBlock.rebuild id bMin bMax il csf) pos₀ cells) (soa : Bool)
    (σ : SlicedState) (hr : SlicedReach ((doubleOverlap (overlapOf il (CellBlock.rebuild id bMin bMax il csf).cellLength).toNat).get
      (longestAxis (CellBlock.rebuild id bMin bMax il csf).dims)) thick σ)
    (s s' d e : Nat) (r r' : List SliceAct) (hne : s ≠ s')
    (h : σ.rest s = .process d :: r) (h' : σ.rest s' = .process e :: r') (p : P)
    (hp : p ∈ writtenBy (vlcPackage soa f.newton3 (CellBlock.rebuild id bMin bMax il csf).dims cells.flatten cells
      (vlcBuild pos₀ own₀ (CellBlock.rebuild id bMin bMax il csf) il f cells) (layerBases false (CellBlock.rebuild id bMin bMax il csf).dims
        (doubleOverlap (overlapOf il (CellBlock.rebuild id bMin bMax il csf).cellLength).toNat) d))) :
    p ∉ writtenBy (vlcPackage soa f.newton3 (CellBlock.rebuild id bMin bMax il csf).dims cells.flatten cells
      (vlcBuild pos₀ own₀ (CellBlock.rebuild id bMin bMax il csf) il f cells) (layerBases false (CellBlock.rebuild id bMin bMax il csf).dims
        (doubleOverlap (overlapOf il (CellBlock.rebuild id bMin bMax il csf).cellLength).toNat) e)) := by
  obtain ⟨hl1, hl2⟩ := longest_dims2 hbox
  have hg := (LockSlices.slices ht hl1).good
  have hi := slicedInv_reach hg hr
  have hsum := (LockSlices.slices ht hl1).sum_false
  have inRange : ∀ {s d r}, σ.rest s = .process d :: r → d < thick.sum := by
    intro s d r h
    obtain ⟨hs, p⟩ := hi.position hg h
    rcases p with ⟨-, k, -, e, -⟩ | ⟨-, k, -, -, e, -⟩ | ⟨k, hk, e, -⟩ | ⟨m, e, hm⟩
    · cases e
    · cases e
    · cases e
      have h1 := sliceStart_succ hs
      have h2 := sliceStart_mono (thick := thick) (s := s + 1) (s' := thick.length) (by omega) (le_refl _)
      have h3 : sliceStart thick thick.length = thick.sum := by simp [sliceStart]
      omega
    · cases e
  have hd := inRange h
  have he := inRange h'
  rw [hsum] at hd he
  have hin : ∀ d, d < (CellBlock.rebuild id bMin bMax il csf).dims.get (longestAxis (CellBlock.rebuild id bMin bMax il csf).dims) →
      ∀ b ∈ layerBases false (CellBlock.rebuild id bMin bMax il csf).dims (doubleOverlap (overlapOf il
        (CellBlock.rebuild id bMin bMax il csf).cellLength).toNat) d, InGrid b (CellBlock.rebuild id bMin bMax il csf).dims := by
    intro d hd b hb
    exact ((layers_false _ _ _ rfl).2 b).1 (List.mem_flatMap.2 ⟨d, List.mem_range.2 hd, hb⟩)
  refine vlc_layers_disjoint hbox hf hs soa (hin d hd) (hin e he) ?_ p hp
  intro b hb b' hb'
  rw [layerBases_false, mem_layerBases] at hb hb'
  rw [hb.1, hb'.1]
  exact C14_lock_mutual_exclusion false _ _ thick hl1 ht σ hr s s' d e r r' hne h h'

end

/-! Non-vacuity: the box `[0,6) × [0,1) × [0,1)`, `cutoff + skin = 1`, two owned particles near `(0.5, 0.5, 0.5)` and two near `(3.5, 0.5, 0.5)`. -/

/-- Cells filled with a list of particles. -/
def placeAll (blk : CellBlock) (ps : List Particle) : List (List Particle) :=
  (List.range (numCells blk.dims)).map fun k => ps.filter fun p => threeToOneD (blk.indexOfPosition id p.pos) blk.dims = k

theorem placeAll_sorted {blk : CellBlock} {ps : List Particle} (h : ps.Nodup) : SortedIn blk Particle.pos (placeAll blk ps) := by
  unfold placeAll
  have hk : ∀ k, ∀ p ∈ ((List.range (numCells blk.dims)).map fun k => ps.filter fun p =>
      threeToOneD (blk.indexOfPosition id p.pos) blk.dims = k).getD k [], threeToOneD (blk.indexOfPosition id p.pos) blk.dims = k := by
    intro k p hp
    rw [List.getD_eq_getElem?_getD, List.getElem?_map] at hp
    by_cases hlt : k < numCells blk.dims
    · rw [List.getElem?_range hlt] at hp
      simpa using (List.mem_filter.1 hp).2
    · rw [List.getElem?_eq_none (by simpa using hlt)] at hp
      cases hp
  refine ⟨by simp, ?_, hk⟩
  rw [← List.flatMap_def]
  refine nodup_flatMap_key (fun p : Particle => threeToOneD (blk.indexOfPosition id p.pos) blk.dims) List.nodup_range (fun k _ => h.filter _) ?_
  intro k _ p hp
  simpa using (List.mem_filter.1 hp).2

private def exBlock57 : CellBlock := CellBlock.rebuild id ⟨0, 0, 0⟩ ⟨6, 1, 1⟩ 1 1

private def exPs57 : List Particle :=
  [⟨0, ⟨1/2, 1/2, 1/2⟩, .owned⟩, ⟨1, ⟨3/4, 1/2, 1/2⟩, .owned⟩, ⟨2, ⟨7/2, 1/2, 1/2⟩, .owned⟩, ⟨3, ⟨15/4, 1/2, 1/2⟩, .owned⟩]

private def exF57 : CellFunctorCfg Particle :=
  ⟨fun p => p.own = .halo, true, true, true, 0, 1, ⟨1, 1, 1⟩, sortByProjection Particle.pos⟩

example : SortedIn exBlock57 Particle.pos (placeAll exBlock57 exPs57) := placeAll_sorted (by decide +kernel)

example : GoodBox ⟨0, 0, 0⟩ ⟨6, 1, 1⟩ 1 1 := by constructor <;> norm_num

example : FunctorFor .c18 Particle.pos 1 exF57 := ⟨rfl, rfl, (fun h => by cases h), sortByProjection_sorted _⟩

/-- The cells of the two pairs of particles have the same colour of `vlc_c18`, and both packages update particles. -/
example : (∃ phase ∈ VLCTraversal.c18.bases exBlock57.dims exBlock57.cellLength 1, [⟨1, 1, 1⟩] ∈ phase ∧ [⟨4, 1, 1⟩] ∈ phase) ∧
    (writtenBy (vlcPackage true true exBlock57.dims (placeAll exBlock57 exPs57).flatten (placeAll exBlock57 exPs57)
      (vlcBuild Particle.pos Particle.own exBlock57 1 exF57 (placeAll exBlock57 exPs57)) [⟨1, 1, 1⟩])).map Particle.id = [0, 1] ∧
    (writtenBy (vlcPackage true true exBlock57.dims (placeAll exBlock57 exPs57).flatten (placeAll exBlock57 exPs57)
      (vlcBuild Particle.pos Particle.own exBlock57 1 exF57 (placeAll exBlock57 exPs57)) [⟨4, 1, 1⟩])).map Particle.id = [2, 3] := by
  decide +kernel

end Verif
