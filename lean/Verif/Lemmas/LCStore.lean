import Verif.Spec.ParticleHistory
import Verif.Lemmas.IterDelete
import Verif.Lemmas.LCRegion
import Verif.Lemmas.CellGeometry
import Verif.Props.C03
/-! Adding to, cleaning and rebuilding the cells of a linked-cells container. -/
namespace Verif
open Spec

/-- Appending an element to one of the lists. -/
theorem flatten_set_append {P : Type} {l : List (List P)} {k : Nat} (hk : k < l.length) (p : P) :
    ((l.set k (l.getD k [] ++ [p])).flatten).Perm (l.flatten ++ [p]) := by
  induction l generalizing k with
  | nil => simp at hk
  | cons x l ih =>
    cases k with
    | zero =>
      simp only [List.set_cons_zero, List.flatten_cons, List.getD_cons_zero, List.append_assoc]
      exact List.Perm.append_left _ List.perm_append_comm
    | succ k =>
      simp only [List.set_cons_succ, List.flatten_cons, List.getD_cons_succ, List.append_assoc]
      exact (ih (by simpa using hk)).append_left _

theorem mem_flatten_getD' {P : Type} {l : List (List P)} {p : P} : p ∈ l.flatten ↔ ∃ k, p ∈ l.getD k [] := by
  rw [List.mem_flatten]
  constructor
  · rintro ⟨a, ha, hp⟩
    obtain ⟨k, hk⟩ := List.getElem?_of_mem ha
    exact ⟨k, by rw [List.getD, hk]; exact hp⟩
  · rintro ⟨k, hp⟩
    by_cases hk : k < l.length
    · rw [List.getD, List.getElem?_eq_getElem hk, Option.getD_some] at hp
      exact ⟨_, List.getElem_mem hk, hp⟩
    · rw [List.getD, List.getElem?_eq_none (by omega)] at hp
      cases hp

theorem mem_set_append {P : Type} {l : List (List P)} {k j : Nat} {p q : P} (h : q ∈ (l.set k (l.getD k [] ++ [p])).getD j []) :
    q ∈ l.getD j [] ∨ (j = k ∧ q = p) := by
  by_cases hj : k = j
  · subst hj
    by_cases hk : k < l.length
    · rw [getD_set_self' hk] at h
      rcases List.mem_append.1 h with h | h
      · exact Or.inl h
      · exact Or.inr ⟨rfl, List.mem_singleton.1 h⟩
    · rw [List.set_eq_of_length_le (by omega)] at h
      exact Or.inl h
  · rw [getD_set_ne' hj] at h
    exact Or.inl h

theorem swapDelete_take {P : Type} {l : List P} {i : Nat} {p : P} (h : l[i]? = some p) : (swapDelete l i).take i = l.take i := by
  obtain ⟨a, b, rfl, rfl⟩ := split_at h
  rw [swapDelete_split]
  split
  · simp
  · simp [List.take_append]

theorem purge_spec (verdict : Particle → Fate) (l : List Particle) (i : Nat) :
    (purge verdict l i).1.Perm (l.take i ++ (l.drop i).filter fun p => decide (verdict p = .keep)) ∧
    (purge verdict l i).2.Perm ((l.drop i).filter fun p => decide (verdict p = .take)) := by
  induction l, i using purge.induct verdict with
  | case1 l i h hv ih =>
    rw [purge, dif_pos h]
    simp only [hv]
    obtain ⟨h1, h2⟩ := ih
    have e : l.drop i = l[i] :: l.drop (i + 1) := List.drop_eq_getElem_cons h
    have et : l.take (i + 1) = l.take i ++ [l[i]] := by rw [List.take_add_one, List.getElem?_eq_getElem h]; rfl
    rw [e, List.filter_cons_of_pos (by simp [hv]), List.filter_cons_of_neg (by simp [hv])]
    rw [et, List.append_assoc] at h1
    exact ⟨h1, h2⟩
  | case2 l i h hv ih =>
    rw [purge, dif_pos h]
    simp only [hv]
    obtain ⟨h1, h2⟩ := ih
    have hl : l[i]? = some l[i] := List.getElem?_eq_getElem h
    have e : l.drop i = l[i] :: l.drop (i + 1) := List.drop_eq_getElem_cons h
    have hd := swapDelete_drop hl
    have ht := swapDelete_take hl
    rw [e, List.filter_cons_of_neg (by simp [hv]), List.filter_cons_of_neg (by simp [hv])]
    rw [ht] at h1
    exact ⟨h1.trans ((hd.filter _).append_left _), h2.trans (hd.filter _)⟩
  | case3 l i h hv ih =>
    rw [purge, dif_pos h]
    simp only [hv]
    obtain ⟨h1, h2⟩ := ih
    have hl : l[i]? = some l[i] := List.getElem?_eq_getElem h
    have e : l.drop i = l[i] :: l.drop (i + 1) := List.drop_eq_getElem_cons h
    have hd := swapDelete_drop hl
    have ht := swapDelete_take hl
    rw [e, List.filter_cons_of_neg (by simp [hv]), List.filter_cons_of_pos (by simp [hv])]
    rw [ht] at h1
    exact ⟨h1.trans ((hd.filter _).append_left _), (h2.trans (hd.filter _)).cons _⟩
  | case4 l i h =>
    rw [purge, dif_neg h]
    rw [List.drop_of_length_le (by omega), List.take_of_length_le (by omega)]
    simp

theorem purge_zero (verdict : Particle → Fate) (l : List Particle) :
    (purge verdict l 0).1.Perm (l.filter fun p => decide (verdict p = .keep)) ∧
    (purge verdict l 0).2.Perm (l.filter fun p => decide (verdict p = .take)) := by
  have := purge_spec verdict l 0
  simpa using this

section geometry
variable {c : LHParams}

theorem block_cpil : c.block.x.cpil = cellsPerInteractionLength id c.csf ∧ c.block.y.cpil = cellsPerInteractionLength id c.csf ∧
    c.block.z.cpil = cellsPerInteractionLength id c.csf := ⟨rfl, rfl, rfl⟩

theorem block_dims (h : LHParamsOk c) : 1 ≤ c.block.x.cpil ∧ 2 * c.block.x.cpil + 1 ≤ c.block.x.dim ∧
    2 * c.block.x.cpil + 1 ≤ c.block.y.dim ∧ 2 * c.block.x.cpil + 1 ≤ c.block.z.dim := by
  have h1 := cpil_pos Rounding.exact h.box.csfPos
  have hx := cpd_pos id c.bMin.x c.bMax.x c.il c.csf
  have hy := cpd_pos id c.bMin.y c.bMax.y c.il c.csf
  have hz := cpd_pos id c.bMin.z c.bMax.z c.il c.csf
  have e1 : c.block.x.cpil = cellsPerInteractionLength id c.csf := rfl
  have e2 : c.block.x.dim = cellsPerDim id c.bMin.x c.bMax.x c.il c.csf + 2 * cellsPerInteractionLength id c.csf := rfl
  have e3 : c.block.y.dim = cellsPerDim id c.bMin.y c.bMax.y c.il c.csf + 2 * cellsPerInteractionLength id c.csf := rfl
  have e4 : c.block.z.dim = cellsPerDim id c.bMin.z c.bMax.z c.il c.csf + 2 * cellsPerInteractionLength id c.csf := rfl
  omega

theorem halo_flag (h : LHParamsOk c) {i : V3 Nat} (hi : InGrid i c.block.dims) :
    c.block.cellCanContainHalo (threeToOneD i c.block.dims) = true ↔ IsHalo c.block.x.cpil c.block.dims i := by
  obtain ⟨-, h2, h3, h4⟩ := block_dims h
  exact cellCanContainHalo_iff rfl rfl h2 h3 h4 hi

/-- The looked-up cell is a halo cell exactly for positions outside the box. -/
theorem halo_iff_outside (h : LHParamsOk c) (p : V3 Rat) :
    c.block.cellCanContainHalo (c.block.flatIndexOfPosition p) = !inBoxB p c.bMin c.bMax := by
  have hg := h.box.inGrid (csf := c.csf) p
  have hf := halo_flag h (i := c.block.indexOfPosition id p) hg
  rw [Bool.eq_iff_iff]
  unfold CellBlock.flatIndexOfPosition
  rw [hf, inBoxB_iff, Bool.not_eq_true', decide_eq_false_iff_not]
  constructor
  · intro hh hin
    exact h.box.not_halo hin hh
  · intro hout
    have key : ∀ {lo hi r : Rat}, lo < hi → ¬ (lo ≤ r ∧ r < hi) →
        ((AxisBlock.rebuild id lo hi c.il c.csf).indexOfPosition id r < cellsPerInteractionLength id c.csf ∨
         (AxisBlock.rebuild id lo hi c.il c.csf).dim - cellsPerInteractionLength id c.csf ≤
          (AxisBlock.rebuild id lo hi c.il c.csf).indexOfPosition id r) := by
      intro lo hi r hb hr
      have hx := exact_index (il := c.il) hb h.box.csfPos r
      have hl := cellLength_pos (il := c.il) (csf := c.csf) hb
      have hn1 := cpd_pos id lo hi c.il c.csf
      have hnr : (0 : Rat) < cellsPerDim id lo hi c.il c.csf := by exact_mod_cast hn1
      have hc1 := cpil_pos Rounding.exact h.box.csfPos
      have hL : (cellsPerDim id lo hi c.il c.csf : Rat) * (AxisBlock.rebuild id lo hi c.il c.csf).cellLength = hi - lo := by
        have e6 : (AxisBlock.rebuild id lo hi c.il c.csf).cellLength = (hi - lo) / cellsPerDim id lo hi c.il c.csf := rfl
        rw [e6]; field_simp
      have ex : (AxisBlock.rebuild id lo hi c.il c.csf).dim =
        cellsPerDim id lo hi c.il c.csf + 2 * cellsPerInteractionLength id c.csf := rfl
      have ec : (AxisBlock.rebuild id lo hi c.il c.csf).cpil = cellsPerInteractionLength id c.csf := rfl
      simp only [ec, ex] at hx ⊢
      by_cases hlo : lo ≤ r
      · right
        have hhi : hi ≤ r := by
          by_contra hc; exact hr ⟨hlo, not_le.1 hc⟩
        have : (cellsPerDim id lo hi c.il c.csf : Int) ≤ ⌊(r - lo) / (AxisBlock.rebuild id lo hi c.il c.csf).cellLength⌋ := by
          rw [Int.le_floor, le_div_iff₀ hl]; push_cast; linarith
        omega
      · left
        have : ⌊(r - lo) / (AxisBlock.rebuild id lo hi c.il c.csf).cellLength⌋ < 0 := by
          rw [Int.floor_lt]; push_cast
          exact div_neg_of_neg_of_pos (by linarith) hl
        omega
    have kx := @key c.bMin.x c.bMax.x p.x h.box.hx
    have ky := @key c.bMin.y c.bMax.y p.y h.box.hy
    have kz := @key c.bMin.z c.bMax.z p.z h.box.hz
    unfold InBox at hout
    simp only [IsHalo, block_cpil]
    simp only [CellBlock.dims, LHParams.block, CellBlock.rebuild, CellBlock.indexOfPosition]
    by_cases h1 : c.bMin.x ≤ p.x ∧ p.x < c.bMax.x
    · by_cases h2 : c.bMin.y ≤ p.y ∧ p.y < c.bMax.y
      · have := kz (fun h3 => hout ⟨h1, h2, h3⟩)
        omega
      · have := ky h2; omega
    · have := kx h1; omega

theorem block_numCells : c.block.numCells = numCells c.block.dims := by
  unfold CellBlock.numCells numCells CellBlock.dims; ring

/-- Clearing the halo cells. -/
theorem lcClearHalo_get (h : LHParamsOk c) {cells : List (List Particle)} (hlen : cells.length = c.block.numCells) (k : Nat) :
    (lcClearHalo c.block cells).getD k [] = if c.block.cellCanContainHalo k then [] else cells.getD k [] := by
  unfold lcClearHalo
  rw [List.getD, List.getElem?_map]
  by_cases hk : k < cells.length
  · rw [List.getElem?_range hk]
    simp only [Option.map_some, Option.getD_some]
    have hk' : k < numCells c.block.dims := by rw [← block_numCells, ← hlen]; exact hk
    obtain ⟨hg, hflat, -⟩ := oneToThreeD_bounds hk'
    obtain ⟨h1, h2, h3, h4⟩ := block_dims h
    have hf := halo_flag h hg
    have hc := C03_clear_halo_exact c.block.dims c.block.x.cpil h1 h2 h3 h4 (fun i => cells.getD i []) _ hg
    rw [hflat] at hf hc
    by_cases hh : c.block.cellCanContainHalo k = true
    · rw [if_pos hh, hc.1 (hf.1 hh)]
    · rw [if_neg hh, hc.2 (fun hx => hh (hf.2 hx))]
  · rw [List.getElem?_eq_none (by simpa using hk)]
    rw [List.getD, List.getElem?_eq_none (by omega)]
    simp

/-- A position inside the bounding box of a cell belongs to that cell. -/
theorem flat_of_cellBox (h : LHParamsOk c) {k : Nat} (hk : k < c.block.numCells) {p : V3 Rat}
    (hp : inBoxB p (c.block.cellBox k).1 (c.block.cellBox k).2 = true) : c.block.flatIndexOfPosition p = k := by
  have hk' : k < numCells c.block.dims := by rw [← block_numCells]; exact hk
  obtain ⟨⟨gx, gy, gz⟩, hflat, -⟩ := oneToThreeD_bounds hk'
  rw [inBoxB_iff, decide_eq_true_eq] at hp
  obtain ⟨⟨x1, x2⟩, ⟨y1, y2⟩, z1, z2⟩ := hp
  simp only [CellBlock.cellBox] at x1 x2 y1 y2 z1 z2
  have key : ∀ {lo hi r : Rat} {i : Nat}, lo < hi → i < (AxisBlock.rebuild id lo hi c.il c.csf).dim →
      ((AxisBlock.rebuild id lo hi c.il c.csf).boundingBox id i).1 ≤ r →
      r < ((AxisBlock.rebuild id lo hi c.il c.csf).boundingBox id i).2 →
      i = (AxisBlock.rebuild id lo hi c.il c.csf).indexOfPosition id r := by
    intro lo hi r i hb hi' h1 h2
    have hbb := exact_boundingBox (il := c.il) (bMin := lo) (bMax := hi) h.box.csfPos hi'
    have hl := cellLength_pos (il := c.il) (csf := c.csf) hb
    have hn1 := cpd_pos id lo hi c.il c.csf
    have hnr : (0 : Rat) < cellsPerDim id lo hi c.il c.csf := by exact_mod_cast hn1
    have hL : (cellsPerDim id lo hi c.il c.csf : Rat) * (AxisBlock.rebuild id lo hi c.il c.csf).cellLength = hi - lo := by
      have e6 : (AxisBlock.rebuild id lo hi c.il c.csf).cellLength = (hi - lo) / cellsPerDim id lo hi c.il c.csf := rfl
      rw [e6]; field_simp
    have e7 : (AxisBlock.rebuild id lo hi c.il c.csf).haloBoxMin = lo - (AxisBlock.rebuild id lo hi c.il c.csf).cpil *
      (AxisBlock.rebuild id lo hi c.il c.csf).cellLength := rfl
    have e8 : (AxisBlock.rebuild id lo hi c.il c.csf).haloBoxMax = hi + (AxisBlock.rebuild id lo hi c.il c.csf).cpil *
      (AxisBlock.rebuild id lo hi c.il c.csf).cellLength := rfl
    have e2 : (AxisBlock.rebuild id lo hi c.il c.csf).dim = cellsPerDim id lo hi c.il c.csf +
      2 * (AxisBlock.rebuild id lo hi c.il c.csf).cpil := rfl
    refine (axis_tile hb h.box.csfPos hi' ?_ ?_).1 ⟨h1, h2⟩
    · rw [hbb] at h1
      simp only at h1
      rw [e7]
      have : (0 : Rat) ≤ i * (AxisBlock.rebuild id lo hi c.il c.csf).cellLength := by positivity
      nlinarith
    · rw [hbb] at h2
      simp only at h2
      rw [e8]
      have hi2 : (i : Rat) + 1 ≤ cellsPerDim id lo hi c.il c.csf + 2 * (AxisBlock.rebuild id lo hi c.il c.csf).cpil := by
        rw [e2] at hi'; exact_mod_cast hi'
      nlinarith
  have ex := key h.box.hx gx x1 x2
  have ey := key h.box.hy gy y1 y2
  have ez := key h.box.hz gz z1 z2
  rw [← hflat]
  unfold CellBlock.flatIndexOfPosition
  congr 1
  unfold CellBlock.indexOfPosition
  have : oneToThreeD k c.block.dims = ⟨(oneToThreeD k c.block.dims).x, (oneToThreeD k c.block.dims).y, (oneToThreeD k c.block.dims).z⟩ := rfl
  rw [this, ex, ey, ez]
  rfl

/-- What is known about the place of a stored particle. -/
structure PlaceOk (c : LHParams) (m : Nat) (k : Nat) (p : Particle) : Prop where
  ownedIn : p.own = .owned → c.block.cellCanContainHalo k = false
  haloIn : p.own = .halo → c.block.cellCanContainHalo k = true
  near : ∃ old, c.block.flatIndexOfPosition old = k ∧ Displaced (c.skinPerTimestep * m) p.pos old
  haloOut : p.own = .halo → inBoxB p.pos c.bMin c.bMax = false

theorem Displaced.refl (hs : 0 ≤ c.skinPerTimestep) (m : Nat) (p : V3 Rat) : Displaced (c.skinPerTimestep * m) p p := by
  have : 0 ≤ c.skinPerTimestep * m := by positivity
  unfold Displaced; simpa using this

theorem lcAdd_length (b : CellBlock) (cells : List (List Particle)) (p : Particle) : (lcAdd b cells p).length = cells.length := by
  unfold lcAdd; simp

theorem lcAdd_perm (h : LHParamsOk c) {cells : List (List Particle)} (hlen : cells.length = c.block.numCells) (p : Particle) :
    (lcAdd c.block cells p).flatten.Perm (cells.flatten ++ [p]) :=
  flatten_set_append (by rw [hlen]; exact flatIndex_lt h.box _) p

/-- The loops that put particles back into the container. -/
theorem readd_spec (h : LHParamsOk c) (g : Particle → Particle) (hg : ∀ p, (g p).pos = p.pos) (ps : List Particle) :
    ∀ (cells : List (List Particle)) (out : List Particle), cells.length = c.block.numCells →
    let r := ps.foldl (fun acc p =>
      if inBoxB p.pos c.bMin c.bMax then (lcAdd c.block acc.1 (g p), acc.2) else (acc.1, acc.2 ++ [p])) (cells, out)
    r.1.length = cells.length ∧
    r.1.flatten.Perm (cells.flatten ++ (ps.filter fun p => inBoxB p.pos c.bMin c.bMax).map g) ∧
    r.2 = out ++ ps.filter (fun p => !inBoxB p.pos c.bMin c.bMax) ∧
    (∀ k, ∀ q ∈ r.1.getD k [], q ∈ cells.getD k [] ∨
      (∃ p ∈ ps, q = g p ∧ inBoxB p.pos c.bMin c.bMax = true ∧ c.block.flatIndexOfPosition p.pos = k)) := by
  induction ps with
  | nil => intro cells out hlen; simp
  | cons p ps ih =>
    intro cells out hlen
    simp only [List.foldl_cons]
    by_cases hp : inBoxB p.pos c.bMin c.bMax = true
    · rw [if_pos hp]
      obtain ⟨i1, i2, i3, i4⟩ := ih (lcAdd c.block cells (g p)) out (by rw [lcAdd_length]; exact hlen)
      refine ⟨by rw [i1, lcAdd_length], ?_, ?_, ?_⟩
      · refine i2.trans ?_
        rw [List.filter_cons_of_pos (by simpa using hp), List.map_cons]
        refine ((lcAdd_perm h hlen (g p)).append_right _).trans ?_
        rw [List.append_assoc]; exact List.Perm.refl _
      · rw [i3, List.filter_cons_of_neg (by simp [hp])]
      · intro k q hq
        rcases i4 k q hq with hq | ⟨p', hp', hx⟩
        · rcases mem_set_append hq with hq | ⟨rfl, rfl⟩
          · exact Or.inl hq
          · exact Or.inr ⟨p, List.mem_cons_self, rfl, hp, by rw [hg]⟩
        · exact Or.inr ⟨p', List.mem_cons_of_mem _ hp', hx⟩
    · rw [if_neg hp]
      obtain ⟨i1, i2, i3, i4⟩ := ih cells (out ++ [p]) hlen
      refine ⟨i1, ?_, ?_, ?_⟩
      · rw [List.filter_cons_of_neg (by simp [hp])]; exact i2
      · rw [i3, List.filter_cons_of_pos (by simp [hp]), List.append_assoc]; rfl
      · intro k q hq
        rcases i4 k q hq with hq | ⟨p', hp', hx⟩
        · exact Or.inl hq
        · exact Or.inr ⟨p', List.mem_cons_of_mem _ hp', hx⟩

theorem flatMap_perm_congr {α β : Type} {l : List α} {f g : α → List β} (h : ∀ a ∈ l, (f a).Perm (g a)) :
    (l.flatMap f).Perm (l.flatMap g) := List.Perm.flatMap_left l h

theorem flatMap_filter {α β : Type} (l : List α) (f : α → List β) (q : β → Bool) :
    (l.flatMap fun a => (f a).filter q) = (l.flatMap f).filter q := by
  induction l with
  | nil => rfl
  | cons a l ih => simp [ih]

/-- `LinkedCells::updateContainer(false)`: the owned particles inside the box are afterwards in the cells of their positions, the
other owned particles are handed back, everything else is gone. -/
theorem lcUpdateRebuild_spec (h : LHParamsOk c) {m : Nat} {cells : List (List Particle)} (hlen : cells.length = c.block.numCells)
    (hp : ∀ k, ∀ p ∈ cells.getD k [], PlaceOk c m k p) :
    (lcUpdateRebuild c cells).1.length = c.block.numCells ∧
    (lcUpdateRebuild c cells).1.flatten.Perm
      ((cells.flatten.filter fun p => decide (p.own = .owned)).filter fun p => inBoxB p.pos c.bMin c.bMax) ∧
    (lcUpdateRebuild c cells).2.Perm
      ((cells.flatten.filter fun p => decide (p.own = .owned)).filter fun p => !inBoxB p.pos c.bMin c.bMax) ∧
    (∀ k, ∀ p ∈ (lcUpdateRebuild c cells).1.getD k [], p.own = .owned ∧ PlaceOk c 0 k p) := by
  set cl := lcClearHalo c.block cells with hcl
  have hcll : cl.length = c.block.numCells := by rw [hcl]; unfold lcClearHalo; simp [hlen]
  have hget : ∀ k, (cl.getD k []).filter (fun p => decide (p.own ≠ .dummy)) = (cells.getD k []).filter fun p => decide (p.own = .owned) := by
    intro k
    rw [hcl, lcClearHalo_get h hlen]
    by_cases hh : c.block.cellCanContainHalo k = true
    · rw [if_pos hh]
      symm
      rw [List.filter_nil, List.filter_eq_nil_iff]
      intro p hpk ho
      rw [decide_eq_true_eq] at ho
      have := (hp k p hpk).ownedIn ho
      rw [this] at hh; cases hh
    · rw [if_neg hh]
      apply List.filter_congr
      intro p hpk
      rw [decide_eq_decide]
      have := (hp k p hpk).haloIn
      cases ho : p.own with
      | owned => simp
      | halo => exact absurd (this ho) hh
      | dummy => simp
  have hkeep : ∀ k p, (decide (cellVerdict c.block k p = .keep)) = inBoxB p.pos (c.block.cellBox k).1 (c.block.cellBox k).2 := by
    intro k p; unfold cellVerdict
    cases inBoxB p.pos (c.block.cellBox k).1 (c.block.cellBox k).2 <;> rfl
  have htake : ∀ k p, (decide (cellVerdict c.block k p = .take)) = !inBoxB p.pos (c.block.cellBox k).1 (c.block.cellBox k).2 := by
    intro k p; unfold cellVerdict
    cases inBoxB p.pos (c.block.cellBox k).1 (c.block.cellBox k).2 <;> rfl
  set own : Nat → List Particle := fun k => (cells.getD k []).filter fun p => decide (p.own = .owned) with hown
  set inCell : Nat → Particle → Bool := fun k p => inBoxB p.pos (c.block.cellBox k).1 (c.block.cellBox k).2 with hinCell
  set cleaned := (List.range cl.length).map fun k =>
    purge (cellVerdict c.block k) ((cl.getD k []).filter fun p => decide (p.own ≠ .dummy)) 0 with hcleaned
  have hpur : ∀ k, (purge (cellVerdict c.block k) ((cl.getD k []).filter fun p => decide (p.own ≠ .dummy)) 0).1.Perm
        ((own k).filter (inCell k)) ∧
      (purge (cellVerdict c.block k) ((cl.getD k []).filter fun p => decide (p.own ≠ .dummy)) 0).2.Perm
        ((own k).filter fun p => !inCell k p) := by
    intro k
    obtain ⟨q1, q2⟩ := purge_zero (cellVerdict c.block k) ((cl.getD k []).filter fun p => decide (p.own ≠ .dummy))
    rw [hget] at q1 q2 ⊢
    simp only [hkeep, htake] at q1 q2
    exact ⟨q1, q2⟩
  have hcells0 : (cleaned.map Prod.fst).length = c.block.numCells := by simp [hcleaned, hcll]
  have hget0 : ∀ k, ∀ p ∈ (cleaned.map Prod.fst).getD k [], k < c.block.numCells ∧ p ∈ (own k).filter (inCell k) := by
    intro k p hpk
    by_cases hk : k < c.block.numCells
    · refine ⟨hk, ?_⟩
      rw [hcleaned, List.map_map, List.getD, List.getElem?_map, List.getElem?_range (by omega)] at hpk
      exact (hpur k).1.subset hpk
    · rw [List.getD, List.getElem?_eq_none (by omega)] at hpk
      cases hpk
  have hflat0 : (cleaned.map Prod.fst).flatten.Perm ((List.range c.block.numCells).flatMap fun k => (own k).filter (inCell k)) := by
    rw [hcleaned, List.map_map, ← List.flatMap_def, hcll]
    exact flatMap_perm_congr fun k _ => (hpur k).1
  have hinv : (cleaned.flatMap Prod.snd).Perm ((List.range c.block.numCells).flatMap fun k => (own k).filter fun p => !inCell k p) := by
    rw [hcleaned, List.flatMap_map, hcll]
    exact flatMap_perm_congr fun k _ => (hpur k).2
  have hres : lcUpdateRebuild c cells = (cleaned.flatMap Prod.snd).foldl (fun acc p =>
    if inBoxB p.pos c.bMin c.bMax then (lcAdd c.block acc.1 p, acc.2) else (acc.1, acc.2 ++ [p])) (cleaned.map Prod.fst, []) := rfl
  obtain ⟨r1, r2, r3, r4⟩ := readd_spec h (fun p => p) (fun _ => rfl) (cleaned.flatMap Prod.snd) (cleaned.map Prod.fst) [] hcells0
  rw [← hres] at r1 r2 r3 r4
  have hall : (cells.flatten.filter fun p => decide (p.own = .owned)) = (List.range c.block.numCells).flatMap own := by
    rw [hown, flatMap_filter, ← hlen, flatten_range]
  -- owned particles in their cell's box are inside the box
  have hin : ∀ k, k < c.block.numCells → ∀ p ∈ (own k).filter (inCell k), inBoxB p.pos c.bMin c.bMax = true ∧
      c.block.flatIndexOfPosition p.pos = k ∧ p.own = .owned ∧ c.block.cellCanContainHalo k = false := by
    intro k hk p hpk
    rw [List.mem_filter, hown, List.mem_filter, decide_eq_true_eq] at hpk
    obtain ⟨⟨hpk, ho⟩, hi⟩ := hpk
    have hf := flat_of_cellBox h hk hi
    have hh := (hp k p hpk).ownedIn ho
    have := halo_iff_outside h p.pos
    rw [hf, hh] at this
    exact ⟨by rw [← Bool.not_eq_false']; exact this.symm, hf, ho, hh⟩
  have hsplit : ∀ q : Particle → Bool, ((List.range c.block.numCells).flatMap own).filter q |>.Perm
      ((((List.range c.block.numCells).flatMap fun k => (own k).filter (inCell k)).filter q) ++
       (((List.range c.block.numCells).flatMap fun k => (own k).filter fun p => !inCell k p).filter q)) := by
    intro q
    rw [← List.filter_append]
    apply List.Perm.filter
    refine List.Perm.trans ?_ (List.flatMap_append_perm _ _ _).symm
    apply flatMap_perm_congr
    intro k _
    exact (List.filter_append_perm (inCell k) (own k)).symm
  refine ⟨by rw [r1, hcells0], ?_, ?_, ?_⟩
  · refine r2.trans ?_
    rw [List.map_id', hall]
    refine List.Perm.trans ?_ (hsplit _).symm
    refine List.Perm.append ?_ (hinv.filter _)
    rw [List.filter_eq_self.2]
    · exact hflat0
    · intro p hp'
      rw [List.mem_flatMap] at hp'
      obtain ⟨k, hk, hp'⟩ := hp'
      exact (hin k (List.mem_range.1 hk) p hp').1
  · rw [r3, List.nil_append, hall]
    refine List.Perm.trans ?_ (hsplit _).symm
    rw [(List.filter_eq_nil_iff (l := (List.range c.block.numCells).flatMap fun k => (own k).filter (inCell k))).2, List.nil_append]
    · exact hinv.filter _
    · intro p hp'
      rw [List.mem_flatMap] at hp'
      obtain ⟨k, hk, hp'⟩ := hp'
      rw [(hin k (List.mem_range.1 hk) p hp').1]; simp
  · intro k p hpk
    rcases r4 k p hpk with hpk | ⟨p', hp', rfl, hbox, hf⟩
    · obtain ⟨hk, hpk⟩ := hget0 k p hpk
      obtain ⟨i1, i2, i3, i4⟩ := hin k hk p hpk
      refine ⟨i3, fun _ => i4, fun ho => ?_, ⟨p.pos, i2, Displaced.refl h.skinPos 0 _⟩, fun ho => ?_⟩ <;> (rw [i3] at ho; cases ho)
    · have hm := hinv.subset hp'
      rw [List.mem_flatMap] at hm
      obtain ⟨j, -, hm⟩ := hm
      rw [List.mem_filter, hown, List.mem_filter, decide_eq_true_eq] at hm
      obtain ⟨⟨-, ho⟩, -⟩ := hm
      refine ⟨ho, fun _ => ?_, fun ho' => ?_, ⟨p.pos, hf, Displaced.refl h.skinPos 0 _⟩, fun ho' => by rw [ho] at ho'; cases ho'⟩
      · have := halo_iff_outside h p.pos
        rw [hf, hbox] at this; exact this
      · rw [ho] at ho'; cases ho'

end geometry
end Verif
