import Verif.Model.ForEach
import Verif.Spec.ForEach
import Verif.Spec.OctreeIteration
import Verif.Lemmas.LCRegion
/-! `forEach` and `reduce`. -/
namespace Verif
open Spec

theorem contains_named {behavior : Nat} (h : NamedBehavior behavior) (s : Ownership) : ibContains behavior s = some (wanted behavior s) := by
  simp only [NamedBehavior, List.mem_cons, List.not_mem_nil, or_false] at h
  rcases h with rfl | rfl | rfl | rfl | rfl <;> cases s <;> decide

theorem contains_unnamed {behavior : Nat} (h : ¬ NamedBehavior behavior) (s : Ownership) : ibContains behavior s = none := by
  simp only [NamedBehavior, List.mem_cons, List.not_mem_nil, or_false, not_or] at h
  obtain ⟨h1, h2, h3, h4, h7⟩ := h
  unfold ibContains
  rw [if_neg (by simpa [ibOwnedOrHaloOrDummy] using h7), if_neg (by simpa [ibOwnedOrHalo] using h3), if_neg (by simpa [ibHalo] using h2),
    if_neg (by simpa [ibOwned] using h1), if_neg (by simpa [ibDummy] using h4)]

section
variable {behavior : Option Nat} {region : Option (V3 Rat × V3 Rat)} {sel : Particle → Bool}

theorem cellForEach_ok (f : Particle → Particle) (l : List Particle) (h : ∀ p ∈ l, cellSelects behavior region p = .ok (sel p)) :
    cellForEach behavior region f l = .ok (l.map fun p => if sel p then f p else p) := by
  induction l with
  | nil => rfl
  | cons p l ih =>
    rw [cellForEach, h p (by simp), ih (fun q hq => h q (by simp [hq]))]
    rfl

theorem cellReduce_ok {A : Type} (g : A → Particle → A) (l : List Particle) (h : ∀ p ∈ l, cellSelects behavior region p = .ok (sel p)) (a : A) :
    cellReduce behavior region g a l = .ok ((l.filter sel).foldl g a) := by
  induction l generalizing a with
  | nil => rfl
  | cons p l ih =>
    rw [cellReduce, h p (by simp)]
    show cellReduce behavior region g (if sel p = true then g a p else a) l = _
    rw [ih (fun q hq => h q (by simp [hq]))]
    cases hs : sel p <;> simp [hs]

theorem forEachCells_ok (f : Particle → Particle) (cs : List Nat) (hn : cs.Nodup) (cells : List (List Particle))
    (h : ∀ c ∈ cs, ∀ p ∈ cells.getD c [], cellSelects behavior region p = .ok (sel p)) :
    forEachCells behavior region f cs cells =
      .ok (cells.mapIdx fun i l => if i ∈ cs then l.map (fun p => if sel p then f p else p) else l) := by
  induction cs generalizing cells with
  | nil =>
    rw [forEachCells]
    congr 1
    apply List.ext_getElem?
    intro i
    simp
  | cons c cs ih =>
    rw [List.nodup_cons] at hn
    rw [forEachCells, cellForEach_ok f _ (h c (by simp))]
    show forEachCells behavior region f cs _ = _
    rw [ih hn.2]
    · congr 1
      apply List.ext_getElem?
      intro i
      simp only [List.getElem?_mapIdx, List.getElem?_set]
      by_cases hi : c = i
      · subst hi
        simp only [if_true, List.mem_cons, true_or, if_neg hn.1]
        by_cases hl : c < cells.length
        · simp [hl]
        · simp [hl]
      · simp only [if_neg hi, List.mem_cons]
        have : ¬ i = c := fun e => hi e.symm
        simp [this]
    · intro d hd p hp
      have hdc : d ≠ c := fun e => hn.1 (e ▸ hd)
      rw [List.getD_eq_getElem?_getD, List.getElem?_set_ne (fun e => hdc e.symm), ← List.getD_eq_getElem?_getD] at hp
      exact h d (by simp [hd]) p hp

theorem forEachCells_all (f : Particle → Particle) (cs : List Nat) (hn : cs.Nodup) (cells : List (List Particle))
    (h : ∀ c ∈ cs, ∀ p ∈ cells.getD c [], cellSelects behavior region p = .ok (sel p))
    (h' : ∀ c, c ∉ cs → ∀ p ∈ cells.getD c [], sel p = false) :
    forEachCells behavior region f cs cells = .ok (applyTo sel f cells) := by
  rw [forEachCells_ok f cs hn cells h]
  congr 1
  apply List.ext_getElem?
  intro i
  simp only [applyTo, List.getElem?_mapIdx, List.getElem?_map]
  cases hi : cells[i]? with
  | none => rfl
  | some l =>
    simp only [Option.map_some, Option.some.injEq]
    split
    · rfl
    · rename_i hc
      symm
      rw [List.map_congr_left (g := id), List.map_id]
      intro p hp
      have := h' i hc p (by rw [List.getD_eq_getElem?_getD, hi]; exact hp)
      simp [this]

theorem reduceCells_ok {A : Type} (g : A → Particle → A) (cells : List (List Particle)) (cs : List Nat)
    (h : ∀ c ∈ cs, ∀ p ∈ cells.getD c [], cellSelects behavior region p = .ok (sel p)) (a : A) :
    reduceCells behavior region g cells cs a = .ok ((cs.flatMap fun c => (cells.getD c []).filter sel).foldl g a) := by
  induction cs generalizing a with
  | nil => rfl
  | cons c cs ih =>
    rw [reduceCells, cellReduce_ok g _ (h c (by simp))]
    show reduceCells behavior region g cells cs _ = _
    rw [ih (fun d hd => h d (by simp [hd])), List.flatMap_cons, List.foldl_append]

end

theorem range_flatMap_getD (sel : Particle → Bool) (cells : List (List Particle)) :
    ((List.range cells.length).flatMap fun c => (cells.getD c []).filter sel) = cells.flatten.filter sel := by
  rw [← List.flatMap_id, List.filter_flatMap]
  have e : cells = (List.range cells.length).map fun c => cells.getD c [] := by
    apply List.ext_getElem
    · simp
    · intro i h1 h2; simp at h2; simp [h2]
  conv_rhs => rw [e]
  rw [List.flatMap_map]
  rfl

theorem flatMap_of_sublist {α β : Type} (h : α → List β) (q : α → Bool) (l : List α) (hq : ∀ x ∈ l, q x = false → h x = []) :
    (l.filter q).flatMap h = l.flatMap h := by
  induction l with
  | nil => rfl
  | cons x l ih =>
    have := ih (fun y hy => hq y (by simp [hy]))
    cases hx : q x with
    | true => rw [List.filter_cons_of_pos hx, List.flatMap_cons, List.flatMap_cons, this]
    | false => rw [List.filter_cons_of_neg (by simp [hx]), List.flatMap_cons, this, hq x (by simp) hx, List.nil_append]

/-- Visiting a set of cells that holds all selected particles is visiting all cells, in some order. -/
theorem cells_flatMap_perm (sel : Particle → Bool) (cells : List (List Particle)) (cs : List Nat) (hn : cs.Nodup)
    (hlt : ∀ c ∈ cs, c < cells.length) (h' : ∀ c, c ∉ cs → ∀ p ∈ cells.getD c [], sel p = false) :
    (cs.flatMap fun c => (cells.getD c []).filter sel).Perm (cells.flatten.filter sel) := by
  rw [← range_flatMap_getD, ← flatMap_of_sublist _ (fun c => decide (c ∈ cs)) (List.range cells.length)]
  · apply List.Perm.flatMap_right
    rw [List.perm_ext_iff_of_nodup hn (List.nodup_range.filter _)]
    intro c
    simp only [List.mem_filter, List.mem_range, decide_eq_true_eq]
    exact ⟨fun h => ⟨hlt c h, h⟩, fun h => h.2⟩
  · intro c _ hc
    rw [List.filter_eq_nil_iff]
    intro p hp
    rw [h' c (by simpa using hc) p hp]; simp

/-! ### LinkedCells -/

theorem lcIgnores_wanted {b : CellBlock} {cells vecs : List (List Particle)} (hs : LCStorage b cells vecs) {behavior c : Nat}
    (h : lcIgnoresCell b c behavior = true) : ∀ p ∈ cells.getD c [], wanted behavior p.own = false := by
  intro p hp
  unfold lcIgnoresCell at h
  split at h
  · cases h
  · split at h
    · cases h
    · split at h
      · cases h
      · rename_i h1 h2 h3
        cases ho : p.own with
        | owned =>
          by_contra hw
          exact h2 ⟨(and_bit_ne_zero behavior 0).2 (by simpa [wanted] using hw), hs.ownedIn c p hp ho⟩
        | halo =>
          by_contra hw
          exact h1 ⟨(and_bit_ne_zero behavior 1).2 (by simpa [wanted] using hw), hs.haloIn c p hp ho⟩
        | dummy =>
          by_contra hw
          exact h3 ((and_bit_ne_zero behavior 2).2 (by simpa [wanted] using hw))

theorem wanted_all (s : Ownership) : wanted ibOwnedOrHaloOrDummy s = true := by cases s <;> decide

theorem lcWhole_spec {b : CellBlock} {cells vecs : List (List Particle)} (hs : LCStorage b cells vecs) {behavior : Nat}
    (hb : NamedBehavior behavior) :
    (lcWholeCells b behavior cells.length).2.Nodup ∧
    (∀ c ∈ (lcWholeCells b behavior cells.length).2, c < cells.length) ∧
    (∀ p, cellSelects (lcWholeCells b behavior cells.length).1 none p = .ok (wanted behavior p.own)) ∧
    (∀ c, c ∉ (lcWholeCells b behavior cells.length).2 → ∀ p ∈ cells.getD c [], wanted behavior p.own = false) ∧
    ((lcWholeCells b behavior cells.length).2.flatMap fun c => (cells.getD c []).filter fun p => wanted behavior p.own) =
      cells.flatten.filter fun p => wanted behavior p.own := by
  unfold lcWholeCells
  split
  · rename_i h
    subst h
    refine ⟨List.nodup_range, fun c hc => List.mem_range.1 hc, fun p => ?_, fun c hc p hp => ?_, range_flatMap_getD _ cells⟩
    · simp only [cellSelects]; rw [wanted_all]
    · rw [List.mem_range] at hc
      rw [List.getD_eq_getElem?_getD, List.getElem?_eq_none (by omega)] at hp
      simp at hp
  · refine ⟨List.nodup_range.filter _, fun c hc => List.mem_range.1 (List.mem_filter.1 hc).1, fun p => ?_, fun c hc p hp => ?_, ?_⟩
    · simp only [cellSelects, contains_named hb, Bool.and_true]
    · rw [List.mem_filter, List.mem_range] at hc
      by_cases hl : c < cells.length
      · exact lcIgnores_wanted hs (by simpa [hl] using hc) p hp
      · rw [List.getD_eq_getElem?_getD, List.getElem?_eq_none (by omega)] at hp
        simp at hp
    · rw [flatMap_of_sublist, range_flatMap_getD]
      intro c _ hc
      rw [List.filter_eq_nil_iff]
      intro p hp
      rw [lcIgnores_wanted hs (by simpa using hc) p hp]; simp

/-! Regions -/

theorem numCells_eq_dims (b : CellBlock) : b.numCells = b.dims.x * b.dims.y * b.dims.z := rfl

theorem interest_count {start stop d : V3 Nat} (hx : start.x ≤ stop.x) (hy : start.y ≤ stop.y) (hz : start.z ≤ stop.z)
    (hx' : stop.x < d.x) (hy' : stop.y < d.y) (hz' : stop.z < d.z) (hn : d.x * d.y * d.z ≤ (2 ^ 63 - 1) / 8) :
    ¬ (2 ^ 63 - 1) / 8 < lcNumCellsOfInterest start stop := by
  have h : lcNumCellsOfInterest start stop ≤ d.x * d.y * d.z := by
    unfold lcNumCellsOfInterest
    have e : ((stop.x : Int) - start.x + 1) * ((stop.y : Int) - start.y + 1) * ((stop.z : Int) - start.z + 1) =
        (((stop.x - start.x + 1) * (stop.y - start.y + 1) * (stop.z - start.z + 1) : Nat) : Int) := by
      push_cast [Nat.cast_sub hx, Nat.cast_sub hy, Nat.cast_sub hz]; ring
    rw [e]
    have h1 : (stop.x - start.x + 1) * (stop.y - start.y + 1) * (stop.z - start.z + 1) ≤ d.x * d.y * d.z := by
      apply Nat.mul_le_mul (Nat.mul_le_mul _ _) _ <;> omega
    refine le_trans ?_ h1
    have : ((((stop.x - start.x + 1) * (stop.y - start.y + 1) * (stop.z - start.z + 1) : Nat) : Int) % 2 ^ 64) ≤
      (((stop.x - start.x + 1) * (stop.y - start.y + 1) * (stop.z - start.z + 1) : Nat) : Int) := by
      exact_mod_cast Nat.mod_le _ (2 ^ 64)
    omega
  omega

/-- The cells of interest as grid coordinates. -/
theorem interest_mem {b : CellBlock} {start stop : V3 Nat} {c : Nat} :
    c ∈ ((forUp start.z (stop.z + 1) 1).flatMap fun z => (forUp start.y (stop.y + 1) 1).flatMap fun y =>
      (forUp start.x (stop.x + 1) 1).map fun x => threeToOneD ⟨x, y, z⟩ b.dims) ↔
    ∃ i : V3 Nat, threeToOneD i b.dims = c ∧ (start.x ≤ i.x ∧ i.x ≤ stop.x) ∧ (start.y ≤ i.y ∧ i.y ≤ stop.y) ∧
      (start.z ≤ i.z ∧ i.z ≤ stop.z) := by
  simp only [List.mem_flatMap, List.mem_map, mem_forUp_one]
  constructor
  · rintro ⟨z, hz, y, hy, x, hx, rfl⟩
    exact ⟨⟨x, y, z⟩, rfl, ⟨hx.1, Nat.lt_succ_iff.1 hx.2⟩, ⟨hy.1, Nat.lt_succ_iff.1 hy.2⟩, hz.1, Nat.lt_succ_iff.1 hz.2⟩
  · rintro ⟨⟨x, y, z⟩, rfl, hx, hy, hz⟩
    simp only at hx hy hz
    exact ⟨z, ⟨hz.1, by omega⟩, y, ⟨hy.1, by omega⟩, x, ⟨hx.1, by omega⟩, rfl⟩

theorem interest_nodup {d start stop : V3 Nat} (hx : stop.x < d.x) (hy : stop.y < d.y) (hz : stop.z < d.z) :
    ((forUp start.z (stop.z + 1) 1).flatMap fun z => (forUp start.y (stop.y + 1) 1).flatMap fun y =>
      (forUp start.x (stop.x + 1) 1).map fun x => threeToOneD ⟨x, y, z⟩ d).Nodup := by
  have inj : ∀ {x y z x' y' z' : Nat}, x < stop.x + 1 → y < stop.y + 1 → z < stop.z + 1 → x' < stop.x + 1 → y' < stop.y + 1 →
      z' < stop.z + 1 → threeToOneD ⟨x, y, z⟩ d = threeToOneD ⟨x', y', z'⟩ d → (⟨x, y, z⟩ : V3 Nat) = ⟨x', y', z'⟩ := by
    intro x y z x' y' z' h1 h2 h3 h4 h5 h6 h
    exact flat_inj ⟨by simp only; omega, by simp only; omega, by simp only; omega⟩
      ⟨by simp only; omega, by simp only; omega, by simp only; omega⟩ h
  rw [List.nodup_flatMap]
  refine ⟨fun z hz' => ?_, (nodup_forUp _ _ _).pairwise_of_forall_ne fun z hz1 z' hz2 hne => ?_⟩
  · rw [List.nodup_flatMap]
    rw [mem_forUp_one] at hz'
    refine ⟨fun y hy' => ?_, (nodup_forUp _ _ _).pairwise_of_forall_ne fun y hy1 y' hy2 hne => ?_⟩
    · rw [mem_forUp_one] at hy'
      refine List.Nodup.map_on ?_ (nodup_forUp _ _ _)
      intro x hx1 x' hx2 h
      rw [mem_forUp_one] at hx1 hx2
      have := inj hx1.2 hy'.2 hz'.2 hx2.2 hy'.2 hz'.2 h
      injection this
    · rw [mem_forUp_one] at hy1 hy2
      intro c h1 h2
      simp only [List.mem_map, mem_forUp_one] at h1 h2
      obtain ⟨x, hx1, rfl⟩ := h1
      obtain ⟨x', hx2, h⟩ := h2
      have := inj hx2.2 hy2.2 hz'.2 hx1.2 hy1.2 hz'.2 h
      injection this with _ e
      exact hne e.symm
  · rw [mem_forUp_one] at hz1 hz2
    intro c h1 h2
    simp only [List.mem_flatMap, List.mem_map, mem_forUp_one] at h1 h2
    obtain ⟨y, hy1, x, hx1, rfl⟩ := h1
    obtain ⟨y', hy2, x', hx2, h⟩ := h2
    have := inj hx2.2 hy2.2 hz2.2 hx1.2 hy1.2 hz1.2 h
    injection this with _ _ e
    exact hne e.symm

/-- The cells looked at for a region hold all selected particles. -/
theorem lcInterest_spec {bMin bMax : V3 Rat} {il csf skin : Rat} (hbox : GoodBox bMin bMax il csf) (hskin : 0 ≤ skin)
    {lo hi : V3 Rat} (hx : lo.x ≤ hi.x) (hy : lo.y ≤ hi.y) (hz : lo.z ≤ hi.z)
    (hn : (CellBlock.rebuild id bMin bMax il csf).numCells ≤ (2 ^ 63 - 1) / 8) {cells vecs : List (List Particle)}
    (hs : LCStorage (CellBlock.rebuild id bMin bMax il csf) cells vecs)
    (hm : MovedAtMost (CellBlock.rebuild id bMin bMax il csf) skin cells) {behavior : Nat} (hb : NamedBehavior behavior) :
    ∃ cs, lcCellsOfInterest (CellBlock.rebuild id bMin bMax il csf) skin lo hi = .ok cs ∧
      (cs.filter fun c => !lcIgnoresCell (CellBlock.rebuild id bMin bMax il csf) c behavior).Nodup ∧
      (∀ c ∈ cs.filter fun c => !lcIgnoresCell (CellBlock.rebuild id bMin bMax il csf) c behavior, c < cells.length) ∧
      (∀ p, cellSelects (some behavior) (some (lo, hi)) p = .ok (wanted behavior p.own && decide (InBox p.pos lo hi))) ∧
      ∀ c, c ∉ (cs.filter fun c => !lcIgnoresCell (CellBlock.rebuild id bMin bMax il csf) c behavior) → ∀ p ∈ cells.getD c [],
        (wanted behavior p.own && decide (InBox p.pos lo hi)) = false := by
  set b := CellBlock.rebuild id bMin bMax il csf with hbdef
  have hstart : ∀ q : V3 Rat, InGrid (b.indexOfPosition id q) b.dims := fun q => hbox.inGrid q
  have mono : ∀ {p q : V3 Rat}, p.x ≤ q.x → p.y ≤ q.y → p.z ≤ q.z → (b.indexOfPosition id p).x ≤ (b.indexOfPosition id q).x ∧
      (b.indexOfPosition id p).y ≤ (b.indexOfPosition id q).y ∧ (b.indexOfPosition id p).z ≤ (b.indexOfPosition id q).z := by
    intro p q h1 h2 h3
    exact ⟨axis_index_mono hbox.hx hbox.csfPos h1, axis_index_mono hbox.hy hbox.csfPos h2, axis_index_mono hbox.hz hbox.csfPos h3⟩
  obtain ⟨g1, g2, g3⟩ := hstart (hi.addScalar skin)
  obtain ⟨m1, m2, m3⟩ := mono (p := lo.addScalar (-skin)) (q := hi.addScalar skin) (by simp only [V3.addScalar]; linarith)
    (by simp only [V3.addScalar]; linarith) (by simp only [V3.addScalar]; linarith)
  refine ⟨_, if_neg (interest_count m1 m2 m3 g1 g2 g3 hn), (interest_nodup g1 g2 g3).filter _, ?_, ?_, ?_⟩
  · intro c hc
    obtain ⟨i, rfl, hi1, hi2, hi3⟩ := interest_mem.1 (List.mem_filter.1 hc).1
    rw [hs.len]
    have : InGrid i b.dims := ⟨lt_of_le_of_lt hi1.2 g1, lt_of_le_of_lt hi2.2 g2, lt_of_le_of_lt hi3.2 g3⟩
    exact flat_lt this
  · intro p
    simp only [cellSelects, contains_named hb, inBoxB_iff]
  · intro c hc p hp
    rw [Bool.and_eq_false_iff]
    by_cases hig : lcIgnoresCell b c behavior = true
    · exact Or.inl (lcIgnores_wanted hs hig p hp)
    · right
      by_contra hin
      rw [Bool.not_eq_false, decide_eq_true_eq] at hin
      obtain ⟨⟨x1, x2⟩, ⟨y1, y2⟩, z1, z2⟩ := hin
      obtain ⟨old, rfl, ox, oy, oz⟩ := hm c p hp
      rw [abs_le] at ox oy oz
      apply hc
      rw [List.mem_filter]
      refine ⟨interest_mem.2 ⟨b.indexOfPosition id old, rfl, ?_⟩, by simpa using hig⟩
      obtain ⟨a1, a2, a3⟩ := mono (p := lo.addScalar (-skin)) (q := old) (by simp only [V3.addScalar]; linarith [ox.2])
        (by simp only [V3.addScalar]; linarith [oy.2]) (by simp only [V3.addScalar]; linarith [oz.2])
      obtain ⟨b1, b2, b3⟩ := mono (p := old) (q := hi.addScalar skin) (by simp only [V3.addScalar]; linarith [ox.1])
        (by simp only [V3.addScalar]; linarith [oy.1]) (by simp only [V3.addScalar]; linarith [oz.1])
      exact ⟨⟨a1, b1⟩, ⟨a2, b2⟩, a3, b3⟩

end Verif
