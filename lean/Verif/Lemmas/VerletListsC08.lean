import Verif.Model.VerletListsC08
import Verif.Lemmas.VerletListsCells
/-! Lemmas about the lists for `vlc_c08` (C58). -/
namespace Verif
open Spec

section
variable {P : Type} [DecidableEq P]

/-! ### Inserting pairs into the lists of a base cell -/

/-- The (particle, neighbour) entries of the lists of a base cell under construction. -/
def c08Entries (l : C08Lists P) : List (P × P) := vlcEntries (c08Cleanup l)

omit [DecidableEq P] in
theorem c08Entries_append (a b : C08Lists P) : c08Entries (a ++ b) = c08Entries a ++ c08Entries b := by
  unfold c08Entries c08Cleanup vlcEntries
  rw [List.filterMap_append, List.flatMap_append]

omit [DecidableEq P] in
theorem c08Entries_cons (e : Option P × List P) (b : C08Lists P) :
    c08Entries (e :: b) = c08Entries [e] ++ c08Entries b := c08Entries_append [e] b

omit [DecidableEq P] in
theorem c08Entries_some (p : P) (ns : List P) : c08Entries [(some p, ns)] = ns.map fun q => (p, q) := by
  simp [c08Entries, c08Cleanup, vlcEntries]

omit [DecidableEq P] in
theorem c08Entries_none (ns : List P) : c08Entries [((none : Option P), ns)] = [] := by
  simp [c08Entries, c08Cleanup, vlcEntries]

/-- Unused lists are empty; the first lists are those of the particles of the base cell. -/
structure C08Inv (baseCell : List P) (l : C08Lists P) : Prop where
  unused : ∀ e ∈ l, e.1 = none → e.2 = []
  heads : ∀ (i : Nat) (p : P), baseCell[i]? = some p → ∃ ns : List P, l[i]? = some (some p, ns)

variable {baseCell : List P} {l : C08Lists P}

omit [DecidableEq P] in
theorem c08Init_inv (est : Nat) (baseCell : List P) : C08Inv baseCell (c08InitLists est baseCell) := by
  unfold c08InitLists
  refine ⟨?_, ?_⟩
  · intro e he hn
    rw [List.mem_append] at he
    rcases he with he | he
    · obtain ⟨p, -, rfl⟩ := List.mem_map.1 he; rfl
    · rw [List.eq_of_mem_replicate he]
  · intro i p hp
    refine ⟨[], ?_⟩
    obtain ⟨hl, -⟩ := List.getElem?_eq_some_iff.1 hp
    rw [List.getElem?_append_left (by simpa using hl), List.getElem?_map, hp]
    rfl

omit [DecidableEq P] in
theorem c08Init_entries (est : Nat) (baseCell : List P) : c08Entries (c08InitLists est baseCell) = [] := by
  unfold c08InitLists
  rw [c08Entries_append]
  have h1 : c08Entries (baseCell.map fun p => (some p, ([] : List P))) = [] := by
    induction baseCell with
    | nil => rfl
    | cons p b ih => rw [List.map_cons, c08Entries_cons, c08Entries_some, ih]; rfl
  have h2 : ∀ n, c08Entries (List.replicate n ((none : Option P), ([] : List P))) = [] := by
    intro n
    induction n with
    | zero => rfl
    | succ n ih => rw [List.replicate_succ, c08Entries_cons, c08Entries_none, ih]; rfl
  rw [h1, h2]; rfl

omit [DecidableEq P] in
/-- Appending to a list that is that of `p`, or unused and becomes that of `p`. -/
theorem c08Modify_spec (h : C08Inv baseCell l) {k : Nat} {e : Option P × List P} (hk : l[k]? = some e) (p q : P)
    (hp : e.1 = some p ∨ e.1 = none) :
    C08Inv baseCell (l.modify k fun e => (some p, e.2 ++ [q])) ∧
      (c08Entries (l.modify k fun e => (some p, e.2 ++ [q]))).Perm (c08Entries l ++ [(p, q)]) := by
  obtain ⟨A, B, rfl, rfl⟩ := split_at hk
  have hm : (A ++ e :: B).modify A.length (fun e => (some p, e.2 ++ [q])) = A ++ (some p, e.2 ++ [q]) :: B := by
    rw [List.modify_eq_take_drop]; simp
  rw [hm]
  refine ⟨⟨?_, ?_⟩, ?_⟩
  · intro x hx hn
    simp only [List.mem_append, List.mem_cons] at hx
    rcases hx with hx | rfl | hx
    · exact h.unused x (by simp [hx]) hn
    · cases hn
    · exact h.unused x (by simp [hx]) hn
  · intro i r hr
    obtain ⟨ns, hns⟩ := h.heads i r hr
    by_cases hi : i = A.length
    · subst hi
      rw [hk] at hns
      cases hns
      rcases hp with hp | hp
      · cases hp
        exact ⟨ns ++ [q], by simp⟩
      · cases hp
    · refine ⟨ns, ?_⟩
      rw [← hns]
      rw [List.getElem?_append, List.getElem?_append]
      split
      · rfl
      · rw [List.getElem?_cons, List.getElem?_cons, if_neg (by omega), if_neg (by omega)]
  · rw [c08Entries_append, c08Entries_append, c08Entries_cons, c08Entries_cons (e := e), c08Entries_some, List.map_append, List.map_cons, List.map_nil]
    simp only [List.append_assoc]
    refine List.Perm.append_left _ ?_
    have : c08Entries [e] = e.2.map fun q => (p, q) := by
      obtain ⟨o, ns⟩ := e
      rcases hp with hp | hp
      · cases hp; exact c08Entries_some p ns
      · cases hp
        have := h.unused (none, ns) (by simp) rfl
        cases this
        rw [c08Entries_none]; rfl
    rw [this]
    exact List.Perm.append_left _ List.perm_append_comm

omit [DecidableEq P] in
theorem modify_congr_at {X : Type} {l : List X} {k : Nat} {e : X} (hk : l[k]? = some e) {f g : X → X} (h : f e = g e) :
    l.modify k f = l.modify k g := by
  obtain ⟨A, B, rfl, rfl⟩ := split_at hk
  rw [List.modify_eq_take_drop, List.modify_eq_take_drop]
  simp [h]

theorem c08Insert_spec (h : C08Inv baseCell l) (p : P) (i : Nat) (q : P) (isBase : Bool) (hb : isBase = true → baseCell[i]? = some p) :
    C08Inv baseCell (c08Insert p i q isBase l) ∧ (c08Entries (c08Insert p i q isBase l)).Perm (c08Entries l ++ [(p, q)]) := by
  have find : ∀ o : Option P, o ∈ l.map Prod.fst → ∃ e, l[l.findIdx fun e => decide (e.1 = o)]? = some e ∧ e.1 = o := by
    intro o ho
    obtain ⟨e, he, rfl⟩ := List.mem_map.1 ho
    have hlt : l.findIdx (fun x => decide (x.1 = e.1)) < l.length := List.findIdx_lt_length_of_exists ⟨e, he, by simp⟩
    refine ⟨_, List.getElem?_eq_getElem hlt, ?_⟩
    have := List.findIdx_getElem (p := fun x : Option P × List P => decide (x.1 = e.1)) (xs := l) (w := hlt)
    simpa using this
  unfold c08Insert
  by_cases h1 : isBase = true
  · rw [if_pos h1]
    obtain ⟨ns, hns⟩ := h.heads i p (hb h1)
    rw [modify_congr_at (g := fun e => (some p, e.2 ++ [q])) hns rfl]
    exact c08Modify_spec h hns p q (.inl rfl)
  · rw [if_neg h1]
    by_cases h2 : some p ∈ l.map Prod.fst
    · rw [if_pos h2]
      obtain ⟨e, he, hep⟩ := find _ h2
      rw [modify_congr_at (g := fun e => (some p, e.2 ++ [q])) he (by rw [hep])]
      exact c08Modify_spec h he p q (.inl hep)
    · rw [if_neg h2]
      by_cases h3 : none ∈ l.map Prod.fst
      · rw [if_pos h3]
        obtain ⟨e, he, hep⟩ := find _ h3
        exact c08Modify_spec h he p q (.inr hep)
      · rw [if_neg h3]
        refine ⟨⟨?_, ?_⟩, ?_⟩
        · intro x hx hn
          simp only [List.mem_append, List.mem_singleton] at hx
          rcases hx with hx | rfl
          · exact h.unused x hx hn
          · cases hn
        · intro j r hr
          obtain ⟨ns, hns⟩ := h.heads j r hr
          obtain ⟨hl, -⟩ := List.getElem?_eq_some_iff.1 hns
          exact ⟨ns, by rw [List.getElem?_append_left hl]; exact hns⟩
        · rw [c08Entries_append, c08Entries_some]; rfl

variable {pos : P → V3 Rat} {own : P → Ownership} {il : Rat} {newton3 : Bool} {cells : List (List P)} {base c1 c2 : Nat}

/-- The entries that a particle pair leads to. -/
def c08PairEntries (newton3 : Bool) (p q : P) : List (P × P) := (p, q) :: if newton3 then [] else [(q, p)]

theorem mem_c08ParticlePairs {t : (P × Nat) × (P × Nat)} (h : t ∈ c08ParticlePairs cells c1 c2) :
    (cells.getD c1 [])[t.1.2]? = some t.1.1 ∧ (cells.getD c2 [])[t.2.2]? = some t.2.1 := by
  unfold c08ParticlePairs at h
  obtain ⟨a, ha, h⟩ := List.mem_flatMap.1 h
  obtain ⟨b, hb, rfl⟩ := List.mem_map.1 h
  have hb := List.mem_of_mem_drop hb
  exact ⟨by have := List.mem_zipIdx' ha; simp only; rw [List.getElem?_eq_getElem this.1, ← this.2],
    by have := List.mem_zipIdx' hb; simp only; rw [List.getElem?_eq_getElem this.1, ← this.2]⟩

theorem c08PairStep_spec (h : C08Inv (cells.getD base []) l) {t : (P × Nat) × (P × Nat)} (ht : t ∈ c08ParticlePairs cells c1 c2) :
    C08Inv (cells.getD base []) (c08PairStep pos own il newton3 base c1 c2 l t) ∧
      (c08Entries (c08PairStep pos own il newton3 base c1 c2 l t)).Perm (c08Entries l ++
        if c08IsNeighbour pos own il t.1.1 t.2.1 then c08PairEntries newton3 t.1.1 t.2.1 else []) := by
  obtain ⟨g1, g2⟩ := mem_c08ParticlePairs ht
  unfold c08PairStep
  by_cases hn : c08IsNeighbour pos own il t.1.1 t.2.1 = true
  · rw [if_pos hn, if_pos hn]
    obtain ⟨i1, i2⟩ := c08Insert_spec h t.1.1 t.1.2 t.2.1 (decide (base = c1)) (fun hb => by rw [decide_eq_true_eq] at hb; rw [hb]; exact g1)
    unfold c08PairEntries
    by_cases h3 : newton3 = true
    · simp only [h3, if_true]
      exact ⟨i1, i2⟩
    · simp only [h3, if_false, Bool.false_eq_true]
      obtain ⟨j1, j2⟩ := c08Insert_spec i1 t.2.1 t.2.2 t.1.1 (decide (base = c2))
        (fun hb => by rw [decide_eq_true_eq] at hb; rw [hb]; exact g2)
      refine ⟨j1, j2.trans ?_⟩
      refine (i2.append_right _).trans ?_
      rw [List.append_assoc]; rfl
  · rw [if_neg hn, if_neg hn, List.append_nil]
    exact ⟨h, List.Perm.refl _⟩

theorem c08Pairs_fold (ts : List ((P × Nat) × (P × Nat))) (hts : ∀ t ∈ ts, t ∈ c08ParticlePairs cells c1 c2) :
    ∀ l : C08Lists P, C08Inv (cells.getD base []) l → C08Inv (cells.getD base []) (ts.foldl (c08PairStep pos own il newton3 base c1 c2) l) ∧
      (c08Entries (ts.foldl (c08PairStep pos own il newton3 base c1 c2) l)).Perm (c08Entries l ++ ts.flatMap fun t =>
        if c08IsNeighbour pos own il t.1.1 t.2.1 then c08PairEntries newton3 t.1.1 t.2.1 else []) := by
  induction ts with
  | nil => intro l h; exact ⟨h, by simp⟩
  | cons t ts ih =>
    intro l h
    obtain ⟨g1, g2⟩ := c08PairStep_spec (pos := pos) (own := own) (il := il) (newton3 := newton3) h (hts t List.mem_cons_self)
    obtain ⟨i1, i2⟩ := ih (fun x hx => hts x (List.mem_cons_of_mem _ hx)) _ g1
    refine ⟨i1, i2.trans ?_⟩
    rw [List.flatMap_cons, ← List.append_assoc]
    exact g2.append_right _

/-- The entries that the pairs of two cells lead to. -/
def c08CellEntries (pos : P → V3 Rat) (own : P → Ownership) (il : Rat) (newton3 : Bool) (blk : CellBlock) (cells : List (List P))
    (c1 c2 : Nat) : List (P × P) :=
  if blk.cellCanContainHalo c1 ∧ blk.cellCanContainHalo c2 then []
  else (c08ParticlePairs cells c1 c2).flatMap fun t =>
    if c08IsNeighbour pos own il t.1.1 t.2.1 then c08PairEntries newton3 t.1.1 t.2.1 else []

theorem c08BuildBase_entries (blk : CellBlock) (offsets : List (Int × Int × Rat)) (est : Nat) :
    (c08Entries (c08BuildBase pos own il newton3 blk cells offsets est base)).Perm (offsets.flatMap fun o =>
      c08CellEntries pos own il newton3 blk cells ((base : Int) + o.1).toNat ((base : Int) + o.2.1).toNat) := by
  unfold c08BuildBase
  have key : ∀ l : C08Lists P, C08Inv (cells.getD base []) l → (c08Entries (offsets.foldl (fun l o =>
      let c1 := ((base : Int) + o.1).toNat
      let c2 := ((base : Int) + o.2.1).toNat
      if blk.cellCanContainHalo c1 ∧ blk.cellCanContainHalo c2 then l
      else (c08ParticlePairs cells c1 c2).foldl (c08PairStep pos own il newton3 base c1 c2) l) l)).Perm
      (c08Entries l ++ offsets.flatMap fun o =>
        c08CellEntries pos own il newton3 blk cells ((base : Int) + o.1).toNat ((base : Int) + o.2.1).toNat) := by
    induction offsets with
    | nil => intro l _; simp
    | cons o os ih =>
      intro l h
      rw [List.foldl_cons, List.flatMap_cons]
      unfold c08CellEntries at ih ⊢
      simp only at ih ⊢
      by_cases hs : blk.cellCanContainHalo ((base : Int) + o.1).toNat = true ∧ blk.cellCanContainHalo ((base : Int) + o.2.1).toNat = true
      · rw [if_pos hs, if_pos hs]
        exact ih l h
      · rw [if_neg hs, if_neg hs]
        obtain ⟨g1, g2⟩ := c08Pairs_fold (pos := pos) (own := own) (il := il) (newton3 := newton3)
          (c08ParticlePairs cells ((base : Int) + o.1).toNat ((base : Int) + o.2.1).toNat) (fun t ht => ht) l h
        refine (ih _ g1).trans ?_
        rw [← List.append_assoc]
        exact g2.append_right _
  refine (key _ (c08Init_inv _ _)).trans ?_
  rw [c08Init_entries, List.nil_append]

end

/-! ### The offsets -/

/-- The eight cells of a base step. -/
def c08Corners : List (V3 Nat) := [⟨0, 0, 0⟩, ⟨1, 0, 0⟩, ⟨0, 1, 0⟩, ⟨1, 1, 0⟩, ⟨0, 0, 1⟩, ⟨1, 0, 1⟩, ⟨0, 1, 1⟩, ⟨1, 1, 1⟩]

def c08Code (v : V3 Nat) : Nat := v.x + 2 * v.y + 4 * v.z

/-- The pairs of cells of a base step: those of the eight cells that are, along every axis, not both beyond the base cell. -/
def c08Blocks : List (V3 Nat × V3 Nat) := (c08Corners.flatMap fun u => c08Corners.map fun v => (u, v)).filter fun s =>
  (s.1.x = 0 ∨ s.2.x = 0) ∧ (s.1.y = 0 ∨ s.2.y = 0) ∧ (s.1.z = 0 ∨ s.2.z = 0) ∧ c08Code s.1 ≤ c08Code s.2

theorem mem_c08Corners {v : V3 Nat} : v ∈ c08Corners ↔ v.x ≤ 1 ∧ v.y ≤ 1 ∧ v.z ≤ 1 := by
  constructor
  · intro h
    have : ∀ v ∈ c08Corners, v.x ≤ 1 ∧ v.y ≤ 1 ∧ v.z ≤ 1 := by decide
    exact this v h
  · rintro ⟨h1, h2, h3⟩
    obtain ⟨x, y, z⟩ := v
    simp only at h1 h2 h3
    have : ∀ x ≤ 1, ∀ y ≤ 1, ∀ z ≤ 1, (⟨x, y, z⟩ : V3 Nat) ∈ c08Corners := by decide
    exact this x h1 y h2 z h3

theorem mem_c08Blocks {s : V3 Nat × V3 Nat} : s ∈ c08Blocks ↔ (s.1.x ≤ 1 ∧ s.1.y ≤ 1 ∧ s.1.z ≤ 1) ∧ (s.2.x ≤ 1 ∧ s.2.y ≤ 1 ∧ s.2.z ≤ 1) ∧
    (s.1.x = 0 ∨ s.2.x = 0) ∧ (s.1.y = 0 ∨ s.2.y = 0) ∧ (s.1.z = 0 ∨ s.2.z = 0) ∧ c08Code s.1 ≤ c08Code s.2 := by
  unfold c08Blocks
  rw [List.mem_filter, decide_eq_true_eq, List.mem_flatMap]
  obtain ⟨u, v⟩ := s
  simp only [← mem_c08Corners]
  constructor
  · rintro ⟨⟨a, ha, hb⟩, h⟩
    obtain ⟨b, hb, he⟩ := List.mem_map.1 hb
    cases he
    exact ⟨ha, hb, h⟩
  · rintro ⟨ha, hb, h⟩
    exact ⟨⟨u, ha, List.mem_map.2 ⟨v, hb, rfl⟩⟩, h⟩

theorem nodup_c08Blocks : c08Blocks.Nodup := by decide

/-- The cells of one round, in coordinates, and the number of the factor. -/
def c08Round (x y z : Int) : V3 Nat × V3 Nat × Nat :=
  let u : V3 Nat := ⟨(-x).toNat, (-y).toNat, (-z).toNat⟩
  let v : V3 Nat := ⟨x.toNat, y.toNat, z.toNat⟩
  if c08Code u ≤ c08Code v then (u, v, x.natAbs + y.natAbs + z.natAbs) else (v, u, x.natAbs + y.natAbs + z.natAbs)

def c08Rounds : List (V3 Nat × V3 Nat × Nat) :=
  (forInt (-1) 1).flatMap fun z => (forInt (-1) 1).flatMap fun y => (forInt (-1) 1).map fun x => c08Round x y z

theorem dedupFold_map {X Y : Type} [DecidableEq X] [DecidableEq Y] (h : X → Y) :
    ∀ (l acc : List X), (∀ a ∈ acc ++ l, ∀ b ∈ acc ++ l, h a = h b → a = b) → dedupFold (l.map h) (acc.map h) = (dedupFold l acc).map h := by
  intro l
  induction l with
  | nil => intro acc _; rfl
  | cons t l ih =>
    intro acc hi
    unfold dedupFold at ih ⊢
    rw [List.map_cons, List.foldl_cons, List.foldl_cons]
    have e : h t ∈ acc.map h ↔ t ∈ acc := by
      rw [List.mem_map]
      constructor
      · rintro ⟨a, ha, he⟩
        have := hi a (by simp [ha]) t (by simp) he
        rwa [← this]
      · exact fun ht => ⟨t, ht, rfl⟩
    by_cases ht : t ∈ acc
    · rw [if_pos ht, if_pos (e.2 ht)]
      exact ih acc fun a ha b hb => hi a (by simp only [List.mem_append, List.mem_cons] at *; tauto) b
        (by simp only [List.mem_append, List.mem_cons] at *; tauto)
    · rw [if_neg ht, if_neg (fun hx => ht (e.1 hx))]
      have := ih (acc ++ [t]) fun a ha b hb => hi a (by simp only [List.mem_append, List.mem_cons, List.mem_singleton] at *; tauto) b
        (by simp only [List.mem_append, List.mem_cons, List.mem_singleton] at *; tauto)
      rw [List.map_append] at this
      exact this

theorem c08Rounds_dedup : ((dedupFold c08Rounds []).map fun t => (t.1, t.2.1)).Perm c08Blocks := by decide +kernel

theorem c08Rounds_facts : ∀ t ∈ c08Rounds, t.1 ∈ c08Corners ∧ t.2.1 ∈ c08Corners ∧
    ∀ t' ∈ c08Rounds, t.1 = t'.1 → t.2.1 = t'.2.1 → t = t' := by decide +kernel

section
variable {dims : V3 Nat} (hx : 2 ≤ dims.x) (hy : 2 ≤ dims.y) (hz : 2 ≤ dims.z)
include hx hy

theorem flat_corner_le {u v : V3 Nat} (hu : u ∈ c08Corners) (hv : v ∈ c08Corners) :
    (threeToOneD u dims : Int) ≤ threeToOneD v dims ↔ c08Code u ≤ c08Code v := by
  have hp : dims.x + 2 ≤ dims.y * dims.x := by nlinarith
  unfold threeToOneD c08Code
  rw [mem_c08Corners] at hu hv
  obtain ⟨a, b, c⟩ := u
  obtain ⟨a', b', c'⟩ := v
  simp only at hu hv ⊢
  have e : ∀ b c, (c * dims.y + b) * dims.x = c * (dims.y * dims.x) + b * dims.x := fun b c => by ring
  rw [e, e]
  generalize dims.y * dims.x = D at *
  obtain ⟨h1, h2, h3⟩ := hu
  obtain ⟨h4, h5, h6⟩ := hv
  have hb : b = 0 ∨ b = 1 := by omega
  have hc : c = 0 ∨ c = 1 := by omega
  have hb' : b' = 0 ∨ b' = 1 := by omega
  have hc' : c' = 0 ∨ c' = 1 := by omega
  rcases hb with rfl | rfl <;> rcases hc with rfl | rfl <;> rcases hb' with rfl | rfl <;> rcases hc' with rfl | rfl <;>
    simp only [Nat.zero_mul, Nat.one_mul] <;> omega

theorem c08BaseStepTuple_eq (fac : Nat → Rat) {x y z : Int} (h1 : -1 ≤ x ∧ x ≤ 1) (h2 : -1 ≤ y ∧ y ≤ 1) (h3 : -1 ≤ z ∧ z ≤ 1) :
    c08BaseStepTuple fac dims x y z = ((threeToOneD (c08Round x y z).1 dims : Int), (threeToOneD (c08Round x y z).2.1 dims : Int),
      fac (c08Round x y z).2.2) := by
  have hu : (⟨(-x).toNat, (-y).toNat, (-z).toNat⟩ : V3 Nat) ∈ c08Corners := by rw [mem_c08Corners]; simp only; omega
  have hv : (⟨x.toNat, y.toNat, z.toNat⟩ : V3 Nat) ∈ c08Corners := by rw [mem_c08Corners]; simp only; omega
  have hle := flat_corner_le hx hy hu hv
  have e : c08BaseStepTuple fac dims x y z = (min (threeToOneD ⟨(-x).toNat, (-y).toNat, (-z).toNat⟩ dims : Int) (threeToOneD ⟨x.toNat, y.toNat, z.toNat⟩ dims),
      max (threeToOneD ⟨(-x).toNat, (-y).toNat, (-z).toNat⟩ dims : Int) (threeToOneD ⟨x.toNat, y.toNat, z.toNat⟩ dims),
      fac (x.natAbs + y.natAbs + z.natAbs)) := by
    have cx : x = -1 ∨ x = 0 ∨ x = 1 := by omega
    have cy : y = -1 ∨ y = 0 ∨ y = 1 := by omega
    have cz : z = -1 ∨ z = 0 ∨ z = 1 := by omega
    clear hu hv hle h1 h2 h3
    unfold c08BaseStepTuple threeToOneD threeToOneDInt V3.toInt
    rcases cx with rfl | rfl | rfl <;> rcases cy with rfl | rfl | rfl <;> rcases cz with rfl | rfl | rfl <;>
      (simp only [Int.reduceLT, Int.reduceNeg, if_true, if_false, Int.reduceToNat, Int.neg_neg, Int.neg_zero]
       refine Prod.ext_iff.2 ⟨?_, Prod.ext_iff.2 ⟨?_, rfl⟩⟩ <;> simp only <;> congr 1 <;> push_cast <;> ring)
  rw [e]
  unfold c08Round
  simp only
  by_cases hc : c08Code ⟨(-x).toNat, (-y).toNat, (-z).toNat⟩ ≤ c08Code ⟨x.toNat, y.toNat, z.toNat⟩
  · rw [if_pos hc, min_eq_left (hle.2 hc), max_eq_right (hle.2 hc)]
  · rw [if_neg hc]
    have : (threeToOneD ⟨x.toNat, y.toNat, z.toNat⟩ dims : Int) ≤ threeToOneD ⟨(-x).toNat, (-y).toNat, (-z).toNat⟩ dims :=
      (flat_corner_le hx hy hv hu).2 (by omega)
    rw [min_eq_right this, max_eq_left this]

include hz in
/-- The offsets are the fourteen pairs of cells. -/
theorem c08BaseStep_perm (fac : Nat → Rat) :
    ((c08BaseStep fac dims).map fun o => (o.1, o.2.1)).Perm
      (c08Blocks.map fun s => ((threeToOneD s.1 dims : Int), (threeToOneD s.2 dims : Int))) := by
  set h : V3 Nat × V3 Nat × Nat → Int × Int × Rat := fun t => ((threeToOneD t.1 dims : Int), (threeToOneD t.2.1 dims : Int), fac t.2.2) with hh
  have e1 : ((forInt (-1) 1).flatMap fun z => (forInt (-1) 1).flatMap fun y => (forInt (-1) 1).map fun x =>
      c08BaseStepTuple fac dims x y z) = c08Rounds.map h := by
    unfold c08Rounds
    have mem : ∀ k ∈ forInt (-1) 1, -1 ≤ k ∧ k ≤ 1 := by decide
    rw [List.map_flatMap]
    apply List.flatMap_congr
    intro z hz
    rw [List.map_flatMap]
    apply List.flatMap_congr
    intro y hy'
    rw [List.map_map]
    apply List.map_congr_left
    intro x hx'
    exact c08BaseStepTuple_eq hx hy fac (mem x hx') (mem y hy') (mem z hz)
  have hgrid : ∀ v ∈ c08Corners, InGrid v dims := fun v hv => by
    rw [mem_c08Corners] at hv
    exact ⟨by omega, by omega, by omega⟩
  have e2 := dedupFold_map h c08Rounds [] (by
    intro a ha b hb hab
    rw [List.nil_append] at ha hb
    obtain ⟨a1, a2, a3⟩ := c08Rounds_facts a ha
    obtain ⟨b1, b2, -⟩ := c08Rounds_facts b hb
    simp only [hh, Prod.mk.injEq] at hab
    exact a3 b hb ((flat_iff (hgrid _ a1) (hgrid _ b1)).1 hab.1) ((flat_iff (hgrid _ a2) (hgrid _ b2)).1 hab.2.1))
  rw [List.map_nil] at e2
  unfold c08BaseStep
  rw [e1, e2]
  refine ((List.mergeSort_perm _ _).map _).trans ?_
  rw [List.map_map]
  refine List.Perm.trans (List.Perm.of_eq ?_) (c08Rounds_dedup.map fun s => ((threeToOneD s.1 dims : Int), (threeToOneD s.2 dims : Int)))
  rw [List.map_map]
  rfl

end

/-! ### The cell pairs of all base steps -/

/-- Component-wise sum. -/
def cellPlus (b u : V3 Nat) : V3 Nat := ⟨b.x + u.x, b.y + u.y, b.z + u.z⟩

theorem flat_cellPlus (b u dims : V3 Nat) : threeToOneD (cellPlus b u) dims = threeToOneD b dims + threeToOneD u dims := by
  unfold threeToOneD cellPlus; simp only; ring

/-- The cell pairs of `vlc_c08` as calls of a cell functor. -/
def c08ListOps (dims : V3 Nat) (cl : V3 Rat) (bases : List (V3 Nat)) : List CellOp :=
  (basePairs bases c08Blocks).map fun q => mkOp (threeToOneD (cellPlus q.1 q.2.1) dims) (threeToOneD (cellPlus q.1 q.2.2) dims)
    (cellDirection cl (cellPlus q.1 q.2.1) (cellPlus q.1 q.2.2))

section
variable {bMin bMax : V3 Rat} {il csf : Rat}

theorem overlap_eq_one (hbox : GoodBox bMin bMax il csf)
    (hcl : let cl := (CellBlock.rebuild id bMin bMax il csf).cellLength; il ≤ cl.x ∧ il ≤ cl.y ∧ il ≤ cl.z) :
    (overlapOf il (CellBlock.rebuild id bMin bMax il csf).cellLength).toNat = ⟨1, 1, 1⟩ := by
  obtain ⟨h1, h2, h3⟩ := hbox.cl_pos
  have hil := hbox.ilPos
  have one : ∀ c : Rat, 0 < c → il ≤ c → ⌈il / c⌉.toNat = 1 := by
    intro c hc hle
    have : ⌈il / c⌉ = 1 := by
      rw [Int.ceil_eq_iff]
      constructor
      · simp; positivity
      · rw [div_le_iff₀ hc]; simpa using hle
    rw [this]; rfl
  unfold overlapOf V3.toNat
  simp only
  rw [one _ h1 hcl.1, one _ h2 hcl.2.1, one _ h3 hcl.2.2]

theorem c08List_coded {dims : V3 Nat} (cl : V3 Rat) {bases : List (V3 Nat)} (hn : bases.Nodup)
    (hb : ∀ b ∈ bases, b.x < dims.x - 1 ∧ b.y < dims.y - 1 ∧ b.z < dims.z - 1) :
    Coded dims (c08ListOps dims cl bases) (basePairs bases c08Blocks) (fun q => cellPlus q.1 q.2.1) (fun q => cellPlus q.1 q.2.2) := by
  refine ⟨nodup_basePairs hn nodup_c08Blocks, ?_, ?_, ⟨_, rfl⟩⟩
  all_goals
    rintro ⟨b, s⟩ hq
    rw [mem_basePairs, mem_c08Blocks] at hq
    have := hb b hq.1
    simp only [InGrid, cellPlus]
    omega

theorem c08List_unique {bases : List (V3 Nat)} : ∀ q ∈ basePairs bases c08Blocks, ∀ r ∈ basePairs bases c08Blocks,
    cellPlus q.1 q.2.1 = cellPlus r.1 r.2.1 → cellPlus q.1 q.2.2 = cellPlus r.1 r.2.2 → q = r := by
  rintro ⟨⟨bx, by', bz⟩, ⟨ux, uy, uz⟩, ⟨vx, vy, vz⟩⟩ hq ⟨⟨bx', by'', bz'⟩, ⟨ux', uy', uz'⟩, ⟨vx', vy', vz'⟩⟩ hr h1 h2
  rw [mem_basePairs, mem_c08Blocks] at hq hr
  simp only [cellPlus, V3.mk.injEq, Prod.mk.injEq] at *
  omega

theorem c08List_anti {bases : List (V3 Nat)} : ∀ q ∈ basePairs bases c08Blocks, ∀ r ∈ basePairs bases c08Blocks,
    cellPlus q.1 q.2.1 = cellPlus r.1 r.2.2 → cellPlus q.1 q.2.2 = cellPlus r.1 r.2.1 → cellPlus q.1 q.2.1 = cellPlus q.1 q.2.2 := by
  rintro ⟨⟨bx, by', bz⟩, ⟨ux, uy, uz⟩, ⟨vx, vy, vz⟩⟩ hq ⟨⟨bx', by'', bz'⟩, ⟨ux', uy', uz'⟩, ⟨vx', vy', vz'⟩⟩ hr h1 h2
  rw [mem_basePairs, mem_c08Blocks] at hq hr
  simp only [cellPlus, V3.mk.injEq, c08Code] at *
  omega

/-- Existence of the base step of two cells. -/
theorem c08List_exists {dims a b : V3 Nat} {bases : List (V3 Nat)}
    (hb : ∀ b : V3 Nat, b ∈ bases ↔ b.x < dims.x - 1 ∧ b.y < dims.y - 1 ∧ b.z < dims.z - 1)
    (ha : a.x < dims.x - 1 ∧ a.y < dims.y - 1 ∧ a.z < dims.z - 1) (hov : WithinOverlap ⟨1, 1, 1⟩ a b) :
    ∃ q ∈ basePairs bases c08Blocks, (cellPlus q.1 q.2.1 = a ∧ cellPlus q.1 q.2.2 = b) ∨ (cellPlus q.1 q.2.1 = b ∧ cellPlus q.1 q.2.2 = a) := by
  obtain ⟨ax, ay, az⟩ := a
  obtain ⟨bx, by', bz⟩ := b
  obtain ⟨h1, h2, h3⟩ := hov
  have hh : ∀ a b : Nat, axisDist a b ≤ 1 → a ≤ b + 1 ∧ b ≤ a + 1 := by intro a b h; unfold axisDist at h; split at h <;> omega
  have g1 := hh _ _ h1
  have g2 := hh _ _ h2
  have g3 := hh _ _ h3
  simp only at g1 g2 g3 ha
  by_cases hc : c08Code ⟨ax - min ax bx, ay - min ay by', az - min az bz⟩ ≤ c08Code ⟨bx - min ax bx, by' - min ay by', bz - min az bz⟩
  · refine ⟨(⟨min ax bx, min ay by', min az bz⟩, ⟨ax - min ax bx, ay - min ay by', az - min az bz⟩,
      ⟨bx - min ax bx, by' - min ay by', bz - min az bz⟩), ?_, .inl ?_⟩
    · rw [mem_basePairs, mem_c08Blocks, hb]
      refine ⟨?_, ?_, ?_, ?_, ?_, ?_, hc⟩ <;> simp only <;> omega
    · simp only [cellPlus, V3.mk.injEq]; omega
  · refine ⟨(⟨min ax bx, min ay by', min az bz⟩, ⟨bx - min ax bx, by' - min ay by', bz - min az bz⟩,
      ⟨ax - min ax bx, ay - min ay by', az - min az bz⟩), ?_, .inr ?_⟩
    · rw [mem_basePairs, mem_c08Blocks, hb]
      refine ⟨?_, ?_, ?_, ?_, ?_, ?_, Nat.le_of_lt (Nat.lt_of_not_le hc)⟩ <;> simp only <;> omega
    · simp only [cellPlus, V3.mk.injEq]; omega

theorem c08List_facts (hbox : GoodBox bMin bMax il csf)
    (hcl : let cl := (CellBlock.rebuild id bMin bMax il csf).cellLength; il ≤ cl.x ∧ il ≤ cl.y ∧ il ≤ cl.z)
    {bases : List (V3 Nat)} (hn : bases.Nodup)
    (hb : ∀ b : V3 Nat, b ∈ bases ↔ b.x < (CellBlock.rebuild id bMin bMax il csf).dims.x - 1 ∧
      b.y < (CellBlock.rebuild id bMin bMax il csf).dims.y - 1 ∧ b.z < (CellBlock.rebuild id bMin bMax il csf).dims.z - 1) :
    LCFacts bMin bMax il csf true
      (c08ListOps (CellBlock.rebuild id bMin bMax il csf).dims (CellBlock.rebuild id bMin bMax il csf).cellLength bases) := by
  have hc := c08List_coded (CellBlock.rebuild id bMin bMax il csf).cellLength hn (fun b h => (hb b).1 h)
  refine .of_both (fun op ho => hc.valid ho) hbox ?_ ?_ ?_ ?_
  · intro a b dir ha hb' ho
    obtain ⟨q, hq, he⟩ := List.mem_map.1 ho
    have hf := hc.gridf q hq
    have hg := hc.gridg q hq
    unfold mkOp at he
    split at he
    · cases he
    · simp only [CellOp.pair.injEq] at he
      rw [flat_iff hf ha, flat_iff hg hb'] at he
      rw [← he.2.2, he.1, he.2.1]
  · intro p q hpq hin b cp cq
    obtain ⟨h1, -⟩ := hbox.close hpq
    rw [overlap_eq_one hbox hcl] at h1
    have hnh := hbox.not_halo hin
    have hd := hbox.dims_ge
    have hw : 0 < cellsPerInteractionLength id csf := by
      have := hbox.overlap_le
      have o := overlap_eq_one hbox hcl
      have := congrArg V3.x o
      simp only [V3.toNat] at this
      omega
    have hcp : cp.x < b.dims.x - 1 ∧ cp.y < b.dims.y - 1 ∧ cp.z < b.dims.z - 1 := by
      simp only [IsHalo] at hnh
      simp only [b, cp]
      omega
    obtain ⟨w, hw, hm⟩ := c08List_exists hb hcp h1
    constructor
    · intro hne
      exact hc.timesPair_one (hbox.inGrid p) (hbox.inGrid q) hne ⟨w, hw, hm⟩ c08List_unique c08List_anti
    · intro he
      refine hc.timesSelf_one (hbox.inGrid p) ⟨w, hw, ?_⟩ c08List_unique
      rw [show (CellBlock.rebuild id bMin bMax il csf).indexOfPosition id q = cp from he.symm] at hm
      rcases hm with hm | hm <;> exact hm
  · intro a b ha hb' hab
    exact hc.timesPair_le_one ha hb' hab c08List_unique c08List_anti
  · intro a ha
    exact hc.timesSelf_le_one ha c08List_unique

end

/-! ### The calls -/

section
variable {P : Type} [DecidableEq P]

/-- The cell functor whose calls, restricted to neighbours, are those made from the lists. -/
def c08Functor (pos : P → V3 Rat) (il : Rat) (newton3 : Bool) : CellFunctorCfg P :=
  ⟨fun _ => false, true, newton3, true, 0, il, ⟨1, 1, 1⟩, sortByProjection pos⟩

variable {pos : P → V3 Rat} {own : P → Ownership} {il : Rat} {newton3 : Bool} {cells : List (List P)}

theorem c08IsNeighbour_symm (p q : P) : c08IsNeighbour pos own il p q = c08IsNeighbour pos own il q p := by
  unfold c08IsNeighbour
  rw [distSq_symm, Bool.eq_iff_iff]
  simp only [Bool.and_eq_true, Bool.not_eq_true', Bool.or_eq_false_iff, decide_eq_false_iff_not, decide_eq_true_eq]
  constructor <;> (rintro ⟨⟨⟨h1, h2⟩, h3⟩, h4⟩; exact ⟨⟨⟨fun h => h1 h.symm, h3⟩, h2⟩, h4⟩)

omit [DecidableEq P] in
theorem untilBreak_never {X : Type} (l : List X) : untilBreak (fun _ => false) l = l := by
  unfold untilBreak
  simp

omit [DecidableEq P] in
theorem drop_zipIdx_map {X Y : Type} (l : List X) (k : Nat) (g : X → Y) : (l.zipIdx.drop k).map (fun b => g b.1) = (l.drop k).map g := by
  rw [List.map_drop, List.map_drop]
  congr 1
  rw [show (fun b : X × Nat => g b.1) = g ∘ Prod.fst from rfl, ← List.map_map, List.zipIdx_map_fst]

theorem c08ParticlePairs_self (c : Nat) :
    (c08ParticlePairs cells c c).map (fun t => (t.1.1, t.2.1)) = pairLoop (fun _ _ => false) (cells.getD c []) := by
  unfold c08ParticlePairs
  simp only [if_true]
  generalize cells.getD c [] = L
  have key : ∀ (l : List P) (n : Nat), L.drop n = l →
      ((l.zipIdx n).flatMap fun a => (L.zipIdx.drop (a.2 + 1)).map fun b => (a, b)).map (fun t => (t.1.1, t.2.1)) =
        pairLoop (fun _ _ => false) l := by
    intro l
    induction l with
    | nil => intro n _; rfl
    | cons x l ih =>
      intro n hn
      have hl : L.drop (n + 1) = l := by
        rw [← List.drop_drop, hn]; rfl
      rw [List.zipIdx_cons, List.flatMap_cons, List.map_append, ih (n + 1) hl, List.map_map]
      rw [show pairLoop (fun _ _ => false) (x :: l) = (untilBreak (fun _ => false) l).map (fun y => (x, y)) ++ pairLoop (fun _ _ => false) l from rfl,
        untilBreak_never]
      congr 1
      rw [show ((fun t : (P × Nat) × P × Nat => (t.1.1, t.2.1)) ∘ fun b => ((x, n), b)) = fun b : P × Nat => (x, b.1) from rfl,
        drop_zipIdx_map _ _ fun y => (x, y), hl]
  exact key L 0 rfl

theorem c08ParticlePairs_cross {c1 c2 : Nat} (h : c1 ≠ c2) :
    (c08ParticlePairs cells c1 c2).map (fun t => (t.1.1, t.2.1)) = crossLoop (fun _ _ => false) (cells.getD c1 []) (cells.getD c2 []) := by
  unfold c08ParticlePairs crossLoop
  simp only [h, if_false, List.map_flatMap, List.map_map]
  have : ∀ a : P × Nat, ((cells.getD c2 []).zipIdx.drop 0).map ((fun t : (P × Nat) × P × Nat => (t.1.1, t.2.1)) ∘ fun b => (a, b)) =
      (untilBreak (fun _ => false) (cells.getD c2 [])).map fun y => (a.1, y) := by
    intro a
    rw [untilBreak_never, show ((fun t : (P × Nat) × P × Nat => (t.1.1, t.2.1)) ∘ fun b => (a, b)) = fun b : P × Nat => (a.1, b.1) from rfl,
      drop_zipIdx_map _ _ fun y => (a.1, y)]
    rfl
  simp only [this]
  conv_rhs => rw [← List.zipIdx_map_fst 0 (cells.getD c1 []), List.flatMap_map]

omit [DecidableEq P] in
theorem cross_swap_perm {X Y Z : Type} (g : X → Y → Z) (l₁ : List X) (l₂ : List Y) :
    (l₂.flatMap fun y => l₁.map fun x => g x y).Perm (l₁.flatMap fun x => l₂.map fun y => g x y) := by
  induction l₁ with
  | nil => simp
  | cons x l ih =>
    rw [List.flatMap_cons]
    refine List.Perm.trans ?_ (List.Perm.append_left _ ih)
    rw [List.map_eq_flatMap]
    refine List.Perm.symm ?_
    exact List.flatMap_append_perm l₂ (fun y => [g x y]) (fun y => l.map fun x => g x y)

theorem soaPair_both (l₁ l₂ : List P) : (soaPair newton3 l₁ l₂ ++ (if newton3 = false then soaPair false l₂ l₁ else [])).Perm
    ((crossLoop (fun _ _ => false) l₁ l₂).flatMap fun t => interactCross newton3 true t.1 t.2) := by
  unfold interactCross
  cases newton3 with
  | true =>
    simp only [soaPair, Bool.true_eq_false, if_false, List.append_nil, if_true]
    rw [← List.map_eq_flatMap]
  | false =>
    simp only [soaPair, if_true, Bool.false_eq_true, if_false]
    have hp := List.flatMap_append_perm (crossLoop (fun _ _ => false) l₁ l₂) (fun t => [(⟨t.1, t.2, false⟩ : PairCall P)])
      (fun t => [(⟨t.2, t.1, false⟩ : PairCall P)])
    rw [← List.map_eq_flatMap, ← List.map_eq_flatMap] at hp
    refine List.Perm.trans (List.Perm.append_left _ ?_) hp
    unfold crossLoop
    simp only [untilBreak_never, List.map_flatMap, List.map_map]
    exact cross_swap_perm (fun x y => (⟨y, x, false⟩ : PairCall P)) l₁ l₂

/-- The entries of two cells are the calls of the cell functor that go to neighbours. -/
theorem c08CellEntries_calls (blk : CellBlock) {c1 c2 : Nat} (h1 : c1 < cells.length) (h2 : c2 < cells.length) (d : V3 Rat) :
    ((c08CellEntries pos own il newton3 blk cells c1 c2).map fun e => (⟨e.1, e.2, newton3⟩ : PairCall P)).Perm
      (((c08Functor pos il newton3).op (lcCells blk cells) (mkOp c1 c2 d)).filter fun c => c08IsNeighbour pos own il c.p c.q) := by
  have g1 := cellAt_lcCells (blk := blk) (cells := cells) c1
  have g2 := cellAt_lcCells (blk := blk) (cells := cells) c2
  simp only [Int.toNat_natCast] at g1 g2
  have e1 : (cellAt (lcCells blk cells) c1).hasOwned = !blk.cellCanContainHalo c1 := g1.2 h1
  have e2 : (cellAt (lcCells blk cells) c2).hasOwned = !blk.cellCanContainHalo c2 := g2.2 h2
  have hcall : ∀ l : List (P × P), ((l.flatMap fun t => if c08IsNeighbour pos own il t.1 t.2 then c08PairEntries newton3 t.1 t.2 else []).map
      fun e => (⟨e.1, e.2, newton3⟩ : PairCall P)) =
      (l.flatMap fun t => interactCross newton3 true t.1 t.2).filter fun c => c08IsNeighbour pos own il c.p c.q := by
    intro l
    rw [List.map_flatMap, List.filter_flatMap]
    apply List.flatMap_congr
    intro t _
    unfold interactCross c08PairEntries
    by_cases hn : c08IsNeighbour pos own il t.1 t.2 = true
    · have hn' : c08IsNeighbour pos own il t.2 t.1 = true := by rw [c08IsNeighbour_symm]; exact hn
      cases newton3 <;> simp [hn, hn']
    · have hn' : ¬ c08IsNeighbour pos own il t.2 t.1 = true := by rw [c08IsNeighbour_symm]; exact hn
      cases newton3 <;> simp [hn, hn']
  have hpairs : ((c08ParticlePairs cells c1 c2).flatMap fun t =>
      if c08IsNeighbour pos own il t.1.1 t.2.1 then c08PairEntries newton3 t.1.1 t.2.1 else []) =
      ((c08ParticlePairs cells c1 c2).map fun t => (t.1.1, t.2.1)).flatMap fun t =>
        if c08IsNeighbour pos own il t.1 t.2 then c08PairEntries newton3 t.1 t.2 else [] := by
    rw [List.flatMap_map]
  unfold c08CellEntries
  rw [hpairs]
  by_cases hc : c1 = c2
  · subst hc
    simp only [mkOp, if_true, CellFunctorCfg.op, CellFunctorCfg.cell, c08Functor]
    rw [g1.1, e1]
    by_cases hh : blk.cellCanContainHalo c1 = true
    · rw [if_pos ⟨hh, hh⟩, hh]
      simp
    · rw [if_neg (fun h => hh h.1), hcall, c08ParticlePairs_self]
      by_cases hz : cells.getD c1 [] = []
      · rw [hz]; simp [pairLoop]
      · rw [if_neg (by simpa using hz), if_neg (by simpa using hh)]
        exact List.Perm.refl _
  · have hne : ((c1 : Nat) : Int) ≠ (c2 : Int) := by omega
    simp only [mkOp, hne, if_false, CellFunctorCfg.op, CellFunctorCfg.cellPair, c08Functor, if_true]
    rw [g1.1, g2.1, e1, e2]
    by_cases hh : blk.cellCanContainHalo c1 = true ∧ blk.cellCanContainHalo c2 = true
    · rw [if_pos hh, hh.1, hh.2]
      simp
    · rw [if_neg hh, hcall, c08ParticlePairs_cross hc]
      by_cases hz : cells.getD c1 [] = [] ∨ cells.getD c2 [] = []
      · rw [if_pos (by simpa using hz)]
        rcases hz with hz | hz <;> rw [hz] <;> simp [crossLoop, untilBreak]
      · rw [if_neg (by simpa using hz), if_neg (by simpa using hh)]
        simp only [and_true]
        exact ((soaPair_both _ _).filter _).symm

theorem mem_c08CellEntries {blk : CellBlock} {c1 c2 : Nat} {e : P × P} (h : e ∈ c08CellEntries pos own il newton3 blk cells c1 c2) :
    (e.1 ∈ cells.getD c1 [] ∧ e.2 ∈ cells.getD c2 []) ∨ (e.1 ∈ cells.getD c2 [] ∧ e.2 ∈ cells.getD c1 []) := by
  unfold c08CellEntries at h
  split at h
  · cases h
  · obtain ⟨t, ht, h⟩ := List.mem_flatMap.1 h
    obtain ⟨g1, g2⟩ := mem_c08ParticlePairs ht
    have g1 := List.mem_of_getElem? g1
    have g2 := List.mem_of_getElem? g2
    split at h
    · unfold c08PairEntries at h
      rw [List.mem_cons] at h
      rcases h with rfl | h
      · exact .inl ⟨g1, g2⟩
      · split at h
        · cases h
        · rw [List.mem_singleton] at h; subst h; exact .inr ⟨g2, g1⟩
    · cases h

variable {bMin bMax : V3 Rat} {csf : Rat} {fac : Nat → Rat} {est : Nat → Nat}

/-- The lists of a base cell. -/
theorem c08List_entries (hbox : GoodBox bMin bMax il csf) (hs : SortedIn (CellBlock.rebuild id bMin bMax il csf) pos cells) {b : V3 Nat}
    (hb : b.x < (CellBlock.rebuild id bMin bMax il csf).dims.x - 1 ∧
      b.y < (CellBlock.rebuild id bMin bMax il csf).dims.y - 1 ∧ b.z < (CellBlock.rebuild id bMin bMax il csf).dims.z - 1) :
    (vlcEntries ((vlcBuildC08 pos own il newton3 (CellBlock.rebuild id bMin bMax il csf) cells fac est).getD
      (threeToOneD b (CellBlock.rebuild id bMin bMax il csf).dims) [])).Perm
    (c08Blocks.flatMap fun s => c08CellEntries pos own il newton3 (CellBlock.rebuild id bMin bMax il csf) cells
      (threeToOneD (cellPlus b s.1) (CellBlock.rebuild id bMin bMax il csf).dims)
      (threeToOneD (cellPlus b s.2) (CellBlock.rebuild id bMin bMax il csf).dims)) := by
  have hlen := hs.length
  have hd := hbox.dims_ge
  set blk := CellBlock.rebuild id bMin bMax il csf
  have hg : InGrid b blk.dims := ⟨by omega, by omega, by omega⟩
  have hlt : threeToOneD b blk.dims < cells.length := by rw [hlen]; exact flat_lt hg
  unfold vlcBuildC08
  rw [List.getD_eq_getElem?_getD, List.getElem?_map, List.getElem?_range hlt]
  simp only [Option.map_some, Option.getD_some]
  rw [oneToThreeD_threeToOneD hg, if_pos hb]
  refine (c08BuildBase_entries blk _ _).trans ?_
  have hp := c08BaseStep_perm (dims := blk.dims) (by omega) (by omega) (by omega) fac
  have e := hp.flatMap_right fun o : Int × Int => c08CellEntries pos own il newton3 blk cells (((threeToOneD b blk.dims : Nat) : Int) + o.1).toNat
    (((threeToOneD b blk.dims : Nat) : Int) + o.2).toNat
  rw [List.flatMap_map, List.flatMap_map] at e
  refine e.trans (List.Perm.of_eq ?_)
  apply List.flatMap_congr
  intro s _
  have key : ∀ u : V3 Nat, (((threeToOneD b blk.dims : Nat) : Int) + ((threeToOneD u blk.dims : Nat) : Int)).toNat = threeToOneD (cellPlus b u) blk.dims := by
    intro u; rw [flat_cellPlus]; omega
  rw [key, key]

/-- What the packages of `vlc_c08` do. -/
theorem c08Calls_perm (hbox : GoodBox bMin bMax il csf)
    (hcl : let cl := (CellBlock.rebuild id bMin bMax il csf).cellLength; il ≤ cl.x ∧ il ≤ cl.y ∧ il ≤ cl.z)
    (hs : SortedIn (CellBlock.rebuild id bMin bMax il csf) pos cells) (soa : Bool) :
    (vlcCalls soa newton3 (CellBlock.rebuild id bMin bMax il csf).dims cells.flatten cells
      (vlcBuildC08 pos own il newton3 (CellBlock.rebuild id bMin bMax il csf) cells fac est)
      (vlcC08Bases (CellBlock.rebuild id bMin bMax il csf).dims (CellBlock.rebuild id bMin bMax il csf).cellLength il)).Perm
    (((c08ListOps (CellBlock.rebuild id bMin bMax il csf).dims (CellBlock.rebuild id bMin bMax il csf).cellLength
      (c08Bases (CellBlock.rebuild id bMin bMax il csf).dims ⟨1, 1, 1⟩).flatten).flatMap
        ((c08Functor pos il newton3).op (lcCells (CellBlock.rebuild id bMin bMax il csf) cells))).filter
      fun c => c08IsNeighbour pos own il c.p c.q) := by
  have hov := overlap_eq_one hbox hcl
  have hent := fun b hb => c08List_entries (own := own) (newton3 := newton3) (fac := fac) (est := est) hbox hs (b := b) hb
  have hlen := hs.length
  have hd := hbox.dims_ge
  have hB : ∀ b : V3 Nat, b ∈ (c08Bases (CellBlock.rebuild id bMin bMax il csf).dims ⟨1, 1, 1⟩).flatten →
      b.x < (CellBlock.rebuild id bMin bMax il csf).dims.x - 1 ∧
      b.y < (CellBlock.rebuild id bMin bMax il csf).dims.y - 1 ∧ b.z < (CellBlock.rebuild id bMin bMax il csf).dims.z - 1 :=
    fun b hb => c08Bases_mem.1 hb
  unfold vlcC08Bases
  rw [hov]
  set blk := CellBlock.rebuild id bMin bMax il csf
  generalize c08Bases blk.dims ⟨1, 1, 1⟩ = colours at hB ⊢
  generalize vlcBuildC08 pos own il newton3 blk cells fac est = lists at hent ⊢
  have hpack : ∀ b ∈ colours.flatten, (vlcPackage soa newton3 blk.dims cells.flatten cells lists [b]).Perm
      ((c08Blocks.flatMap fun s => (c08Functor pos il newton3).op (lcCells blk cells) (mkOp (threeToOneD (cellPlus b s.1) blk.dims)
        (threeToOneD (cellPlus b s.2) blk.dims) (cellDirection blk.cellLength (cellPlus b s.1) (cellPlus b s.2)))).filter
        fun c => c08IsNeighbour pos own il c.p c.q) := by
    intro b hb
    have hb' := hB b hb
    have hm : ∀ e ∈ vlcEntries (lists.getD (threeToOneD b blk.dims) []), e.1 ∈ cells.flatten ∧ e.2 ∈ cells.flatten := by
      intro e he
      obtain ⟨s, -, he⟩ := List.mem_flatMap.1 ((hent b hb').mem_iff.1 he)
      rcases mem_c08CellEntries he with ⟨h1, h2⟩ | ⟨h1, h2⟩ <;> exact ⟨mem_flatten_getD'.2 ⟨_, h1⟩, mem_flatten_getD'.2 ⟨_, h2⟩⟩
    have e0 : vlcPackage soa newton3 blk.dims cells.flatten cells lists [b] = vlcProcessAoS newton3 lists (threeToOneD b blk.dims) := by
      unfold vlcPackage
      simp only [List.flatMap_cons, List.flatMap_nil, List.append_nil]
      split
      · exact vlcProcessSoA_eq newton3 hm
      · rfl
    rw [e0, vlcProcessAoS_eq]
    refine ((hent b hb').map _).trans ?_
    rw [List.map_flatMap, List.filter_flatMap]
    refine List.Perm.flatMap_left _ ?_
    intro s hs'
    rw [mem_c08Blocks] at hs'
    refine c08CellEntries_calls blk ?_ ?_ _
    · rw [hlen]; exact flat_lt ⟨by simp only [cellPlus]; omega, by simp only [cellPlus]; omega, by simp only [cellPlus]; omega⟩
    · rw [hlen]; exact flat_lt ⟨by simp only [cellPlus]; omega, by simp only [cellPlus]; omega, by simp only [cellPlus]; omega⟩
  unfold vlcCalls
  have e1 : (colours.map fun colour => colour.map fun b => [b]).flatten = colours.flatten.map fun b => [b] := by
    rw [List.map_flatten]
  rw [e1, List.flatMap_map]
  refine (List.Perm.flatMap_left _ hpack).trans (List.Perm.of_eq ?_)
  unfold c08ListOps basePairs
  rw [List.map_flatMap, List.flatMap_assoc, List.filter_flatMap]
  apply List.flatMap_congr
  intro b _
  rw [List.map_map, List.flatMap_map]
  rfl

end

end Verif
