import Verif.Lemmas.LCC04Setup
/-! Which cells a row of `lc_c04_combined_SoA` reads and writes. -/
namespace Verif
open Spec

section
variable {P M : Type}

/-- The two states are the same, apart from the cells outside `S`. -/
structure SameOn (S : Nat → Prop) (st st' : C04State P M) : Prop where
  cell : ∀ i, S i → st.mem (.cell i) = st'.mem (.cell i)
  slot : ∀ s, st.mem (.slot s) = st'.mem (.slot s)
  offsets : st.offsets = st'.offsets
  current : st.current = st'.current

/-- A step that writes no cell outside `S`, and whose result does not depend on what is in these cells. -/
structure OnlyOn (S : Nat → Prop) (op : C04State P M → C04State P M) : Prop where
  writes : ∀ st i, ¬ S i → (op st).mem (.cell i) = st.mem (.cell i)
  reads : ∀ st st', SameOn S st st' → SameOn S (op st) (op st')

variable {S : Nat → Prop}

theorem OnlyOn.comp {g h : C04State P M → C04State P M} (hg : OnlyOn S g) (hh : OnlyOn S h) : OnlyOn S (fun st => h (g st)) :=
  ⟨fun st i hi => (hh.writes _ i hi).trans (hg.writes st i hi), fun st st' hs => hh.reads _ _ (hg.reads st st' hs)⟩

theorem OnlyOn.id : OnlyOn S (fun st : C04State P M => st) := ⟨fun _ _ _ => rfl, fun _ _ h => h⟩

theorem OnlyOn.foldl {X : Type} {g : C04State P M → X → C04State P M} (L : List X) (hg : ∀ x ∈ L, OnlyOn S (fun st => g st x)) :
    OnlyOn S (fun st => L.foldl g st) := by
  induction L with
  | nil => exact OnlyOn.id
  | cons x L ih => exact (hg x (by simp)).comp (ih fun y hy => hg y (by simp [hy]))

/-- A step that depends on some datum of the state. -/
theorem OnlyOn.dep {X : Type} (read : C04State P M → X) {g : X → C04State P M → C04State P M} (hr : ∀ st st', SameOn S st st' → read st = read st')
    (hg : ∀ x, OnlyOn S (g x)) : OnlyOn S (fun st => g (read st) st) :=
  ⟨fun st i hi => (hg _).writes st i hi, fun st st' hs => by rw [hr st st' hs]; exact (hg _).reads st st' hs⟩

/-- A ref that may be used. -/
def InS (S : Nat → Prop) : C04Ref → Prop
  | .cell i => S i
  | .slot _ => True

theorem SameOn.mem {st st' : C04State P M} (h : SameOn S st st') {r : C04Ref} (hr : InS S r) : st.mem r = st'.mem r := by
  cases r with
  | cell i => exact h.cell i hr
  | slot s => exact h.slot s

theorem onlyOn_update {r : C04Ref} (hr : InS S r) (g : C04State P M → List (P × M)) (hg : ∀ st st', SameOn S st st' → g st = g st') :
    OnlyOn S (fun st => { st with mem := Function.update st.mem r (g st) }) := by
  constructor
  · intro st i hi
    exact Function.update_of_ne (by rintro rfl; exact hi hr) ..
  · intro st st' hs
    refine ⟨fun i hi => ?_, fun s => ?_, hs.offsets, hs.current⟩
    · simp only
      by_cases h : C04Ref.cell i = r
      · rw [h, Function.update_self, Function.update_self, hg st st' hs]
      · rw [Function.update_of_ne h, Function.update_of_ne h, hs.cell i hi]
    · simp only
      by_cases h : C04Ref.slot s = r
      · rw [h, Function.update_self, Function.update_self, hg st st' hs]
      · rw [Function.update_of_ne h, Function.update_of_ne h, hs.slot s]

variable [AddCommMonoid M]

theorem onlyOn_add {v : C04View} (hv : InS S v.ref) (g : P → M) : OnlyOn S (fun st => st.add v g) :=
  onlyOn_update hv _ fun st st' hs => by rw [hs.mem hv]

variable [DecidableEq P]

omit [AddCommMonoid M] [DecidableEq P] in
theorem read_same {v : C04View} (hv : InS S v.ref) (st st' : C04State P M) (hs : SameOn S st st') : st.read v = st'.read v := by
  unfold C04State.read; rw [hs.mem hv]

theorem onlyOn_single (F : P → P → M) (n3 : Bool) {v : C04View} (hv : InS S v.ref) : OnlyOn S (fun st => st.single F n3 v) :=
  OnlyOn.dep (fun st => st.read v) (read_same hv) fun x => onlyOn_add hv (accumulated F (soaSingle n3 x))

theorem onlyOn_pair (F : P → P → M) (n3 : Bool) {v w : C04View} (hv : InS S v.ref) (hw : InS S w.ref) :
    OnlyOn S (fun st => st.pair F n3 v w) := by
  refine OnlyOn.dep (g := fun x st => if n3 then (st.add v (accumulated F (soaPair n3 x.1 x.2))).add w (accumulated F (soaPair n3 x.1 x.2))
    else st.add v (accumulated F (soaPair n3 x.1 x.2))) (fun st => (st.read v, st.read w))
    (fun st st' hs => by rw [read_same hv st st' hs, read_same hw st st' hs]) fun x => ?_
  cases n3
  · exact onlyOn_add hv _
  · exact (onlyOn_add hv _).comp (onlyOn_add hw _)

theorem onlyOn_both (F : P → P → M) (n3 : Bool) {v w : C04View} (hv : InS S v.ref) (hw : InS S w.ref) :
    OnlyOn S (fun st => st.both F n3 v w) := by
  unfold C04State.both
  cases n3
  · exact (onlyOn_pair F false hv hw).comp (onlyOn_pair F false hw hv)
  · exact onlyOn_pair F true hv hw

/-- The cells that the tables mention lie in `S`. -/
structure Covers (S : Nat → Prop) (t : C04Tables) (b : Nat) : Prop where
  base : ∀ l ∈ t.base, ∀ o ∈ l, S (b + o)
  pairs : ∀ l ∈ t.pairs, ∀ e ∈ l, S (b + e.1)

omit [AddCommMonoid M] [DecidableEq P] in
theorem onlyOn_load {t : C04Tables} {base : Nat} (ht : Covers S t base) (size : Nat → Nat) (s k : Nat) :
    OnlyOn (P := P) (M := M) S (fun st => C04State.load size t base st s k) := by
  have hin : ∀ i ∈ (t.base.getD k []).map (fun o => base + o), S i := by
    intro i hi
    obtain ⟨o, ho, rfl⟩ := List.mem_map.1 hi
    have hk : t.base.getD k [] ∈ t.base := by
      rw [List.getD_eq_getElem?_getD] at ho ⊢
      cases h : t.base[k]? with
      | none => rw [h] at ho; cases ho
      | some l => exact List.mem_of_getElem? h
    exact ht.base _ hk o ho
  constructor
  · intro st i hi
    unfold C04State.load
    simp only
    rw [Function.update_of_ne (by simp)]
  · intro st st' hs
    unfold C04State.load
    refine ⟨fun i hi => ?_, fun s' => ?_, by simp only [hs.offsets], hs.current⟩
    · simp only
      rw [Function.update_of_ne (by simp), Function.update_of_ne (by simp), hs.cell i hi]
    · simp only
      by_cases h : s' = s
      · subst h
        rw [Function.update_self, Function.update_self]
        exact List.flatMap_congr fun i hi => hs.cell i (hin i hi)
      · rw [Function.update_of_ne (by simpa using h), Function.update_of_ne (by simpa using h), hs.slot s']

omit [AddCommMonoid M] [DecidableEq P] in
theorem onlyOn_store {t : C04Tables} {base : Nat} (ht : Covers S t base) (dummy : P × M) (s k : Nat) :
    OnlyOn (P := P) (M := M) S (fun st => C04State.store dummy t base st s k) := by
  unfold C04State.store
  refine OnlyOn.foldl _ fun i hi => ?_
  have hi : i < (t.base.getD k []).length := by simpa using hi
  have hcell : S (base + (t.base.getD k []).getD i 0) := by
    have hk : t.base.getD k [] ∈ t.base := by
      rw [List.getD_eq_getElem?_getD] at hi ⊢
      cases h : t.base[k]? with
      | none => rw [h] at hi; simp at hi
      | some l => exact List.mem_of_getElem? h
    refine ht.base _ hk _ ?_
    generalize t.base.getD k [] = l at hi
    rw [List.getD_eq_getElem?_getD, List.getElem?_eq_getElem hi]
    exact List.getElem_mem hi
  refine OnlyOn.dep (g := fun (x : Nat × Nat × List (P × M)) st => if x.1 = x.2.1 then st else
      let l := x.2.2.take x.2.1 ++ List.replicate (x.2.1 - x.2.2.length) dummy
      let c := C04Ref.cell (base + (t.base.getD k []).getD i 0)
      { st with mem := Function.update (Function.update st.mem (.slot s) l) c (l.drop x.1) })
    (fun st => ((st.offsets s).getD i 0, (st.offsets s).getD (i + 1) 0, st.mem (.slot s)))
    (fun st st' hs => by simp only [hs.offsets, hs.slot s]) fun x => ?_
  by_cases hx : x.1 = x.2.1
  · simp only [if_pos hx]; exact OnlyOn.id
  · simp only [if_neg hx]
    exact (onlyOn_update (r := .slot s) trivial (fun _ => x.2.2.take x.2.1 ++ List.replicate (x.2.1 - x.2.2.length) dummy) (fun _ _ _ => rfl)).comp
      (onlyOn_update (r := .cell _) hcell (fun _ => (x.2.2.take x.2.1 ++ List.replicate (x.2.1 - x.2.2.length) dummy).drop x.1) (fun _ _ _ => rfl))

theorem onlyOn_entry {t : C04Tables} {base : Nat} (F : P → P → M) (n3 : Bool) (size : Nat → Nat) (slice : Nat)
    {e : Nat × Nat × Nat} (he : S (base + e.1)) : OnlyOn S (fun st => C04State.entry F n3 size t base slice st e) := by
  refine OnlyOn.dep (g := fun (x : (Nat → List Nat) × Nat × (Nat → Nat) × Nat) st =>
    let numSlices := t.base.length
    let other : C04View := ⟨.slot slice, (x.1 slice).getD e.2.1 0, (x.1 slice).getD e.2.2 0⟩
    if e.1 = 0 then
      if size base = 0 then st
      else if slice = x.2.1 then
        let stripe : C04View := ⟨.slot x.2.1, 0, size base⟩
        (st.single F n3 stripe).both F n3 stripe ⟨.slot x.2.1, size base, x.2.2.1 x.2.1⟩
      else st.both F n3 ⟨.slot x.2.1, 0, size base⟩ other
    else if e.1 = (t.base.headD []).getLastD 0 then
      st.both F n3 ⟨.slot x.2.1, (x.1 x.2.1).getD ((x.1 x.2.1).length - 2) 0, x.2.2.1 x.2.1⟩ other
    else if e.1 = (t.base.getLastD []).headD 0 then
      let index := (x.2.1 + numSlices - 1) % numSlices
      if (x.1 index).getD 1 0 = 0 then st
      else st.both F n3 ⟨.slot index, 0, (x.1 index).getD 1 0⟩ other
    else st.both F n3 ⟨.cell (base + e.1), 0, x.2.2.2⟩ other)
    (fun st => (st.offsets, st.current, (fun s => (st.mem (.slot s)).length), (st.mem (.cell (base + e.1))).length))
    (fun st st' hs => by simp only [hs.offsets, hs.current, hs.slot, hs.cell _ he]) fun x => ?_
  simp only
  split
  · split
    · exact OnlyOn.id
    · split
      · exact OnlyOn.comp (onlyOn_single F n3 (v := ⟨.slot _, _, _⟩) trivial) (onlyOn_both F n3 (v := ⟨.slot _, _, _⟩) (w := ⟨.slot _, _, _⟩) trivial trivial)
      · exact onlyOn_both F n3 trivial trivial
  · split
    · exact onlyOn_both F n3 trivial trivial
    · split
      · split
        · exact OnlyOn.id
        · exact onlyOn_both F n3 trivial trivial
      · exact onlyOn_both F n3 he trivial

theorem onlyOn_slices {t : C04Tables} {base : Nat} (ht : Covers S t base) (F : P → P → M) (n3 : Bool) (size : Nat → Nat) :
    OnlyOn S (fun st => C04State.slices F n3 size t base st) := by
  refine OnlyOn.foldl _ fun slice _ => ?_
  refine OnlyOn.dep (g := fun c st => (t.pairs.getD ((slice + c) % t.base.length) []).foldl (C04State.entry F n3 size t base slice) st)
    (fun st => st.current) (fun st st' hs => hs.current) fun c => ?_
  refine OnlyOn.foldl _ fun e he => onlyOn_entry F n3 size slice ?_
  rw [List.getD_eq_getElem?_getD] at he
  cases h : t.pairs[(slice + c) % t.base.length]? with
  | none => rw [h] at he; cases he
  | some l => rw [h] at he; exact ht.pairs l (List.mem_of_getElem? h) e he

omit [AddCommMonoid M] [DecidableEq P] in
theorem onlyOn_current (g : Nat → Nat) : OnlyOn S (fun st : C04State P M => { st with current := g st.current }) :=
  ⟨fun _ _ _ => rfl, fun _ _ hs => ⟨hs.cell, hs.slot, hs.offsets, by simp only [hs.current]⟩⟩

theorem onlyOn_baseCell {t : C04Tables} {dims ov : V3 Nat} {x y z : Nat} (ht : Covers S t (threeToOneD ⟨x, y, z⟩ dims)) (dummy : P × M)
    (F : P → P → M) (n3 : Bool) (size : Nat → Nat) : OnlyOn S (fun st => C04State.baseCell dummy F n3 size t dims ov y z st x) := by
  simp only [baseCell_eq]
  have h0 : OnlyOn (P := P) (M := M) S (fun st => if x = 0 then (List.range t.base.length).foldl (fun st slice =>
        C04State.load size t (threeToOneD ⟨x, y, z⟩ dims) st slice slice) { st with current := 0 }
      else
        { C04State.load size t (threeToOneD ⟨x, y, z⟩ dims) st st.current (t.base.length - 1) with
          current := ((C04State.load size t (threeToOneD ⟨x, y, z⟩ dims) st st.current (t.base.length - 1)).current + 1) % t.base.length }) := by
    by_cases hx : x = 0
    · simp only [if_pos hx]
      exact (onlyOn_current (fun _ => 0)).comp (OnlyOn.foldl _ fun slice _ => onlyOn_load ht size slice slice)
    · simp only [if_neg hx]
      exact (OnlyOn.dep (g := fun c st => C04State.load size t (threeToOneD ⟨x, y, z⟩ dims) st c (t.base.length - 1)) (fun st => st.current)
        (fun _ _ hs => hs.current) fun c => onlyOn_load ht size c _).comp (onlyOn_current (fun c => (c + 1) % t.base.length))
  have h1 := h0.comp (onlyOn_slices ht F n3 size)
  have h2 := h1.comp (OnlyOn.dep (g := fun c st => C04State.store dummy t (threeToOneD ⟨x, y, z⟩ dims) st c 0) (fun st => st.current)
    (fun _ _ hs => hs.current) fun c => onlyOn_store ht dummy c 0)
  by_cases hx : x = dims.x - ov.x - 1
  · simp only [if_pos hx]
    exact h2.comp (OnlyOn.foldl _ fun slice _ => OnlyOn.dep (g := fun c st =>
      C04State.store dummy t (threeToOneD ⟨x, y, z⟩ dims) st ((c + slice) % t.base.length) slice) (fun st => st.current)
      (fun _ _ hs => hs.current) fun c => onlyOn_store ht dummy _ _)
  · simp only [if_neg hx]
    exact h2

end

end Verif
