import Verif.Model.PairLoops
import Verif.Lemmas.LJComplete
/-! The functions of a functor that only adds to its particles, as sums over directed interactions. -/
namespace Verif
open Spec

/-- The functor `F` adds `G i j` to particle `i` for its interaction with `j`, on particles with the property `Good`. The sums are taken in
`N`; `φ` gives the attributes. -/
structure PairFunctor.Adds {A M N : Type} [AddCommMonoid N] (F : PairFunctor A M) (Good : A → Prop) (φ : N → M) (G : A → A → N) : Prop where
  add : ∀ a b, F.add (φ a) (φ b) = φ (a + b)
  zero : F.zero = φ 0
  aos : ∀ i j, Good i → Good j → match F.aos i j with
    | none => G i j = 0 ∧ G j i = 0
    | some m => m = (φ (G i j), φ (G j i))
  soa : ∀ i j, Good i → Good j → F.own i ≠ .dummy → match F.soa i j with
    | none => G i j = 0 ∧ G j i = 0
    | some m => m = (φ (G i j), φ (G j i))
  dummy : ∀ i j, Good i → Good j → F.own i = .dummy → G i j = 0 ∧ G j i = 0

section
variable {A M N : Type} [AddCommMonoid N] {F : PairFunctor A M} {Good : A → Prop} {φ : N → M} {G : A → A → N}

/-- One directed interaction. -/
def gEvent {P : Type} [DecidableEq P] (G : A → A → N) (attr : P → A) (e : P × P) : P → N := Pi.single e.1 (G (attr e.1) (attr e.2))

private theorem upd {P : Type} [DecidableEq P] (f : P → N) (p : P) (x : N) : Function.update f p (f p + x) = f + Pi.single p x := by
  funext q
  by_cases h : q = p
  · subst h; simp
  · simp [h]

theorem gAoS_eq {P : Type} [DecidableEq P] (H : F.Adds Good φ G) {attr : P → A} (hg : ∀ p, Good (attr p)) (t : P → N) (call : PairCall P) :
    F.aosCall attr (φ ∘ t) call = φ ∘ (t + ((contributions [call]).map (gEvent G attr)).sum) := by
  have h := H.aos _ _ (hg call.p) (hg call.q)
  unfold PairFunctor.aosCall
  cases hm : F.aos (attr call.p) (attr call.q) with
  | none =>
    rw [hm] at h
    simp only
    congr 1
    unfold contributions gEvent
    cases hn : call.newton3 <;> simp [h.1, h.2, hn]
  | some m =>
    rw [hm] at h
    simp only at h
    subst h
    simp only [Function.comp_apply]
    rw [H.add, ← Function.comp_update, upd]
    unfold contributions gEvent
    cases hn : call.newton3
    · simp [hn]
    · simp only [if_true, Function.comp_apply, H.add]
      rw [← Function.comp_update, upd]
      simp [hn, add_assoc]

/-- What the loop over the neighbours `js` adds. -/
theorem gInner_fold (H : F.Adds Good φ G) (write : Bool) {i : A} {attr : Nat → A} (hi : F.own i ≠ .dummy) (gi : Good i)
    (hg : ∀ k, Good (attr k)) (js : List Nat) : ∀ (t : Nat → N) (x : N),
    js.foldl (F.inner write i attr) (φ ∘ t, φ x) =
      (φ ∘ (t + (js.map fun j => if write then (Pi.single j (G (attr j) i) : Nat → N) else 0).sum), φ (x + (js.map fun j => G i (attr j)).sum)) := by
  induction js with
  | nil => intro t x; simp
  | cons j js ih =>
    intro t x
    have h := H.soa _ _ gi (hg j) hi
    have step : F.inner write i attr (φ ∘ t, φ x) j =
        (φ ∘ (t + if write then (Pi.single j (G (attr j) i) : Nat → N) else 0), φ (x + G i (attr j))) := by
      unfold PairFunctor.inner
      cases hm : F.soa i (attr j) with
      | none =>
        rw [hm] at h
        simp [h.1, h.2]
      | some m =>
        rw [hm] at h
        simp only at h
        subst h
        simp only [H.add, Function.comp_apply]
        cases write
        · simp
        · simp only [if_true]
          rw [← Function.comp_update, upd]
    rw [List.foldl_cons, step, ih]
    simp only [List.map_cons, List.sum_cons, add_assoc]

theorem gPairEvents_sum {attr : Nat → A} (i : Nat) (js : List Nat) :
    ((bothWays i js).map (gEvent G attr)).sum =
      (js.map fun j => (Pi.single j (G (attr j) (attr i)) : Nat → N)).sum + Pi.single i (js.map fun j => G (attr i) (attr j)).sum := by
  induction js with
  | nil => simp [bothWays]
  | cons j js ih =>
    have e : bothWays i (j :: js) = (i, j) :: (j, i) :: bothWays i js := rfl
    rw [e, List.map_cons, List.map_cons, List.sum_cons, List.sum_cons, ih]
    simp only [gEvent, List.map_cons, List.sum_cons, Pi.single_add]
    abel

theorem gSingleOuter_eq (H : F.Adds Good φ G) {attr : Nat → A} (hg : ∀ k, Good (attr k)) (n i : Nat) (t : Nat → N) :
    F.singleOuter attr n (φ ∘ t) i = φ ∘ (t + ((bothWays i (List.range' (i + 1) (n - (i + 1)))).map (gEvent G attr)).sum) := by
  unfold PairFunctor.singleOuter
  rw [gPairEvents_sum]
  by_cases hi : F.own (attr i) = .dummy
  · rw [if_pos hi]
    have z1 : ∀ j, G (attr i) (attr j) = 0 := fun j => (H.dummy _ _ (hg i) (hg j) hi).1
    have z2 : ∀ j, G (attr j) (attr i) = 0 := fun j => (H.dummy _ _ (hg i) (hg j) hi).2
    simp [z1, z2]
  · rw [if_neg hi, H.zero, gInner_fold H true hi (hg i) hg]
    simp only [if_true, Function.comp_apply, H.add, zero_add]
    rw [← Function.comp_update, upd, add_assoc]

theorem gSingle_eq (H : F.Adds Good φ G) {attr : Nat → A} (hg : ∀ k, Good (attr k)) (n : Nat) (t : Nat → N) :
    F.soaSingle attr n (φ ∘ t) = φ ∘ (t + ((allBothWays n).map (gEvent G attr)).sum) := by
  unfold PairFunctor.soaSingle
  by_cases h0 : n = 0
  · subst h0; rw [if_pos rfl]; simp [allBothWays]
  · rw [if_neg h0]
    unfold allBothWays
    generalize List.range n = is
    clear h0
    induction is generalizing t with
    | nil => simp
    | cons i is ih =>
      rw [List.foldl_cons, gSingleOuter_eq H hg, ih, List.flatMap_cons, List.map_append, List.sum_append, add_assoc]

theorem gPairOuter_eq (H : F.Adds Good φ G) (newton3 : Bool) {attr₁ attr₂ : Nat → A} (hg₁ : ∀ k, Good (attr₁ k)) (hg₂ : ∀ k, Good (attr₂ k))
    (n₂ i : Nat) (t₁ t₂ : Nat → N) :
    F.pairOuter newton3 attr₁ attr₂ n₂ (φ ∘ t₁, φ ∘ t₂) i =
      (φ ∘ (t₁ + Pi.single i ((List.range n₂).map fun j => G (attr₁ i) (attr₂ j)).sum),
        φ ∘ (t₂ + ((List.range n₂).map fun j => if newton3 then (Pi.single j (G (attr₂ j) (attr₁ i)) : Nat → N) else 0).sum)) := by
  unfold PairFunctor.pairOuter
  by_cases hi : F.own (attr₁ i) = .dummy
  · rw [if_pos hi]
    have z1 : ∀ j, G (attr₁ i) (attr₂ j) = 0 := fun j => (H.dummy _ _ (hg₁ i) (hg₂ j) hi).1
    have z2 : ∀ j, G (attr₂ j) (attr₁ i) = 0 := fun j => (H.dummy _ _ (hg₁ i) (hg₂ j) hi).2
    simp [z1, z2]
  · rw [if_neg hi, H.zero, gInner_fold H newton3 hi (hg₁ i) hg₂]
    simp only [Function.comp_apply, H.add, zero_add]
    rw [← Function.comp_update, upd]

theorem gPair_fold (H : F.Adds Good φ G) (newton3 : Bool) {attr₁ attr₂ : Nat → A} (hg₁ : ∀ k, Good (attr₁ k)) (hg₂ : ∀ k, Good (attr₂ k))
    (n₂ : Nat) (is : List Nat) : ∀ t₁ t₂ : Nat → N,
    is.foldl (F.pairOuter newton3 attr₁ attr₂ n₂) (φ ∘ t₁, φ ∘ t₂) =
      (φ ∘ (t₁ + ((crossIndices is (List.range n₂)).map fun e => (Pi.single e.1 (G (attr₁ e.1) (attr₂ e.2)) : Nat → N)).sum),
        φ ∘ (t₂ + ((crossIndices is (List.range n₂)).map fun e =>
          if newton3 then (Pi.single e.2 (G (attr₂ e.2) (attr₁ e.1)) : Nat → N) else 0).sum)) := by
  induction is with
  | nil => intro t₁ t₂; simp [crossIndices]
  | cons i is ih =>
    intro t₁ t₂
    have e : crossIndices (i :: is) (List.range n₂) = ((List.range n₂).map fun j => (i, j)) ++ crossIndices is (List.range n₂) := rfl
    rw [List.foldl_cons, gPairOuter_eq H newton3 hg₁ hg₂, ih, e]
    simp only [List.map_append, List.sum_append, List.map_map, Function.comp_def, add_assoc]
    rw [single_sum]

theorem gVerletEvents_sum (newton3 : Bool) {attr : Nat → A} (i : Nat) (js : List Nat) :
    ((contributions (js.map fun j => (⟨i, j, newton3⟩ : PairCall Nat))).map (gEvent G attr)).sum =
      (js.map fun j => if newton3 then (Pi.single j (G (attr j) (attr i)) : Nat → N) else 0).sum +
        Pi.single i (js.map fun j => G (attr i) (attr j)).sum := by
  induction js with
  | nil => simp [contributions]
  | cons j js ih =>
    rw [List.map_cons, contributions_cons, List.map_append, List.sum_append, ih]
    cases newton3
    · simp only [contributions, gEvent, List.flatMap_cons, List.flatMap_nil, List.map_cons, List.map_nil, List.sum_cons, List.sum_nil,
        Bool.false_eq_true, if_false, add_zero, List.append_nil, Pi.single_add]
      abel
    · simp only [contributions, gEvent, List.flatMap_cons, List.flatMap_nil, List.map_cons, List.map_nil, List.sum_cons, List.sum_nil,
        if_true, add_zero, List.append_nil, Pi.single_add]
      abel

theorem gVerlet_eq (H : F.Adds Good φ G) (newton3 : Bool) {attr : Nat → A} (hg : ∀ k, Good (attr k)) {n first : Nat} (hn : first < n)
    (list : List Nat) (t : Nat → N) :
    F.soaVerlet newton3 attr n first list (φ ∘ t) =
      φ ∘ (t + ((contributions (list.map fun j => (⟨first, j, newton3⟩ : PairCall Nat))).map (gEvent G attr)).sum) := by
  unfold PairFunctor.soaVerlet
  rw [gVerletEvents_sum, if_neg (by omega)]
  by_cases hi : F.own (attr first) = .dummy
  · rw [if_pos hi]
    have z1 : ∀ j, G (attr first) (attr j) = 0 := fun j => (H.dummy _ _ (hg first) (hg j) hi).1
    have z2 : ∀ j, G (attr j) (attr first) = 0 := fun j => (H.dummy _ _ (hg first) (hg j) hi).2
    simp [z1, z2]
  · rw [if_neg hi, H.zero, gInner_fold H newton3 hi (hg first) hg]
    simp only [Function.comp_apply, H.add, zero_add]
    rw [← Function.comp_update, upd, add_assoc]

end

section
variable {A M N P : Type} [AddCommMonoid N] [DecidableEq P] [Inhabited P]
variable {F : PairFunctor A M} {Good : A → Prop} {φ : N → M} {G : A → A → N}

omit [AddCommMonoid N] in
theorem gExtract_comp (l : List P) (a : Nat → N) (f : P → N) (φ : N → M) : soaExtractAt l (φ ∘ a) (φ ∘ f) = φ ∘ soaExtractAt l a f := by
  funext p
  unfold soaExtractAt
  simp only [Function.comp_apply]
  split <;> rfl

omit [AddCommMonoid N] in
theorem gExtract_load (l : List P) (f : P → N) : soaExtractAt l (soaLoadAt l f) f = f := by
  funext p
  unfold soaExtractAt soaLoadAt
  by_cases h : p ∈ l
  · rw [if_pos h, List.getD_eq_getElem _ _ (List.idxOf_lt_length_of_mem h)]
    simp
  · rw [if_neg h]

omit [Inhabited P] in
theorem gExtract_single {l : List P} (hl : l.Nodup) (a : Nat → N) (f : P → N) {k : Nat} (hk : k < l.length) (x : N) :
    soaExtractAt l (a + Pi.single k x) f = soaExtractAt l a f + Pi.single l[k] x := by
  funext p
  unfold soaExtractAt
  simp only [Pi.add_apply]
  by_cases h : p ∈ l
  · rw [if_pos h, if_pos h]
    congr 1
    by_cases hp : p = l[k]
    · subst hp
      rw [hl.idxOf_getElem]
      simp
    · rw [Pi.single_eq_of_ne hp, Pi.single_eq_of_ne]
      intro hh
      apply hp
      subst hh
      simp
  · rw [if_neg h, if_neg h, Pi.single_eq_of_ne, add_zero]
    rintro rfl
    exact h (List.getElem_mem _)

theorem gExtract_sum {X : Type} {l : List P} (hl : l.Nodup) (ix : X → Nat) (v : X → N) (f : P → N) (es : List X) :
    ∀ a : Nat → N, (∀ e ∈ es, ix e < l.length) →
    soaExtractAt l (a + (es.map fun e => (Pi.single (ix e) (v e) : Nat → N)).sum) f =
      soaExtractAt l a f + (es.map fun e => (Pi.single (l.getD (ix e) default) (v e) : P → N)).sum := by
  induction es with
  | nil => intro a _; simp
  | cons e es ih =>
    intro a hk
    rw [List.map_cons, List.sum_cons, ← add_assoc, ih _ (fun x hx => hk x (List.mem_cons_of_mem _ hx)),
      gExtract_single hl _ _ (hk e List.mem_cons_self), List.map_cons, List.sum_cons, ← add_assoc,
      List.getD_eq_getElem _ _ (hk e List.mem_cons_self)]

theorem gEvent_transport {l : List P} (hl : l.Nodup) (attr : P → A) (t : P → N) (es : List (Nat × Nat))
    (hes : ∀ e ∈ es, e.1 < l.length ∧ e.2 < l.length) :
    soaExtractAt l (soaLoadAt l t + (es.map (gEvent G (soaLoadAt l attr))).sum) t =
      t + ((es.map fun e => (l.getD e.1 default, l.getD e.2 default)).map (gEvent G attr)).sum := by
  unfold gEvent
  rw [gExtract_sum hl (fun e : Nat × Nat => e.1) _ t es _ (fun e he => (hes e he).1), gExtract_load, List.map_map]
  rfl

omit [AddCommMonoid N] in
theorem gLoad_disjoint {l₁ l₂ : List P} (hdis : ∀ p ∈ l₁, p ∉ l₂) (a : Nat → N) (f : P → N) (k : Nat) (hk : k < l₂.length) :
    soaLoadAt l₂ (soaExtractAt l₁ a f) k = soaLoadAt l₂ f k := by
  unfold soaLoadAt soaExtractAt
  rw [List.getD_eq_getElem _ _ hk, if_neg (fun hp => hdis _ hp (List.getElem_mem _))]

omit [AddCommMonoid N] [Inhabited P] in
theorem gExtract_congr (l : List P) {a b : Nat → N} (f : P → N) (h : ∀ k, k < l.length → a k = b k) : soaExtractAt l a f = soaExtractAt l b f := by
  funext p
  unfold soaExtractAt
  by_cases hp : p ∈ l
  · rw [if_pos hp, if_pos hp, h _ (List.idxOf_lt_length_of_mem hp)]
  · rw [if_neg hp, if_neg hp]

theorem gCrossEvents_sum (newton3 : Bool) (l₁ l₂ : List P) (attr : P → A) :
    ((contributions (soaPair newton3 l₁ l₂)).map (gEvent G attr)).sum =
    ((crossIndices (List.range l₁.length) (List.range l₂.length)).map fun e =>
        (Pi.single (l₁.getD e.1 default) (G (attr (l₁.getD e.1 default)) (attr (l₂.getD e.2 default))) : P → N)).sum +
      ((crossIndices (List.range l₁.length) (List.range l₂.length)).map fun e => if newton3 then
        (Pi.single (l₂.getD e.2 default) (G (attr (l₂.getD e.2 default)) (attr (l₁.getD e.1 default))) : P → N) else 0).sum := by
  unfold soaPair
  rw [crossLoop_getD l₁ l₂ default]
  generalize crossIndices (List.range l₁.length) (List.range l₂.length) = es
  induction es with
  | nil => simp [contributions]
  | cons e es ih =>
    rw [List.map_cons, List.map_cons, contributions_cons, List.map_append, List.sum_append, ih]
    cases newton3
    · simp only [contributions, gEvent, List.flatMap_cons, List.flatMap_nil, List.map_cons, List.map_nil, List.sum_cons, List.sum_nil,
        Bool.false_eq_true, if_false, add_zero, List.append_nil]
      abel
    · simp only [contributions, gEvent, List.flatMap_cons, List.flatMap_nil, List.map_cons, List.map_nil, List.sum_cons, List.sum_nil,
        if_true, add_zero, List.append_nil]
      abel

/-- The two lists of a call of the pair function have no particle in common. -/
def KernelCall.Apart : KernelCall P → Prop
  | .pair _ l₁ l₂ => ∀ p ∈ l₁, p ∉ l₂
  | _ => True

/-- A call of any function of the functor adds the directed interactions it stands for. -/
theorem gKernelCall_eq (H : F.Adds Good φ G) {attr : P → A} (hg : ∀ p, Good (attr p)) (t : P → N) (k : KernelCall P) (hl : k.Lists)
    (ha : k.Apart) : F.kernelCall attr (φ ∘ t) k = φ ∘ (t + ((contributions k.calls).map (gEvent G attr)).sum) := by
  have hgl : ∀ (l : List P) k, Good (soaLoadAt l attr k) := fun l k => hg _
  have hll : ∀ l : List P, soaLoadAt l (φ ∘ t) = φ ∘ soaLoadAt l t := fun l => rfl
  cases k with
  | aos call => exact gAoS_eq H hg t call
  | single newton3 l =>
    have hl : l.Nodup := hl
    change soaExtractAt l (F.soaSingle (soaLoadAt l attr) l.length (soaLoadAt l (φ ∘ t))) (φ ∘ t) = φ ∘ (t + ((contributions (soaSingle newton3 l)).map _).sum)
    rw [hll, gSingle_eq H (hgl l), gExtract_comp, gEvent_transport hl _ _ _ (fun e he => mem_allBothWays he), contributions_soaSingle newton3 l default]
  | pair newton3 l₁ l₂ =>
    obtain ⟨hl₁, hl₂⟩ : l₁.Nodup ∧ l₂.Nodup := hl
    have hdis : ∀ p ∈ l₁, p ∉ l₂ := ha
    change (let r := F.soaPair newton3 (soaLoadAt l₁ attr) (soaLoadAt l₂ attr) l₁.length l₂.length (soaLoadAt l₁ (φ ∘ t), soaLoadAt l₂ (φ ∘ t));
      soaExtractAt l₂ r.2 (soaExtractAt l₁ r.1 (φ ∘ t))) = φ ∘ (t + ((contributions (soaPair newton3 l₁ l₂)).map _).sum)
    have key : F.soaPair newton3 (soaLoadAt l₁ attr) (soaLoadAt l₂ attr) l₁.length l₂.length (φ ∘ soaLoadAt l₁ t, φ ∘ soaLoadAt l₂ t) =
        (φ ∘ (soaLoadAt l₁ t + ((crossIndices (List.range l₁.length) (List.range l₂.length)).map fun e =>
          (Pi.single e.1 (G (soaLoadAt l₁ attr e.1) (soaLoadAt l₂ attr e.2)) : Nat → N)).sum),
        φ ∘ (soaLoadAt l₂ t + ((crossIndices (List.range l₁.length) (List.range l₂.length)).map fun e =>
          if newton3 then (Pi.single e.2 (G (soaLoadAt l₂ attr e.2) (soaLoadAt l₁ attr e.1)) : Nat → N) else 0).sum)) := by
      unfold PairFunctor.soaPair
      by_cases h0 : l₁.length = 0 ∨ l₂.length = 0
      · rw [if_pos h0]
        have : crossIndices (List.range l₁.length) (List.range l₂.length) = [] := by
          unfold crossIndices
          rcases h0 with h0 | h0 <;> simp [h0]
        rw [this]
        simp
      · rw [if_neg h0, gPair_fold H newton3 (hgl l₁) (hgl l₂)]
    have mem : ∀ e ∈ crossIndices (List.range l₁.length) (List.range l₂.length), e.1 < l₁.length ∧ e.2 < l₂.length := by
      intro e he
      unfold crossIndices at he
      obtain ⟨i, hi, he⟩ := List.mem_flatMap.1 he
      obtain ⟨j, hj, rfl⟩ := List.mem_map.1 he
      exact ⟨List.mem_range.1 hi, List.mem_range.1 hj⟩
    rw [hll, hll, key]
    simp only
    rw [gExtract_comp, gExtract_comp]
    congr 1
    rw [gCrossEvents_sum]
    have k1 := gExtract_sum hl₁ (fun e : Nat × Nat => e.1) (fun e => G (soaLoadAt l₁ attr e.1) (soaLoadAt l₂ attr e.2)) t
      (crossIndices (List.range l₁.length) (List.range l₂.length)) (soaLoadAt l₁ t) (fun e he => (mem e he).1)
    rw [gExtract_load] at k1
    set t1 := soaExtractAt l₁ (soaLoadAt l₁ t + ((crossIndices (List.range l₁.length) (List.range l₂.length)).map fun e =>
          (Pi.single e.1 (G (soaLoadAt l₁ attr e.1) (soaLoadAt l₂ attr e.2)) : Nat → N)).sum) t with ht1
    have hload : ∀ k, k < l₂.length → soaLoadAt l₂ t k = soaLoadAt l₂ t1 k := fun k hk => (gLoad_disjoint hdis _ _ k hk).symm
    cases newton3
    · simp only [Bool.false_eq_true, if_false, List.map_const', List.sum_replicate, nsmul_zero, add_zero]
      rw [gExtract_congr l₂ t1 hload, gExtract_load, k1]
      rfl
    · simp only [if_true]
      rw [gExtract_sum hl₂ (fun e : Nat × Nat => e.2) (fun e => G (soaLoadAt l₂ attr e.2) (soaLoadAt l₁ attr e.1)) t1
        (crossIndices (List.range l₁.length) (List.range l₂.length)) (soaLoadAt l₂ t) (fun e he => (mem e he).2),
        gExtract_congr l₂ t1 hload, gExtract_load, k1, add_assoc]
      rfl
  | verlet newton3 l first list =>
    obtain ⟨h1, h2, h3⟩ : l.Nodup ∧ first < l.length ∧ ∀ j ∈ list, j < l.length := hl
    change soaExtractAt l (F.soaVerlet newton3 (soaLoadAt l attr) l.length first list (soaLoadAt l (φ ∘ t))) (φ ∘ t) =
      φ ∘ (t + ((contributions (list.map fun j => (⟨l.getD first default, l.getD j default, newton3⟩ : PairCall P))).map _).sum)
    have e : contributions (list.map fun j => (⟨l.getD first default, l.getD j default, newton3⟩ : PairCall P)) =
        (contributions (list.map fun j => (⟨first, j, newton3⟩ : PairCall Nat))).map fun e => (l.getD e.1 default, l.getD e.2 default) := by
      unfold contributions
      simp only [List.flatMap_map, List.map_flatMap]
      refine congrArg List.flatten (List.map_congr_left ?_)
      intro j _
      cases newton3 <;> rfl
    rw [hll, gVerlet_eq H newton3 (hgl l) h2, gExtract_comp, gEvent_transport h1, e]
    intro e he
    unfold contributions at he
    simp only [List.flatMap_map] at he
    obtain ⟨j, hm, he⟩ := List.mem_flatMap.1 he
    have := h3 j hm
    cases newton3
    · simp only [Bool.false_eq_true, if_false, List.mem_cons, List.not_mem_nil, or_false] at he
      subst he; exact ⟨h2, this⟩
    · simp only [if_true, List.mem_cons, List.not_mem_nil, or_false] at he
      rcases he with rfl | rfl
      · exact ⟨h2, this⟩
      · exact ⟨this, h2⟩

theorem gCompute_eq (H : F.Adds Good φ G) {attr : P → A} (hg : ∀ p, Good (attr p)) (jobs : List (KernelCall P))
    (hj : ∀ k ∈ jobs, k.Lists ∧ k.Apart) : ∀ t : P → N,
    F.compute attr (φ ∘ t) jobs = φ ∘ (t + ((contributions (jobs.flatMap KernelCall.calls)).map (gEvent G attr)).sum) := by
  unfold PairFunctor.compute
  induction jobs with
  | nil => intro t; simp [contributions]
  | cons k jobs ih =>
    intro t
    obtain ⟨h1, h2⟩ := hj k List.mem_cons_self
    rw [List.foldl_cons, gKernelCall_eq H hg t k h1 h2, ih (fun x hx => hj x (List.mem_cons_of_mem _ hx)), List.flatMap_cons,
      contributions_append, List.map_append, List.sum_append, add_assoc]

omit [Inhabited P] in
/-- What one particle gets. -/
theorem gEvents_at (attr : P → A) (es : List (P × P)) (a : P) :
    ((es.map (gEvent G attr)).sum) a = ((es.filter fun e => e.1 = a).map fun e => G (attr a) (attr e.2)).sum := by
  induction es with
  | nil => simp
  | cons e es ih =>
    rw [List.map_cons, List.sum_cons, Pi.add_apply, ih]
    unfold gEvent
    by_cases h : e.1 = a
    · rw [List.filter_cons_of_pos (by simpa using h), List.map_cons, List.sum_cons]
      subst h
      simp
    · rw [List.filter_cons_of_neg (by simpa using h), Pi.single_eq_of_ne (fun h' => h h'.symm), zero_add]

end

/-- A functor that only adds, in `computeInteractions` of a state: every owned particle gets the values of all other particles. The order of
the calls does not matter. -/
theorem gCompute_complete {A M N : Type} [AddCommMonoid N] {F : PairFunctor A M} {Good : A → Prop} {φ : N → M} {G : A → A → N}
    (HA : F.Adds Good φ G) {c : LHParams} {s : LHState} {t : LCTraversal} {f : CellFunctorCfg Slot}
    (H : CompleteCalls Slot.pos Slot.own c.cutoff s.slots (s.interactions c t f)) (hn : s.slots.Nodup)
    {attr : Slot → A} (hg : ∀ p, Good (attr p)) {jobs : List (KernelCall Slot)} (hp : jobs.Perm (s.kernels c t f)) (v : Slot → N)
    (hz : ∀ a ∈ s.slots, ∀ b ∈ s.slots, a ≠ b → (b.own = .dummy ∨ c.cutoff * c.cutoff ≤ distSq a.pos b.pos) → G (attr a) (attr b) = 0)
    (a : Slot) (ha : a ∈ s.slots) (hao : a.own = .owned) :
    F.compute attr (φ ∘ v) jobs a = φ (v a + ((s.slots.filter fun b => b ≠ a).map fun b => G (attr a) (attr b)).sum) := by
  have hc : (contributions (jobs.flatMap KernelCall.calls)).Perm (contributions (s.interactions c t f)) := by
    rw [← kernels_calls]
    unfold contributions
    exact (hp.flatMap_right _).flatMap_right _
  rw [gCompute_eq HA hg]
  · rw [Function.comp_apply, Pi.add_apply]
    congr 2
    rw [gEvents_at, ← H.sum_at hn (fun a b => G (attr a) (attr b)) hz a ha hao]
    refine (List.Perm.map _ (hc.filter _)).sum_eq
  · intro k hk
    refine ⟨kernels_lists c s t f k (hp.mem_iff.1 hk), ?_⟩
    cases k with
    | pair newton3 l₁ l₂ =>
      intro p h1 h2
      have : (p, p) ∈ contributions (jobs.flatMap KernelCall.calls) := by
        unfold contributions
        refine List.mem_flatMap.2 ⟨⟨p, p, newton3⟩, List.mem_flatMap.2 ⟨_, hk, ?_⟩, List.mem_cons_self⟩
        exact mem_soaPair h1 h2
      exact (H.mem p p (mem_contributions.2 (hc.mem_iff.1 this))).2.2 rfl
    | _ => trivial

end Verif
