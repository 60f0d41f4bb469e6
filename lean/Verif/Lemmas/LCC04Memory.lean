import Verif.Model.LCC04Combined
import Verif.Lemmas.LCC01RingCalls
/-!
The functor calls of `lc_c04_combined_SoA` on views of the buffers. `V r` says which particles the buffer `r` holds, if it counts at all: a
buffer of a cell that was copied into a combined buffer does not count until it is written back.
-/
namespace Verif
open Spec

section
variable {P M : Type} [DecidableEq P] [AddCommMonoid M]

theorem accumulated_append (F : P → P → M) (c d : List (PairCall P)) (p : P) :
    accumulated F (c ++ d) p = accumulated F c p + accumulated F d p := by
  unfold accumulated contributions
  rw [List.flatMap_append, List.filter_append, List.map_append, List.sum_append]

theorem accumulated_perm (F : P → P → M) {c d : List (PairCall P)} (h : c.Perm d) (p : P) : accumulated F c p = accumulated F d p := by
  unfold accumulated contributions
  exact (((h.flatMap_right _).filter _).map _).sum_eq

@[simp] theorem accumulated_nil (F : P → P → M) (p : P) : accumulated F [] p = 0 := rfl

theorem accumulated_flatMap_congr {X : Type} (F : P → P → M) {L : List X} {g h : X → List (PairCall P)} {p : P}
    (H : ∀ x ∈ L, accumulated F (g x) p = accumulated F (h x) p) : accumulated F (L.flatMap g) p = accumulated F (L.flatMap h) p := by
  induction L with
  | nil => rfl
  | cons x L ih =>
    rw [List.flatMap_cons, List.flatMap_cons, accumulated_append, accumulated_append, H x (by simp), ih fun y hy => H y (by simp [hy])]

/-- Who is not among the receivers gets nothing. -/
theorem accumulated_zero (F : P → P → M) {c : List (PairCall P)} {p : P} (h : ∀ t ∈ contributions c, t.1 ≠ p) : accumulated F c p = 0 := by
  unfold accumulated
  rw [List.filter_eq_nil_iff.2 (fun t ht => by simpa using h t ht)]
  rfl

theorem soaPair_receivers {n3 : Bool} {A B : List P} {t : P × P} (h : t ∈ contributions (soaPair n3 A B)) :
    t.1 ∈ A ∨ (n3 = true ∧ t.1 ∈ B) := by
  unfold contributions at h
  rw [soaPair_pairs] at h
  simp only [List.mem_flatMap, List.mem_map] at h
  obtain ⟨c, ⟨x, hx, y, hy, rfl⟩, hc⟩ := h
  rcases List.mem_cons.1 hc with rfl | hc
  · exact .inl hx
  · cases n3
    · simp at hc
    · simp only [if_true, List.mem_singleton] at hc
      subst hc
      exact .inr ⟨rfl, hy⟩

theorem pairLoop_mem {l : List P} {t : P × P} (h : t ∈ pairLoop (fun _ _ => false) l) : t.1 ∈ l ∧ t.2 ∈ l := by
  induction l with
  | nil => simp [pairLoop] at h
  | cons x l ih =>
    unfold pairLoop at h
    rw [untilBreak_false] at h
    rcases List.mem_append.1 h with h | h
    · obtain ⟨y, hy, rfl⟩ := List.mem_map.1 h
      simp [hy]
    · have := ih h
      simp [this.1, this.2]

theorem soaSingle_receivers {n3 : Bool} {A : List P} {t : P × P} (h : t ∈ contributions (soaSingle n3 A)) : t.1 ∈ A := by
  unfold contributions soaSingle at h
  simp only [List.mem_flatMap] at h
  obtain ⟨c, ⟨u, hu, hc⟩, ht⟩ := h
  have hm := pairLoop_mem hu
  unfold interactCross at hc
  cases n3 <;> simp at hc ht
  · rcases hc with rfl | rfl
    · simp at ht; subst ht; exact hm.1
    · simp at ht; subst ht; exact hm.2
  · subst hc
    simp at ht
    rcases ht with rfl | rfl
    · exact hm.1
    · exact hm.2

/-- Particles with what they have accumulated. -/
def tag (m : P → M) (l : List P) : List (P × M) := l.map fun p => (p, m p)

omit [DecidableEq P] [AddCommMonoid M] in
theorem tag_congr {m m' : P → M} {l : List P} (h : ∀ p ∈ l, m p = m' p) : tag m l = tag m' l :=
  List.map_congr_left fun p hp => by rw [h p hp]

omit [DecidableEq P] [AddCommMonoid M] in
theorem tag_append (m : P → M) (l l' : List P) : tag m (l ++ l') = tag m l ++ tag m l' := List.map_append

omit [DecidableEq P] [AddCommMonoid M] in
@[simp] theorem length_tag (m : P → M) (l : List P) : (tag m l).length = l.length := List.length_map ..

omit [DecidableEq P] [AddCommMonoid M] in
theorem tag_flatMap {X : Type} (m : P → M) (L : List X) (g : X → List P) : tag m (L.flatMap g) = L.flatMap fun x => tag m (g x) := by
  unfold tag; rw [List.map_flatMap]

/-- No particle is in two buffers that count, or twice in one. -/
structure Separate (V : C04Ref → Option (List P)) : Prop where
  nodup : ∀ r Z, V r = some Z → Z.Nodup
  disjoint : ∀ r r' Z Z' p, V r = some Z → V r' = some Z' → p ∈ Z → p ∈ Z' → r = r'

/-- The buffers that count hold the particles they should, with what `m` says they have accumulated. -/
def Holds (V : C04Ref → Option (List P)) (m : P → M) (mem : C04Ref → List (P × M)) : Prop := ∀ r Z, V r = some Z → mem r = tag m Z

/-- The view shows the particles `A`. -/
def Shows (V : C04Ref → Option (List P)) (v : C04View) (A : List P) : Prop :=
  ∃ X Y, V v.ref = some (X ++ A ++ Y) ∧ v.start = X.length ∧ v.stop = X.length + A.length

variable {V : C04Ref → Option (List P)} {m : P → M} {st : C04State P M}

omit [DecidableEq P] [AddCommMonoid M] in
theorem read_eq (H : Holds V m st.mem) {v : C04View} {A : List P} (hv : Shows V v A) : st.read v = A := by
  obtain ⟨X, Y, hV, h1, h2⟩ := hv
  unfold C04State.read
  rw [H _ _ hV, h1, h2, tag_append, tag_append, Nat.add_sub_cancel_left, List.append_assoc, List.drop_left' (by simp),
    List.take_left' (by simp)]
  unfold tag
  rw [List.map_map]
  exact List.map_id _

theorem holds_add (hs : Separate V) (H : Holds V m st.mem) {v : C04View} {A : List P} (hv : Shows V v A) (g : P → M) :
    Holds V (fun p => m p + if p ∈ A then g p else 0) (st.add v g).mem := by
  obtain ⟨X, Y, hV, h1, h2⟩ := hv
  intro r Z hZ
  unfold C04State.add
  by_cases hr : r = v.ref
  · subst hr
    rw [hV] at hZ
    obtain rfl := Option.some.inj hZ
    have hn := hs.nodup _ _ hV
    simp only [Function.update_self]
    rw [H _ _ hV, h1, h2, Nat.add_sub_cancel_left]
    have e1 : (tag m (X ++ A ++ Y)).take X.length = tag m X := by
      rw [tag_append m, tag_append m, List.append_assoc, List.take_left' (by simp)]
    have e2 : ((tag m (X ++ A ++ Y)).drop X.length).take A.length = tag m A := by
      rw [tag_append m, tag_append m, List.append_assoc, List.drop_left' (by simp), List.take_left' (by simp)]
    have e3 : (tag m (X ++ A ++ Y)).drop (X.length + A.length) = tag m Y := by
      rw [tag_append m, List.drop_left' (by simp)]
    rw [e1, e2, e3, tag_append, tag_append]
    rw [List.append_assoc, List.nodup_append] at hn
    obtain ⟨hnX, hn, hXA⟩ := hn
    rw [List.nodup_append] at hn
    congr 1
    · congr 1
      · refine tag_congr fun p hp => ?_
        rw [if_neg (fun ha => hXA p hp p (by simp [ha]) rfl), add_zero]
      · unfold tag
        rw [List.map_map]
        refine List.map_congr_left fun p hp => ?_
        simp only [Function.comp, if_pos hp]
    · refine tag_congr fun p hp => ?_
      rw [if_neg (fun ha => hn.2.2 p ha p hp rfl), add_zero]
  · simp only
    rw [Function.update_of_ne hr, H r Z hZ]
    refine tag_congr fun p hp => ?_
    rw [if_neg (fun ha => hr (hs.disjoint _ _ _ _ p hZ hV hp (by simp [ha]))), add_zero]

theorem holds_single (hs : Separate V) (H : Holds V m st.mem) {v : C04View} {A : List P} (hv : Shows V v A) (F : P → P → M) (n3 : Bool) :
    Holds V (fun p => m p + accumulated F (soaSingle n3 A) p) (st.single F n3 v).mem := by
  unfold C04State.single
  rw [read_eq H hv]
  have := holds_add hs H hv (accumulated F (soaSingle n3 A))
  refine cast (congrArg (fun x => Holds V x _) ?_) this
  funext p
  by_cases hp : p ∈ A
  · rw [if_pos hp]
  · rw [if_neg hp, accumulated_zero F (fun t ht e => hp (by rw [← e]; exact soaSingle_receivers ht))]

theorem holds_pair (hs : Separate V) (H : Holds V m st.mem) {v w : C04View} {A B : List P} (hv : Shows V v A) (hw : Shows V w B)
    (hd : ∀ p ∈ A, p ∉ B) (F : P → P → M) (n3 : Bool) :
    Holds V (fun p => m p + accumulated F (soaPair n3 A B) p) (st.pair F n3 v w).mem := by
  unfold C04State.pair
  rw [read_eq H hv, read_eq H hw]
  have h1 := holds_add hs H hv (accumulated F (soaPair n3 A B))
  cases n3
  · refine cast (congrArg (fun x => Holds V x _) ?_) h1
    funext p
    by_cases hp : p ∈ A
    · rw [if_pos hp]
    · rw [if_neg hp, accumulated_zero F (fun t ht e => ?_)]
      rcases soaPair_receivers ht with h | ⟨h, -⟩
      · exact hp (e ▸ h)
      · cases h
  · simp only [if_true]
    have h2 := holds_add hs h1 hw (accumulated F (soaPair true A B))
    refine cast (congrArg (fun x => Holds V x _) ?_) h2
    funext p
    by_cases hp : p ∈ A
    · rw [if_pos hp, if_neg (hd p hp), add_zero]
    · by_cases hq : p ∈ B
      · rw [if_neg hp, if_pos hq, add_zero]
      · rw [if_neg hp, if_neg hq, accumulated_zero F (fun t ht e => ?_)]
        · simp
        · rcases soaPair_receivers ht with h | ⟨-, h⟩
          · exact hp (e ▸ h)
          · exact hq (e ▸ h)

/-- The calls for two sets of particles, both directions without Newton 3. -/
def bothCalls (n3 : Bool) (A B : List P) : List (PairCall P) := soaPair n3 A B ++ if n3 then [] else soaPair n3 B A

theorem holds_both (hs : Separate V) (H : Holds V m st.mem) {v w : C04View} {A B : List P} (hv : Shows V v A) (hw : Shows V w B)
    (hd : ∀ p ∈ A, p ∉ B) (F : P → P → M) (n3 : Bool) :
    Holds V (fun p => m p + accumulated F (bothCalls n3 A B) p) (st.both F n3 v w).mem := by
  have h1 := holds_pair hs H hv hw hd F n3
  unfold C04State.both bothCalls
  cases n3
  · simp only [Bool.false_eq_true, if_false]
    have h2 := holds_pair hs h1 hw hv (fun p hp hq => hd p hq hp) F false
    refine cast (congrArg (fun x => Holds V x _) ?_) h2
    funext p
    rw [accumulated_append, add_assoc]
  · simp only [if_true, List.append_nil]
    exact h1

omit [DecidableEq P] in
@[simp] theorem add_offsets (v : C04View) (g : P → M) : (st.add v g).offsets = st.offsets ∧ (st.add v g).current = st.current := ⟨rfl, rfl⟩

@[simp] theorem single_offsets (F : P → P → M) (n3 : Bool) (v : C04View) :
    (st.single F n3 v).offsets = st.offsets ∧ (st.single F n3 v).current = st.current := ⟨rfl, rfl⟩

theorem pair_offsets (F : P → P → M) (n3 : Bool) (v w : C04View) :
    (st.pair F n3 v w).offsets = st.offsets ∧ (st.pair F n3 v w).current = st.current := by
  unfold C04State.pair
  cases n3 <;> exact ⟨rfl, rfl⟩

theorem both_offsets (F : P → P → M) (n3 : Bool) (v w : C04View) :
    (st.both F n3 v w).offsets = st.offsets ∧ (st.both F n3 v w).current = st.current := by
  unfold C04State.both
  have h1 := pair_offsets (st := st) F n3 v w
  have h2 := pair_offsets (st := st.pair F n3 v w) F n3 w v
  cases n3
  · exact ⟨h2.1.trans h1.1, h2.2.trans h1.2⟩
  · exact h1

end

end Verif
