import Verif.Lemmas.OctreeInsert
import Verif.Spec.Octree
/-! Storage of the octree. -/
namespace Verif.Octree
open Spec

section
variable {P : Type}

theorem nodeAt_rootFirst (t : OTree P) (o : Vertex) (r : List Vertex) {n : OTree P} (h : nodeAt t (o :: r).reverse = some n) :
    ∃ c, t = .inner c ∧ nodeAt (c o) r.reverse = some n := by
  rw [List.reverse_cons, nodeAt_append] at h
  cases t with
  | leaf ps => simp [nodeAt] at h
  | inner c => exact ⟨c, rfl, by simpa [nodeAt] using h⟩

theorem flatMap_update' {l : List Vertex} (hl : l.Nodup) {o : Vertex} (ho : o ∈ l) (c : Vertex → OTree P) (t : OTree P) {X Y : List P}
    (h : (collectAll t ++ X).Perm (collectAll (c o) ++ Y)) :
    ((l.flatMap fun v => collectAll (Function.update c o t v)) ++ X).Perm ((l.flatMap fun v => collectAll (c v)) ++ Y) := by
  induction l with
  | nil => cases ho
  | cons v l ih =>
    rw [List.flatMap_cons, List.flatMap_cons]
    rw [List.nodup_cons] at hl
    by_cases hv : v = o
    · subst hv
      rw [Function.update_self]
      have e : (l.flatMap fun w => collectAll (Function.update c v t w)) = l.flatMap fun w => collectAll (c w) :=
        List.flatMap_congr fun w hw => by
          rw [Function.update_of_ne]
          rintro rfl; exact hl.1 hw
      rw [e]
      generalize (l.flatMap fun w => collectAll (c w)) = R
      calc (collectAll t ++ R ++ X).Perm (collectAll t ++ X ++ R) := by
            rw [List.append_assoc, List.append_assoc]; exact List.perm_append_comm.append_left _
        _ |>.Perm (collectAll (c v) ++ Y ++ R) := h.append_right _
        _ |>.Perm (collectAll (c v) ++ R ++ Y) := by
            rw [List.append_assoc, List.append_assoc]; exact List.perm_append_comm.append_left _
    · rw [Function.update_of_ne hv]
      have := ih hl.2 ((List.mem_cons.1 ho).resolve_left fun e => hv e.symm)
      rw [List.append_assoc, List.append_assoc]
      exact this.append_left _

/-- Changing one leaf. -/
theorem modifyAt_perm {g : List P → List P} {r : List Vertex} {t : OTree P} {ps X Y : List P} (h : nodeAt t r.reverse = some (.leaf ps))
    (hg : (g ps ++ X).Perm (ps ++ Y)) : (collectAll (modifyAt g r t) ++ X).Perm (collectAll t ++ Y) := by
  induction r generalizing t with
  | nil =>
    simp only [List.reverse_nil, nodeAt, Option.some.injEq] at h
    subst h
    exact hg
  | cons o r ih =>
    obtain ⟨c, rfl, hc⟩ := nodeAt_rootFirst t o r h
    rw [modifyAt, collectAll, collectAll]
    exact flatMap_update' nodup_vertices (by cases o <;> decide) c _ (ih hc)

theorem modifyAt_good {il : Rat} {pos : P → V3 Rat} {g : List P → List P} {r : List Vertex} {t : OTree P} {b : Box} {ps : List P}
    (hg : Good il pos t b) (h : nodeAt t r.reverse = some (.leaf ps)) (hps : ∀ x ∈ g ps, x ∈ ps) : Good il pos (modifyAt g r t) b := by
  induction r generalizing t b with
  | nil =>
    simp only [List.reverse_nil, nodeAt, Option.some.injEq] at h
    subst h
    exact fun x hx => hg x (hps x hx)
  | cons o r ih =>
    obtain ⟨c, rfl, hc⟩ := nodeAt_rootFirst t o r h
    rw [modifyAt]
    refine ⟨hg.1, fun v => ?_⟩
    by_cases hv : v = o
    · subst hv; rw [Function.update_self]; exact ih (hg.2 v) hc
    · rw [Function.update_of_ne hv]; exact hg.2 v

theorem leafAt_eq {t : OTree P} {q : Path} {ps : List P} : leafAt t q = some ps ↔ nodeAt t q = some (.leaf ps) := by
  unfold leafAt
  cases nodeAt t q with
  | none => simp
  | some n => cases n <;> simp

theorem deleteAt_spec [DecidableEq P] {t : OTree P} {q : Path} {i : Nat} {p : P} (h : (leafAt t q).bind (·[i]?) = some p) :
    (collectAll (deleteAt t q i)).Perm ((collectAll t).erase p) ∧ p ∈ collectAll t ∧
    ∀ (il : Rat) (pos : P → V3 Rat) (b : Box), Good il pos t b → Good il pos (deleteAt t q i) b := by
  obtain ⟨ps, hps, hi⟩ := Option.bind_eq_some_iff.1 h
  have hq := leafAt_eq.1 hps
  have hq' : nodeAt t q.reverse.reverse = some (.leaf ps) := by rwa [List.reverse_reverse]
  have hperm := swapDelete_perm hi
  have h1 : (collectAll (deleteAt t q i) ++ [p]).Perm (collectAll t ++ []) :=
    modifyAt_perm (g := fun ps => swapDelete ps i) hq' (by rw [List.append_nil]; exact hperm)
  rw [List.append_nil] at h1
  have h2 : (p :: collectAll (deleteAt t q i)).Perm (collectAll t) := (List.perm_append_singleton _ _).symm.trans h1
  refine ⟨?_, h2.subset (by simp), fun il pos b hg => modifyAt_good hg hq' fun x hx => hperm.subset (List.mem_append.2 (.inl hx))⟩
  have := h2.erase p
  rwa [List.erase_cons_head] at this

theorem collectAll_map {Q : Type} (g : P → Q) (t : OTree P) : collectAll (t.map g) = (collectAll t).map g := by
  induction t with
  | leaf ps => rfl
  | inner c ih =>
    rw [OTree.map, collectAll, collectAll, List.map_flatMap]
    exact List.flatMap_congr fun o _ => ih o

end

/-- Inserting many particles. -/
theorem addAll_spec (c : OTCfg) (l : List Particle) (s : OTState) (hl : ∀ p ∈ l, InBox p.pos c.box.lo c.box.hi)
    (hg : Good c.il Particle.pos s.owned c.box) :
    Good c.il Particle.pos (l.foldl (OTState.add c) s).owned c.box ∧
    (collectAll (l.foldl (OTState.add c) s).owned).Perm (l ++ collectAll s.owned) ∧
    (l.foldl (OTState.add c) s).halo = s.halo ∧ (l.foldl (OTState.add c) s).nHalo = s.nHalo ∧
    (l.foldl (OTState.add c) s).nOwned = s.nOwned + l.length := by
  induction l generalizing s with
  | nil => exact ⟨hg, List.Perm.refl _, rfl, rfl, rfl⟩
  | cons p l ih =>
    obtain ⟨g1, g2⟩ := insert_spec (thr := treeSplitThreshold) hg (hl p (by simp))
    obtain ⟨h1, h2, h3, h4, h5⟩ := ih (s.add c p) (fun x hx => hl x (by simp [hx])) g1
    refine ⟨h1, h2.trans ((g2.append_left l).trans List.perm_middle), h3, h4, ?_⟩
    rw [List.foldl_cons, h5, List.length_cons]
    show s.nOwned + 1 + l.length = _
    omega

end Verif.Octree
