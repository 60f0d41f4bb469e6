import Verif.Spec.MPIPhase
import Verif.Lemmas.AutoTuner
import Verif.Props.C40
import Verif.Props.C50
import Verif.Lemmas.MDObjectsPacked
/-! Tuning phases of several ranks. -/
namespace Verif
open Spec.MPIPhase

variable {C : Type} [DecidableEq C]

/-! ### Evidence -/

theorem measured_add (m : EvidenceMap C) (c c' : C) (e : Evidence) (p : Nat) (v : Int) :
    Measured (addEvidence m c e) p c' v ↔ Measured m p c' v ∨ (c' = c ∧ e.tuningPhase = p ∧ e.value = v) := by
  induction m with
  | nil =>
    simp only [addEvidence, Measured, List.mem_singleton, Prod.mk.injEq, List.not_mem_nil, false_and, exists_false, false_or]
    constructor
    · rintro ⟨es, ⟨h1, rfl⟩, e', h2, h3, h4⟩
      rw [List.mem_singleton] at h2
      subst h2
      exact ⟨h1, h3, h4⟩
    · rintro ⟨h1, h2, h3⟩
      exact ⟨[e], ⟨h1, rfl⟩, e, by simp, h2, h3⟩
  | cons a m ih =>
    obtain ⟨k, es⟩ := a
    have hc : ∀ (es : List Evidence) (m : EvidenceMap C), Measured ((k, es) :: m) p c' v ↔
        ((c' = k ∧ ∃ e ∈ es, e.tuningPhase = p ∧ e.value = v) ∨ Measured m p c' v) := by
      intro es m
      unfold Measured
      constructor
      · rintro ⟨fs, h1, h2⟩
        rcases List.mem_cons.1 h1 with h1 | h1
        · cases h1; exact .inl ⟨rfl, h2⟩
        · exact .inr ⟨fs, h1, h2⟩
      · rintro (⟨h1, h2⟩ | ⟨fs, h1, h2⟩)
        · exact ⟨es, by simp [h1], h2⟩
        · exact ⟨fs, by simp [h1], h2⟩
    unfold addEvidence
    split_ifs with hk
    · subst hk
      rw [hc, hc]
      constructor
      · rintro (⟨h1, e', h2, h3⟩ | h)
        · rcases List.mem_append.1 h2 with h2 | h2
          · exact .inl (.inl ⟨h1, e', h2, h3⟩)
          · rw [List.mem_singleton] at h2
            subst h2
            exact .inr ⟨h1, h3⟩
        · exact .inl (.inr h)
      · rintro ((⟨h1, e', h2, h3⟩ | h) | ⟨h1, h2⟩)
        · exact .inl ⟨h1, e', by simp [h2], h3⟩
        · exact .inr h
        · exact .inl ⟨h1, e, by simp, h2⟩
    · rw [hc, hc, ih]
      exact or_assoc.symm

omit [DecidableEq C] in
theorem optimumOf_spec {m : EvidenceMap C} {p : Nat} {time : C → Int} (ht : ∀ c v, Measured m p c v → v = time c) (hv : ∀ c, time c < longMax)
    (hex : ∃ c v, Measured m p c v) :
    ∃ c, optimumOf p m = some (c, time c) ∧ Measured m p c (time c) ∧ ∀ c' v, Measured m p c' v → time c ≤ time c' := by
  obtain ⟨i1, i2, i3⟩ := optimalLoop_spec (p := p) (m := m) (by
    intro k es hk e he e' he' h h'
    rw [ht k e.value ⟨es, hk, e, he, h, rfl⟩, ht k e'.value ⟨es, hk, e', he', h', rfl⟩]) none longMax
  rcases i3 with i3 | ⟨k, es, e, j1, j2, j3, j4, j5⟩
  · obtain ⟨c, v, es, h1, e, h2, h3, h4⟩ := hex
    have := i2 c es h1 e h2 h3
    rw [i3] at this
    have h5 := ht c v ⟨es, h1, e, h2, h3, h4⟩
    have := hv c
    simp only at *
    omega
  · have e1 := ht k e.value ⟨es, j1, e, j2, j3, rfl⟩
    refine ⟨k, ?_, ⟨es, j1, e, j2, j3, e1⟩, ?_⟩
    · unfold optimumOf
      rw [j5, ← e1]
    · rintro c' v ⟨fs, h1, f, h2, h3, h4⟩
      have := i2 c' fs h1 f h2 h3
      rw [j5] at this
      rw [← ht c' v ⟨fs, h1, f, h2, h3, h4⟩, ← h4, ← e1]
      exact this

theorem foldl_max_phase (l : List Evidence) : ∀ a p : Nat, a ≤ p → (∀ e ∈ l, e.tuningPhase ≤ p) → (a = p ∨ ∃ e ∈ l, e.tuningPhase = p) →
    l.foldl (fun a e => max a e.tuningPhase) a = p := by
  induction l with
  | nil => intro a p _ _ h; simpa using h
  | cons e l ih =>
    intro a p h1 h2 h3
    rw [List.foldl_cons]
    have he := h2 e (by simp)
    apply ih _ _ (by omega) (fun e he => h2 e (by simp [he]))
    rcases h3 with h3 | ⟨f, hf, h3⟩
    · left; omega
    · rcases List.mem_cons.1 hf with rfl | hf
      · left; omega
      · exact .inr ⟨f, hf, h3⟩

omit [DecidableEq C] in
theorem latestPhase_eq {m : EvidenceMap C} {p : Nat} (h : ∀ c es, (c, es) ∈ m → ∀ e ∈ es, e.tuningPhase ≤ p) (hex : ∃ c v, Measured m p c v) :
    latestPhase m = p := by
  unfold latestPhase
  apply foldl_max_phase _ _ _ (Nat.zero_le _)
  · intro e he
    obtain ⟨⟨c, es⟩, h1, h2⟩ := List.mem_flatMap.1 he
    exact h c es h1 e h2
  · obtain ⟨c, v, es, h1, e, h2, h3, -⟩ := hex
    exact .inr ⟨e, List.mem_flatMap.2 ⟨_, h1, h2⟩, h3⟩

/-! ### Lists -/

theorem outcomeAll_ok {α β : Type} {f : α → Outcome β} {g : α → β} : ∀ {l : List α}, (∀ a ∈ l, f a = .ok (g a)) → outcomeAll f l = .ok (l.map g) := by
  intro l
  induction l with
  | nil => intro _; rfl
  | cons a l ih =>
    intro h
    unfold outcomeAll
    rw [h a (by simp), ih fun b hb => h b (by simp [hb])]
    rfl

theorem mapM_option {α β : Type} {f : α → Option β} {g : α → β} : ∀ {l : List α}, (∀ a ∈ l, f a = some (g a)) → l.mapM f = some (l.map g) := by
  intro l
  induction l with
  | nil => intro _; rfl
  | cons a l ih =>
    intro h
    rw [List.mapM_cons, h a (by simp), ih fun b hb => h b (by simp [hb])]
    rfl

theorem foldl_max_nat (l : List Nat) : ∀ a, (∀ x ∈ l, x ≤ l.foldl max a) ∧ a ≤ l.foldl max a ∧ (l.foldl max a = a ∨ l.foldl max a ∈ l) := by
  induction l with
  | nil => intro a; simp
  | cons x l ih =>
    intro a
    obtain ⟨h1, h2, h3⟩ := ih (max a x)
    rw [List.foldl_cons]
    refine ⟨?_, by omega, ?_⟩
    · intro y hy
      rcases List.mem_cons.1 hy with rfl | hy
      · omega
      · exact h1 y hy
    · rcases h3 with h3 | h3
      · rw [h3]
        rcases le_total a x with h | h
        · right; rw [max_eq_right h]; simp
        · left; exact max_eq_left h
      · right; simp [h3]

/-! ### A round in which everything is measured -/

/-- A rank in the phase. `U`: the configurations it may know; `q0`: the ones it has to test. -/
structure RankInv (p : Nat) (time : C → Int) (U q0 : List C) (x : MPIRank C) : Prop where
  settled : x.settled = none
  rejected : x.rejected = []
  phases : ∀ c es, (c, es) ∈ x.evidence → ∀ e ∈ es, e.tuningPhase ≤ p
  values : ∀ c v, Measured x.evidence p c v → v = time c ∧ c ∈ U
  queue : ∀ c ∈ x.queue, c ∈ U
  cover : ∀ c ∈ q0, c ∈ x.queue ∨ ∃ v, Measured x.evidence p c v

/-- A rank after the phase. -/
structure RankDone (p : Nat) (time : C → Int) (U q0 : List C) (x : MPIRank C) : Prop where
  phases : ∀ c es, (c, es) ∈ x.evidence → ∀ e ∈ es, e.tuningPhase ≤ p
  values : ∀ c v, Measured x.evidence p c v → v = time c ∧ c ∈ U
  cover : ∀ c ∈ q0, ∃ v, Measured x.evidence p c v
  best : ∃ b, x.settled = some b ∧ x.queue = [b] ∧ (∃ v, Measured x.evidence p b v) ∧ ∀ c v, Measured x.evidence p c v → time b ≤ time c

/-- The rank after the measurement. -/
def measuredRank (p : Nat) (time : Nat → C → Int) (y : MPIRank C × Nat) : MPIRank C :=
  match y.1.queue.getLast? with
  | none => y.1
  | some c => y.1.act p c (.measured (time y.2 c))

theorem phases_add {m : EvidenceMap C} {p : Nat} {c : C} {v : Int} (h : ∀ c es, (c, es) ∈ m → ∀ e ∈ es, e.tuningPhase ≤ p) :
    ∀ c' es, (c', es) ∈ addEvidence m c ⟨0, p, v⟩ → ∀ e ∈ es, e.tuningPhase ≤ p := by
  intro c' es h1 e h2
  have := (measured_add m c c' ⟨0, p, v⟩ e.tuningPhase e.value).1 ⟨es, h1, e, h2, rfl, rfl⟩
  rcases this with ⟨fs, h3, f, h4, h5, -⟩ | ⟨-, h3, -⟩
  · rw [← h5]; exact h c' fs h3 f h4
  · exact le_of_eq h3.symm

theorem measuredRank_spec {p r : Nat} {time : Nat → C → Int} {U q0 : List C} {x : MPIRank C} (h : RankInv p (time r) U q0 x) (hq : x.queue ≠ []) :
    RankInv p (time r) U q0 (measuredRank p time (x, r)) ∧ (measuredRank p time (x, r)).queue = x.queue.dropLast ∧
      (measuredRank p time (x, r)).fallback = x.fallback ∧ ∃ c v, Measured (measuredRank p time (x, r)).evidence p c v := by
  have hl : x.queue.getLast? = some (x.queue.getLast hq) := List.getLast?_eq_some_getLast hq
  have e : measuredRank p time (x, r) = x.act p (x.queue.getLast hq) (.measured (time r (x.queue.getLast hq))) := by
    unfold measuredRank
    rw [hl]
  rw [e]
  generalize hc : x.queue.getLast hq = c
  have hcq : c ∈ x.queue := hc ▸ List.getLast_mem hq
  have hsplit : x.queue = x.queue.dropLast ++ [c] := by rw [← hc]; exact (List.dropLast_append_getLast hq).symm
  refine ⟨⟨h.settled, h.rejected, phases_add h.phases, ?_, ?_, ?_⟩, rfl, rfl, c, time r c, ?_⟩
  · intro c' v hm
    rcases (measured_add _ _ _ _ _ _).1 hm with hm | ⟨rfl, -, rfl⟩
    · exact h.values c' v hm
    · exact ⟨rfl, h.queue _ hcq⟩
  · intro d hd
    exact h.queue d (List.dropLast_subset _ hd)
  · intro d hd
    show d ∈ x.queue.dropLast ∨ ∃ v, Measured (addEvidence x.evidence c ⟨0, p, time r c⟩) p d v
    rcases h.cover d hd with hd | ⟨v, hv⟩
    · rw [hsplit] at hd
      rcases List.mem_append.1 hd with hd | hd
      · exact .inl hd
      · rw [List.mem_singleton] at hd
        exact .inr ⟨_, (measured_add _ _ _ _ _ _).2 (.inr ⟨hd, rfl, rfl⟩)⟩
    · exact .inr ⟨v, (measured_add _ _ _ _ _ _).2 (.inl hv)⟩
  · exact (measured_add _ _ _ _ _ _).2 (.inr ⟨rfl, rfl, rfl⟩)

theorem getElem?_zipIdx_map {α β : Type} (l : List α) (g : α × Nat → β) (r : Nat) : (l.zipIdx.map g)[r]? = l[r]?.map fun x => g (x, r) := by
  rw [List.getElem?_map, List.getElem?_zipIdx]
  cases l[r]? <;> simp

/-- What a round does if all ranks measure. -/
theorem mpiRound_spec {p : Nat} {fb : C} {time : Nat → C → Int} {U q0 : Nat → List C} {ranks : List (MPIRank C)} (hne : ranks ≠ [])
    (hinv : ∀ (r : Nat) x, ranks[r]? = some x → RankInv p (time r) (U r) (q0 r) x ∧ x.queue ≠ [])
    (hv : ∀ r c, time r c < longMax) (hf : ∃ x ∈ ranks, x.fallback = false) :
    ∃ (b : C) (k : Nat) (longest : Nat) (ranks' : List (MPIRank C)), k < ranks.length ∧ b ∈ U k ∧
      (∀ x ∈ ranks, x.queue.length ≤ longest + 1) ∧ (∃ x ∈ ranks, x.queue.length = longest + 1) ∧
      mpiRound p fb (fun r c => .measured (time r c)) ranks = .ok ranks' ∧ ranks'.length = ranks.length ∧
      ∀ (r : Nat) x, ranks[r]? = some x → ∃ x', ranks'[r]? = some x' ∧ x'.fallback = x.fallback ∧
        if x.queue.length = 1 then RankDone p (time r) (U r) (q0 r) x'
        else ((b ∈ U r ∨ x.queue.length ≠ 2 ∨ longest ≤ 1) → RankInv p (time r) (U r) (q0 r) x') ∧
          x'.settled = none ∧ x'.queue = if x.queue.length = 2 ∧ 1 < longest then b :: x.queue.dropLast else x.queue.dropLast := by
  have hidx : ∀ y ∈ ranks.zipIdx, ranks[y.2]? = some y.1 := by
    intro y hy
    exact List.mem_zipIdx_iff_getElem?.1 hy
  have hmem : ∀ x ∈ ranks, ∃ r : Nat, ranks[r]? = some x := by
    intro x hx
    obtain ⟨i, hi, rfl⟩ := List.getElem_of_mem hx
    exact ⟨i, List.getElem?_eq_getElem hi⟩
  have hset : ∀ x ∈ ranks, x.settled = none := by
    intro x hx
    obtain ⟨r, hr⟩ := hmem x hx
    exact (hinv r x hr).1.settled
  -- the optimum of each rank
  have hopt : ∀ y ∈ ranks.zipIdx, ∃ c, optimumOf p (measuredRank p time y).evidence = some (c, time y.2 c) ∧
      optimumOf (latestPhase (measuredRank p time y).evidence) (measuredRank p time y).evidence = some (c, time y.2 c) ∧
      Measured (measuredRank p time y).evidence p c (time y.2 c) ∧ (∀ c' v, Measured (measuredRank p time y).evidence p c' v → time y.2 c ≤ time y.2 c') := by
    intro y hy
    have h := hinv _ _ (hidx y hy)
    obtain ⟨g1, g2, g3, g4⟩ := measuredRank_spec h.1 h.2
    have g5 := latestPhase_eq g1.phases g4
    obtain ⟨c, c1, c2, c3⟩ := optimumOf_spec (fun c v hm => (g1.values c v hm).1) (hv y.2) g4
    exact ⟨c, c1, by rw [show (measuredRank p time y) = measuredRank p time (y.1, y.2) from rfl, g5]; exact c1, c2, c3⟩
  obtain ⟨x0, l0, hx0⟩ : ∃ x0 l0, ranks = x0 :: l0 := by
    cases ranks with
    | nil => exact absurd rfl hne
    | cons x l => exact ⟨x, l, rfl⟩
  obtain ⟨y0, hy0⟩ : ∃ y0, y0 ∈ ranks.zipIdx := ⟨(x0, 0), by rw [hx0]; simp⟩
  obtain ⟨cdef, -⟩ := hopt y0 hy0
  let bestOf : MPIRank C × Nat → C × Int := fun y => (optimumOf p (measuredRank p time y).evidence).getD (cdef, 0)
  have hbest : ∀ y ∈ ranks.zipIdx, optimumOf p (measuredRank p time y).evidence = some (bestOf y) ∧
      optimumOf (latestPhase (measuredRank p time y).evidence) (measuredRank p time y).evidence = some (bestOf y) := by
    intro y hy
    obtain ⟨c, c1, c2, -⟩ := hopt y hy
    have : bestOf y = (c, time y.2 c) := by simp only [bestOf, c1, Option.getD_some]
    rw [this]
    exact ⟨c1, c2⟩
  -- the collective operations
  have hlen : ranks.zipIdx.length = ranks.length := List.length_zipIdx
  have hzne : ranks.zipIdx ≠ [] := List.ne_nil_of_mem hy0
  obtain ⟨v, k, m1, m2, -, -⟩ := minloc_spec ((ranks.zipIdx.map bestOf).map Prod.snd) 0 (by simpa using hzne)
  rw [Nat.zero_add] at m1
  rw [List.getElem?_map, Option.map_eq_some_iff] at m2
  obtain ⟨b, hb, -⟩ := m2
  obtain ⟨yk, hyk, hbk⟩ : ∃ yk, ranks.zipIdx[k]? = some yk ∧ bestOf yk = b := by
    rw [List.getElem?_map, Option.map_eq_some_iff] at hb
    exact hb
  have hykm : yk ∈ ranks.zipIdx := List.mem_of_getElem? hyk
  have hyk2 : yk.2 = k := by
    rw [List.getElem?_zipIdx] at hyk
    obtain ⟨x, -, hx⟩ := Option.map_eq_some_iff.1 hyk
    rw [← hx]; simp
  have hk : k < ranks.length := by
    have := (List.getElem?_eq_some_iff.1 hyk).1
    omega
  have hbU : b.1 ∈ U k := by
    have h := hinv _ _ (hidx yk hykm)
    obtain ⟨g1, -, -, -⟩ := measuredRank_spec h.1 h.2
    obtain ⟨c, c1, -, c3, -⟩ := hopt yk hykm
    have := (hbest yk hykm).1
    rw [c1, hbk] at this
    cases this
    have := (g1.values _ _ c3).2
    rw [hyk2] at this
    exact this
  let sizes := (ranks.zipIdx.map (measuredRank p time)).map fun x => x.queue.length
  let longest := sizes.foldl max 0
  have hsize : ∀ y ∈ ranks.zipIdx, (measuredRank p time y).queue = y.1.queue.dropLast ∧ (measuredRank p time y).fallback = y.1.fallback ∧
      (measuredRank p time y).rejected = [] := by
    intro y hy
    have h := hinv _ _ (hidx y hy)
    obtain ⟨g1, g2, g3, -⟩ := measuredRank_spec h.1 h.2
    exact ⟨g2, g3, g1.rejected⟩
  obtain ⟨f1, -, f3⟩ := foldl_max_nat sizes 0
  have hle : ∀ x ∈ ranks, x.queue.length ≤ longest + 1 := by
    intro x hx
    obtain ⟨r, hr⟩ := hmem x hx
    have hy : (x, r) ∈ ranks.zipIdx := List.mem_zipIdx_iff_getElem?.2 hr
    have := f1 ((measuredRank p time (x, r)).queue.length) (List.mem_map.2 ⟨_, List.mem_map.2 ⟨_, hy, rfl⟩, rfl⟩)
    rw [(hsize _ hy).1, List.length_dropLast] at this
    show _ ≤ sizes.foldl max 0 + 1
    simp only at this
    omega
  have hex : ∃ x ∈ ranks, x.queue.length = longest + 1 := by
    have hpos : ∀ x ∈ ranks, 0 < x.queue.length := by
      intro x hx
      obtain ⟨r, hr⟩ := hmem x hx
      exact List.length_pos_of_ne_nil (hinv r x hr).2
    rcases f3 with f3 | f3
    · refine ⟨x0, by rw [hx0]; simp, ?_⟩
      have h1 := hle x0 (by rw [hx0]; simp)
      have h2 := hpos x0 (by rw [hx0]; simp)
      have h3 : longest = 0 := f3
      omega
    · obtain ⟨z, hz, hz2⟩ := List.mem_map.1 f3
      obtain ⟨y, hy, rfl⟩ := List.mem_map.1 hz
      have hyr : y.1 ∈ ranks := List.mem_of_getElem? (hidx y hy)
      refine ⟨y.1, hyr, ?_⟩
      rw [(hsize y hy).1, List.length_dropLast] at hz2
      have := hpos y.1 hyr
      show _ = sizes.foldl max 0 + 1
      omega
  let str : MPIRank C × Nat → MPIRank C := fun y => (measuredRank p time y).stretch fb b.1 longest
  have hstr : ∀ y ∈ ranks.zipIdx, str y = if y.1.queue.dropLast.length = 1 ∧ longest > 1 then
      { measuredRank p time y with queue := b.1 :: y.1.queue.dropLast } else measuredRank p time y := by
    intro y hy
    obtain ⟨s1, s2, s3⟩ := hsize y hy
    simp only [str, MPIRank.stretch, s1, s3, List.not_mem_nil, not_false_eq_true, if_true]
  have hstrf : ∀ y ∈ ranks.zipIdx, (str y).fallback = y.1.fallback := by
    intro y hy
    rw [hstr y hy]
    split_ifs
    · exact (hsize y hy).2.1
    · exact (hsize y hy).2.1
  have hopti : mpiOptimize fb (ranks.zipIdx.map (measuredRank p time)) = .ok (ranks.zipIdx.map str) := by
    unfold mpiOptimize
    rw [show (ranks.zipIdx.map (measuredRank p time)).mapM (fun x => optimumOf (latestPhase x.evidence) x.evidence) = some (ranks.zipIdx.map bestOf) from by
      rw [List.mapM_map]
      exact mapM_option fun y hy => (hbest y hy).2]
    simp only [m1, hb]
    rw [if_neg]
    · rw [List.map_map]; rfl
    · rw [List.map_map]
      simp only [List.all_eq_true, not_forall]
      obtain ⟨x, hx, hxf⟩ := hf
      obtain ⟨r, hr⟩ := hmem x hx
      have hy : (x, r) ∈ ranks.zipIdx := List.mem_zipIdx_iff_getElem?.2 hr
      refine ⟨str (x, r), List.mem_map.2 ⟨_, hy, rfl⟩, ?_⟩
      rw [hstrf _ hy]
      simp [hxf]
  let fin : MPIRank C × Nat → MPIRank C := fun y =>
    if (str y).queue.isEmpty then { str y with queue := [(bestOf y).1], settled := some (bestOf y).1 } else str y
  have hstre : ∀ y ∈ ranks.zipIdx, (str y).evidence = (measuredRank p time y).evidence := by
    intro y hy
    rw [hstr y hy]
    split_ifs <;> rfl
  have hround : mpiRound p fb (fun r c => .measured (time r c)) ranks = .ok (ranks.zipIdx.map fin) := by
    unfold mpiRound
    rw [if_neg, if_neg]
    · have h1 : outcomeAll (MPIRank.turn p fun r c => .measured (time r c)) ranks.zipIdx =
          .ok (ranks.zipIdx.map fun y => (measuredRank p time y,
            .measured (match y.1.queue.getLast? with | none => 0 | some c => time y.2 c))) := by
        apply outcomeAll_ok
        intro y hy
        have h := (hinv _ _ (hidx y hy)).2
        have hl : y.1.queue.getLast? = some (y.1.queue.getLast h) := List.getLast?_eq_some_getLast h
        simp only [MPIRank.turn, measuredRank, hl]
      rw [h1, ok_bind_eq, List.map_map, List.map_map]
      rw [show (Prod.fst ∘ fun y : MPIRank C × Nat => (measuredRank p time y,
            RankEvent.measured (match y.1.queue.getLast? with | none => 0 | some c => time y.2 c))) = measuredRank p time from rfl, hopti, ok_bind_eq]
      rw [List.zip_map']
      have : ∀ (l : List (MPIRank C × Nat)), (∀ y ∈ l, y ∈ ranks.zipIdx) →
          outcomeAll (fun z : MPIRank C × RankEvent => z.1.finish p z.2) (l.map fun y => (str y, (Prod.snd ∘ fun y : MPIRank C × Nat => (measuredRank p time y,
            RankEvent.measured (match y.1.queue.getLast? with | none => 0 | some c => time y.2 c))) y)) = .ok (l.map fin) := by
        intro l
        induction l with
        | nil => intro _; rfl
        | cons y l ih =>
          intro hl
          rw [List.map_cons, outcomeAll, ih fun z hz => hl z (by simp [hz])]
          have hy := hl y (by simp)
          have : (str y).finish p (RankEvent.measured (match y.1.queue.getLast? with | none => 0 | some c => time y.2 c)) = .ok (fin y) := by
            unfold MPIRank.finish
            simp only [fin]
            split_ifs with he
            · rw [hstre y hy, (hbest y hy).1]
            · rfl
          simp only [Function.comp_apply, this]
          rfl
      exact this _ fun _ h => h
    · simp only [List.any_eq_true, not_exists, not_and]
      intro x hx
      rw [hset x hx]
      simp
    · simp only [List.all_eq_true, not_forall]
      exact ⟨x0, by rw [hx0]; simp, by rw [hset x0 (by rw [hx0]; simp)]; simp⟩
  refine ⟨b.1, k, longest, ranks.zipIdx.map fin, hk, hbU, hle, hex, hround, by simp, ?_⟩
  intro r x hr
  have hy : (x, r) ∈ ranks.zipIdx := List.mem_zipIdx_iff_getElem?.2 hr
  refine ⟨fin (x, r), by rw [getElem?_zipIdx_map, hr]; rfl, ?_, ?_⟩
  · show (if (str (x, r)).queue.isEmpty then { str (x, r) with queue := [(bestOf (x, r)).1], settled := some (bestOf (x, r)).1 } else str (x, r)).fallback = _
    split_ifs
    · exact hstrf _ hy
    · exact hstrf _ hy
  · have h := hinv r x hr
    obtain ⟨g1, g2, g3, g4⟩ := measuredRank_spec h.1 h.2
    have hs := hstr _ hy
    have hpos : 0 < x.queue.length := List.length_pos_of_ne_nil h.2
    simp only [List.length_dropLast] at hs
    split_ifs with h1 h2
    · rw [if_neg (by omega)] at hs
      have hq : (str (x, r)).queue = [] := by
        rw [hs, g2]
        exact List.length_eq_zero_iff.1 (by rw [List.length_dropLast]; omega)
      have hfin : fin (x, r) = { measuredRank p time (x, r) with queue := [(bestOf (x, r)).1], settled := some (bestOf (x, r)).1 } := by
        simp only [fin]
        rw [if_pos (by rw [hq]; rfl), hs]
      rw [hfin]
      obtain ⟨c, c1, -, c3, c4⟩ := hopt _ hy
      have hbc := (hbest _ hy).1
      rw [c1] at hbc
      have hbc2 : (bestOf (x, r)).1 = c := by rw [← Option.some.inj hbc]
      refine ⟨g1.phases, g1.values, ?_, ⟨(bestOf (x, r)).1, rfl, rfl, ⟨time r c, ?_⟩, ?_⟩⟩
      · intro d hd
        rcases g1.cover d hd with hd | hd
        · rw [← hs, hq] at hd; cases hd
        · exact hd
      · rw [hbc2]; exact c3
      · rw [hbc2]; exact c4
    · rw [if_pos (by omega)] at hs
      have hfin : fin (x, r) = { measuredRank p time (x, r) with queue := b.1 :: x.queue.dropLast } := by
        simp only [fin]
        rw [hs, if_neg (by simp)]
      rw [hfin]
      refine ⟨fun hb' => ⟨g1.settled, g1.rejected, g1.phases, g1.values, ?_, ?_⟩, g1.settled, rfl⟩
      · have hb'' : b.1 ∈ U r := by
          rcases hb' with hb' | hb' | hb'
          · exact hb'
          · exact absurd h2.1 hb'
          · omega
        intro d hd
        rcases List.mem_cons.1 hd with rfl | hd
        · exact hb''
        · exact g1.queue d (by rw [g2]; exact hd)
      · intro d hd
        rcases g1.cover d hd with hd | hd
        · rw [g2] at hd
          exact .inl (List.mem_cons.2 (.inr hd))
        · exact .inr hd
    · rw [if_neg (by omega)] at hs
      have hfin : fin (x, r) = measuredRank p time (x, r) := by
        simp only [fin]
        rw [hs, if_neg]
        rw [g2, List.isEmpty_iff, ← List.length_eq_zero_iff, List.length_dropLast]
        omega
      rw [hfin]
      exact ⟨fun _ => g1, g1.settled, g2⟩

/-! ### A phase in which everything is measured -/

theorem mpi_lockstep {p : Nat} {fb : C} {time : Nat → C → Int} {U q0 : Nat → List C} (hv : ∀ r c, time r c < longMax) :
    ∀ (L : Nat) (ranks : List (MPIRank C)), 0 < L →
      (∀ (r : Nat) x, ranks[r]? = some x → RankInv p (time r) (U r) (q0 r) x ∧
        (x.queue.length = L ∨ (x.queue.length + 1 = L ∧ 2 ≤ x.queue.length))) →
      (∃ x ∈ ranks, x.queue.length = L) → (∃ x ∈ ranks, x.fallback = false) →
      ((∀ r r' c, c ∈ U r → c ∈ U r') ∨ ∀ x ∈ ranks, x.queue.length = L) →
      (∀ j < L, ∃ ranks', mpiRun p fb (fun r c => .measured (time r c)) j ranks = .ok ranks' ∧ ranks'.length = ranks.length ∧
        ∀ x ∈ ranks', x.settled = none) ∧
      ∃ ranks', mpiRun p fb (fun r c => .measured (time r c)) L ranks = .ok ranks' ∧ ranks'.length = ranks.length ∧
        ∀ (r : Nat) x, ranks'[r]? = some x → RankDone p (time r) (U r) (q0 r) x := by
  intro L
  induction L with
  | zero => intro _ h; omega
  | succ L ih =>
    intro ranks _ hinv hex hf hU
    have hmem : ∀ (l : List (MPIRank C)), ∀ x ∈ l, ∃ r : Nat, l[r]? = some x := by
      intro l x hx
      obtain ⟨i, hi, rfl⟩ := List.getElem_of_mem hx
      exact ⟨i, List.getElem?_eq_getElem hi⟩
    have hne : ranks ≠ [] := by
      obtain ⟨x, hx, -⟩ := hex
      exact List.ne_nil_of_mem hx
    obtain ⟨b, k, longest, ranks', hk, hb, l1, l2, hr, hlen, hnext⟩ := mpiRound_spec (fb := fb) hne (fun r x hx => by
      obtain ⟨i1, i2⟩ := hinv r x hx
      refine ⟨i1, ?_⟩
      rw [← List.length_pos_iff]; omega) hv hf
    have hlong : longest = L := by
      obtain ⟨x, hx, hxl⟩ := l2
      obtain ⟨y, hy, hyl⟩ := hex
      have := l1 y hy
      obtain ⟨r, hr⟩ := hmem _ x hx
      have := (hinv r x hr).2
      omega
    have hset : ∀ x ∈ ranks, x.settled = none := by
      intro x hx
      obtain ⟨r, hr⟩ := hmem _ x hx
      exact (hinv r x hr).1.settled
    have hback : ∀ (r : Nat) x', ranks'[r]? = some x' → ∃ x, ranks[r]? = some x := by
      intro r x' hx'
      have := (List.getElem?_eq_some_iff.1 hx').1
      exact ⟨ranks[r]'(by omega), List.getElem?_eq_getElem (by omega)⟩
    subst hlong
    rcases Nat.eq_zero_or_pos longest with h0 | h0
    · subst h0
      refine ⟨?_, ranks', ?_, hlen, ?_⟩
      · intro j hj
        have : j = 0 := by omega
        subst this
        exact ⟨ranks, rfl, rfl, hset⟩
      · show (mpiRound _ _ _ _).bind _ = _
        rw [hr, ok_bind_eq]
        rfl
      · intro r x' hx'
        obtain ⟨x, hx⟩ := hback r x' hx'
        obtain ⟨x'', h1, -, h2⟩ := hnext r x hx
        rw [hx'] at h1
        cases h1
        rw [if_pos (by have := (hinv r x hx).2; omega)] at h2
        exact h2
    · have key : ∀ (r : Nat) x', ranks'[r]? = some x' → ∃ x, ranks[r]? = some x ∧ RankInv p (time r) (U r) (q0 r) x' ∧
          (x'.queue.length = longest ∨ (x'.queue.length + 1 = longest ∧ 2 ≤ x'.queue.length)) ∧
          (x.queue.length = longest + 1 → x'.queue.length = longest) := by
        intro r x' hx'
        obtain ⟨x, hx⟩ := hback r x' hx'
        obtain ⟨x'', h1, -, h2⟩ := hnext r x hx
        rw [hx'] at h1
        cases h1
        obtain ⟨i1, i2⟩ := hinv r x hx
        rw [if_neg (by omega)] at h2
        obtain ⟨h2, -, h3⟩ := h2
        refine ⟨x, hx, h2 ?_, ?_, ?_⟩
        · rcases hU with hU | hU
          · exact .inl (hU _ _ _ hb)
          · have := hU x (List.mem_of_getElem? hx)
            omega
        · rw [h3]
          split_ifs with hc
          · rw [List.length_cons, List.length_dropLast]; omega
          · rw [List.length_dropLast]; omega
        · intro hl
          rw [h3]
          split_ifs with hc
          · omega
          · rw [List.length_dropLast]; omega
      have hstep : ∀ j, mpiRun p fb (fun r c => .measured (time r c)) (j + 1) ranks = mpiRun p fb (fun r c => .measured (time r c)) j ranks' := by
        intro j
        show (mpiRound _ _ _ _).bind _ = _
        rw [hr, ok_bind_eq]
      obtain ⟨a1, ranks'', a2, a3, a4⟩ := ih ranks' h0 (fun r x hx => by
          obtain ⟨-, -, h1, h2, -⟩ := key r x hx
          exact ⟨h1, h2⟩) (by
          obtain ⟨x, hx, hxl⟩ := hex
          obtain ⟨r, hr⟩ := hmem _ x hx
          obtain ⟨x', h1, -⟩ := hnext r x hr
          obtain ⟨y, h2, -, -, h3⟩ := key r x' h1
          rw [hr] at h2
          cases h2
          exact ⟨x', List.mem_of_getElem? h1, h3 hxl⟩) (by
          obtain ⟨x, hx, hxf⟩ := hf
          obtain ⟨r, hr⟩ := hmem _ x hx
          obtain ⟨x', h1, h2, -⟩ := hnext r x hr
          exact ⟨x', List.mem_of_getElem? h1, by rw [h2, hxf]⟩) (by
          rcases hU with hU | hU
          · exact .inl hU
          · right
            intro x' hx'
            obtain ⟨r, hr⟩ := hmem _ x' hx'
            obtain ⟨x, h1, -, -, h2⟩ := key r x' hr
            exact h2 (hU x (List.mem_of_getElem? h1)))
      refine ⟨?_, ranks'', by rw [hstep]; exact a2, by omega, a4⟩
      intro j hj
      rcases j with _ | j
      · exact ⟨ranks, rfl, rfl, hset⟩
      · obtain ⟨rs, b1, b2, b3⟩ := a1 j (by omega)
        exact ⟨rs, by rw [hstep]; exact b1, by omega, b3⟩

/-! ### The begin of a phase -/

theorem rankQueue_length {S : List C} {R r pick : Nat} {q : List C} (hr : r < R) (h : rankQueue S R r pick = .ok q) :
    q.length = if r < S.length then (S.length - r + R - 1) / R else 1 := by
  unfold rankQueue at h
  split_ifs at h ⊢ with h1
  · cases h
    rw [forUp_getElem_length _ _ _ (by omega), forUp_length _ _ _ (by omega)]
  · split at h
    · cases h
    · cases h; rfl

theorem rankQueue_subset {S : List C} {R r pick : Nat} {q : List C} (h : rankQueue S R r pick = .ok q) : ∀ c ∈ q, c ∈ S := by
  unfold rankQueue at h
  split_ifs at h with h1
  · cases h
    intro c hc
    obtain ⟨i, -, hi⟩ := List.mem_flatMap.1 hc
    rw [Option.mem_toList] at hi
    exact List.mem_of_getElem? hi
  · split at h
    · cases h
    · rename_i c0 h0
      cases h
      intro c hc
      rw [List.mem_singleton] at hc
      subst hc
      exact List.mem_of_getElem? h0

theorem startInv {p : Nat} {S : List C} {pick : Nat → Nat} {ranks : List (MPIRank C)} (h : Start p S pick ranks) {r : Nat} {x : MPIRank C}
    (hr : ranks[r]? = some x) {time : C → Int} {U : List C} (hU : ∀ c ∈ x.queue, c ∈ U) : RankInv p time U x.queue x := by
  have hx := List.mem_of_getElem? hr
  refine ⟨h.settled x hx, h.rejected x hx, fun c es h1 e h2 => (h.before x hx c es h1 e h2).le, ?_, hU, fun c hc => .inl hc⟩
  rintro c v ⟨es, h1, e, h2, h3, -⟩
  have := h.before x hx c es h1 e h2
  omega

end Verif
