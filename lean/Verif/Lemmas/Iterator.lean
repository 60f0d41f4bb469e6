import Verif.Model.Iterator
import Mathlib.Data.List.Perm.Basic
/-! Iteration: what the scanning loops find, and what a user loop visits. -/
namespace Verif

variable {P : Type}

/-- Matching particles in cells `c, c + stride, …` below `n`, tagged with their cell. -/
def tailT (ful : P → Bool) (stride n : Nat) (cells : List (List P)) (c : Nat) : List (Nat × P) :=
  if _h : c < n ∧ 0 < stride then
    ((cells.getD c []).filter ful).map (fun p => (c, p)) ++ tailT ful stride n cells (c + stride)
  else []
termination_by n - c
decreasing_by omega

/-- The same, starting at particle `i` of cell `c`. -/
def restT (ful : P → Bool) (stride n : Nat) (cells : List (List P)) (c i : Nat) : List (Nat × P) :=
  if c < n ∧ 0 < stride then
    (((cells.getD c []).drop i).filter ful).map (fun p => (c, p)) ++ tailT ful stride n cells (c + stride)
  else []

theorem restT_zero (ful : P → Bool) (stride n : Nat) (cells : List (List P)) (c : Nat) :
    restT ful stride n cells c 0 = tailT ful stride n cells c := by
  by_cases h : c < n ∧ 0 < stride
  · rw [restT, if_pos h, List.drop_zero]; conv_rhs => rw [tailT, dif_pos h]
  · rw [restT, if_neg h, tailT, dif_neg h]

theorem tailT_out {ful : P → Bool} {stride n : Nat} {cells : List (List P)} {c : Nat} (h : cells.length ≤ c) :
    tailT ful stride n cells c = [] := by
  induction c using tailT.induct stride n with
  | case1 c hc ih =>
    rw [tailT, dif_pos hc, ih (by omega)]
    simp [List.getD, List.getElem?_eq_none h]
  | case2 c hc => rw [tailT, dif_neg hc]

theorem restT_out {ful : P → Bool} {stride n : Nat} {cells : List (List P)} {c i : Nat} (h : cells.length ≤ c) :
    restT ful stride n cells c i = [] := by
  rw [restT]
  split
  · rw [tailT_out (by omega)]
    simp [List.getD, List.getElem?_eq_none h]
  · rfl

theorem restT_end {ful : P → Bool} {stride n : Nat} {cells : List (List P)} {c i : Nat} (hs : 0 < stride) (hc : c < n)
    (h : (cells.getD c []).length ≤ i) :
    restT ful stride n cells c i = restT ful stride n cells (c + stride) 0 := by
  rw [restT_zero, restT, if_pos ⟨hc, hs⟩, List.drop_eq_nil_of_le h]
  simp

theorem restT_skip {ful : P → Bool} {stride n : Nat} {cells : List (List P)} {c i : Nat} {p : P}
    (hp : (cells.getD c [])[i]? = some p) (hf : ful p = false) :
    restT ful stride n cells c i = restT ful stride n cells c (i + 1) := by
  rw [restT, restT]
  split
  · obtain ⟨hl, he⟩ := List.getElem?_eq_some_iff.1 hp
    rw [List.drop_eq_getElem_cons hl, he]
    simp [hf]
  · rfl

theorem restT_hit {ful : P → Bool} {stride n : Nat} {cells : List (List P)} {c i : Nat} {p : P} (hs : 0 < stride) (hc : c < n)
    (hp : (cells.getD c [])[i]? = some p) (hf : ful p = true) :
    restT ful stride n cells c i = (c, p) :: restT ful stride n cells c (i + 1) := by
  obtain ⟨hl, he⟩ := List.getElem?_eq_some_iff.1 hp
  rw [restT, if_pos ⟨hc, hs⟩, restT, if_pos ⟨hc, hs⟩, List.drop_eq_getElem_cons hl, he]
  simp [hf]

theorem tailT_empty_cell {ful : P → Bool} {stride n : Nat} {cells : List (List P)} {c i : Nat} (hs : 0 < stride) (hc : c < n)
    (h : ∀ p ∈ cells.getD c [], ful p = false) :
    restT ful stride n cells c i = restT ful stride n cells (c + stride) 0 := by
  rw [restT_zero, restT, if_pos ⟨hc, hs⟩]
  have : ((cells.getD c []).drop i).filter ful = [] := by
    rw [List.filter_eq_nil_iff]
    intro p hp
    simp [h p (List.mem_of_mem_drop hp)]
  rw [this]; simp

/-- Cells the iterator considers irrelevant hold no matching particle. -/
def NoneInIrrelevant (cfg : IterCfg P) (cells : List (List P)) : Prop :=
  ∀ c, cfg.rel c = false → ∀ p ∈ cells.getD c [], cfg.ful p = false

theorem advanceLoop_none {cfg : IterCfg P} {cells : List (List P)} (hs : 0 < cfg.stride) (H : NoneInIrrelevant cfg cells)
    {c i : Nat} (h : advanceLoop cfg cells c i = none) : restT cfg.ful cfg.stride (cfg.endC + 1) cells c i = [] := by
  by_cases hc : c < cfg.endC + 1
  swap
  · rw [restT, if_neg (by omega)]
  induction c, i using advanceLoop.induct cfg cells with
  | case1 c i h1 h2 =>
    have hx : restT cfg.ful cfg.stride (cfg.endC + 1) cells c i = restT cfg.ful cfg.stride (cfg.endC + 1) cells (c + cfg.stride) 0 := by
      rcases h1 with h1 | h1
      · exact tailT_empty_cell hs hc (H c h1)
      · exact restT_end hs hc h1
    rw [hx, restT, if_neg (by omega)]
  | case2 c i h1 h2 ih =>
    have hx : restT cfg.ful cfg.stride (cfg.endC + 1) cells c i = restT cfg.ful cfg.stride (cfg.endC + 1) cells (c + cfg.stride) 0 := by
      rcases h1 with h1 | h1
      · exact tailT_empty_cell hs hc (H c h1)
      · exact restT_end hs hc h1
    rw [advanceLoop, if_pos h1, dif_neg h2] at h
    rw [hx]
    exact ih h (by omega)
  | case3 c i h1 h2 =>
    exfalso
    rw [List.getElem?_eq_none_iff] at h2
    exact h1 (Or.inr h2)
  | case4 c i h1 p h2 h3 =>
    rw [advanceLoop, if_neg h1] at h
    simp only [h2, h3, if_true] at h
    cases h
  | case5 c i h1 p h2 h3 ih =>
    rw [advanceLoop, if_neg h1] at h
    simp only [h2, h3] at h
    rw [restT_skip h2 (by simpa using h3)]
    exact ih (by simpa using h) hc

theorem advanceLoop_some {cfg : IterCfg P} {cells : List (List P)} (hs : 0 < cfg.stride) (H : NoneInIrrelevant cfg cells)
    {c i c' i' : Nat} (h : advanceLoop cfg cells c i = some (c', i')) :
    c ≤ c' ∧ (∃ p, (cells.getD c' [])[i']? = some p ∧ cfg.ful p = true) ∧ (cfg.endC < c → c' = c) ∧
    (c < cfg.endC + 1 → c' < cfg.endC + 1 ∧
      restT cfg.ful cfg.stride (cfg.endC + 1) cells c i = restT cfg.ful cfg.stride (cfg.endC + 1) cells c' i') := by
  induction c, i using advanceLoop.induct cfg cells with
  | case1 c i h1 h2 =>
    rw [advanceLoop, if_pos h1, dif_pos h2] at h; cases h
  | case2 c i h1 h2 ih =>
    rw [advanceLoop, if_pos h1, dif_neg h2] at h
    obtain ⟨k1, k2, k3, k4⟩ := ih h
    refine ⟨by omega, k2, fun _ => by omega, fun hc => ?_⟩
    obtain ⟨k5, k6⟩ := k4 (by omega)
    refine ⟨k5, ?_⟩
    rw [← k6]
    rcases h1 with h1 | h1
    · exact tailT_empty_cell hs hc (H c h1)
    · exact restT_end hs hc h1
  | case3 c i h1 h2 =>
    exfalso
    rw [List.getElem?_eq_none_iff] at h2
    exact h1 (Or.inr h2)
  | case4 c i h1 p h2 h3 =>
    rw [advanceLoop, if_neg h1] at h
    simp only [h2, h3, if_true, Option.some.injEq, Prod.mk.injEq] at h
    obtain ⟨rfl, rfl⟩ := h
    exact ⟨le_refl _, ⟨p, h2, h3⟩, fun _ => rfl, fun hc => ⟨hc, rfl⟩⟩
  | case5 c i h1 p h2 h3 ih =>
    rw [advanceLoop, if_neg h1] at h
    simp only [h2, h3] at h
    obtain ⟨k1, k2, k3, k4⟩ := ih (by simpa using h)
    refine ⟨k1, k2, k3, fun hc => ?_⟩
    rw [restT_skip h2 (by simpa using h3)]
    exact k4 hc

/-- The position `getParticle` starts from. -/
def effCell (cfg : IterCfg P) (c i : Nat) : Nat := if c = 0 ∧ i = 0 then cfg.startC + cfg.thread else c

theorem getParticle_none {cfg : IterCfg P} {cells : List (List P)} (hs : 0 < cfg.stride) (H : NoneInIrrelevant cfg cells)
    {c i : Nat} (h : getParticleImpl cfg cells c i = none) :
    restT cfg.ful cfg.stride (cfg.endC + 1) cells (effCell cfg c i) i = [] := by
  unfold getParticleImpl at h
  simp only [] at h
  change (if cells.length ≤ effCell cfg c i then none else _) = none at h
  set e := effCell cfg c i with he
  change (if cells.length ≤ e then none else _) = none at h
  by_cases h1 : cells.length ≤ e
  · exact restT_out h1
  rw [if_neg h1] at h
  by_cases hc : e < cfg.endC + 1
  swap
  · rw [restT, if_neg (by omega)]
  have adv : advanceIteratorIndices cfg cells e i = none → restT cfg.ful cfg.stride (cfg.endC + 1) cells e (i + 1) = [] :=
    fun ha => advanceLoop_none hs H ha
  have advs : ∀ c' i', advanceIteratorIndices cfg cells e i = some (c', i') →
      (if cfg.endC < c' then none else Option.map (fun p => (c', i', p)) (cells.getD c' [])[i']?) ≠ none := by
    intro c' i' ha
    obtain ⟨k1, ⟨p, k2, -⟩, k3, k4⟩ := advanceLoop_some hs H ha
    obtain ⟨k5, k6⟩ := k4 hc
    rw [if_neg (by omega), k2]; simp
  cases hg : (cells.getD e [])[i]? with
  | none =>
    change (match (if (match (cells.getD e [])[i]? with | none => false | some p => cfg.ful p) = true then some (e, i)
      else advanceIteratorIndices cfg cells e i) with
      | none => none
      | some (c, i) => if cfg.endC < c then none else Option.map (fun p => (c, i, p)) (cells.getD c [])[i]?) = none at h
    rw [hg] at h
    simp only [Bool.false_eq_true, if_false] at h
    cases ha : advanceIteratorIndices cfg cells e i with
    | none =>
      have := adv ha
      rw [List.getElem?_eq_none_iff] at hg
      rw [restT_end hs hc (by omega)] at this ⊢
      exact this
    | some q =>
      rw [ha] at h
      exact absurd h (advs _ _ ha)
  | some p =>
    change (match (if (match (cells.getD e [])[i]? with | none => false | some p => cfg.ful p) = true then some (e, i)
      else advanceIteratorIndices cfg cells e i) with
      | none => none
      | some (c, i) => if cfg.endC < c then none else Option.map (fun p => (c, i, p)) (cells.getD c [])[i]?) = none at h
    rw [hg] at h
    cases hf : cfg.ful p with
    | true =>
      simp only [hf, if_true] at h
      rw [if_neg (by omega), hg] at h
      simp at h
    | false =>
      simp only [hf, Bool.false_eq_true, if_false] at h
      cases ha : advanceIteratorIndices cfg cells e i with
      | none =>
        rw [restT_skip hg hf]
        exact adv ha
      | some q =>
        rw [ha] at h
        exact absurd h (advs _ _ ha)

theorem getParticle_some {cfg : IterCfg P} {cells : List (List P)} (hs : 0 < cfg.stride) (H : NoneInIrrelevant cfg cells)
    {c i c' i' : Nat} {p : P} (h : getParticleImpl cfg cells c i = some (c', i', p)) :
    effCell cfg c i ≤ c' ∧ c' < cfg.endC + 1 ∧ (cells.getD c' [])[i']? = some p ∧ cfg.ful p = true ∧
    restT cfg.ful cfg.stride (cfg.endC + 1) cells (effCell cfg c i) i = restT cfg.ful cfg.stride (cfg.endC + 1) cells c' i' := by
  unfold getParticleImpl at h
  simp only [] at h
  change (if cells.length ≤ effCell cfg c i then none else _) = _ at h
  set e := effCell cfg c i with he
  change (if cells.length ≤ e then none else _) = _ at h
  by_cases h1 : cells.length ≤ e
  · rw [if_pos h1] at h; cases h
  rw [if_neg h1] at h
  have fin : ∀ c1 i1, (if cfg.endC < c1 then none else Option.map (fun p => (c1, i1, p)) (cells.getD c1 [])[i1]?) = some (c', i', p) →
      c1 = c' ∧ i1 = i' ∧ c1 < cfg.endC + 1 ∧ (cells.getD c' [])[i']? = some p := by
    intro c1 i1 hx
    by_cases h2 : cfg.endC < c1
    · rw [if_pos h2] at hx; cases hx
    rw [if_neg h2] at hx
    obtain ⟨q, hq, hq2⟩ := Option.map_eq_some_iff.1 hx
    cases hq2
    exact ⟨rfl, rfl, by omega, hq⟩
  have advs : ∀ c1 i1, advanceIteratorIndices cfg cells e i = some (c1, i1) →
      (if cfg.endC < c1 then none else Option.map (fun p => (c1, i1, p)) (cells.getD c1 [])[i1]?) = some (c', i', p) →
      e ≤ c' ∧ c' < cfg.endC + 1 ∧ (cells.getD c' [])[i']? = some p ∧ cfg.ful p = true ∧
      restT cfg.ful cfg.stride (cfg.endC + 1) cells e (i + 1) = restT cfg.ful cfg.stride (cfg.endC + 1) cells c' i' := by
    intro c1 i1 ha hx
    obtain ⟨rfl, rfl, h3, h4⟩ := fin _ _ hx
    obtain ⟨k1, ⟨q, k2, k2'⟩, k3, k4⟩ := advanceLoop_some hs H ha
    rw [k2] at h4
    cases h4
    have hc : e < cfg.endC + 1 := by omega
    obtain ⟨k5, k6⟩ := k4 hc
    exact ⟨k1, k5, k2, k2', k6⟩
  change (match (if (match (cells.getD e [])[i]? with | none => false | some p => cfg.ful p) = true then some (e, i)
      else advanceIteratorIndices cfg cells e i) with
      | none => none
      | some (c, i) => if cfg.endC < c then none else Option.map (fun p => (c, i, p)) (cells.getD c [])[i]?) = _ at h
  cases hg : (cells.getD e [])[i]? with
  | none =>
    rw [hg] at h
    simp only [Bool.false_eq_true, if_false] at h
    cases ha : advanceIteratorIndices cfg cells e i with
    | none => rw [ha] at h; cases h
    | some q =>
      rw [ha] at h
      obtain ⟨k1, k2, k3, k4, k5⟩ := advs q.1 q.2 ha h
      refine ⟨k1, k2, k3, k4, ?_⟩
      rw [← k5]
      rw [List.getElem?_eq_none_iff] at hg
      rw [restT_end hs (by omega) hg, restT_end (i := i + 1) hs (by omega) (by omega)]
  | some q =>
    rw [hg] at h
    cases hf : cfg.ful q with
    | true =>
      simp only [hf, if_true] at h
      obtain ⟨rfl, rfl, h3, h4⟩ := fin _ _ h
      rw [hg] at h4; cases h4
      exact ⟨le_refl _, h3, hg, hf, rfl⟩
    | false =>
      simp only [hf, Bool.false_eq_true, if_false] at h
      cases ha : advanceIteratorIndices cfg cells e i with
      | none => rw [ha] at h; cases h
      | some q =>
        rw [ha] at h
        obtain ⟨k1, k2, k3, k4, k5⟩ := advs q.1 q.2 ha h
        refine ⟨k1, k2, k3, k4, ?_⟩
        rw [← k5, restT_skip hg hf]

theorem getParticle_here {cfg : IterCfg P} {cells : List (List P)} {c i : Nat} {p : P}
    (h0 : cfg.startC + cfg.thread ≤ c) (hc : c < cfg.endC + 1) (hp : (cells.getD c [])[i]? = some p) (hf : cfg.ful p = true) :
    getParticleImpl cfg cells c i = some (c, i, p) := by
  unfold getParticleImpl
  have he : (if c = 0 ∧ i = 0 then cfg.startC + cfg.thread else c) = c := by split <;> omega
  simp only [he]
  have hl : ¬ cells.length ≤ c := by
    intro hl
    rw [List.getD, List.getElem?_eq_none hl] at hp; simp at hp
  rw [if_neg hl, hp]
  simp only [hf, if_true]
  rw [if_neg (by omega), hp]; rfl

theorem findInVecs_none {cfg : IterCfg P} {vecs : List (List P)} (hs : 0 < cfg.stride) {v i : Nat}
    (h : findInVecs cfg vecs v i = none) : restT cfg.ful cfg.stride vecs.length vecs v i = [] := by
  induction v, i using findInVecs.induct cfg vecs with
  | case1 v i h1 => rw [restT, if_neg (by omega)]
  | case2 v i h1 h2 ih =>
    rw [findInVecs, dif_neg h1] at h
    split at h
    · rw [List.getElem?_eq_none_iff] at h2
      rw [restT_end hs (by omega) h2]
      exact ih h
    · simp_all
  | case3 v i h1 p h2 h3 =>
    rw [findInVecs, dif_neg h1] at h
    split at h
    · simp_all
    · rename_i q hq
      rw [h2] at hq; cases hq
      simp [h3] at h
  | case4 v i h1 p h2 h3 ih =>
    rw [findInVecs, dif_neg h1] at h
    split at h
    · simp_all
    · rename_i q hq
      rw [h2] at hq; cases hq
      rw [if_neg h3] at h
      rw [restT_skip h2 (by simpa using h3)]
      exact ih h

theorem findInVecs_some {cfg : IterCfg P} {vecs : List (List P)} (hs : 0 < cfg.stride) {v i v' i' : Nat} {p : P}
    (h : findInVecs cfg vecs v i = some (v', i', p)) :
    v' < vecs.length ∧ (vecs.getD v' [])[i']? = some p ∧ cfg.ful p = true ∧
    restT cfg.ful cfg.stride vecs.length vecs v i = restT cfg.ful cfg.stride vecs.length vecs v' i' := by
  induction v, i using findInVecs.induct cfg vecs with
  | case1 v i h1 => rw [findInVecs, dif_pos h1] at h; cases h
  | case2 v i h1 h2 ih =>
    rw [findInVecs, dif_neg h1] at h
    split at h
    · rw [List.getElem?_eq_none_iff] at h2
      rw [restT_end hs (by omega) h2]
      exact ih h
    · simp_all
  | case3 v i h1 q h2 h3 =>
    rw [findInVecs, dif_neg h1] at h
    split at h
    · simp_all
    · rename_i q hq
      rw [h2] at hq; cases hq
      rw [if_pos h3] at h
      simp only [Option.some.injEq, Prod.mk.injEq] at h
      obtain ⟨rfl, rfl, rfl⟩ := h
      exact ⟨by omega, h2, h3, rfl⟩
  | case4 v i h1 q h2 h3 ih =>
    rw [findInVecs, dif_neg h1] at h
    split at h
    · simp_all
    · rename_i q hq
      rw [h2] at hq; cases hq
      rw [if_neg h3] at h
      rw [restT_skip h2 (by simpa using h3)]
      exact ih h

theorem findInVecs_here {cfg : IterCfg P} {vecs : List (List P)} (hs : 0 < cfg.stride) {v i : Nat} {p : P}
    (hp : (vecs.getD v [])[i]? = some p) (hf : cfg.ful p = true) : findInVecs cfg vecs v i = some (v, i, p) := by
  have hl : ¬ vecs.length ≤ v := by
    intro hl
    rw [List.getD, List.getElem?_eq_none hl] at hp; simp at hp
  rw [findInVecs, dif_neg (by omega)]
  split
  · simp_all
  · rename_i q hq
    rw [hp] at hq; cases hq
    rw [if_pos hf]

end Verif
