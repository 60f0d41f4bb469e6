import Verif.Lemmas.SlicedLocks
/-!
Reachable states of the lock protocol of the sliced traversals: mutual exclusion and absence of deadlock.
-/
namespace Verif

theorem GoodThick.pos {ov : Nat} {thick : List Nat} (h : GoodThick ov thick) {s : Nat} (hs : s < thick.length) :
    0 < thick.getD s 0 := by
  rcases Nat.lt_or_ge (s + 1) thick.length with h1 | h1
  · have := h.1 s h1; omega
  · have h2 : thick.length - 1 = s := by omega
    have := h.2 (by rintro rfl; simp at hs)
    rw [h2] at this; omega

theorem GoodThick.thick {ov : Nat} {thick : List Nat} (h : GoodThick ov thick) {s : Nat} (hs : s < thick.length) :
    s ≠ thick.length - 1 → ov + 1 ≤ thick.getD s 0 := fun h1 => h.1 s (by omega)

/-- The invariant: every slice has executed a prefix of its program, and a lock is owned by a slice iff the slice has
acquired and not released it. -/
def SlicedInv (ov : Nat) (thick : List Nat) (σ : SlicedState) : Prop :=
  (∀ s < thick.length, ∃ pre, pre ++ σ.rest s = sliceProgram ov thick s ∧
    ∀ l, σ.owner l = some s ↔ heldAfter (fun _ => False) pre l) ∧
  (∀ s, thick.length ≤ s → σ.rest s = []) ∧ (∀ l s, σ.owner l = some s → s < thick.length)

theorem slicedInv_init (ov : Nat) (thick : List Nat) : SlicedInv ov thick (slicedInit ov thick) := by
  refine ⟨fun s hs => ⟨[], by simp [slicedInit, hs], by simp [slicedInit, heldAfter]⟩, fun s hs => ?_, ?_⟩
  · simp [slicedInit]; omega
  · simp [slicedInit]

theorem slicedInv_step {ov : Nat} {thick : List Nat} (hg : GoodThick ov thick) {σ σ' : SlicedState} {s : Nat}
    (hi : SlicedInv ov thick σ) (st : SlicedStep s σ σ') : SlicedInv ov thick σ' := by
  obtain ⟨h1, h2, h3⟩ := hi
  have hs : ∀ {x r}, σ.rest s = x :: r → s < thick.length := by
    intro x r h
    by_contra hc
    rw [h2 s (by omega)] at h
    cases h
  cases st with
  | @lock l r h free =>
    have hsl := hs h
    refine ⟨fun s' hs' => ?_, fun s' hs' => ?_, fun m s' hm => ?_⟩
    · obtain ⟨pre, hp, ho⟩ := h1 s' hs'
      by_cases e : s' = s
      · subst e
        refine ⟨pre ++ [.lock l], by simp [← hp, h], fun m => ?_⟩
        rw [heldAfter_append]
        simp only [heldAfter]
        by_cases em : m = l
        · subst em; simp
        · rw [Function.update_of_ne em, ho]; simp [em]
      · refine ⟨pre, by simp only; rw [Function.update_of_ne e]; exact hp, fun m => ?_⟩
        rw [← ho]
        by_cases em : m = l
        · subst em
          simp only [Function.update_self, free, Option.some.injEq, reduceCtorEq, iff_false]
          exact fun h => e h.symm
        · simp only [Function.update_of_ne em]
    · simp only
      rw [Function.update_of_ne (by omega)]
      exact h2 s' hs'
    · by_cases em : m = l
      · subst em
        simp only [Function.update_self, Option.some.injEq] at hm
        omega
      · simp only [Function.update_of_ne em] at hm
        exact h3 m s' hm
  | @process d r h =>
    have hsl := hs h
    refine ⟨fun s' hs' => ?_, fun s' hs' => ?_, h3⟩
    · obtain ⟨pre, hp, ho⟩ := h1 s' hs'
      by_cases e : s' = s
      · subst e
        refine ⟨pre ++ [.process d], by simp [← hp, h], fun m => ?_⟩
        rw [heldAfter_append]
        simp only [heldAfter]
        exact ho m
      · exact ⟨pre, by simp only; rw [Function.update_of_ne e]; exact hp, ho⟩
    · simp only
      rw [Function.update_of_ne (by omega)]
      exact h2 s' hs'
  | @unlock l r h =>
    have hsl := hs h
    have hown : σ.owner l = some s := by
      obtain ⟨pre, hp, ho⟩ := h1 s hsl
      rw [h] at hp
      rcases slice_position (hg.thick hsl) hp with ⟨-, k, -, h, -⟩ | ⟨-, k, -, -, h, -⟩ | ⟨k, -, h, -⟩ | ⟨m, e, hm⟩
      · cases h
      · cases h
      · cases h
      · cases e
        exact (ho l).2 hm
    refine ⟨fun s' hs' => ?_, fun s' hs' => ?_, fun m s' hm => ?_⟩
    · obtain ⟨pre, hp, ho⟩ := h1 s' hs'
      by_cases e : s' = s
      · subst e
        refine ⟨pre ++ [.unlock l], by simp [← hp, h], fun m => ?_⟩
        rw [heldAfter_append]
        simp only [heldAfter]
        by_cases em : m = l
        · subst em; simp
        · rw [Function.update_of_ne em, ho]; simp [em]
      · refine ⟨pre, by simp only; rw [Function.update_of_ne e]; exact hp, fun m => ?_⟩
        rw [← ho]
        by_cases em : m = l
        · subst em
          simp only [Function.update_self, hown, Option.some.injEq, reduceCtorEq, false_iff]
          exact fun h => e h.symm
        · simp only [Function.update_of_ne em]
    · simp only
      rw [Function.update_of_ne (by omega)]
      exact h2 s' hs'
    · by_cases em : m = l
      · subst em
        simp only [Function.update_self, reduceCtorEq] at hm
      · simp only [Function.update_of_ne em] at hm
        exact h3 m s' hm

theorem slicedInv_reach {ov : Nat} {thick : List Nat} (hg : GoodThick ov thick) {σ : SlicedState}
    (hr : SlicedReach ov thick σ) : SlicedInv ov thick σ := by
  induction hr with
  | init => exact slicedInv_init ov thick
  | step _ st ih => exact slicedInv_step hg ih st

theorem mul_add_inj {ov a b i j : Nat} (hi : i < ov) (hj : j < ov) (h : a * ov + i = b * ov + j) : a = b ∧ i = j := by
  have h0 : 0 < ov := by omega
  have e1 : (a * ov + i) / ov = a := by rw [Nat.mul_comm, Nat.mul_add_div h0, Nat.div_eq_of_lt hi]; omega
  have e2 : (b * ov + j) / ov = b := by rw [Nat.mul_comm, Nat.mul_add_div h0, Nat.div_eq_of_lt hj]; omega
  have : a = b := by rw [← e1, h, e2]
  subst this
  omega

/-- What a slice that is about to do `x` looks like. -/
theorem SlicedInv.position {ov : Nat} {thick : List Nat} (hg : GoodThick ov thick) {σ : SlicedState}
    (hi : SlicedInv ov thick σ) {s : Nat} {x : SliceAct} {r : List SliceAct} (h : σ.rest s = x :: r) :
    s < thick.length ∧
    ((s > 0 ∧ ∃ k < ov, x = .lock ((s - 1) * ov + k) ∧
      ∀ l, σ.owner l = some s ↔ ∃ i < k, l = (s - 1) * ov + i) ∨
    (s ≠ thick.length - 1 ∧ ∃ o < thick.getD s 0, thick.getD s 0 ≤ o + ov ∧
      x = .lock (s * ov + (ov - (thick.getD s 0 - o))) ∧
      ∀ l, σ.owner l = some s ↔ layerHeld ov thick.length (thick.getD s 0) s o l) ∨
    (∃ o < thick.getD s 0, x = .process (sliceStart thick s + o) ∧ ∀ l, σ.owner l = some s ↔
      (s > 0 ∧ ∃ i, o ≤ i ∧ i < ov ∧ l = (s - 1) * ov + i) ∨
        (s ≠ thick.length - 1 ∧ ∃ k, k + thick.getD s 0 ≤ ov + o ∧ l = s * ov + k)) ∨
    (∃ l, x = .unlock l ∧ σ.owner l = some s)) := by
  have hs : s < thick.length := by
    by_contra hc
    rw [hi.2.1 s (by omega)] at h
    cases h
  refine ⟨hs, ?_⟩
  obtain ⟨pre, hp, ho⟩ := hi.1 s hs
  rw [h] at hp
  simp only [ho]
  exact slice_position (hg.thick hs) hp

/-- A slice holds no lock when it is done. -/
theorem SlicedInv.done {ov : Nat} {thick : List Nat} (hg : GoodThick ov thick) {σ : SlicedState}
    (hi : SlicedInv ov thick σ) {s : Nat} (h : σ.rest s = []) (l : Nat) : σ.owner l ≠ some s := by
  intro hl
  have hs := hi.2.2 l s hl
  obtain ⟨pre, hp, ho⟩ := hi.1 s hs
  rw [h, List.append_nil] at hp
  rw [ho, hp] at hl
  exact held_done (hg.thick hs) (hg.pos hs) l hl

/-- A slice holds no lock before it has started. -/
theorem SlicedInv.fresh {ov : Nat} {thick : List Nat} {σ : SlicedState}
    (hi : SlicedInv ov thick σ) {s : Nat} (hs : s < thick.length) (h : σ.rest s = sliceProgram ov thick s) (l : Nat) :
    σ.owner l ≠ some s := by
  intro hl
  obtain ⟨pre, hp, ho⟩ := hi.1 s hs
  rw [h] at hp
  have : pre = [] := by
    have := congrArg List.length hp
    rw [List.length_append] at this
    exact List.length_eq_zero_iff.1 (by omega)
  subst this
  rw [ho] at hl
  exact hl

theorem sliceStart_succ {thick : List Nat} {s : Nat} (hs : s < thick.length) :
    sliceStart thick (s + 1) = sliceStart thick s + thick.getD s 0 := by
  unfold sliceStart
  rw [List.take_add_one, List.sum_append, List.getD_eq_getElem?_getD]
  rw [List.getElem?_eq_getElem hs]
  simp

theorem sliceStart_mono {thick : List Nat} {s s' : Nat} (h : s ≤ s') (hs : s' ≤ thick.length) :
    sliceStart thick s ≤ sliceStart thick s' := by
  induction s', h using Nat.le_induction with
  | base => exact le_refl _
  | succ n hn ih =>
    rw [sliceStart_succ (by omega)]
    have := ih (by omega)
    omega

theorem slicedInv_exclusion_lt {ov : Nat} {thick : List Nat} (hg : GoodThick ov thick) {σ : SlicedState}
    (hi : SlicedInv ov thick σ) {s s' d e : Nat} {r r' : List SliceAct} (hlt : s < s')
    (h : σ.rest s = .process d :: r) (h' : σ.rest s' = .process e :: r') : d + ov < e := by
  obtain ⟨hs, p⟩ := hi.position hg h
  obtain ⟨hs', p'⟩ := hi.position hg h'
  rcases p with ⟨-, k, -, h, -⟩ | ⟨-, k, -, -, h, -⟩ | ⟨o, ho, hx, hl⟩ | ⟨m, h, -⟩ <;> try cases h
  rcases p' with ⟨-, k, -, h, -⟩ | ⟨-, k, -, -, h, -⟩ | ⟨o', ho', hx', hl'⟩ | ⟨m, h, -⟩ <;> try cases h
  cases hx
  cases hx'
  have e1 := sliceStart_succ hs
  rcases Nat.lt_or_ge (s + 1) s' with h2 | h2
  · have e2 := sliceStart_succ (thick := thick) (s := s + 1) (by omega)
    have e3 := sliceStart_mono (thick := thick) (s := s + 1 + 1) (s' := s') (by omega) (by omega)
    have e4 := hg.1 (s + 1) (by omega)
    omega
  · have : s' = s + 1 := by omega
    subst this
    by_contra hc
    have hA : σ.owner (s * ov + (ov - (thick.getD s 0 - o))) = some s :=
      (hl _).2 (Or.inr ⟨by omega, _, by omega, rfl⟩)
    have hB : σ.owner (s * ov + (ov - (thick.getD s 0 - o))) = some (s + 1) :=
      (hl' _).2 (Or.inl ⟨by omega, ov - (thick.getD s 0 - o), by omega, by omega, by simp⟩)
    rw [hA] at hB
    simp at hB

/-- A slice that waits for one of its last locks, held by the next slice, cannot be part of a deadlock. -/
theorem slicedInv_no_end_wait {ov : Nat} {thick : List Nat} (hg : GoodThick ov thick) {σ : SlicedState}
    (hi : SlicedInv ov thick σ) (A : Nat → Prop)
    (hA : ∀ s < thick.length, σ.rest s ≠ sliceProgram ov thick s → σ.rest s ≠ [] → A s)
    (hb : ∀ s, A s → σ.rest s ≠ [] → ∃ l r o, σ.rest s = .lock l :: r ∧ σ.owner l = some o) (n : Nat) :
    ∀ s, A s → thick.length - s = n → ∀ o r, o < thick.getD s 0 → thick.getD s 0 ≤ o + ov → s ≠ thick.length - 1 →
      σ.rest s = .lock (s * ov + (ov - (thick.getD s 0 - o))) :: r →
      (∀ l, σ.owner l = some s ↔ layerHeld ov thick.length (thick.getD s 0) s o l) → False := by
  induction n with
  | zero =>
    intro s hs hn o r ho hov hne hr hl
    have := (hi.position hg hr).1
    omega
  | succ n ih =>
    intro s hs hn o r ho hov hne hr hl
    obtain ⟨l, r1, w, hr1, hw⟩ := hb s hs (by rw [hr]; simp)
    rw [hr] at hr1
    simp only [List.cons.injEq, SliceAct.lock.injEq] at hr1
    obtain ⟨rfl, -⟩ := hr1
    have hsl := (hi.position hg hr).1
    -- the owner is the next slice
    have hwlt := hi.2.2 _ _ hw
    have hown : w = s + 1 ∧ σ.owner (s * ov + (ov - (thick.getD s 0 - o))) = some (s + 1) := by
      have hwr : σ.rest w ≠ [] := fun h => hi.done hg h _ hw
      obtain ⟨x, rx, hx⟩ := List.exists_cons_of_ne_nil hwr
      -- locks of slice w
      have hlk : (w > 0 ∧ ∃ i < ov, s * ov + (ov - (thick.getD s 0 - o)) = (w - 1) * ov + i) ∨
          (∃ i < ov, s * ov + (ov - (thick.getD s 0 - o)) = w * ov + i) := by
        obtain ⟨pre, hp, hpo⟩ := hi.1 w hwlt
        have hwh := (hpo _).1 hw
        obtain ⟨-, p⟩ := hi.position hg hx
        rcases p with ⟨h1, k, hk, -, h2⟩ | ⟨h1, k, hk, -, -, h2⟩ | ⟨k, hk, -, h2⟩ | ⟨m, h, -⟩
        · obtain ⟨i, hi1, hi2⟩ := (h2 _).1 hw
          exact Or.inl ⟨h1, i, by omega, hi2⟩
        · rcases (h2 _).1 hw with ⟨h3, -, i, -, h4, h5⟩ | ⟨-, -, i, h4, h5⟩
          · exact Or.inl ⟨h3, i, h4, h5⟩
          · exact Or.inr ⟨i, by omega, h5⟩
        · rcases (h2 _).1 hw with ⟨h3, i, -, h4, h5⟩ | ⟨-, i, h4, h5⟩
          · exact Or.inl ⟨h3, i, h4, h5⟩
          · exact Or.inr ⟨i, by omega, h5⟩
        · -- w is about to unlock, so it is not blocked
          exfalso
          have hAw : A w := by
            apply hA w hwlt _ hwr
            intro hc
            exact hi.fresh hwlt hc _ hw
          obtain ⟨l', r', o', e, -⟩ := hb w hAw hwr
          rw [hx, h] at e
          simp at e
      rcases hlk with ⟨h1, i, h2, h3⟩ | ⟨i, h2, h3⟩
      · obtain ⟨h4, -⟩ := mul_add_inj (by omega) h2 h3
        have : w = s + 1 := by omega
        exact ⟨this, by rw [← this]; exact hw⟩
      · obtain ⟨h4, -⟩ := mul_add_inj (by omega) h2 h3
        subst h4
        exfalso
        rcases (hl _).1 hw with ⟨h5, -, i, -, h6, h7⟩ | ⟨-, -, i, h6, h7⟩
        · have := mul_pred s ov h5; omega
        · omega
    obtain ⟨rfl, hw⟩ := hown
    have hwr : σ.rest (s + 1) ≠ [] := fun h => hi.done hg h _ hw
    have hAw : A (s + 1) := by
      apply hA (s + 1) hwlt _ hwr
      intro hc
      exact hi.fresh hwlt hc _ hw
    obtain ⟨l', r', o', hr', hw'⟩ := hb (s + 1) hAw hwr
    obtain ⟨-, p⟩ := hi.position hg hr'
    rcases p with ⟨h1, k, hk, hx, h2⟩ | ⟨h1, k, hk, hk', hx, h2⟩ | ⟨k, hk, hx, h2⟩ | ⟨m, hx, -⟩
    · -- the next slice is still acquiring its first locks
      simp only [SliceAct.lock.injEq] at hx
      subst hx
      simp only [Nat.add_sub_cancel] at hw' h2
      obtain ⟨i, hi1, hi2⟩ := (h2 _).1 hw
      -- its missing lock is held by s, but s has only acquired smaller ones
      have hwlt' := hi.2.2 _ _ hw'
      have hne' : o' ≠ s + 1 := by
        rintro rfl
        obtain ⟨j, hj1, hj2⟩ := (h2 _).1 hw'
        omega
      have : o' = s := by
        have hor : σ.rest o' ≠ [] := fun h => hi.done hg h _ hw'
        obtain ⟨x, rx, hx⟩ := List.exists_cons_of_ne_nil hor
        have hAo : A o' := by
          apply hA o' hwlt' _ hor
          intro hc
          exact hi.fresh hwlt' hc _ hw'
        obtain ⟨l2, r2, o2, e2, -⟩ := hb o' hAo hor
        obtain ⟨-, p⟩ := hi.position hg e2
        rcases p with ⟨h1, k', hk', -, h3⟩ | ⟨h1, k', hk', -, -, h3⟩ | ⟨k', hk', e3, -⟩ | ⟨m, e3, -⟩
        · obtain ⟨j, hj1, hj2⟩ := (h3 _).1 hw'
          have := (mul_add_inj hk (by omega) hj2).1
          omega
        · rcases (h3 _).1 hw' with ⟨h4, -, j, -, h5, h6⟩ | ⟨-, -, j, h5, h6⟩
          · have := (mul_add_inj hk (by omega) h6).1
            omega
          · exact (mul_add_inj hk (by omega) h6).1.symm
        · cases e3
        · cases e3
      subst this
      rcases (hl _).1 hw' with ⟨h4, -, j, -, h5, h6⟩ | ⟨-, -, j, h5, h6⟩
      · have := mul_pred o' ov h4; omega
      · omega
    · simp only [SliceAct.lock.injEq] at hx
      subst hx
      exact ih (s + 1) hAw (by omega) k r' hk hk' h1 hr' h2
    · cases hx
    · cases hx

theorem slicedInv_no_deadlock {ov : Nat} {thick : List Nat} (hg : GoodThick ov thick) {σ : SlicedState}
    (hi : SlicedInv ov thick σ) (A : Nat → Prop)
    (hA : ∀ s < thick.length, σ.rest s ≠ sliceProgram ov thick s → σ.rest s ≠ [] → A s)
    (hb : ∀ s, A s → σ.rest s ≠ [] → ∃ l r o, σ.rest s = .lock l :: r ∧ σ.owner l = some o) {s : Nat} (hs : A s)
    (hsr : σ.rest s ≠ []) : False := by
  obtain ⟨l, r, w, hr, hw⟩ := hb s hs hsr
  obtain ⟨hsl, p⟩ := hi.position hg hr
  rcases p with ⟨h1, k, hk, hx, h2⟩ | ⟨h1, k, hk, hk', hx, h2⟩ | ⟨k, hk, hx, h2⟩ | ⟨m, hx, -⟩
  · simp only [SliceAct.lock.injEq] at hx
    subst hx
    have hwlt := hi.2.2 _ _ hw
    have hwr : σ.rest w ≠ [] := fun h => hi.done hg h _ hw
    have hAw : A w := by
      apply hA w hwlt _ hwr
      intro hc
      exact hi.fresh hwlt hc _ hw
    obtain ⟨l2, r2, o2, e2, -⟩ := hb w hAw hwr
    obtain ⟨-, p⟩ := hi.position hg e2
    rcases p with ⟨h3, k', hk', -, h4⟩ | ⟨h3, k', hk', hk'', hx', h4⟩ | ⟨k', hk', e3, -⟩ | ⟨m, e3, -⟩
    · obtain ⟨j, hj1, hj2⟩ := (h4 _).1 hw
      obtain ⟨h5, h6⟩ := mul_add_inj hk (by omega) hj2
      have : w = s := by omega
      subst this
      obtain ⟨j, hj1, hj2⟩ := (h2 _).1 hw
      omega
    · simp only [SliceAct.lock.injEq] at hx'
      subst hx'
      exact slicedInv_no_end_wait hg hi A hA hb _ w hAw rfl k' r2 hk' hk'' h3 e2 h4
    · cases e3
    · cases e3
  · simp only [SliceAct.lock.injEq] at hx
    subst hx
    exact slicedInv_no_end_wait hg hi A hA hb _ s hs rfl k r hk hk' h1 hr h2
  · cases hx
  · cases hx

end Verif
