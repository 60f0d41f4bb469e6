import Verif.Spec.SPHExchange
import Mathlib.Order.WellFounded
import Mathlib.Data.Nat.Find
import Mathlib.Tactic.Push
/-! The invariant of the exchange of messages in `sphExStep`. -/
namespace Verif
open Spec

variable {R M : Type} [DecidableEq R]

/-- The messages of `s` for `t` in the rounds from `a` up to `b`. -/
def onTheWay (P : SPHRounds R M) (s t : R) (a b : Nat) : List M :=
  ((List.range b).filter fun j => decide (a ≤ j ∧ P.dst s j = t)).map fun j => P.msg s j (expectedLog P j s)

structure NetInv (P : SPHRounds R M) (G : R → Prop) (N : SPHNet R M) : Prop where
  idle : ∀ r, ¬ G r → N.round r = 0 ∧ N.phase r = .send
  le : ∀ r, N.round r ≤ P.rounds ∧ (N.phase r ≠ .send → N.round r < P.rounds)
  log : ∀ r, N.log r = expectedLog P (N.taken r) r
  chan : ∀ s t, N.chan s t = onTheWay P s t (N.taken t) (N.sent s)
  order : ∀ t, G t → ∀ j, j < N.taken t → j < N.sent (P.src t j)

variable {P : SPHRounds R M} {G : R → Prop} {N : SPHNet R M}

theorem netInv_init : NetInv P G (.init : SPHNet R M) where
  idle := fun _ _ => ⟨rfl, rfl⟩
  le := fun _ => ⟨Nat.zero_le _, fun h => absurd rfl h⟩
  log := fun _ => rfl
  chan := fun _ _ => rfl
  order := fun _ _ j hj => absurd hj (Nat.not_lt_zero j)

theorem onTheWay_sent {s t : R} {a b : Nat} (hab : P.dst s b = t → a ≤ b) :
    onTheWay P s t a (b + 1) = onTheWay P s t a b ++ if P.dst s b = t then [P.msg s b (expectedLog P b s)] else [] := by
  unfold onTheWay
  rw [List.range_succ, List.filter_append, List.map_append]
  congr 1
  by_cases h : P.dst s b = t
  · simp [h, hab h]
  · simp [h]

theorem onTheWay_other {s t : R} {a b : Nat} (h : P.dst s a ≠ t) : onTheWay P s t (a + 1) b = onTheWay P s t a b := by
  unfold onTheWay
  congr 1
  refine List.filter_congr fun j _ => ?_
  rw [decide_eq_decide]
  constructor
  · rintro ⟨h1, h2⟩; exact ⟨by omega, h2⟩
  · rintro ⟨h1, h2⟩
    refine ⟨?_, h2⟩
    rcases Nat.lt_or_ge a j with h3 | h3
    · exact h3
    · have : j = a := by omega
      subst this; exact absurd h2 h

theorem onTheWay_head {s t : R} {a b : Nat} (h : P.dst s a = t) (hab : a < b) :
    onTheWay P s t a b = P.msg s a (expectedLog P a s) :: onTheWay P s t (a + 1) b := by
  unfold onTheWay
  have e : List.range b = List.range a ++ (a :: List.range' (a + 1) (b - a - 1)) := by
    have h1 : a :: List.range' (a + 1) (b - a - 1) = List.range' a (b - a) := by
      have : b - a = (b - a - 1) + 1 := by omega
      rw [this, List.range'_succ]; simp
    rw [h1, List.range_eq_range', List.range_eq_range']
    have := (List.range'_append_1 (s := 0) (m := a) (n := b - a))
    rw [Nat.zero_add] at this
    rw [this]; congr 1; omega
  rw [e, List.filter_append, List.filter_append]
  have f0 : ∀ c, a ≤ c → (List.range a).filter (fun j => decide (c ≤ j ∧ P.dst s j = t)) = [] := by
    intro c hc
    refine List.filter_eq_nil_iff.2 fun j hj hj' => ?_
    have h1 := List.mem_range.1 hj
    have h2 := (of_decide_eq_true hj').1
    omega
  rw [f0 a le_rfl, f0 (a + 1) (by omega), List.nil_append, List.nil_append, List.filter_cons, List.filter_cons]
  rw [if_pos (by simp [h]), if_neg (by simp), List.map_cons]
  congr 2
  refine List.filter_congr fun j hj => ?_
  have := List.mem_range'_1.1 hj
  rw [decide_eq_decide]
  constructor
  · rintro ⟨_, h2⟩; exact ⟨by omega, h2⟩
  · rintro ⟨_, h2⟩; exact ⟨by omega, h2⟩

theorem onTheWay_nil {s t : R} {a b : Nat} (hab : b ≤ a) : onTheWay P s t a b = [] := by
  unfold onTheWay
  rw [List.filter_eq_nil_iff.2, List.map_nil]
  intro j hj hj'
  have h1 := List.mem_range.1 hj
  have h2 := (of_decide_eq_true hj').1
  omega

theorem netInv_step (hA : PartnersAgree P G) (h : NetInv P G N) {r : R} (hr : G r) {N' : SPHNet R M} (hs : sphExStep P N r = some N') :
    NetInv P G N' := by
  unfold sphExStep at hs
  dsimp only at hs
  by_cases hk : N.round r < P.rounds
  swap
  · rw [if_neg hk] at hs; cases hs
  rw [if_pos hk] at hs
  cases hp : N.phase r with
  | send =>
    rw [hp] at hs
    simp only [Option.some.injEq] at hs
    subst hs
    have htk : ∀ t, SPHNet.taken { N with phase := Function.update N.phase r SPHPhase.recv, chan := Function.update N.chan r (Function.update (N.chan r) (P.dst r (N.round r)) (N.chan r (P.dst r (N.round r)) ++ [P.msg r (N.round r) (N.log r)])) } t = N.taken t := by
      intro t
      unfold SPHNet.taken
      by_cases ht : t = r
      · subst ht; simp [hp]
      · simp [Function.update_of_ne ht]
    have hst : ∀ s, s ≠ r → SPHNet.sent { N with phase := Function.update N.phase r SPHPhase.recv, chan := Function.update N.chan r (Function.update (N.chan r) (P.dst r (N.round r)) (N.chan r (P.dst r (N.round r)) ++ [P.msg r (N.round r) (N.log r)])) } s = N.sent s := by
      intro s hs; unfold SPHNet.sent; simp [Function.update_of_ne hs]
    have hsr : SPHNet.sent { N with phase := Function.update N.phase r SPHPhase.recv, chan := Function.update N.chan r (Function.update (N.chan r) (P.dst r (N.round r)) (N.chan r (P.dst r (N.round r)) ++ [P.msg r (N.round r) (N.log r)])) } r = N.sent r + 1 := by
      unfold SPHNet.sent; simp [hp]
    have hsent : N.sent r = N.round r := by unfold SPHNet.sent; simp [hp]
    have htaken : N.taken r = N.round r := by unfold SPHNet.taken; simp [hp]
    refine ⟨?_, ?_, ?_, ?_, ?_⟩
    · intro t ht
      have hne : t ≠ r := fun e => ht (e ▸ hr)
      simp only [Function.update_of_ne hne]
      exact h.idle t ht
    · intro t
      by_cases ht : t = r
      · subst ht; exact ⟨hk.le, fun _ => hk⟩
      · simp only [Function.update_of_ne ht]; exact h.le t
    · intro t; rw [htk]; exact h.log t
    · intro s t
      rw [htk]
      by_cases hs : s = r
      · subst hs
        rw [hsr, onTheWay_sent, ← h.chan, hsent]
        · simp only [Function.update_self]
          by_cases ht : P.dst s (N.round s) = t
          · subst ht
            rw [if_pos rfl, Function.update_self, h.log s, htaken]
          · rw [if_neg ht, Function.update_of_ne (Ne.symm ht), List.append_nil]
        · intro ht
          rw [hsent] at ht ⊢
          by_contra hc
          have hgt : G t := ht ▸ hA.dst_mem _ _ hr
          have := h.order t hgt (N.round s) (by omega)
          rw [← ht, hA.src_dst _ _ hr, hsent] at this
          omega
      · rw [hst s hs, ← h.chan]
        simp only [Function.update_of_ne hs]
    · intro t ht j hj
      rw [htk] at hj
      have := h.order t ht j hj
      by_cases hs : P.src t j = r
      · rw [hs] at this ⊢; rw [hsr]; omega
      · rw [hst _ hs]; exact this
  | recv =>
    rw [hp] at hs
    dsimp only at hs
    have hsent : N.sent r = N.round r + 1 := by unfold SPHNet.sent; simp [hp]
    have htaken : N.taken r = N.round r := by unfold SPHNet.taken; simp [hp]
    cases hc : N.chan (P.src r (N.round r)) r with
    | nil => rw [hc] at hs; cases hs
    | cons m rest =>
      rw [hc] at hs
      simp only [Option.some.injEq] at hs
      have hch := h.chan (P.src r (N.round r)) r
      rw [hc, htaken] at hch
      have hlt : N.round r < N.sent (P.src r (N.round r)) := by
        by_contra hcon
        rw [onTheWay_nil (by omega)] at hch
        cases hch
      rw [onTheWay_head (hA.dst_src _ _ hr) hlt] at hch
      obtain ⟨hm, hrest⟩ := List.cons.inj hch
      have htk : ∀ t, t ≠ r → N'.taken t = N.taken t := by
        intro t ht; subst hs; unfold SPHNet.taken; simp [Function.update_of_ne ht]
      have htr : N'.taken r = N.round r + 1 := by subst hs; unfold SPHNet.taken; simp
      have hst : ∀ s, N'.sent s = N.sent s := by
        intro s; subst hs; unfold SPHNet.sent
        by_cases hs : s = r
        · subst hs; simp [hp]
        · simp [Function.update_of_ne hs]
      refine ⟨?_, ?_, ?_, ?_, ?_⟩
      · intro t ht
        have hne : t ≠ r := fun e => ht (e ▸ hr)
        subst hs
        simp only [Function.update_of_ne hne]
        exact h.idle t ht
      · intro t
        subst hs
        by_cases ht : t = r
        · subst ht; exact ⟨hk.le, fun _ => hk⟩
        · simp only [Function.update_of_ne ht]; exact h.le t
      · intro t
        by_cases ht : t = r
        · subst ht
          rw [htr]
          subst hs
          simp only [Function.update_self]
          rw [h.log t, htaken, hm]
          rfl
        · rw [htk t ht, ← h.log t]
          subst hs
          simp only [Function.update_of_ne ht]
      · intro s t
        rw [hst]
        by_cases ht : t = r
        · subst ht
          rw [htr]
          by_cases hs' : s = P.src t (N.round t)
          · subst hs'
            rw [← hrest]
            subst hs
            simp only [Function.update_self]
          · have heq : onTheWay P s t (N.round t + 1) (N.sent s) = onTheWay P s t (N.round t) (N.sent s) := by
              by_cases hgs : G s
              · refine onTheWay_other fun he => hs' ?_
                have := hA.src_dst s (N.round t) hgs
                rw [he] at this
                exact this.symm
              · have hi := h.idle s hgs
                have e0 : N.sent s = 0 := by unfold SPHNet.sent; simp [hi]
                rw [e0, onTheWay_nil (Nat.zero_le _), onTheWay_nil (Nat.zero_le _)]
            rw [heq, ← htaken, ← h.chan]
            subst hs
            simp only [Function.update_of_ne hs']
        · rw [htk t ht, ← h.chan]
          subst hs
          by_cases hs' : s = P.src r (N.round r)
          · subst hs'
            simp only [Function.update_self, Function.update_of_ne ht]
          · simp only [Function.update_of_ne hs']
      · intro t ht j hj
        rw [hst]
        by_cases ht' : t = r
        · subst ht'
          rw [htr] at hj
          rcases Nat.lt_or_ge j (N.round t) with hjl | hjl
          · exact h.order t ht j (by omega)
          · have : j = N.round t := by omega
            subst this; exact hlt
        · rw [htk t ht'] at hj
          exact h.order t ht j hj
  | wait =>
    rw [hp] at hs
    dsimp only at hs
    by_cases he : P.eager r (N.round r) = true ∨ N.round r < N.taken (P.dst r (N.round r))
    swap
    · rw [if_neg he] at hs; cases hs
    rw [if_pos he] at hs
    simp only [Option.some.injEq] at hs
    have htk : ∀ t, N'.taken t = N.taken t := by
      intro t; subst hs; unfold SPHNet.taken
      by_cases ht : t = r
      · subst ht; simp [hp]
      · simp [Function.update_of_ne ht]
    have hst : ∀ s, N'.sent s = N.sent s := by
      intro s; subst hs; unfold SPHNet.sent
      by_cases hs : s = r
      · subst hs; simp [hp]
      · simp [Function.update_of_ne hs]
    refine ⟨?_, ?_, ?_, ?_, ?_⟩
    · intro t ht
      have hne : t ≠ r := fun e => ht (e ▸ hr)
      subst hs
      simp only [Function.update_of_ne hne]
      exact h.idle t ht
    · intro t
      subst hs
      by_cases ht : t = r
      · subst ht; exact ⟨by simp only [Function.update_self]; omega, fun hc => absurd (by simp) hc⟩
      · simp only [Function.update_of_ne ht]; exact h.le t
    · intro t
      rw [htk, ← h.log t]; subst hs; rfl
    · intro s t
      rw [htk, hst, ← h.chan]; subst hs; rfl
    · intro t ht j hj
      rw [htk] at hj
      rw [hst]; exact h.order t ht j hj

theorem netInv_run (hA : PartnersAgree P G) {sched : List R} (hG : ∀ r ∈ sched, G r) (hr : sphExRun P sched = some N) : NetInv P G N := by
  have key : ∀ (l : List R) (A : SPHNet R M), (∀ r ∈ l, G r) → NetInv P G A → l.foldlM (sphExStep P) A = some N → NetInv P G N := by
    intro l
    induction l with
    | nil => intro A _ hA' h; simp only [List.foldlM_nil, Option.pure_def, Option.some.injEq] at h; exact h ▸ hA'
    | cons r l ih =>
      intro A hl hA' h
      rw [List.foldlM_cons, Option.bind_eq_bind, Option.bind_eq_some_iff] at h
      obtain ⟨B, hB, h⟩ := h
      exact ih B (fun q hq => hl q (List.mem_cons_of_mem _ hq)) (netInv_step hA hA' (hl r List.mem_cons_self) hB) h
  exact key sched _ hG netInv_init hr

/-- As long as a rank has not finished, some rank can go on. -/
theorem net_progress (hA : PartnersAgree P G) (h : NetInv P G N) {r : R} (hr : G r) (hu : N.round r < P.rounds) :
    ∃ s, G s ∧ (sphExStep P N s).isSome = true := by
  classical
  by_contra hcon
  have hno : ∀ s, G s → sphExStep P N s = none := by
    intro s hs
    by_contra hc
    exact hcon ⟨s, hs, Option.isSome_iff_ne_none.2 hc⟩
  -- a rank with the least number of rounds
  have hex : ∃ k, ∃ s, G s ∧ N.round s = k := ⟨_, r, hr, rfl⟩
  obtain ⟨m, hm, hmk⟩ := Nat.find_spec hex
  have hmin : ∀ s, G s → N.round m ≤ N.round s := fun s hs => by rw [hmk]; exact Nat.find_min' hex ⟨s, hs, rfl⟩
  have hmlt : N.round m < P.rounds := lt_of_le_of_lt (hmin r hr) hu
  have hnosend : ∀ s, G s → N.round s < P.rounds → N.phase s ≠ .send := by
    intro s hs hlt hp
    have := hno s hs
    unfold sphExStep at this
    rw [if_pos hlt, hp] at this
    cases this
  have hsentall : ∀ s, G s → N.round m < N.sent s := by
    intro s hs
    have h1 := hmin s hs
    unfold SPHNet.sent
    by_cases hlt : N.round s < P.rounds
    · rw [if_neg (hnosend s hs hlt)]; omega
    · split <;> omega
  have hnorecv : ∀ s, G s → N.round s = N.round m → N.phase s ≠ .recv := by
    intro s hs he hp
    have := hno s hs
    unfold sphExStep at this
    rw [if_pos (he ▸ hmlt), hp] at this
    dsimp only at this
    have hch := h.chan (P.src s (N.round s)) s
    have ht : N.taken s = N.round s := by unfold SPHNet.taken; simp [hp]
    rw [ht, onTheWay_head (hA.dst_src _ _ hs) (by rw [he]; exact hsentall _ (hA.src_mem _ _ hs))] at hch
    rw [hch] at this
    cases this
  have hp : N.phase m = .wait := by
    cases hc : N.phase m with
    | send => exact absurd hc (hnosend m hm hmlt)
    | recv => exact absurd hc (hnorecv m hm rfl)
    | wait => rfl
  have := hno m hm
  unfold sphExStep at this
  rw [if_pos hmlt, hp] at this
  dsimp only at this
  have hd := hA.dst_mem m (N.round m) hm
  have htk : N.round m < N.taken (P.dst m (N.round m)) := by
    have h1 := hmin _ hd
    unfold SPHNet.taken
    rcases Nat.lt_or_ge (N.round m) (N.round (P.dst m (N.round m))) with h2 | h2
    · omega
    · have he : N.round (P.dst m (N.round m)) = N.round m := by omega
      have h3 := hnosend _ hd (by omega)
      have h4 := hnorecv _ hd he
      have h5 : N.phase (P.dst m (N.round m)) = .wait := by
        cases hc : N.phase (P.dst m (N.round m)) with
        | send => exact absurd hc h3
        | recv => exact absurd hc h4
        | wait => rfl
      rw [h5]; simp; omega
  rw [if_pos (Or.inr htk)] at this
  cases this

/-- How far a rank is. -/
def SPHNet.progress (N : SPHNet R M) (r : R) : Nat :=
  3 * N.round r + match N.phase r with | .send => 0 | .recv => 1 | .wait => 2

theorem progress_step {r : R} {N' : SPHNet R M} (hs : sphExStep P N r = some N') (t : R) :
    N'.progress t = N.progress t + if t = r then 1 else 0 := by
  unfold sphExStep at hs
  dsimp only at hs
  by_cases hk : N.round r < P.rounds
  swap
  · rw [if_neg hk] at hs; cases hs
  rw [if_pos hk] at hs
  cases hp : N.phase r with
  | send =>
    rw [hp] at hs
    simp only [Option.some.injEq] at hs
    subst hs
    unfold SPHNet.progress
    by_cases ht : t = r
    · subst ht; simp [hp]
    · simp [Function.update_of_ne ht, ht]
  | recv =>
    rw [hp] at hs
    dsimp only at hs
    cases hc : N.chan (P.src r (N.round r)) r with
    | nil => rw [hc] at hs; cases hs
    | cons m rest =>
      rw [hc] at hs
      simp only [Option.some.injEq] at hs
      subst hs
      unfold SPHNet.progress
      by_cases ht : t = r
      · subst ht; simp [hp]
      · simp [Function.update_of_ne ht, ht]
  | wait =>
    rw [hp] at hs
    dsimp only at hs
    split at hs
    · simp only [Option.some.injEq] at hs
      subst hs
      unfold SPHNet.progress
      by_cases ht : t = r
      · subst ht; simp [hp]; omega
      · simp [Function.update_of_ne ht, ht]
    · cases hs

theorem progress_run {sched : List R} (hr : sphExRun P sched = some N) (t : R) : N.progress t = sched.count t := by
  have key : ∀ (l : List R) (A : SPHNet R M), l.foldlM (sphExStep P) A = some N → N.progress t = A.progress t + l.count t := by
    intro l
    induction l with
    | nil => intro A h; simp only [List.foldlM_nil, Option.pure_def, Option.some.injEq] at h; subst h; simp
    | cons r l ih =>
      intro A h
      rw [List.foldlM_cons, Option.bind_eq_bind, Option.bind_eq_some_iff] at h
      obtain ⟨B, hB, h⟩ := h
      rw [ih B h, progress_step hB, List.count_cons]
      by_cases ht : t = r
      · subst ht; simp; omega
      · have : r ≠ t := fun e => ht e.symm
        simp [ht, this]
  have := key sched _ hr
  rw [this]
  simp [SPHNet.progress, SPHNet.init]

theorem progress_le (h : NetInv P G N) (r : R) : N.progress r ≤ 3 * P.rounds := by
  have h1 := h.le r
  unfold SPHNet.progress
  cases hp : N.phase r with
  | send => dsimp only; omega
  | recv => dsimp only; have := h1.2 (by rw [hp]; decide); omega
  | wait => dsimp only; have := h1.2 (by rw [hp]; decide); omega

end Verif
