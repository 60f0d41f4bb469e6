import Verif.Lemmas.MPIPhase
import Verif.Lemmas.MPIBuckets
import Mathlib.Tactic.NormNum
/-!
# C110 — A tuning phase of several MPI ranks with the divide-and-conquer strategy
-/
namespace Verif
open Spec.MPIPhase

variable {C : Type} [DecidableEq C]

/-- C110 (partial). `n` configurations are spread over `R` similar ranks. If every configuration can be used on every rank, and the number of
configurations is a multiple of the number of ranks, or at least twice, or less than it: no rank leaves the tuning phase before `⌈n / R⌉` configurations
were measured by each, then all leave it; every rank has measured all of its part of the search space (and nothing outside the search space) in this phase,
and settles on the fastest of what it measured. `time r c` is the measured time of configuration `c` on rank `r`.
Missing: between `R` and `2 R` configurations (`C110_violated_ranks_wait_for_ever`); that the ranks settle on what was found by others
(`C110_violated_optimum_not_shared`); configurations that are not applicable (`C110_violated_first_rejected`, `C110_violated_last_rejected`). -/
theorem C110_all_measure_partial {p : Nat} {S : List C} {pick : Nat → Nat} {ranks : List (MPIRank C)} (hs : Start p S pick ranks) (fb : C)
    {time : Nat → C → Int} (ht : ∀ r c, time r c < longMax) (hS : S ≠ [])
    (hn : ranks.length ∣ S.length ∨ 2 * ranks.length ≤ S.length ∨ S.length < ranks.length) :
    (∀ j < (S.length + ranks.length - 1) / ranks.length, ∃ now, mpiRun p fb (fun r c => .measured (time r c)) j ranks = .ok now ∧
      now.length = ranks.length ∧ ∀ x ∈ now, x.settled = none) ∧
    ∃ done, mpiRun p fb (fun r c => .measured (time r c)) ((S.length + ranks.length - 1) / ranks.length) ranks = .ok done ∧ done.length = ranks.length ∧
      ∀ (r : Nat) x y, ranks[r]? = some x → done[r]? = some y → ∃ best, y.settled = some best ∧ y.queue = [best] ∧
        (∀ c ∈ x.queue, Measured y.evidence p c (time r c)) ∧ (∀ c v, Measured y.evidence p c v → c ∈ S ∧ v = time r c) ∧
        Measured y.evidence p best (time r best) ∧ ∀ c v, Measured y.evidence p c v → time r best ≤ time r c := by
  have hR : 0 < ranks.length := by
    obtain ⟨x, hx, -⟩ := hs.fallback
    exact List.length_pos_of_mem hx
  have hN : 0 < S.length := List.length_pos_of_ne_nil hS
  set R := ranks.length with hRdef
  set N := S.length with hNdef
  have hlen : ∀ (r : Nat) x, ranks[r]? = some x → r < R ∧ x.queue.length = if r < N then (N - r + R - 1) / R else 1 := by
    intro r x hx
    have hr := (List.getElem?_eq_some_iff.1 hx).1
    exact ⟨hr, rankQueue_length hr (hs.parts r x hx)⟩
  have hK : 0 < (N + R - 1) / R := Nat.div_pos (by omega) hR
  -- the lengths
  have hL : ∀ (r : Nat) x, ranks[r]? = some x →
      x.queue.length = (N + R - 1) / R ∨ (x.queue.length + 1 = (N + R - 1) / R ∧ 2 ≤ x.queue.length) := by
    intro r x hx
    obtain ⟨hr, hl⟩ := hlen r x hx
    rw [hl]
    rcases hn with ⟨k, hk⟩ | hn | hn
    · left
      have hk0 : 0 < k := by
        rcases Nat.eq_zero_or_pos k with rfl | h
        · omega
        · exact h
      have hRk : R ≤ R * k := Nat.le_mul_of_pos_right _ hk0
      rw [if_pos (by omega)]
      have e1 : (N + R - 1) / R = k := by
        rw [Nat.div_eq_iff hR, hk]
        have : k * R = R * k := Nat.mul_comm _ _
        omega
      rw [e1, Nat.div_eq_iff hR, hk]
      have : k * R = R * k := Nat.mul_comm _ _
      omega
    · rw [if_pos (by omega)]
      have h2 : 2 ≤ (N - r + R - 1) / R := by
        rw [Nat.le_div_iff_mul_le hR]; omega
      have h3 : (N - r + R - 1) / R ≤ (N + R - 1) / R := Nat.div_le_div_right (by omega)
      have h4 : (N + R - 1) / R ≤ (N - r + R - 1) / R + 1 := by
        rw [← Nat.add_div_right _ hR]
        exact Nat.div_le_div_right (by omega)
      omega
    · left
      have e1 : (N + R - 1) / R = 1 := by rw [Nat.div_eq_iff hR]; omega
      rw [e1]
      split_ifs with h
      · rw [Nat.div_eq_iff hR]; omega
      · rfl
  have hsub : ∀ (r : Nat) x, ranks[r]? = some x → ∀ c ∈ x.queue, c ∈ S := fun r x hx => rankQueue_subset (hs.parts r x hx)
  let q0 : Nat → List C := fun r => match ranks[r]? with | some x => x.queue | none => []
  have hq0 : ∀ (r : Nat) x, ranks[r]? = some x → q0 r = x.queue := by
    intro r x hx
    simp only [q0, hx]
  have hmem : ∀ x ∈ ranks, ∃ r : Nat, ranks[r]? = some x := by
    intro x hx
    obtain ⟨i, hi, rfl⟩ := List.getElem_of_mem hx
    exact ⟨i, List.getElem?_eq_getElem hi⟩
  obtain ⟨a1, done, a2, a3, a4⟩ := mpi_lockstep (p := p) (fb := fb) (time := time) (U := fun _ => S) (q0 := q0) ht ((N + R - 1) / R) ranks hK
    (fun r x hx => ⟨by rw [hq0 r x hx]; exact startInv hs hx (hsub r x hx), hL r x hx⟩)
    (by
      obtain ⟨x, hx⟩ : ∃ x, ranks[0]? = some x := ⟨ranks[0]'hR, List.getElem?_eq_getElem hR⟩
      refine ⟨x, List.mem_of_getElem? hx, ?_⟩
      obtain ⟨-, hl⟩ := hlen 0 x hx
      rw [hl, if_pos hN, Nat.sub_zero]) hs.fallback (.inl fun _ _ _ h => h)
  refine ⟨a1, done, a2, a3, ?_⟩
  intro r x y hx hy
  have hd := a4 r y hy
  obtain ⟨best, b1, b2, ⟨v, b3⟩, b4⟩ := hd.best
  refine ⟨best, b1, b2, ?_, fun c v hm => ⟨(hd.values c v hm).2, (hd.values c v hm).1⟩, ?_, b4⟩
  · intro c hc
    obtain ⟨v, hv⟩ := hd.cover c (by rw [hq0 r x hx]; exact hc)
    rw [← (hd.values c v hv).1]
    exact hv
  · rw [← (hd.values best v b3).1]
    exact b3

/-- C110, every configuration is measured: with at most as many ranks as configurations, the parts of the ranks are the whole search space; with more
ranks, every configuration is in the part of some rank. (With `C110_all_measure_partial` each part is measured.) -/
theorem C110_whole_search_space {p : Nat} {S : List C} {pick : Nat → Nat} {ranks : List (MPIRank C)} (hs : Start p S pick ranks) {c : C} (hc : c ∈ S) :
    ∃ (r : Nat) (x : MPIRank C), ranks[r]? = some x ∧ c ∈ x.queue := by
  have hR : 0 < ranks.length := by
    obtain ⟨x, hx, -⟩ := hs.fallback
    exact List.length_pos_of_mem hx
  obtain ⟨i, hi, rfl⟩ := List.getElem_of_mem hc
  have hr : i % ranks.length < ranks.length := Nat.mod_lt _ hR
  have hx : ranks[i % ranks.length]? = some (ranks[i % ranks.length]'hr) := List.getElem?_eq_getElem hr
  refine ⟨i % ranks.length, _, hx, ?_⟩
  have h := hs.parts _ _ hx
  have hle : i % ranks.length ≤ i := Nat.mod_le _ _
  unfold rankQueue at h
  rw [if_pos (by omega)] at h
  have h := Outcome.ok.inj h
  rw [← h]
  refine List.mem_flatMap.2 ⟨i, (mem_forUp hR).2 ⟨hle, hi, ?_⟩, ?_⟩
  · have := Nat.div_add_mod i ranks.length
    rw [show i - i % ranks.length = ranks.length * (i / ranks.length) from by omega]
    exact Nat.mul_mod_right _ _
  · rw [List.getElem?_eq_getElem hi]; simp

/-- C110 fails if there are more configurations than ranks but less than twice as many: after the first configuration the ranks with only one have left the
phase, and the others wait for them for ever. -/
theorem C110_violated_ranks_wait_for_ever {p : Nat} {S : List C} {pick : Nat → Nat} {ranks : List (MPIRank C)} (hs : Start p S pick ranks) (fb : C)
    {time : Nat → C → Int} (ht : ∀ r c, time r c < longMax) (h1 : ranks.length < S.length) (h2 : S.length < 2 * ranks.length) (n : Nat) :
    mpiRun p fb (fun r c => .measured (time r c)) (n + 2) ranks = .diverges := by
  have hR : 0 < ranks.length := by omega
  have hlen : ∀ (r : Nat) x, ranks[r]? = some x → r < ranks.length ∧ x.queue.length = (S.length - r + ranks.length - 1) / ranks.length := by
    intro r x hx
    have hr := (List.getElem?_eq_some_iff.1 hx).1
    have := rankQueue_length hr (hs.parts r x hx)
    rw [if_pos (by omega)] at this
    exact ⟨hr, this⟩
  have hle2 : ∀ (r : Nat) x, ranks[r]? = some x → 0 < x.queue.length ∧ x.queue.length ≤ 2 := by
    intro r x hx
    obtain ⟨hr, hl⟩ := hlen r x hx
    rw [hl]
    constructor
    · exact Nat.div_pos (by omega) hR
    · rw [← Nat.lt_succ_iff, Nat.div_lt_iff_lt_mul hR]; omega
  obtain ⟨b, k, longest, ranks', hk, -, l1, ⟨xl, hxl, hxl2⟩, hr, hl', hnext⟩ := mpiRound_spec (p := p) (fb := fb) (time := time)
    (U := fun _ => S) (q0 := fun r => match ranks[r]? with | some x => x.queue | none => []) (ranks := ranks) (by
      intro e; rw [e] at hR; exact absurd hR (lt_irrefl _)) (fun r x hx => by
      refine ⟨?_, ?_⟩
      · simp only [hx]
        exact startInv hs hx (rankQueue_subset (hs.parts r x hx))
      · rw [← List.length_pos_iff]; exact (hle2 r x hx).1) ht hs.fallback
  have hlong : longest ≤ 1 := by
    obtain ⟨i, hi, rfl⟩ := List.getElem_of_mem hxl
    have := (hle2 i _ (List.getElem?_eq_getElem hi)).2
    omega
  -- rank 0 goes on
  have hx0 : ranks[0]? = some (ranks[0]'hR) := List.getElem?_eq_getElem hR
  obtain ⟨y0, e0, -, f0⟩ := hnext 0 _ hx0
  have hl0 := (hlen 0 _ hx0).2
  have hl0' : (ranks[0]'hR).queue.length = 2 := by
    rw [hl0, Nat.div_eq_iff hR]; omega
  rw [if_neg (by omega)] at f0
  -- the last rank is done
  have hlast : ranks[ranks.length - 1]? = some (ranks[ranks.length - 1]'(by omega)) := List.getElem?_eq_getElem (by omega)
  obtain ⟨y1, e1, -, f1⟩ := hnext _ _ hlast
  have hl1 := (hlen _ _ hlast).2
  have hl1' : (ranks[ranks.length - 1]'(by omega)).queue.length = 1 := by
    rw [hl1, Nat.div_eq_iff hR]; omega
  rw [if_pos hl1'] at f1
  obtain ⟨best, b1, -⟩ := f1.best
  have hdiv : mpiRound p fb (fun r c => .measured (time r c)) ranks' = .diverges := by
    unfold mpiRound
    rw [if_neg, if_pos]
    · simp only [List.any_eq_true]
      exact ⟨y1, List.mem_of_getElem? e1, by rw [b1]; rfl⟩
    · simp only [List.all_eq_true, not_forall]
      exact ⟨y0, List.mem_of_getElem? e0, by rw [f0.2.1]; simp⟩
  show (mpiRound _ _ _ _).bind _ = _
  rw [hr, ok_bind_eq]
  show (mpiRound _ _ _ _).bind _ = _
  rw [hdiv]
  rfl

/-- C110 fails: the optimum of the search is not shared. If the configurations are spread evenly, every rank settles on a configuration of its own part, although
another one is faster on all ranks. -/
theorem C110_violated_optimum_not_shared {p : Nat} {S : List C} {pick : Nat → Nat} {ranks : List (MPIRank C)} (hs : Start p S pick ranks) (fb : C)
    {time : Nat → C → Int} (ht : ∀ r c, time r c < longMax) (hS : S ≠ []) (hn : ranks.length ∣ S.length) :
    ∃ done, mpiRun p fb (fun r c => .measured (time r c)) (S.length / ranks.length) ranks = .ok done ∧ done.length = ranks.length ∧
      ∀ (r : Nat) x y, ranks[r]? = some x → done[r]? = some y → ∃ best ∈ x.queue, y.settled = some best := by
  have hR : 0 < ranks.length := by
    obtain ⟨x, hx, -⟩ := hs.fallback
    exact List.length_pos_of_mem hx
  have hN : 0 < S.length := List.length_pos_of_ne_nil hS
  obtain ⟨k, hk⟩ := hn
  have hk0 : 0 < k := by
    rcases Nat.eq_zero_or_pos k with rfl | h
    · omega
    · exact h
  have hRk : ranks.length ≤ ranks.length * k := Nat.le_mul_of_pos_right _ hk0
  have hL : ∀ (r : Nat) x, ranks[r]? = some x → x.queue.length = k := by
    intro r x hx
    have hr := (List.getElem?_eq_some_iff.1 hx).1
    rw [rankQueue_length hr (hs.parts r x hx), if_pos (by omega), Nat.div_eq_iff hR, hk]
    have : k * ranks.length = ranks.length * k := Nat.mul_comm _ _
    omega
  let q0 : Nat → List C := fun r => match ranks[r]? with | some x => x.queue | none => []
  have hq0 : ∀ (r : Nat) x, ranks[r]? = some x → q0 r = x.queue := by
    intro r x hx
    simp only [q0, hx]
  have hmem : ∀ x ∈ ranks, ∃ r : Nat, ranks[r]? = some x := by
    intro x hx
    obtain ⟨i, hi, rfl⟩ := List.getElem_of_mem hx
    exact ⟨i, List.getElem?_eq_getElem hi⟩
  obtain ⟨-, done, a2, a3, a4⟩ := mpi_lockstep (p := p) (fb := fb) (time := time) (U := q0) (q0 := q0) ht k ranks hk0
    (fun r x hx => ⟨by rw [hq0 r x hx]; exact startInv hs hx (fun c hc => hc), .inl (hL r x hx)⟩)
    ⟨ranks[0]'hR, List.getElem_mem _, hL 0 _ (List.getElem?_eq_getElem hR)⟩ hs.fallback (.inr fun x hx => by
      obtain ⟨r, hr⟩ := hmem x hx
      exact hL r x hr)
  rw [hk, Nat.mul_div_cancel_left _ hR]
  refine ⟨done, a2, a3, ?_⟩
  intro r x y hx hy
  have hd := a4 r y hy
  obtain ⟨best, b1, -, ⟨v, b3⟩, -⟩ := hd.best
  exact ⟨best, by rw [← hq0 r x hx]; exact (hd.values best v b3).2, b1⟩

/-- C110 fails with configurations that are not applicable: if some rank rejects the first configuration of the first phase, there is nothing measured to
choose an optimum from, and an exception is thrown. -/
theorem C110_violated_first_rejected {p : Nat} (fb : C) {event : Nat → C → RankEvent} {ranks : List (MPIRank C)} {r : Nat} {x : MPIRank C} {c : C}
    (hx : ranks[r]? = some x) (hc : x.queue.getLast? = some c) (he : event r c = .rejected) (hev : x.evidence = [])
    (hset : ∀ y ∈ ranks, y.settled = none ∧ y.queue ≠ []) : mpiRound p fb event ranks = .throws := by
  have hxm := List.mem_of_getElem? hx
  have hy : (x, r) ∈ ranks.zipIdx := List.mem_zipIdx_iff_getElem?.2 hx
  unfold mpiRound
  rw [if_neg, if_neg]
  · have h1 : outcomeAll (MPIRank.turn p event) ranks.zipIdx = .ok (ranks.zipIdx.map fun y => match MPIRank.turn p event y with
        | .ok z => z
        | _ => (y.1, .rejected)) := by
      apply outcomeAll_ok
      intro y hy
      have h := (hset y.1 (List.mem_of_getElem? (List.mem_zipIdx_iff_getElem?.1 hy))).2
      have hl : y.1.queue.getLast? = some (y.1.queue.getLast h) := List.getLast?_eq_some_getLast h
      simp only [MPIRank.turn, hl]
    rw [h1, ok_bind_eq]
    have h2 : ∀ l : List (MPIRank C), (∃ y ∈ l, y.evidence = []) → l.mapM (fun x => optimumOf (latestPhase x.evidence) x.evidence) = none := by
      intro l
      induction l with
      | nil => rintro ⟨y, hy, -⟩; cases hy
      | cons z l ih =>
        rintro ⟨y, hy, hye⟩
        rw [List.mapM_cons]
        rcases List.mem_cons.1 hy with rfl | hy
        · rw [hye]; rfl
        · rw [ih ⟨y, hy, hye⟩]
          cases optimumOf (latestPhase z.evidence) z.evidence <;> rfl
    have h3 : mpiOptimize fb ((ranks.zipIdx.map fun y => match MPIRank.turn p event y with
        | .ok z => z
        | _ => (y.1, .rejected)).map Prod.fst) = .throws := by
      unfold mpiOptimize
      rw [h2]
      refine ⟨x.act p c .rejected, List.mem_map.2 ⟨(x.act p c .rejected, .rejected), List.mem_map.2 ⟨(x, r), hy, ?_⟩, rfl⟩, hev⟩
      simp only [MPIRank.turn, hc, he]
    rw [h3]
    rfl
  · simp only [List.any_eq_true, not_exists, not_and]
    intro y hy
    rw [(hset y hy).1]
    simp
  · simp only [List.all_eq_true, not_forall]
    exact ⟨x, hxm, by rw [(hset x hxm).1]; simp⟩

/-- C110 fails with configurations that are not applicable: two ranks with two configurations each. The second configuration of the second rank is not
applicable there. When it is rejected the rank has no configuration left and reads the last element of an empty queue. -/
theorem C110_violated_last_rejected {S : List C} {a b c d : C} (hS : S = [a, b, c, d]) (hd : d ≠ b) (hca : c ≠ a) (fb : C) :
    let event : Nat → C → RankEvent := fun r e => if r = 1 ∧ e = b then .rejected else .measured 5
    ∃ qa qb, rankQueue S 2 0 0 = .ok qa ∧ rankQueue S 2 1 0 = .ok qb ∧
      mpiRun 0 fb event 2 [.start qa [] false, .start qb [] false] = .ub := by
  subst hS
  refine ⟨[a, c], [b, d], ?_, ?_, ?_⟩
  · simp [rankQueue, forUp]
  · simp [rankQueue, forUp]
  · simp [mpiRun, mpiRound, MPIRank.start, outcomeAll, MPIRank.turn, MPIRank.act, addEvidence, mpiOptimize, optimumOf, optimalLoop, betterEvidence,
      latestPhase, longMax, minloc, MPIRank.stretch, MPIRank.finish, Outcome.bind, hd, hca]

theorem outcomeAll_inv {α β : Type} {f : α → Outcome β} : ∀ {l : List α} {bs : List β}, outcomeAll f l = .ok bs →
    ∀ (i : Nat) (a : α), l[i]? = some a → ∃ b, bs[i]? = some b ∧ f a = .ok b := by
  intro l
  induction l with
  | nil => intro bs _ i a h; simp at h
  | cons x l ih =>
    intro bs h i a hi
    unfold outcomeAll at h
    cases hx : f x with
    | ok b =>
      rw [hx, ok_bind_eq] at h
      cases hl : outcomeAll f l with
      | ok cs =>
        rw [hl, ok_bind_eq] at h
        cases h
        cases i with
        | zero => exact ⟨b, rfl, by simp at hi; rw [← hi]; exact hx⟩
        | succ i => exact ih hl i a (by simpa using hi)
      | _ => rw [hl] at h; cases h
    | _ => rw [hx] at h; cases h

/-- What a round does to one rank. -/
theorem mpiRound_rank {p : Nat} {fb : C} {event : Nat → C → RankEvent} {ranks now : List (MPIRank C)} (h : mpiRound p fb event ranks = .ok now)
    {r : Nat} {x : MPIRank C} (hx : ranks[r]? = some x) (hs : x.settled = none) :
    ∃ y c b longest, now[r]? = some y ∧ x.queue.getLast? = some c ∧
      ((x.act p c (event r c)).stretch fb b longest).finish p (event r c) = .ok y := by
  unfold mpiRound at h
  rw [if_neg (by
    intro hc
    have := List.all_eq_true.1 hc x (List.mem_of_getElem? hx)
    rw [hs] at this; cases this)] at h
  split at h
  · cases h
  cases h1 : outcomeAll (MPIRank.turn p event) ranks.zipIdx with
  | ok ys =>
    rw [h1, ok_bind_eq] at h
    obtain ⟨y1, hy1, ht⟩ := outcomeAll_inv h1 r (x, r) (by rw [List.getElem?_zipIdx, hx]; simp)
    unfold MPIRank.turn at ht
    dsimp only at ht
    split at ht
    · cases ht
    rename_i c hc
    cases ht
    cases h2 : mpiOptimize fb (ys.map Prod.fst) with
    | ok zs =>
      rw [h2, ok_bind_eq] at h
      unfold mpiOptimize at h2
      split at h2
      · cases h2
      split at h2
      · cases h2
      split at h2
      · cases h2
      rename_i b hb
      dsimp only at h2
      split at h2
      · cases h2
      cases h2
      obtain ⟨y, hy, hf⟩ := outcomeAll_inv h r (_, event r c) (by
        rw [List.getElem?_zip_eq_some]
        refine ⟨?_, ?_⟩
        · rw [List.getElem?_map, List.getElem?_map, hy1]
          rfl
        · rw [List.getElem?_map, hy1]; rfl)
      exact ⟨y, c, b.1, _, hy, hc, hf⟩
    | _ => rw [h2] at h; cases h
  | _ => rw [h1] at h; cases h

/-- What a rank has rejected is not in its queue, except for the fallback configuration. -/
def NotAgain (fb : C) (x : MPIRank C) : Prop := ∀ d ∈ x.rejected, d ≠ fb → d ∉ x.queue

theorem rank_notAgain {p : Nat} {fb c b : C} {e : RankEvent} {longest : Nat} {x y : MPIRank C} (h : NotAgain fb x)
    (hy : ((x.act p c e).stretch fb b longest).finish p e = .ok y) (hs : y.settled = none) (hx : x.settled = none) :
    NotAgain fb y ∧ (∀ d ∈ x.rejected, d ∈ y.rejected) ∧ (e = .rejected → c ∈ y.rejected) := by
  have h1 : NotAgain fb (x.act p c e) := by
    cases e with
    | measured v => exact fun d hd hf hm => h d hd hf (List.mem_of_mem_dropLast hm)
    | rejected =>
      intro d hd hf hm
      have hm := List.mem_filter.1 hm
      rcases List.mem_cons.1 hd with rfl | hd
      · simp at hm
      · exact h d hd hf hm.1
  have h2 : NotAgain fb ((x.act p c e).stretch fb b longest) ∧ ((x.act p c e).stretch fb b longest).rejected = (x.act p c e).rejected := by
    unfold MPIRank.stretch
    split
    · split
      · rename_i hb
        refine ⟨fun d hd hf hm => ?_, rfl⟩
        rcases List.mem_cons.1 hm with rfl | hm
        · exact hb hd
        · exact h1 d hd hf hm
      · refine ⟨fun d hd hf hm => ?_, rfl⟩
        rcases List.mem_cons.1 hm with rfl | hm
        · exact hf rfl
        · exact h1 d hd hf hm
    · exact ⟨h1, rfl⟩
  have h3 : y = (x.act p c e).stretch fb b longest := by
    cases e with
    | measured v =>
      simp only [MPIRank.finish] at hy
      split at hy
      · split at hy
        · cases hy; cases hs
        · cases hy
      · exact (Outcome.ok.inj hy).symm
    | rejected =>
      simp only [MPIRank.finish] at hy
      split at hy
      · cases hy
      · exact (Outcome.ok.inj hy).symm
  subst h3
  refine ⟨h2.1, fun d hd => ?_, fun he => ?_⟩
  · rw [h2.2]
    cases e with
    | measured v => exact hd
    | rejected => exact List.mem_cons_of_mem _ hd
  · subst he
    rw [h2.2]
    exact List.mem_cons_self

/-- A rank that has settled stays as it is. -/
theorem mpiRound_settled {p : Nat} {fb : C} {event : Nat → C → RankEvent} {ranks now : List (MPIRank C)} (h : mpiRound p fb event ranks = .ok now)
    {r : Nat} {x : MPIRank C} (hx : ranks[r]? = some x) (hs : x.settled ≠ none) : now = ranks := by
  unfold mpiRound at h
  split at h
  · exact (Outcome.ok.inj h).symm
  · rw [if_pos (by
      refine List.any_eq_true.2 ⟨x, List.mem_of_getElem? hx, ?_⟩
      cases hc : x.settled with
      | none => exact absurd hc hs
      | some _ => rfl)] at h
    cases h

theorem mpiRun_settled {p : Nat} {fb : C} {event : Nat → C → RankEvent} {r : Nat} : ∀ (n : Nat) {ranks now : List (MPIRank C)} {x y : MPIRank C},
    mpiRun p fb event n ranks = .ok now → ranks[r]? = some x → x.settled ≠ none → now[r]? = some y → y = x := by
  intro n
  induction n with
  | zero =>
    intro ranks now x y h hx _ hy
    cases h
    rw [hx] at hy
    exact (Option.some.inj hy).symm
  | succ n ih =>
    intro ranks now x y h hx hs hy
    unfold mpiRun at h
    cases h2 : mpiRound p fb event ranks with
    | ok mid =>
      rw [h2, ok_bind_eq] at h
      rw [mpiRound_settled h2 hx hs] at h
      exact ih h hx hs hy
    | _ => rw [h2] at h; cases h

theorem outcomeAll_length {α β : Type} {f : α → Outcome β} : ∀ {l : List α} {bs : List β}, outcomeAll f l = .ok bs → bs.length = l.length := by
  intro l
  induction l with
  | nil => intro bs h; cases h; rfl
  | cons x l ih =>
    intro bs h
    unfold outcomeAll at h
    cases hx : f x with
    | ok b =>
      rw [hx, ok_bind_eq] at h
      cases hl : outcomeAll f l with
      | ok cs =>
        rw [hl, ok_bind_eq] at h
        cases h
        rw [List.length_cons, List.length_cons, ih hl]
      | _ => rw [hl] at h; cases h
    | _ => rw [hx] at h; cases h

theorem mpiRound_length {p : Nat} {fb : C} {event : Nat → C → RankEvent} {ranks now : List (MPIRank C)} (h : mpiRound p fb event ranks = .ok now) :
    now.length = ranks.length := by
  unfold mpiRound at h
  split at h
  · cases h; rfl
  split at h
  · cases h
  cases h1 : outcomeAll (MPIRank.turn p event) ranks.zipIdx with
  | ok ys =>
    rw [h1, ok_bind_eq] at h
    have l1 := outcomeAll_length h1
    rw [List.length_zipIdx] at l1
    cases h2 : mpiOptimize fb (ys.map Prod.fst) with
    | ok zs =>
      rw [h2, ok_bind_eq] at h
      have l2 := outcomeAll_length h
      have l3 : zs.length = ys.length := by
        unfold mpiOptimize at h2
        split at h2
        · cases h2
        split at h2
        · cases h2
        split at h2
        · cases h2
        dsimp only at h2
        split at h2
        · cases h2
        cases h2
        simp
      rw [l2, List.length_zip, List.length_map, l3, l1, Nat.min_self]
    | _ => rw [h2] at h; cases h
  | _ => rw [h1] at h; cases h

theorem mpiRun_length {p : Nat} {fb : C} {event : Nat → C → RankEvent} : ∀ (n : Nat) {ranks now : List (MPIRank C)},
    mpiRun p fb event n ranks = .ok now → now.length = ranks.length := by
  intro n
  induction n with
  | zero => intro ranks now h; cases h; rfl
  | succ n ih =>
    intro ranks now h
    unfold mpiRun at h
    cases h2 : mpiRound p fb event ranks with
    | ok mid =>
      rw [h2, ok_bind_eq] at h
      rw [ih h, mpiRound_length h2]
    | _ => rw [h2] at h; cases h

theorem mpiRun_notAgain {p : Nat} {fb : C} {event : Nat → C → RankEvent} {r : Nat} : ∀ (n : Nat) {ranks now : List (MPIRank C)} {x y : MPIRank C},
    mpiRun p fb event n ranks = .ok now → ranks[r]? = some x → now[r]? = some y → y.settled = none → NotAgain fb x →
    x.settled = none ∧ NotAgain fb y ∧ ∀ d ∈ x.rejected, d ∈ y.rejected := by
  intro n
  induction n with
  | zero =>
    intro ranks now x y h hx hy hs hn
    cases h
    rw [hx] at hy
    cases hy
    exact ⟨hs, hn, fun _ hd => hd⟩
  | succ n ih =>
    intro ranks now x y h hx hy hs hn
    unfold mpiRun at h
    cases h1 : mpiRound p fb event ranks with
    | ok mid =>
      rw [h1, ok_bind_eq] at h
      by_cases hxs : x.settled = none
      · obtain ⟨z, c, b, l, hz, -, hf⟩ := mpiRound_rank h1 hx hxs
        by_cases hzs : z.settled = none
        · obtain ⟨i1, i2, i3⟩ := rank_notAgain hn hf hzs hxs
          obtain ⟨j1, j2, j3⟩ := ih h hz hy hs i1
          exact ⟨hxs, j2, fun d hd => j3 d (i2 d hd)⟩
        · exfalso
          rw [mpiRun_settled n h hz hzs hy] at hs
          exact hzs hs
      · have e := mpiRound_settled h1 hx hxs
        rw [e] at h
        exact absurd (ih h hx hy hs hn).1 hxs
    | _ => rw [h1] at h; cases h

/-- C110, whatever is measured or rejected: as long as a rank is tuning, it does not try a configuration again that it has rejected in this phase. Only the
fallback configuration is an exception. -/
theorem C110_rejected_not_again {p : Nat} {S : List C} {pick : Nat → Nat} {ranks : List (MPIRank C)} (hs : Start p S pick ranks) {fb : C}
    {event : Nat → C → RankEvent} {i n : Nat} {mid now : List (MPIRank C)} (h1 : mpiRun p fb event i ranks = .ok mid)
    (h2 : mpiRun p fb event (n + 1) mid = .ok now) {r : Nat} {x y : MPIRank C} (hx : mid[r]? = some x) (hy : now[r]? = some y)
    {c : C} (hc : x.queue.getLast? = some c) (he : event r c = .rejected) (hf : c ≠ fb) (htuning : y.settled = none) : c ∉ y.queue := by
  have hlen : ∀ (n : Nat) {ranks now : List (MPIRank C)} {y : MPIRank C}, mpiRun p fb event n ranks = .ok now → now[r]? = some y → ∃ x, ranks[r]? = some x := by
    intro n ranks now y h hy
    by_contra hno
    have hr : ranks.length ≤ r := by
      by_contra hlt
      exact hno ⟨_, List.getElem?_eq_getElem (not_le.1 hlt)⟩
    exact absurd (mpiRun_length n h) (by
      have := (List.getElem?_eq_some_iff.1 hy).1
      omega)
  obtain ⟨x0, hx0⟩ := hlen i h1 hx
  have hn0 : NotAgain fb x0 := by
    intro d hd
    rw [hs.rejected x0 (List.mem_of_getElem? hx0)] at hd
    cases hd
  have hxs : x.settled = none ∧ NotAgain fb y ∧ ∀ d ∈ x.rejected, d ∈ y.rejected := by
    by_cases hxs : x.settled = none
    · exact mpiRun_notAgain (n + 1) h2 hx hy htuning (mpiRun_notAgain i h1 hx0 hx hxs hn0).2.1
    · exact absurd (mpiRun_settled (n + 1) h2 hx hxs hy) (by rintro rfl; exact hxs htuning)
  unfold mpiRun at h2
  cases h3 : mpiRound p fb event mid with
  | ok z =>
    rw [h3, ok_bind_eq] at h2
    obtain ⟨w, c', b, l, hw, hc', hfin⟩ := mpiRound_rank h3 hx hxs.1
    rw [hc] at hc'
    cases hc'
    have hn1 : NotAgain fb x := (mpiRun_notAgain i h1 hx0 hx hxs.1 hn0).2.1
    by_cases hws : w.settled = none
    · obtain ⟨i1, i2, i3⟩ := rank_notAgain hn1 hfin hws hxs.1
      obtain ⟨j1, j2, j3⟩ := mpiRun_notAgain n h2 hw hy htuning i1
      exact j2 c (j3 c (i3 he)) hf
    · exact absurd (mpiRun_settled n h2 hw hws hy) (by rintro rfl; exact hws htuning)
  | _ => rw [h3] at h2; cases h2

/-- C110, similar ranks tune together: two ranks are in the same bucket if and only if from the similarity metric of the one to the metric of the other there is
no jump between neighbouring metrics of more than the given fraction of the larger one. -/
theorem C110_buckets {metrics : List Rat} {maxDiff : Rat} (hq : 0 ≤ maxDiff) (h0 : ∀ x ∈ metrics, 0 ≤ x) {m1 m2 : Rat} (hm : m1 ≤ m2) (i1 : m1 ∈ metrics)
    (i2 : m2 ∈ metrics) :
    bucketOf maxDiff metrics m1 = bucketOf maxDiff metrics m2 ↔
      ∀ a b, Neighbours metrics a b → m1 ≤ a → b ≤ m2 → b - a ≤ maxDiff * b := by
  have hp := List.mergeSort_perm metrics fun a b => decide (a ≤ b)
  have hs : (metrics.mergeSort fun a b => decide (a ≤ b)).Pairwise (· ≤ ·) := by
    have := List.pairwise_mergeSort (le := fun a b : Rat => decide (a ≤ b)) (by
      intro a b c h1 h2
      simp only [decide_eq_true_eq] at *
      exact h1.trans h2) (by
      intro a b
      simp only [Bool.or_eq_true, decide_eq_true_eq]
      exact le_total a b) metrics
    exact this.imp fun h => by simpa using h
  unfold bucketOf
  rw [bucketLoop_same hq hm (fun x hx => h0 x (hp.mem_iff.1 hx)) hs (hp.mem_iff.2 i1) (hp.mem_iff.2 i2)]
  have hnb : ∀ a b, Neighbours (metrics.mergeSort fun a b => decide (a ≤ b)) a b ↔ Neighbours metrics a b := by
    intro a b
    unfold Neighbours
    simp only [hp.mem_iff]
  constructor
  · intro h a b hab ha hb
    have hb0 : 0 < b := lt_of_le_of_lt (h0 a hab.1) hab.2.2.1
    exact (div_le_iff₀ hb0).1 (h a b ((hnb a b).2 hab) ha hb)
  · intro h a b hab ha hb
    have hab' := (hnb a b).1 hab
    have hb0 : 0 < b := lt_of_le_of_lt (h0 a hab'.1) hab'.2.2.1
    exact (div_le_iff₀ hb0).2 (h a b hab' ha hb)

/-! Examples. -/

/-- Two ranks and five configurations in the second phase. -/
example : ∃ ranks : List (MPIRank Nat), ranks.length = 2 ∧ Start 1 [1, 2, 3, 4, 5] (fun _ => 0) ranks ∧
    ([1, 2, 3, 4, 5] : List Nat) ≠ [] ∧ 2 * ranks.length ≤ [1, 2, 3, 4, 5].length := by
  refine ⟨[.start [1, 3, 5] [(1, [⟨0, 0, 7⟩])] false, .start [2, 4] [(2, [⟨0, 0, 9⟩])] false], rfl, ⟨?_, ?_, ?_, ?_, ?_⟩, by decide, by decide⟩
  · intro r x hx
    rcases r with _ | _ | r
    · cases hx; simp [rankQueue, forUp, MPIRank.start]
    · cases hx; simp [rankQueue, forUp, MPIRank.start]
    · cases hx
  · intro x hx
    simp only [List.mem_cons, List.not_mem_nil, or_false] at hx
    rcases hx with rfl | rfl <;>
    · intro c es h e he
      simp only [MPIRank.start, List.mem_singleton, Prod.mk.injEq] at h
      rw [h.2, List.mem_singleton] at he
      rw [he]
      decide
  · intro x hx
    simp only [List.mem_cons, List.not_mem_nil, or_false] at hx
    rcases hx with rfl | rfl <;> rfl
  · intro x hx
    simp only [List.mem_cons, List.not_mem_nil, or_false] at hx
    rcases hx with rfl | rfl <;> rfl
  · exact ⟨_, List.mem_cons_self, rfl⟩

/-- Two ranks and five configurations: the second rank measures the best configuration known after the first round (5) as its third, and settles on it. -/
example : ((mpiRun 0 0 (fun _ c => RankEvent.measured (10 - c)) 3 [.start [1, 3, 5] [] false, .start [2, 4] [] false]).bind
    fun l => .ok (l.map MPIRank.settled)) = .ok [some 5, some 5] := by decide

/-- Three configurations on two ranks: the second rank leaves the phase, the first waits. -/
example : mpiRun 0 0 (fun _ c => RankEvent.measured (10 * c)) 2 [.start [1, 3] [] false, .start [2] [] false] = .diverges := by rfl

/-- Four ranks in three buckets. -/
example : bucketLoop (1/5) 10 none 0 0 [10, 11, 20, 40] = 1 ∧ bucketLoop (1/5) 11 none 0 0 [10, 11, 20, 40] = 1 ∧
    bucketLoop (1/5) 20 none 0 0 [10, 11, 20, 40] = 2 ∧ bucketLoop (1/5) 40 none 0 0 [10, 11, 20, 40] = 3 := by
  refine ⟨?_, ?_, ?_, ?_⟩ <;> norm_num [bucketLoop]

/-- Two ranks, six configurations: rank 1 measures 5 and rejects 3; both go on. -/
example : ((mpiRun 0 9 (fun r c => if r = 1 ∧ c = 3 then RankEvent.rejected else .measured 5) 1 [.start [0, 2, 4] [] false, .start [1, 3, 5] [] false]).bind
      fun l => .ok (l.map fun x => (x.queue.getLast?, x.settled))) = .ok [(some 2, none), (some 3, none)] ∧
    ((mpiRun 0 9 (fun r c => if r = 1 ∧ c = 3 then RankEvent.rejected else .measured 5) 2 [.start [0, 2, 4] [] false, .start [1, 3, 5] [] false]).bind
      fun l => .ok (l.map fun x => (x.queue, x.settled))) = .ok [([0], none), ([1], none)] := by decide +kernel

end Verif
