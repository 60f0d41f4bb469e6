import Verif.Lemmas.LJFlops
import Mathlib.Tactic.NormNum
import Mathlib.Tactic.Positivity
import Mathlib.Tactic.Linarith
/-!
C130: `getNumFLOPs()` of the Lennard-Jones functor is the documented cost of the pairs looked at since `initTraversal()`, and `getHitRate()` the
share of them in the range of the potential, whichever kernels were called by whichever thread in whichever order.
-/
namespace Verif

section
variable {K : Type} [Field K] [LinearOrder K] {P : Type}

private theorem total (p : LJFlops → Nat) (h0 : p 0 = 0) (hp : ∀ a b, p (a + b) = p a + p b) (c : LJCfg K) (g : Bool) (vecsize : Nat)
    (mol : P → Mol K) (d : List LJFlops) (jobs : List (Nat × KernelCall P)) (ht : ∀ j ∈ jobs, j.1 < d.length) (hs : ∀ j ∈ jobs, j.2.SelfFree) :
    (flopsCompute c g vecsize mol d jobs).foldl (fun s x => s + p x) 0 =
      ((jobs.flatMap fun j => j.2.evaluations mol).map fun e => p (flopsOf c.cutoffSquared g e)).sum := by
  rw [acc_sum p h0 hp, flopsCompute_sum c g vecsize mol d jobs ht hs, counter_sum p h0 hp]

private theorem sum_ite {X : Type} (p : X → Bool) (l : List X) : (l.map fun x => if p x then 1 else 0).sum = l.countP p := by
  induction l with
  | nil => rfl
  | cons x l ih =>
    rw [List.map_cons, List.sum_cons, ih, List.countP_cons]
    omega

/-- **FLOPs.** `getNumFLOPs()` is the sum of the documented cost of all pairs that the kernel calls since `initTraversal()` looked at. `d` is
whatever earlier traversals left in the counters; `jobs` are the kernel calls in the order in which they happen, each with the thread that makes
it. -/
theorem C130_flops (c : LJCfg K) (calculateGlobals : Bool) (vecsize : Nat) (mol : P → Mol K) (d : List LJFlops) (jobs : List (Nat × KernelCall P))
    (threads : ∀ j ∈ jobs, j.1 < d.length) (lists : ∀ j ∈ jobs, j.2.SelfFree) :
    getNumFLOPs c.applyShift (flopsCompute c calculateGlobals vecsize mol d jobs) =
      ((jobs.flatMap fun j => j.2.evaluations mol).map fun e => e.cost c.cutoffSquared c.applyShift calculateGlobals).sum := by
  unfold getNumFLOPs
  simp only
  rw [total (·.numDistCalls) rfl (fun _ _ => rfl) c calculateGlobals vecsize mol d jobs threads lists,
    total (·.numKernelCallsN3) rfl (fun _ _ => rfl) c calculateGlobals vecsize mol d jobs threads lists,
    total (·.numKernelCallsNoN3) rfl (fun _ _ => rfl) c calculateGlobals vecsize mol d jobs threads lists,
    total (·.numGlobalCalcsN3) rfl (fun _ _ => rfl) c calculateGlobals vecsize mol d jobs threads lists,
    total (·.numGlobalCalcsNoN3) rfl (fun _ _ => rfl) c calculateGlobals vecsize mol d jobs threads lists]
  generalize (jobs.flatMap fun j => j.2.evaluations mol) = es
  induction es with
  | nil => simp
  | cons e es ih =>
    simp only [List.map_cons, List.sum_cons]
    rw [← ih]
    have h1 : e.cost c.cutoffSquared c.applyShift calculateGlobals =
        (flopsOf c.cutoffSquared calculateGlobals e).numDistCalls * 8 + (flopsOf c.cutoffSquared calculateGlobals e).numKernelCallsN3 * 18 +
          (flopsOf c.cutoffSquared calculateGlobals e).numKernelCallsNoN3 * 15 +
          (flopsOf c.cutoffSquared calculateGlobals e).numGlobalCalcsN3 * (if c.applyShift then 13 else 12) +
          (flopsOf c.cutoffSquared calculateGlobals e).numGlobalCalcsNoN3 * (if c.applyShift then 9 else 8) := by
      unfold Evaluation.cost flopsOf
      cases e.real <;> cases e.hit c.cutoffSquared <;> cases e.newton3 <;> cases calculateGlobals <;> cases c.applyShift <;> rfl
    rw [h1]
    ring

/-- **Hit rate.** If at least one pair of particles that were not deleted was looked at, `getHitRate()` is the share of those that are in the
range of the potential; it is between 0 and 1. -/
theorem C130_hit_rate (c : LJCfg K) (calculateGlobals : Bool) (vecsize : Nat) (mol : P → Mol K) (d : List LJFlops) (jobs : List (Nat × KernelCall P))
    (threads : ∀ j ∈ jobs, j.1 < d.length) (lists : ∀ j ∈ jobs, j.2.SelfFree)
    (some : (jobs.flatMap fun j => j.2.evaluations mol).countP (·.real) ≠ 0) :
    ∃ r : Rat, getHitRate (flopsCompute c calculateGlobals vecsize mol d jobs) = .fin r ∧
      r = ((jobs.flatMap fun j => j.2.evaluations mol).countP (·.hit c.cutoffSquared) : Rat) /
        ((jobs.flatMap fun j => j.2.evaluations mol).countP (·.real) : Rat) ∧ 0 ≤ r ∧ r ≤ 1 := by
  unfold getHitRate
  simp only
  rw [total (·.numDistCalls) rfl (fun _ _ => rfl) c calculateGlobals vecsize mol d jobs threads lists,
    total (·.numKernelCallsN3) rfl (fun _ _ => rfl) c calculateGlobals vecsize mol d jobs threads lists,
    total (·.numKernelCallsNoN3) rfl (fun _ _ => rfl) c calculateGlobals vecsize mol d jobs threads lists]
  revert some
  generalize (jobs.flatMap fun j => j.2.evaluations mol) = es
  intro some
  have h1 : (es.map fun e => (flopsOf c.cutoffSquared calculateGlobals e).numDistCalls).sum = es.countP (·.real) := by
    rw [← sum_ite]; rfl
  have h2 : (es.map fun e => (flopsOf c.cutoffSquared calculateGlobals e).numKernelCallsNoN3).sum +
      (es.map fun e => (flopsOf c.cutoffSquared calculateGlobals e).numKernelCallsN3).sum = es.countP (·.hit c.cutoffSquared) := by
    clear some h1
    induction es with
    | nil => rfl
    | cons e es ih =>
      simp only [List.map_cons, List.sum_cons, List.countP_cons, ← ih]
      have : (flopsOf c.cutoffSquared calculateGlobals e).numKernelCallsNoN3 + (flopsOf c.cutoffSquared calculateGlobals e).numKernelCallsN3 =
          if e.hit c.cutoffSquared = true then 1 else 0 := by
        unfold flopsOf
        cases e.hit c.cutoffSquared <;> cases e.newton3 <;> rfl
      rw [← this]
      ring
  have h3 : es.countP (·.hit c.cutoffSquared) ≤ es.countP (·.real) := by
    refine List.countP_mono_left fun e _ h => ?_
    unfold Evaluation.hit at h
    exact (Bool.and_eq_true_iff.1 h).1
  rw [h1]
  have hq : ((es.map fun e => (flopsOf c.cutoffSquared calculateGlobals e).numKernelCallsNoN3).sum : Rat) +
      ((es.map fun e => (flopsOf c.cutoffSquared calculateGlobals e).numKernelCallsN3).sum : Rat) = (es.countP (·.hit c.cutoffSquared) : Rat) := by
    exact_mod_cast h2
  have hpos : (0 : Rat) < (es.countP (·.real) : Rat) := by exact_mod_cast Nat.pos_of_ne_zero some
  refine ⟨(es.countP (·.hit c.cutoffSquared) : Rat) / (es.countP (·.real) : Rat), ?_, rfl, by positivity, ?_⟩
  · show Num.div (Num.add _ _) _ = _
    simp only [Num.add, Num.div]
    rw [if_neg (ne_of_gt hpos), hq]
  · rw [div_le_one hpos]
    exact_mod_cast h3

/-- The order of the kernel calls and the threads that make them do not matter. -/
theorem C130_schedule (c : LJCfg K) (calculateGlobals : Bool) (vecsize vecsize' : Nat) (mol : P → Mol K) (d d' : List LJFlops)
    (jobs jobs' : List (Nat × KernelCall P)) (threads : ∀ j ∈ jobs, j.1 < d.length) (threads' : ∀ j ∈ jobs', j.1 < d'.length)
    (lists : ∀ j ∈ jobs, j.2.SelfFree) (same : (jobs.map (·.2)).Perm (jobs'.map (·.2))) :
    getNumFLOPs c.applyShift (flopsCompute c calculateGlobals vecsize mol d jobs) =
        getNumFLOPs c.applyShift (flopsCompute c calculateGlobals vecsize' mol d' jobs') ∧
      getHitRate (flopsCompute c calculateGlobals vecsize mol d jobs) = getHitRate (flopsCompute c calculateGlobals vecsize' mol d' jobs') := by
  have lists' : ∀ j ∈ jobs', j.2.SelfFree := by
    intro j hj
    obtain ⟨k, hk, e⟩ := List.mem_map.1 (same.symm.subset (List.mem_map_of_mem hj))
    rw [← e]
    exact lists k hk
  have hp : (jobs.flatMap fun j => j.2.evaluations mol).Perm (jobs'.flatMap fun j => j.2.evaluations mol) := by
    have := same.flatMap_right fun k => k.evaluations mol
    rwa [List.flatMap_map, List.flatMap_map] at this
  have key : ∀ (p : LJFlops → Nat), p 0 = 0 → (∀ a b, p (a + b) = p a + p b) →
      (flopsCompute c calculateGlobals vecsize mol d jobs).foldl (fun s x => s + p x) 0 =
        (flopsCompute c calculateGlobals vecsize' mol d' jobs').foldl (fun s x => s + p x) 0 := by
    intro p h0 ha
    rw [total p h0 ha c calculateGlobals vecsize mol d jobs threads lists, total p h0 ha c calculateGlobals vecsize' mol d' jobs' threads' lists']
    exact (hp.map _).sum_eq
  constructor
  · unfold getNumFLOPs
    simp only
    rw [key (·.numDistCalls) rfl (fun _ _ => rfl), key (·.numKernelCallsN3) rfl (fun _ _ => rfl), key (·.numKernelCallsNoN3) rfl (fun _ _ => rfl),
      key (·.numGlobalCalcsN3) rfl (fun _ _ => rfl), key (·.numGlobalCalcsNoN3) rfl (fun _ _ => rfl)]
  · unfold getHitRate
    simp only
    rw [key (·.numDistCalls) rfl (fun _ _ => rfl), key (·.numKernelCallsN3) rfl (fun _ _ => rfl), key (·.numKernelCallsNoN3) rfl (fun _ _ => rfl)]

namespace Counted
variable {α β : Type}
theorem bind_val (a : Counted α) (f : α → Counted β) : (a >>= f).val = (f a.val).val := rfl
theorem bind_ops (a : Counted α) (f : α → Counted β) : (a >>= f).ops = a.ops + (f a.val).ops := rfl
theorem pure_val (a : α) : (pure a : Counted α).val = a := rfl
theorem pure_ops (a : α) : (pure a : Counted α).ops = 0 := rfl
theorem op_val (a : α) : (op a).val = a := rfl
theorem op_ops (a : α) : (op a).ops = 1 := rfl
theorem arr_val (x y z : Counted α) : (arr x y z).val = ⟨x.val, y.val, z.val⟩ := rfl
theorem arr_ops (x y z : Counted α) : (arr x y z).ops = x.ops + (y.ops + (z.ops + 0)) := rfl
end Counted

private theorem counted_val (c : LJCfg K) (newton3 : Bool) (i j : Mol K) (s : AoSResult K) :
    (countedAoS c true newton3 i j s).val =
      if i.own = .dummy ∨ j.own = .dummy then s
      else if c.cutoffSquared < (i.pos - j.pos).inner (i.pos - j.pos) then s
      else
        ⟨s.forceI + (ljKernelAoS c i j).1, if newton3 then s.forceJ - (ljKernelAoS c i j).1 else s.forceJ,
          (if newton3 = true ∧ j.own = .owned then
            (if i.own = .owned then s.globals.plus (ljKernelAoS c i j).2.1 (ljKernelAoS c i j).2.2 else s.globals).plus
              (ljKernelAoS c i j).2.1 (ljKernelAoS c i j).2.2
          else if i.own = .owned then s.globals.plus (ljKernelAoS c i j).2.1 (ljKernelAoS c i j).2.2 else s.globals)⟩ := by
  unfold countedAoS
  by_cases hd : i.own = .dummy ∨ j.own = .dummy
  · simp only [if_pos hd]; rfl
  · simp only [if_neg hd]
    by_cases hc : c.cutoffSquared < (i.pos - j.pos).inner (i.pos - j.pos)
    · rw [if_pos hc]
      show (ite (c.cutoffSquared < _) _ _ : Counted (AoSResult K)).val = _
      rw [if_pos (by exact hc)]
      rfl
    · rw [if_neg hc]
      show (ite (c.cutoffSquared < _) _ _ : Counted (AoSResult K)).val = _
      rw [if_neg (by exact hc)]
      cases newton3 <;> by_cases hi : i.own = .owned <;> by_cases hj : j.own = .owned <;> simp only [hi, hj] <;> rfl

private theorem v3_add_zero (a : V3 (Num K)) : a + 0 = a := by
  show (⟨a.x + 0, a.y + 0, a.z + 0⟩ : V3 (Num K)) = a
  simp

private theorem v3_zero_add (a : V3 (Num K)) : 0 + a = a := by
  show (⟨0 + a.x, 0 + a.y, 0 + a.z⟩ : V3 (Num K)) = a
  simp

private theorem v3_add_assoc (a b d : V3 (Num K)) : a + b + d = a + (b + d) := by
  show (⟨a.x + b.x + d.x, a.y + b.y + d.y, a.z + b.z + d.z⟩ : V3 (Num K)) = ⟨a.x + (b.x + d.x), a.y + (b.y + d.y), a.z + (b.z + d.z)⟩
  simp only [add_assoc]

/-- The kernel written operation by operation does to the forces and sums what the AoS kernel does. -/
theorem C130_same_kernel (c : LJCfg K) (newton3 : Bool) (i j : Mol K) (s : AoSResult K) :
    (countedAoS c true newton3 i j s).val =
      match ljAoS c newton3 i j with
      | none => s
      | some (fi, fj, vir, upot) => ⟨s.forceI + fi, s.forceJ + fj, s.globals.plus vir upot⟩ := by
  rw [counted_val]
  unfold ljAoS
  by_cases hd : i.own = .dummy ∨ j.own = .dummy
  · simp only [if_pos hd]
  · simp only [if_neg hd]
    by_cases hc : c.cutoffSquared < (i.pos - j.pos).inner (i.pos - j.pos)
    · simp only [if_pos hc]
    · simp only [if_neg hc]
      generalize ljKernelAoS c i j = k
      have hsub : s.forceJ - k.1 = s.forceJ + -k.1 := rfl
      cases newton3 <;> by_cases hi : i.own = .owned <;> by_cases hj : j.own = .owned <;>
        simp [hi, hj, LJGlobals.plus, hsub, v3_add_zero, v3_zero_add, v3_add_assoc, add_assoc]

/-- **Executed operations.** The cost counted for a pair is the number of floating point operations the AoS kernel executes for it, except for the
operations that add globals of particles that are not owned (4 each), which are counted but not executed, and for the addition of the shift, which
is executed but not counted without `applyShift`. -/
theorem C130_executed_partial (c : LJCfg K) (calculateGlobals newton3 : Bool) (i j : Mol K) (s : AoSResult K) :
    (countedAoS c calculateGlobals newton3 i j s).ops +
        (if (⟨i, j, newton3⟩ : Evaluation K).hit c.cutoffSquared && calculateGlobals then
          (if i.own = .owned then 0 else 4) + (if newton3 = true ∧ j.own ≠ .owned then 4 else 0) else 0) =
      (⟨i, j, newton3⟩ : Evaluation K).cost c.cutoffSquared c.applyShift calculateGlobals +
        (if (⟨i, j, newton3⟩ : Evaluation K).hit c.cutoffSquared && calculateGlobals && !c.applyShift then 1 else 0) := by
  by_cases hd : i.own = .dummy ∨ j.own = .dummy
  · have hr : (⟨i, j, newton3⟩ : Evaluation K).real = false := by rcases hd with h | h <;> simp [Evaluation.real, h]
    have hh : (⟨i, j, newton3⟩ : Evaluation K).hit c.cutoffSquared = false := by simp [Evaluation.hit, hr]
    unfold countedAoS Evaluation.cost
    rw [if_pos hd, hr, hh]
    rfl
  · have hr : (⟨i, j, newton3⟩ : Evaluation K).real = true := by
      simp only [not_or] at hd
      simp [Evaluation.real, hd]
    have hsq : (i.pos - j.pos).inner (i.pos - j.pos) = (i.pos.x - j.pos.x) ^ 2 + (i.pos.y - j.pos.y) ^ 2 + (i.pos.z - j.pos.z) ^ 2 := by
      show (i.pos.x - j.pos.x) * (i.pos.x - j.pos.x) + (i.pos.y - j.pos.y) * (i.pos.y - j.pos.y) + (i.pos.z - j.pos.z) * (i.pos.z - j.pos.z) = _
      ring
    unfold countedAoS
    rw [if_neg hd]
    by_cases hc : c.cutoffSquared < (i.pos - j.pos).inner (i.pos - j.pos)
    · have hh : (⟨i, j, newton3⟩ : Evaluation K).hit c.cutoffSquared = false := by
        unfold Evaluation.hit
        rw [hr, Bool.true_and, decide_eq_false_iff_not, ← hsq]
        exact not_le.2 hc
      unfold Evaluation.cost
      rw [hr, hh]
      show 1 + (1 + (1 + 0)) + (1 + (1 + (1 + (1 + (1 + (ite (c.cutoffSquared < _) _ _ : Counted (AoSResult K)).ops))))) + _ = _
      rw [if_pos (by exact hc)]
      rfl
    · have hh : (⟨i, j, newton3⟩ : Evaluation K).hit c.cutoffSquared = true := by
        unfold Evaluation.hit
        rw [hr, Bool.true_and, decide_eq_true_iff, ← hsq]
        exact not_lt.1 hc
      unfold Evaluation.cost
      rw [hr, hh]
      show 1 + (1 + (1 + 0)) + (1 + (1 + (1 + (1 + (1 + (ite (c.cutoffSquared < _) _ _ : Counted (AoSResult K)).ops))))) + _ = _
      rw [if_neg (by exact hc)]
      cases newton3 <;> cases calculateGlobals <;> cases c.applyShift <;> by_cases hi : i.own = .owned <;> by_cases hj : j.own = .owned <;>
        simp [hi, hj, Counted.bind_ops, Counted.pure_ops, Counted.op_ops, Counted.arr_ops]

end

/-- **Violated: owned and halo.** The counter of globals "excludes the special case that N3 is enabled and we calculate globals for an owned-halo
particle pair" (LJFunctor.h:1179-1187): it does not, so `getNumFLOPs()` is larger than the number of operations executed. -/
theorem C130_violated_owned_halo :
    ∃ (c : LJCfg Rat) (i j : Mol Rat), i.own = .owned ∧ j.own = .halo ∧ c.applyShift = true ∧
      (countedAoS c true true i j ⟨0, 0, .zero⟩).ops <
        getNumFLOPs c.applyShift (flopsCompute c true 12 id [.zero] [(0, .aos ⟨i, j, true⟩)]) := by
  refine ⟨⟨true, false, 9, 24, 1, 0, fun _ _ => 0, fun _ _ => 0, fun _ _ => 0⟩, ⟨⟨0, 0, 0⟩, 0, .owned⟩, ⟨⟨1, 0, 0⟩, 0, .halo⟩, rfl, rfl, rfl, ?_⟩
  decide +kernel

/-- **Violated: nothing to do.** A functor that does count is logged as one that does not ("Not Implemented") if no pair was looked at: the hit rate
is 0/0. -/
theorem C130_violated_no_pairs (c : LJCfg Rat) (d : List LJFlops) (max : Nat) (h : max ≠ 0) :
    flopLogFields max (getNumFLOPs c.applyShift (flopsCompute c true 12 (id : Mol Rat → Mol Rat) d []))
      (getHitRate (flopsCompute c true 12 (id : Mol Rat → Mol Rat) d [])) = (some 0, none) := by
  have h1 : getNumFLOPs c.applyShift (flopsCompute c true 12 (id : Mol Rat → Mol Rat) d []) = 0 :=
    C130_flops c true 12 id d [] (by simp) (by simp)
  have h2 : getHitRate (flopsCompute c true 12 (id : Mol Rat → Mol Rat) d []) = .nonFinite := by
    have h0 : ∀ (p : LJFlops → Nat), p .zero = 0 → ∀ (d : List LJFlops) s, (d.map fun _ => LJFlops.zero).foldl (fun s x => s + p x) s = s := by
      intro p hp d
      induction d with
      | nil => intro s; rfl
      | cons a d ih => intro s; simp only [List.map_cons, List.foldl_cons, hp, Nat.add_zero, ih]
    unfold getHitRate flopsCompute flopsInitTraversal
    simp only [List.foldl_nil]
    rw [h0 (·.numDistCalls) rfl, h0 (·.numKernelCallsN3) rfl, h0 (·.numKernelCallsNoN3) rfl]
    rfl
  rw [h1, h2]
  unfold flopLogFields
  rw [if_pos (Ne.symm h)]

/-! Three particles, one of them deleted, and one neighbour that is too far away: all four kernels. -/
section
private def cfg : LJCfg Rat := ⟨true, false, 9, 24, 1, 0, fun _ _ => 0, fun _ _ => 0, fun _ _ => 0⟩
private def ms : Nat → Mol Rat
  | 0 => ⟨⟨0, 0, 0⟩, 0, .owned⟩
  | 1 => ⟨⟨1, 0, 0⟩, 0, .halo⟩
  | 2 => ⟨⟨1, 1, 0⟩, 0, .dummy⟩
  | _ => ⟨⟨4, 0, 0⟩, 0, .owned⟩
private def someJobs : List (Nat × KernelCall Nat) :=
  [(0, .aos ⟨0, 1, true⟩), (1, .single false [0, 1, 2, 3]), (0, .pair false [0, 3] [1, 2]), (1, .verlet true [0, 1, 2, 3] 0 [1, 2, 3])]

private theorem someJobs_threads : ∀ j ∈ someJobs, j.1 < [LJFlops.zero, ⟨5, 5, 5, 5, 5⟩].length := by decide

private theorem someJobs_lists : ∀ j ∈ someJobs, j.2.SelfFree := by
  intro j hj
  simp only [someJobs, List.mem_cons, List.not_mem_nil, or_false] at hj
  rcases hj with rfl | rfl | rfl | rfl <;> simp [KernelCall.SelfFree]

example : getNumFLOPs cfg.applyShift (flopsCompute cfg true 12 ms [.zero, ⟨5, 5, 5, 5, 5⟩] someJobs) = 236 := by
  rw [C130_flops cfg true 12 ms _ someJobs someJobs_threads someJobs_lists]
  decide +kernel

example : getHitRate (flopsCompute cfg true 2 ms [.zero, ⟨5, 5, 5, 5, 5⟩] someJobs) = .fin (6 / 8) := by
  obtain ⟨r, h1, h2, _⟩ := C130_hit_rate cfg true 2 ms _ someJobs someJobs_threads someJobs_lists (by decide +kernel)
  rw [h1, h2]
  decide +kernel
end

end Verif
