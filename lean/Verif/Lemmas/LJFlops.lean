import Verif.Model.LJFlops
import Verif.Spec.Flops
import Verif.Lemmas.LJMemory
import Mathlib.Tactic.Ring
/-! The counters of the four kernels are sums over the pairs they look at. -/
namespace Verif

theorem LJFlops.ext' {a b : LJFlops} (h1 : a.numKernelCallsNoN3 = b.numKernelCallsNoN3) (h2 : a.numKernelCallsN3 = b.numKernelCallsN3)
    (h3 : a.numDistCalls = b.numDistCalls) (h4 : a.numGlobalCalcsN3 = b.numGlobalCalcsN3) (h5 : a.numGlobalCalcsNoN3 = b.numGlobalCalcsNoN3) :
    a = b := by
  cases a; cases b; simp_all

instance : Add LJFlops := ⟨LJFlops.plus⟩
instance : Zero LJFlops := ⟨LJFlops.zero⟩
instance : AddCommMonoid LJFlops where
  add_assoc a b c := by
    show LJFlops.plus (LJFlops.plus a b) c = LJFlops.plus a (LJFlops.plus b c)
    simp only [LJFlops.plus, Nat.add_assoc]
  add_comm a b := by
    show LJFlops.plus a b = LJFlops.plus b a
    simp only [LJFlops.plus, LJFlops.mk.injEq]
    omega
  zero_add a := by
    show LJFlops.plus LJFlops.zero a = a
    simp only [LJFlops.plus, LJFlops.zero, Nat.zero_add]
  add_zero a := by
    show LJFlops.plus a LJFlops.zero = a
    simp only [LJFlops.plus, LJFlops.zero, Nat.add_zero]
  nsmul := nsmulRec

theorem LJFlops.add_def (a b : LJFlops) : a + b = LJFlops.plus a b := rfl
theorem LJFlops.zero_def : (0 : LJFlops) = LJFlops.zero := rfl

section
variable {K : Type} [Field K] [LinearOrder K]

/-- What a pair adds to the counters. -/
def flopsOf (cutoffSquared : K) (calculateGlobals : Bool) (e : Evaluation K) : LJFlops where
  numKernelCallsNoN3 := if e.hit cutoffSquared && !e.newton3 then 1 else 0
  numKernelCallsN3 := if e.hit cutoffSquared && e.newton3 then 1 else 0
  numDistCalls := if e.real then 1 else 0
  numGlobalCalcsN3 := if e.hit cutoffSquared && e.newton3 && calculateGlobals then 1 else 0
  numGlobalCalcsNoN3 := if e.hit cutoffSquared && !e.newton3 && calculateGlobals then 1 else 0

private theorem sq_le (c : LJCfg K) (i j : Mol K) :
    ((i.pos - j.pos).x * (i.pos - j.pos).x + (i.pos - j.pos).y * (i.pos - j.pos).y + (i.pos - j.pos).z * (i.pos - j.pos).z ≤ c.cutoffSquared) ↔
      (i.pos.x - j.pos.x) ^ 2 + (i.pos.y - j.pos.y) ^ 2 + (i.pos.z - j.pos.z) ^ 2 ≤ c.cutoffSquared := by
  have : (i.pos - j.pos).x * (i.pos - j.pos).x + (i.pos - j.pos).y * (i.pos - j.pos).y + (i.pos - j.pos).z * (i.pos - j.pos).z =
      (i.pos.x - j.pos.x) ^ 2 + (i.pos.y - j.pos.y) ^ 2 + (i.pos.z - j.pos.z) ^ 2 := by
    show (i.pos.x - j.pos.x) * (i.pos.x - j.pos.x) + (i.pos.y - j.pos.y) * (i.pos.y - j.pos.y) + (i.pos.z - j.pos.z) * (i.pos.z - j.pos.z) = _
    ring
  rw [this]

theorem flopsAoS_eq (c : LJCfg K) (g newton3 : Bool) (i j : Mol K) (f : LJFlops) :
    flopsAoS c g newton3 i j f = f + flopsOf c.cutoffSquared g ⟨i, j, newton3⟩ := by
  rw [LJFlops.add_def]
  unfold flopsAoS
  by_cases hd : i.own = .dummy ∨ j.own = .dummy
  · rw [if_pos hd]
    have hr : (⟨i, j, newton3⟩ : Evaluation K).real = false := by
      rcases hd with hd | hd <;> simp [Evaluation.real, hd]
    simp [LJFlops.plus, flopsOf, Evaluation.hit, hr]
  · rw [if_neg hd]
    have hr : (⟨i, j, newton3⟩ : Evaluation K).real = true := by
      simp only [not_or] at hd
      simp [Evaluation.real, hd]
    by_cases hc : c.cutoffSquared < (i.pos - j.pos).inner (i.pos - j.pos)
    · have hh : (⟨i, j, newton3⟩ : Evaluation K).hit c.cutoffSquared = false := by
        unfold Evaluation.hit
        rw [hr, Bool.true_and, decide_eq_false_iff_not, ← sq_le]
        exact not_le.2 hc
      simp [hc, LJFlops.plus, flopsOf, hh, hr]
    · have hh : (⟨i, j, newton3⟩ : Evaluation K).hit c.cutoffSquared = true := by
        unfold Evaluation.hit
        rw [hr, Bool.true_and, decide_eq_true_iff, ← sq_le]
        exact not_lt.1 hc
      cases newton3 <;> cases g <;> simp [hc, LJFlops.plus, flopsOf, hh, hr]

private theorem mask_eq (c : LJCfg K) (newton3 : Bool) {i j : Mol K} (hi : i.own ≠ .dummy) :
    flopsMask c i j = if (⟨i, j, newton3⟩ : Evaluation K).hit c.cutoffSquared then 1 else 0 := by
  unfold flopsMask Evaluation.hit Evaluation.real
  simp only [sq_le]
  by_cases h1 : j.own = .dummy
  · simp [h1]
  · by_cases h2 : (i.pos.x - j.pos.x) ^ 2 + (i.pos.y - j.pos.y) ^ 2 + (i.pos.z - j.pos.z) ^ 2 ≤ c.cutoffSquared <;> simp [h1, h2, hi]

theorem flopsInner_eq (c : LJCfg K) (g newton3 : Bool) {i : Mol K} (hi : i.own ≠ .dummy) (j : Mol K) (f : LJFlops) :
    flopsInner c g newton3 i j f = f + flopsOf c.cutoffSquared g ⟨i, j, newton3⟩ := by
  rw [LJFlops.add_def]
  unfold flopsInner
  rw [mask_eq c newton3 hi]
  have hr : (⟨i, j, newton3⟩ : Evaluation K).real = decide (j.own ≠ .dummy) := by simp [Evaluation.real, hi]
  cases hb : (⟨i, j, newton3⟩ : Evaluation K).hit c.cutoffSquared <;> cases newton3 <;> cases g <;> simp [LJFlops.plus, flopsOf, hr, hb]

theorem flopsSingleInner_eq (c : LJCfg K) (g : Bool) {i : Mol K} (hi : i.own ≠ .dummy) (mol : Nat → Mol K) (f : LJFlops) (j : Nat) :
    flopsSingleInner c g i mol f j = f + flopsOf c.cutoffSquared g ⟨i, mol j, true⟩ := by
  rw [← flopsInner_eq c g true hi]
  unfold flopsSingleInner flopsInner
  cases g <;> simp

theorem flops_foldl_add {X : Type} (h : X → LJFlops) (s : LJFlops) (l : List X) : l.foldl (fun f x => f + h x) s = s + (l.map h).sum := by
  induction l generalizing s with
  | nil => simp
  | cons x l ih => rw [List.foldl_cons, ih, List.map_cons, List.sum_cons, add_assoc]

theorem foldl_congr_mem {X S : Type} {f g : S → X → S} {l : List X} (h : ∀ x ∈ l, ∀ s, f s x = g s x) (s : S) : l.foldl f s = l.foldl g s := by
  induction l generalizing s with
  | nil => rfl
  | cons x l ih =>
    rw [List.foldl_cons, List.foldl_cons, h x (List.mem_cons_self ..)]
    exact ih (fun y hy => h y (List.mem_cons_of_mem _ hy)) _

private theorem of_dummy_left (cut : K) (g n : Bool) {i : Mol K} (hi : i.own = .dummy) (j : Mol K) : flopsOf cut g ⟨i, j, n⟩ = 0 := by
  rw [LJFlops.zero_def]
  simp [flopsOf, Evaluation.hit, Evaluation.real, hi, LJFlops.zero]

private theorem of_dummy_right (cut : K) (g n : Bool) (i : Mol K) {j : Mol K} (hj : j.own = .dummy) : flopsOf cut g ⟨i, j, n⟩ = 0 := by
  rw [LJFlops.zero_def]
  simp [flopsOf, Evaluation.hit, Evaluation.real, hj, LJFlops.zero]

private theorem sum_zero {X : Type} (h : X → LJFlops) (l : List X) (hz : ∀ x ∈ l, h x = 0) : (l.map h).sum = 0 := by
  induction l with
  | nil => rfl
  | cons x l ih => rw [List.map_cons, List.sum_cons, hz x (List.mem_cons_self ..), ih fun y hy => hz y (List.mem_cons_of_mem _ hy), add_zero]

theorem flopsSingleOuter_eq (c : LJCfg K) (g : Bool) (mol : Nat → Mol K) (n : Nat) (f : LJFlops) (i : Nat) :
    flopsSingleOuter c g mol n f i =
      f + ((List.range' (i + 1) (n - (i + 1))).map fun j => flopsOf c.cutoffSquared g ⟨mol i, mol j, true⟩).sum := by
  unfold flopsSingleOuter
  split
  · rename_i hd
    rw [sum_zero _ _ fun j _ => of_dummy_left _ _ _ hd _, add_zero]
  · rename_i hd
    rw [← flops_foldl_add]
    exact foldl_congr_mem (fun j _ s => flopsSingleInner_eq c g hd mol s j) _

theorem flopsPairOuter_eq (c : LJCfg K) (g newton3 : Bool) (mol₁ mol₂ : Nat → Mol K) (n₂ : Nat) (f : LJFlops) (i : Nat) :
    flopsPairOuter c g newton3 mol₁ mol₂ n₂ f i =
      f + ((List.range n₂).map fun j => flopsOf c.cutoffSquared g ⟨mol₁ i, mol₂ j, newton3⟩).sum := by
  unfold flopsPairOuter
  split
  · rename_i hd
    rw [sum_zero _ _ fun j _ => of_dummy_left _ _ _ hd _, add_zero]
  · rename_i hd
    rw [← flops_foldl_add]
    exact foldl_congr_mem (fun j _ s => flopsInner_eq c g newton3 hd (mol₂ j) s) _

private theorem sum_flatMap' {X Y : Type} (l : List X) (k : X → List Y) (h : Y → LJFlops) :
    ((l.flatMap k).map h).sum = (l.map fun x => ((k x).map h).sum).sum := by
  induction l with
  | nil => rfl
  | cons x l ih => rw [List.flatMap_cons, List.map_append, List.sum_append, ih, List.map_cons, List.sum_cons]

theorem everyTwo_eq {X : Type} (l : List X) : everyTwo l = pairLoop (fun _ _ => false) l := by
  induction l with
  | nil => rfl
  | cons x l ih =>
    have : ∀ m : List X, m.takeWhile (fun _ => true) = m := by
      intro m
      induction m with
      | nil => rfl
      | cons y m ihm => rw [List.takeWhile_cons_of_pos rfl, ihm]
    simp only [everyTwo, pairLoop, untilBreak, Bool.not_false, this, ih]

section
variable {P : Type}

private theorem load_get {l : List P} (mol : P → Mol K) (d : P) {k : Nat} (hk : k < l.length) : soaLoadMols l mol k = mol (l.getD k d) := by
  unfold soaLoadMols
  rw [List.getElem?_eq_getElem hk, List.getD_eq_getElem _ _ hk]

private theorem range_getD (l : List P) (d : P) : l = (List.range l.length).map fun k => l.getD k d := by
  refine List.ext_getElem (by simp) ?_
  intro i h1 h2
  rw [List.getElem_map, List.getElem_range, List.getD_eq_getElem _ _ h1]

theorem flopsSingle_eq (c : LJCfg K) (g : Bool) (mol : P → Mol K) (l : List P) (f : LJFlops) (newton3 : Bool) :
    flopsSingle c g (soaLoadMols l mol) l.length f =
      f + (((KernelCall.single newton3 l).evaluations mol).map (flopsOf c.cutoffSquared g)).sum := by
  unfold flopsSingle
  rcases hl : l with _ | ⟨d, l'⟩
  · simp [KernelCall.evaluations, everyTwo]
  · rw [if_neg (by simp), ← hl, ← LJFlops.add_def]
    congr 1
    have h1 : (List.range l.length).foldl (flopsSingleOuter c g (soaLoadMols l mol) l.length) .zero =
        (0 : LJFlops) + ((List.range l.length).map fun i => ((List.range' (i + 1) (l.length - (i + 1))).map fun j =>
          flopsOf c.cutoffSquared g ⟨soaLoadMols l mol i, soaLoadMols l mol j, true⟩).sum).sum := by
      rw [← flops_foldl_add]
      exact foldl_congr_mem (fun i _ s => flopsSingleOuter_eq c g _ _ s i) _
    rw [h1, zero_add]
    unfold KernelCall.evaluations
    simp only
    conv_rhs => rw [everyTwo_eq, range_getD l d, pairLoop_map, List.range_eq_range', pairLoop_range']
    simp only [zero_add]
    rw [List.map_map, List.map_map, sum_flatMap', ← List.range_eq_range']
    refine congrArg List.sum (List.map_congr_left ?_)
    intro i hi
    rw [List.map_map]
    refine congrArg List.sum (List.map_congr_left ?_)
    intro j hj
    rw [List.mem_range] at hi
    rw [List.mem_range'_1] at hj
    simp only [Function.comp_apply]
    rw [load_get mol d hi, load_get mol d (by omega)]

theorem flopsPair_eq (c : LJCfg K) (g newton3 : Bool) (mol : P → Mol K) (l₁ l₂ : List P) (f : LJFlops) :
    flopsPair c g newton3 (soaLoadMols l₁ mol) (soaLoadMols l₂ mol) l₁.length l₂.length f =
      f + (((KernelCall.pair newton3 l₁ l₂).evaluations mol).map (flopsOf c.cutoffSquared g)).sum := by
  unfold flopsPair
  rcases h1 : l₁ with _ | ⟨d, l'⟩
  · simp [KernelCall.evaluations]
  rcases h2 : l₂ with _ | ⟨d', l''⟩
  · have : ∀ m : List P, (m.flatMap fun _ => ([] : List (Evaluation K))) = [] := fun m => by simp
    simp [KernelCall.evaluations, this]
  rw [if_neg (by simp), ← h1, ← h2, ← LJFlops.add_def]
  congr 1
  have h1 : (List.range l₁.length).foldl (flopsPairOuter c g newton3 (soaLoadMols l₁ mol) (soaLoadMols l₂ mol) l₂.length) .zero =
      (0 : LJFlops) + ((List.range l₁.length).map fun i => ((List.range l₂.length).map fun j =>
        flopsOf c.cutoffSquared g ⟨soaLoadMols l₁ mol i, soaLoadMols l₂ mol j, newton3⟩).sum).sum := by
    rw [← flops_foldl_add]
    exact foldl_congr_mem (fun i _ s => flopsPairOuter_eq c g newton3 _ _ _ s i) _
  rw [h1, zero_add]
  unfold KernelCall.evaluations
  simp only
  rw [sum_flatMap']
  conv_rhs => rw [range_getD l₁ d]
  rw [List.map_map]
  refine congrArg List.sum (List.map_congr_left ?_)
  intro i hi
  simp only [Function.comp_apply]
  conv_rhs => rw [range_getD l₂ d]
  rw [List.map_map, List.map_map]
  refine congrArg List.sum (List.map_congr_left ?_)
  intro j hj
  rw [List.mem_range] at hi hj
  simp only [Function.comp_apply]
  rw [load_get mol d hi, load_get mol d hj]

theorem flopsVerletRest_eq (c : LJCfg K) (g newton3 : Bool) {first : Nat} {mol : Nat → Mol K} (hi : (mol first).own ≠ .dummy) (f : LJFlops)
    {j : Nat} (hj : first ≠ j) : flopsVerletRest c g newton3 first mol f j = f + flopsOf c.cutoffSquared g ⟨mol first, mol j, newton3⟩ := by
  rw [← flopsAoS_eq]
  unfold flopsVerletRest flopsAoS
  rw [if_neg hj]
  by_cases hd : (mol j).own = .dummy
  · rw [if_pos hd, if_pos (Or.inr hd)]
  · rw [if_neg hd, if_neg (show ¬((mol first).own = .dummy ∨ (mol j).own = .dummy) by simp [hi, hd])]
    rfl

theorem flopsVerletBlocks_eq (c : LJCfg K) (g newton3 : Bool) (vecsize : Nat) {i : Mol K} (hi : i.own ≠ .dummy) (mol : Nat → Mol K) (f : LJFlops)
    (list : List Nat) : ∃ done rest, list = done ++ rest ∧ flopsVerletBlocks c g newton3 vecsize i mol f list =
      (f + (done.map fun j => flopsOf c.cutoffSquared g ⟨i, mol j, newton3⟩).sum, rest) := by
  induction hn : list.length using Nat.strong_induction_on generalizing list f with
  | _ n ih =>
    rw [flopsVerletBlocks]
    split
    · rename_i h
      obtain ⟨done, rest, e, r⟩ := ih (list.drop vecsize).length (by rw [List.length_drop]; omega)
        ((list.take vecsize).foldl (fun f j => flopsInner c g newton3 i (mol j) f) f) (list.drop vecsize) rfl
      refine ⟨list.take vecsize ++ done, rest, ?_, ?_⟩
      · rw [List.append_assoc, ← e, List.take_append_drop]
      · rw [r, List.map_append, List.sum_append, ← add_assoc]
        congr 2
        rw [← flops_foldl_add]
        exact foldl_congr_mem (fun j _ s => flopsInner_eq c g newton3 hi (mol j) s) _
    · exact ⟨[], list, rfl, by simp⟩

theorem flopsVerlet_eq (c : LJCfg K) (g newton3 : Bool) (vecsize : Nat) (mol : P → Mol K) (l : List P) (first : Nat) (list : List Nat)
    (hs : first ∉ list) (f : LJFlops) :
    flopsVerlet c g newton3 vecsize (soaLoadMols l mol) l.length first list f =
      f + (((KernelCall.verlet newton3 l first list).evaluations mol).map (flopsOf c.cutoffSquared g)).sum := by
  unfold flopsVerlet KernelCall.evaluations
  simp only
  rcases hf : l[first]? with _ | p
  · have hd : (soaLoadMols l mol first).own = .dummy := by simp [soaLoadMols, hf]
    by_cases h0 : l.length = 0 ∨ list = []
    · rw [if_pos h0]; simp
    · rw [if_neg h0, if_pos hd]; simp
  · have hm : soaLoadMols l mol first = mol p := by simp [soaLoadMols, hf]
    have hlen : l.length ≠ 0 := by
      intro h0
      rw [List.getElem?_eq_none (by omega)] at hf
      exact absurd hf (by simp)
    have hsum : ∀ ks : List Nat, ((ks.filterMap fun k => (l[k]?).map fun q => (⟨mol p, mol q, newton3⟩ : Evaluation K)).map
        (flopsOf c.cutoffSquared g)).sum = (ks.map fun k => flopsOf c.cutoffSquared g ⟨mol p, soaLoadMols l mol k, newton3⟩).sum := by
      intro ks
      induction ks with
      | nil => rfl
      | cons k ks ih =>
        rw [List.map_cons, List.sum_cons, ← ih, List.filterMap_cons]
        rcases hk : l[k]? with _ | q
        · rw [of_dummy_right _ _ _ _ (by simp [soaLoadMols, hk])]
          simp
        · simp [soaLoadMols, hk]
    rw [hsum]
    by_cases hl : list = []
    · simp [hl]
    · rw [if_neg (by simp [hl, hlen])]
      by_cases hd : (soaLoadMols l mol first).own = .dummy
      · rw [if_pos hd, sum_zero _ _ fun k _ => of_dummy_left _ _ _ (hm ▸ hd) _, add_zero]
      · rw [if_neg hd]
        obtain ⟨done, rest, e, r⟩ := flopsVerletBlocks_eq c g newton3 vecsize hd (soaLoadMols l mol) .zero list
        rw [r, ← LJFlops.add_def]
        congr 1
        have h2 : ∀ s, rest.foldl (flopsVerletRest c g newton3 first (soaLoadMols l mol)) s =
            s + (rest.map fun k => flopsOf c.cutoffSquared g ⟨soaLoadMols l mol first, soaLoadMols l mol k, newton3⟩).sum := by
          intro s
          rw [← flops_foldl_add]
          refine foldl_congr_mem (fun j hj s => flopsVerletRest_eq c g newton3 hd s ?_) s
          rintro rfl
          exact hs (by rw [e]; exact List.mem_append_right _ hj)
        rw [h2, ← LJFlops.zero_def, zero_add, e, List.map_append, List.sum_append, hm]

theorem flopsKernelCall_eq (c : LJCfg K) (g : Bool) (vecsize : Nat) (mol : P → Mol K) (f : LJFlops) (k : KernelCall P) (hs : k.SelfFree) :
    flopsKernelCall c g vecsize mol f k = f + ((k.evaluations mol).map (flopsOf c.cutoffSquared g)).sum := by
  cases k with
  | aos call => simp [flopsKernelCall, KernelCall.evaluations, flopsAoS_eq]
  | single n l => exact flopsSingle_eq c g mol l f n
  | pair n l₁ l₂ => exact flopsPair_eq c g n mol l₁ l₂ f
  | verlet n l first list => exact flopsVerlet_eq c g n vecsize mol l first list hs f

theorem sum_set' (d : List LJFlops) {t : Nat} (ht : t < d.length) (x : LJFlops) : (d.set t (d.getD t .zero + x)).sum = d.sum + x := by
  induction d generalizing t with
  | nil => simp at ht
  | cons a d ih =>
    cases t with
    | zero => simp only [List.set_cons_zero, List.getD_cons_zero, List.sum_cons]; rw [add_assoc, add_comm x, add_assoc]
    | succ t =>
      simp only [List.set_cons_succ, List.getD_cons_succ, List.sum_cons]
      rw [ih (by simpa using ht), add_assoc]

theorem flopsCompute_sum (c : LJCfg K) (g : Bool) (vecsize : Nat) (mol : P → Mol K) (d : List LJFlops) (jobs : List (Nat × KernelCall P))
    (ht : ∀ j ∈ jobs, j.1 < d.length) (hs : ∀ j ∈ jobs, j.2.SelfFree) :
    (flopsCompute c g vecsize mol d jobs).sum =
      ((jobs.flatMap fun j => j.2.evaluations mol).map (flopsOf c.cutoffSquared g)).sum := by
  have key : ∀ (jobs : List (Nat × KernelCall P)) (e : List LJFlops), e.length = d.length → (∀ j ∈ jobs, j.1 < d.length) →
      (∀ j ∈ jobs, j.2.SelfFree) → (jobs.foldl (flopsJob c g vecsize mol) e).sum =
        e.sum + ((jobs.flatMap fun j => j.2.evaluations mol).map (flopsOf c.cutoffSquared g)).sum := by
    intro jobs
    induction jobs with
    | nil => intro e _ _ _; simp
    | cons j jobs ih =>
      intro e he ht hs
      rw [List.foldl_cons, ih _ (by simp [flopsJob, he]) (fun k hk => ht k (List.mem_cons_of_mem _ hk)) fun k hk => hs k (List.mem_cons_of_mem _ hk)]
      rw [List.flatMap_cons, List.map_append, List.sum_append, ← add_assoc]
      congr 1
      unfold flopsJob
      rw [flopsKernelCall_eq c g vecsize mol _ _ (hs j (List.mem_cons_self ..))]
      exact sum_set' e (by rw [he]; exact ht j (List.mem_cons_self ..)) _
  unfold flopsCompute
  rw [key jobs _ (by simp [flopsInitTraversal]) ht hs]
  have : (flopsInitTraversal d).sum = 0 := by
    unfold flopsInitTraversal
    exact sum_zero _ _ fun _ _ => rfl
  rw [this, zero_add]

end
end

theorem acc_sum (p : LJFlops → Nat) (h0 : p 0 = 0) (hp : ∀ a b, p (a + b) = p a + p b) (d : List LJFlops) :
    d.foldl (fun s x => s + p x) 0 = p d.sum := by
  have : ∀ s, d.foldl (fun s x => s + p x) s = s + p d.sum := by
    induction d with
    | nil => intro s; simp [h0]
    | cons a d ih => intro s; rw [List.foldl_cons, ih, List.sum_cons, hp, Nat.add_assoc]
  rw [this, Nat.zero_add]

/-- A counter of a sum of pairs. -/
theorem counter_sum {X : Type} (p : LJFlops → Nat) (h0 : p 0 = 0) (hp : ∀ a b, p (a + b) = p a + p b) (h : X → LJFlops) (l : List X) :
    p (l.map h).sum = (l.map fun x => p (h x)).sum := by
  induction l with
  | nil => simp [h0]
  | cons a l ih => rw [List.map_cons, List.sum_cons, hp, ih, List.map_cons, List.sum_cons]

end Verif
