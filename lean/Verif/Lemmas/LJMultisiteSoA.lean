import Verif.Lemmas.LJMultisite
/-! The SoA kernels for molecules with several sites change what the AoS kernel changes. -/
namespace Verif
open Spec

section
variable {K : Type} [Field K] [LinearOrder K] {P : Type} [DecidableEq P]
variable {c : MSCfg K} {mol : Nat → MSMol K}

theorem num_mul_comm (a b : Num K) : a * b = b * a := by
  cases a <;> cases b <;> simp [mul_comm]

theorem msKernelSoA_eq (tA tB : Nat) (mask : Bool) (x y : V3 K) :
    msKernelSoA c tA tB mask x y = if mask then msKernelAoS c tA tB (x - y) else ⟨0, 0, 0⟩ := by
  unfold msKernelSoA msKernelAoS
  dsimp only
  rw [prod_normSq, inner_normSq]
  cases mask
  · simp only [Bool.false_eq_true, if_false]
    congr 1
    · refine V3.ext' ?_ ?_ ?_ <;> simp [Num.zero_def]
    · refine V3.ext' ?_ ?_ ?_ <;> simp [Num.zero_def]
  · simp only [if_true]
    have e : ∀ s : Num K, (⟨s * .fin (x - y).x, s * .fin (x - y).y, s * .fin (x - y).z⟩ : V3 (Num K)) = (x - y).fin.scale s := by
      intro s; refine V3.ext' ?_ ?_ ?_ <;> simp [num_mul_comm]
    rw [e]

theorem zero_share (p q : Prop) [Decidable p] [Decidable q] : (0 : Num K) * ((if p then .fin 1 else .fin 0) + (if q then .fin 1 else .fin 0)) = 0 := by
  split_ifs <;> simp [Num.zero_def]

omit [LinearOrder K] in
theorem displacement_eq (ra rb pa pb : V3 K) : (ra + pa) - (rb + pb) = pa - pb - rb + ra := by
  refine V3.ext' ?_ ?_ ?_ <;> simp <;> ring

/-- What site `i` of `a` and the site `v` of another molecule change in the inner loop. -/
def innerEvent (c : MSCfg K) (mol : Nat → MSMol K) (newton3 : Bool) (a : MSMol K) (rotA : V3 K) (i : Nat) (v : Nat × Nat × Nat) : MSInner K :=
  if maskOf c a (mol v.1) then
    let k := sitesKernel c a (mol v.1) i v.2.1
    ⟨if newton3 then Pi.single v.2.2 (-k.force) else 0, k.force, rotA.fin.cross k.force,
      shareSoA (decide (a.own = .owned)) (decide (newton3 = true ∧ (mol v.1).own = .owned)) k⟩
  else 0

theorem msInner_eq (newton3 : Bool) (a : MSMol K) (rotA : V3 K) (i : Nat) {sites : List (SoASite K)} {mask : List Bool} {off : Nat} {v : Nat × Nat × Nat}
    (hg : off ≤ v.2.2) (hs : sites.getD v.2.2 ⟨0, 0, false⟩ = siteEntry c (mol v.1) v.2.1) (hm : mask.getD (v.2.2 - off) false = maskOf c a (mol v.1)) (s : MSInner K) :
    msInner c newton3 (decide (a.own = .owned)) ((c.siteIds a.type).getD i 0) ((c.rotated a).getD i 0 + a.pos) rotA sites mask off s (v.2.2 - off) =
      s + innerEvent c mol newton3 a rotA i v := by
  unfold msInner
  dsimp only
  rw [Nat.sub_add_cancel hg, hs, hm, msKernelSoA_eq]
  unfold innerEvent
  simp only [siteEntry]
  rw [displacement_eq]
  cases maskOf c a (mol v.1)
  · simp only [Bool.false_eq_true, if_false]
    refine MSInner.ext' ?_ ?_ ?_ ?_
    · cases newton3
      · simp
      · simp only [v3_sub_neg, update_add, if_true, v3_neg_zero, Pi.single_zero, MSInner.add_siteForce]; rfl
    · rfl
    · simp only [cross_zero]; rfl
    · simp only [LJGlobals.plus_eq, MSInner.add_sums]
      congr 1
      refine LJGlobals.ext' ?_ ?_
      · refine V3.ext' ?_ ?_ ?_ <;> exact zero_share _ _
      · exact zero_share _ _
  · simp only [if_true]
    refine MSInner.ext' ?_ rfl rfl ?_
    · cases newton3
      · simp
      · simp only [v3_sub_neg, update_add, if_true, MSInner.add_siteForce]; rfl
    · simp only [LJGlobals.plus_eq, MSInner.add_sums, shareSoA, sitesKernel, decide_eq_true_eq, Bool.decide_and]
      cases newton3 <;> simp

/-- The inner loop. -/
theorem msInner_fold (newton3 : Bool) (a : MSMol K) (rotA : V3 K) (i : Nat) (pre : List (SoASite K)) (mols : List Nat) (s : MSInner K) :
    (List.range (msSiteCount c mol mols)).foldl (msInner c newton3 (decide (a.own = .owned)) ((c.siteIds a.type).getD i 0) ((c.rotated a).getD i 0 + a.pos) rotA
      (pre ++ msSites c mol mols) (msSiteMask c mol a mols) pre.length) s =
    s + ((visits c mol mols pre.length).map (innerEvent c mol newton3 a rotA i)).sum := by
  have key : ∀ b ∈ List.range (msSiteCount c mol mols), ∃ v ∈ visits c mol mols pre.length, b = v.2.2 - pre.length := by
    intro b hb
    have : pre.length + b ∈ (visits c mol mols pre.length).map (fun v => v.2.2) := by
      rw [visits_idx, List.mem_range'_1]; have := List.mem_range.1 hb; omega
    obtain ⟨v, hv, e⟩ := List.mem_map.1 this
    exact ⟨v, hv, by omega⟩
  have hstep : ∀ s : MSInner K, ∀ v ∈ visits c mol mols pre.length, msInner c newton3 (decide (a.own = .owned)) ((c.siteIds a.type).getD i 0)
      ((c.rotated a).getD i 0 + a.pos) rotA (pre ++ msSites c mol mols) (msSiteMask c mol a mols) pre.length s (v.2.2 - pre.length) =
      s + innerEvent c mol newton3 a rotA i v := fun s v hv =>
    msInner_eq newton3 a rotA i (visits_ge mols _ hv).1 (sites_get mols pre v hv) (mask_get' a mols _ hv) s
  have e : (List.range (msSiteCount c mol mols)) = (visits c mol mols pre.length).map fun v => v.2.2 - pre.length := by
    rw [show (fun v : Nat × Nat × Nat => v.2.2 - pre.length) = (fun g => g - pre.length) ∘ (fun v => v.2.2) from rfl, ← List.map_map, visits_idx,
      List.range'_eq_map_range, List.map_map]
    conv_lhs => rw [← List.map_id (List.range _)]
    refine List.map_congr_left fun x _ => ?_
    simp
  rw [e, List.foldl_map]
  exact foldl_add _ _ _ hstep s

/-- The loops over the sites of a molecule and all sites of the others. -/
theorem msRow_eq (newton3 : Bool) (a : MSMol K) (mols : List Nat) (Φ : Nat → V3 (Num K)) (sums : LJGlobals K) :
    msRow c newton3 a (msSites c mol mols) (msSiteMask c mol a mols) (msSiteCount c mol mols) Φ sums =
    ⟨Φ, 0, 0, sums⟩ + ((List.range (c.numSites a.type)).map fun i =>
      ((visits c mol mols 0).map (innerEvent c mol newton3 a ((c.rotated a).getD i 0) i)).sum).sum := by
  unfold msRow
  exact foldl_add _ _ _ (fun s i _ => msInner_fold (c := c) (mol := mol) newton3 a ((c.rotated a).getD i 0) i [] mols s) _

/-! ### Reduction -/

/-- Forces and torques of molecules from forces on sites. -/
def reduced (c : MSCfg K) (mol : Nat → MSMol K) (ι : Nat → P) (V : List (Nat × Nat × Nat)) (Φ : Nat → V3 (Num K)) : MSState P K :=
  ⟨(V.map fun v => (Pi.single (ι v.1) (Φ v.2.2) : P → V3 (Num K))).sum,
   (V.map fun v => (Pi.single (ι v.1) (((c.rotated (mol v.1)).getD v.2.1 0).fin.cross (Φ v.2.2)) : P → V3 (Num K))).sum, 0⟩

theorem reduced_add (ι : Nat → P) (V : List (Nat × Nat × Nat)) (Φ Ψ : Nat → V3 (Num K)) : reduced c mol ι V (Φ + Ψ) = reduced c mol ι V Φ + reduced c mol ι V Ψ := by
  unfold reduced
  refine MSState.ext' ?_ ?_ (by simp)
  · simp only [MSState.add_force, Pi.add_apply, Pi.single_add, List.sum_map_add]
  · simp only [MSState.add_torque, Pi.add_apply, cross_add, Pi.single_add, List.sum_map_add]

theorem reduced_zero (ι : Nat → P) (V : List (Nat × Nat × Nat)) : reduced c mol ι V 0 = 0 := by
  unfold reduced
  refine MSState.ext' ?_ ?_ rfl
  · simp only [Pi.zero_apply, Pi.single_zero, MSState.zero_force]
    exact List.sum_eq_zero (fun x hx => by obtain ⟨v, -, rfl⟩ := List.mem_map.1 hx; rfl)
  · simp only [Pi.zero_apply, cross_zero, Pi.single_zero, MSState.zero_torque]
    exact List.sum_eq_zero (fun x hx => by obtain ⟨v, -, rfl⟩ := List.mem_map.1 hx; rfl)

theorem sum_one {M : Type} [AddCommMonoid M] (V : List (Nat × Nat × Nat)) (h : Nat × Nat × Nat → M) {v : Nat × Nat × Nat} (hn : (V.map fun v => v.2.2).Nodup) (hv : v ∈ V)
    (hz : ∀ w ∈ V, w.2.2 ≠ v.2.2 → h w = 0) : (V.map h).sum = h v := by
  induction V with
  | nil => cases hv
  | cons w V ih =>
    rw [List.map_cons, List.nodup_cons] at hn
    rw [List.map_cons, List.sum_cons]
    rcases List.mem_cons.1 hv with rfl | hv'
    · rw [List.sum_eq_zero, add_zero]
      intro x hx
      obtain ⟨u, hu, rfl⟩ := List.mem_map.1 hx
      exact hz u (List.mem_cons_of_mem _ hu) (fun e => hn.1 (List.mem_map.2 ⟨u, hu, e⟩))
    · rw [hz w List.mem_cons_self (fun e => hn.1 (List.mem_map.2 ⟨v, hv', e.symm⟩)), zero_add]
      exact ih hn.2 hv' (fun u hu => hz u (List.mem_cons_of_mem _ hu))

theorem reduced_single (ι : Nat → P) (V : List (Nat × Nat × Nat)) (hn : (V.map fun v => v.2.2).Nodup) {v : Nat × Nat × Nat} (hv : v ∈ V) (f : V3 (Num K)) :
    reduced c mol ι V (Pi.single v.2.2 f) = ⟨Pi.single (ι v.1) f, Pi.single (ι v.1) (((c.rotated (mol v.1)).getD v.2.1 0).fin.cross f), 0⟩ := by
  unfold reduced
  refine MSState.ext' ?_ ?_ rfl
  · refine (sum_one V _ hn hv ?_).trans (by simp)
    intro w _ hw
    simp [hw]
  · refine (sum_one V _ hn hv ?_).trans (by simp)
    intro w _ hw
    simp [hw, cross_zero]

theorem reduced_sum {X : Type} (ι : Nat → P) (V : List (Nat × Nat × Nat)) (l : List X) (f : X → Nat → V3 (Num K)) :
    reduced c mol ι V (l.map f).sum = (l.map fun x => reduced c mol ι V (f x)).sum := by
  induction l with
  | nil => exact reduced_zero ι V
  | cons x l ih => rw [List.map_cons, List.sum_cons, reduced_add, ih, List.map_cons, List.sum_cons]

theorem msReduce_eq (Φ : Nat → V3 (Num K)) (mols : List Nat) : ∀ (F T : ForceArr K) (off : Nat),
    msReduce c mol Φ mols ((F, T), off) = ((F + (reduced c mol id (visits c mol mols off) Φ).force, T + (reduced c mol id (visits c mol mols off) Φ).torque),
      off + msSiteCount c mol mols) := by
  induction mols with
  | nil => intro F T off; simp [msReduce, reduced, visits, msSiteCount]
  | cons m ms ih =>
    intro F T off
    have inner : ∀ (n : Nat) (F T : ForceArr K), (List.range n).foldl (fun (s : (ForceArr K × ForceArr K) × Nat) site =>
        ((Function.update s.1.1 m (s.1.1 m + Φ s.2), Function.update s.1.2 m (s.1.2 m + ((c.rotated (mol m)).getD site 0).fin.cross (Φ s.2))), s.2 + 1)) ((F, T), off) =
        ((F + ((List.range n).map fun s => (Pi.single m (Φ (off + s)) : Nat → V3 (Num K))).sum,
          T + ((List.range n).map fun s => (Pi.single m (((c.rotated (mol m)).getD s 0).fin.cross (Φ (off + s))) : Nat → V3 (Num K))).sum), off + n) := by
      intro n F T
      induction n with
      | zero => simp
      | succ n ih2 =>
        rw [List.range_succ, List.foldl_append, ih2, List.foldl_cons, List.foldl_nil]
        simp only [update_add, List.map_append, List.sum_append, List.map_cons, List.map_nil, List.sum_cons, List.sum_nil, add_zero, add_assoc]
    have e : msReduce c mol Φ (m :: ms) ((F, T), off) = msReduce c mol Φ ms ((List.range (c.numSites (mol m).type)).foldl (fun (s : (ForceArr K × ForceArr K) × Nat) site =>
        ((Function.update s.1.1 m (s.1.1 m + Φ s.2), Function.update s.1.2 m (s.1.2 m + ((c.rotated (mol m)).getD site 0).fin.cross (Φ s.2))), s.2 + 1)) ((F, T), off)) := rfl
    rw [e, inner, ih, siteCount_cons]
    unfold reduced
    simp only [visits, List.map_append, List.sum_append, List.map_map, Function.comp_def, id]
    simp only [Prod.mk.injEq]
    refine ⟨⟨?_, ?_⟩, ?_⟩
    · rw [add_assoc]
    · rw [add_assoc]
    · omega

/-! ### From rows to states -/

/-- What a row does to the molecules: the sums go to molecule `p`, the forces on sites are reduced. -/
def rowState (c : MSCfg K) (mol : Nat → MSMol K) (p : P) (ι : Nat → P) (V : List (Nat × Nat × Nat)) (r : MSInner K) : MSState P K :=
  ⟨Pi.single p r.forceSum, Pi.single p r.torqueSum, r.sums⟩ + reduced c mol ι V r.siteForce

theorem rowState_add (p : P) (ι : Nat → P) (V : List (Nat × Nat × Nat)) (r r' : MSInner K) :
    rowState c mol p ι V (r + r') = rowState c mol p ι V r + rowState c mol p ι V r' := by
  unfold rowState
  rw [MSInner.add_siteForce, reduced_add, add_add_add_comm]
  congr 1
  refine MSState.ext' ?_ ?_ rfl <;> simp [Pi.single_add]

theorem rowState_zero (p : P) (ι : Nat → P) (V : List (Nat × Nat × Nat)) : rowState c mol p ι V (0 : MSInner K) = 0 := by
  unfold rowState
  change _ + reduced c mol ι V 0 = 0
  rw [reduced_zero, add_zero]
  refine MSState.ext' ?_ ?_ rfl
  · exact Pi.single_zero _
  · exact Pi.single_zero _

theorem rowState_sum {X : Type} (p : P) (ι : Nat → P) (V : List (Nat × Nat × Nat)) (l : List X) (f : X → MSInner K) :
    rowState c mol p ι V (l.map f).sum = (l.map fun x => rowState c mol p ι V (f x)).sum := by
  induction l with
  | nil => exact rowState_zero p ι V
  | cons x l ih => rw [List.map_cons, List.sum_cons, rowState_add, ih, List.map_cons, List.sum_cons]

theorem rowState_inner (newton3 : Bool) (p : P) (ι : Nat → P) (V : List (Nat × Nat × Nat)) (hn : (V.map fun v => v.2.2).Nodup) {v : Nat × Nat × Nat} (hv : v ∈ V) (a : MSMol K)
    (i : Nat) : rowState c mol p ι V (innerEvent c mol newton3 a ((c.rotated a).getD i 0) i v) =
      if maskOf c a (mol v.1) then siteEvent shareSoA c newton3 p (ι v.1) a (mol v.1) i v.2.1 else 0 := by
  unfold innerEvent
  cases maskOf c a (mol v.1)
  · simp only [Bool.false_eq_true, if_false]; exact rowState_zero p ι V
  · simp only [if_true]
    unfold rowState
    dsimp only
    cases newton3
    · simp only [Bool.false_eq_true, if_false]
      rw [reduced_zero, add_zero]
      unfold siteEvent
      simp
    · simp only [if_true]
      rw [reduced_single ι V hn hv]
      refine MSState.ext' rfl ?_ ?_
      · simp only [MSState.add_torque, cross_neg]; rfl
      · simp only [MSState.add_globals, add_zero, siteEvent]

/-- The sums over the sites of `a` and the sites of all `mols`. -/
theorem row_events (newton3 : Bool) (p : P) (ι : Nat → P) (mols : List Nat) (off : Nat) (a : MSMol K) (ha : a.own ≠ .dummy) :
    ((List.range (c.numSites a.type)).map fun i => ((visits c mol mols off).map fun v =>
      if maskOf c a (mol v.1) then siteEvent shareSoA c newton3 p (ι v.1) a (mol v.1) i v.2.1 else 0).sum).sum =
    (mols.map fun m => pairEvent shareSoA c newton3 p (ι m) a (mol m)).sum := by
  have h1 : ∀ i, ((visits c mol mols off).map fun v => if maskOf c a (mol v.1) then siteEvent shareSoA c newton3 p (ι v.1) a (mol v.1) i v.2.1 else 0).sum =
      (mols.map fun m => ((List.range (c.numSites (mol m).type)).map fun s => if maskOf c a (mol m) then siteEvent shareSoA c newton3 p (ι m) a (mol m) i s else 0).sum).sum :=
    fun i => sum_visits (fun m s => if maskOf c a (mol m) then siteEvent shareSoA c newton3 p (ι m) a (mol m) i s else 0) mols off
  simp only [h1]
  rw [sum_map_swap]
  refine congrArg List.sum (List.map_congr_left fun m _ => ?_)
  unfold pairEvent
  by_cases h : MSNear c a (mol m)
  · rw [if_pos h, show maskOf c a (mol m) = true from decide_eq_true ⟨h.2.2, h.2.1⟩]
    rfl
  · rw [if_neg h, show maskOf c a (mol m) = false from decide_eq_false (fun h' => h ⟨ha, h'.2, h'.1⟩)]
    simp

theorem pairEvent_dummy (share : Bool → Bool → SiteForce K → LJGlobals K) (newton3 : Bool) (p q : P) {a b : MSMol K} (ha : a.own = .dummy) :
    pairEvent share c newton3 p q a b = 0 := by
  unfold pairEvent
  rw [if_neg (fun h => h.1 ha)]

/-- A neighbour list. -/
theorem msSoAVerlet_eq (newton3 : Bool) {n first : Nat} {list : List Nat} (hn : n ≠ 0) (s : MSState Nat K) :
    msSoAVerlet c newton3 mol n first list s = s + (list.map fun m => pairEvent shareSoA c newton3 first m (mol first) (mol m)).sum := by
  unfold msSoAVerlet
  by_cases hl : list = []
  · subst hl; simp
  rw [if_neg (by rintro (h | h); exacts [hn h, hl h])]
  by_cases hd : (mol first).own = .dummy
  · rw [if_pos hd]
    have : ((list.map fun m => pairEvent shareSoA c newton3 first m (mol first) (mol m)).sum : MSState Nat K) = 0 :=
      List.sum_eq_zero (fun x hx => by obtain ⟨m, -, rfl⟩ := List.mem_map.1 hx; exact pairEvent_dummy _ _ _ _ hd)
    rw [this, add_zero]
  rw [if_neg hd]
  dsimp only
  rw [msRow_eq]
  set R := ((List.range (c.numSites (mol first).type)).map fun i =>
      ((visits c mol list 0).map (innerEvent c mol newton3 (mol first) ((c.rotated (mol first)).getD i 0) i)).sum).sum with hR
  have hrow : rowState c mol first id (visits c mol list 0) R = (list.map fun m => pairEvent shareSoA c newton3 first m (mol first) (mol m)).sum := by
    refine Eq.trans ?_ (row_events (c := c) (mol := mol) newton3 first id list 0 (mol first) hd)
    rw [hR, rowState_sum]
    refine congrArg List.sum (List.map_congr_left fun i _ => ?_)
    rw [rowState_sum]
    refine congrArg List.sum (List.map_congr_left fun v hv => ?_)
    exact rowState_inner newton3 first id _ (visits_nodup list 0) hv (mol first) i
  rw [← hrow]
  have hz : ((⟨fun _ => 0, 0, 0, LJGlobals.zero⟩ : MSInner K) + R) = R := by
    refine MSInner.ext' ?_ (zero_add _) (zero_add _) (zero_add _)
    exact zero_add _
  rw [hz]
  have hsf : newton3 = false → R.siteForce = 0 := by
    rintro rfl
    have hs : ∀ {X : Type} (l : List X) (f : X → MSInner K), (∀ x ∈ l, (f x).siteForce = 0) → (l.map f).sum.siteForce = 0 := by
      intro X l f h
      induction l with
      | nil => rfl
      | cons x l ih =>
        rw [List.map_cons, List.sum_cons, MSInner.add_siteForce, h x List.mem_cons_self, ih (fun y hy => h y (List.mem_cons_of_mem _ hy)), zero_add]
    rw [hR]
    refine hs _ _ (fun i _ => hs _ _ (fun v _ => ?_))
    unfold innerEvent
    cases maskOf c (mol first) (mol v.1) <;> rfl
  cases newton3
  · simp only [Bool.false_eq_true, if_false, update_add]
    unfold rowState
    rw [hsf rfl, reduced_zero, add_zero]
    rfl
  · simp only [if_true, update_add]
    rw [msReduce_eq]
    refine MSState.ext' ?_ ?_ ?_
    · simp only [MSState.add_force, rowState, add_assoc]
    · simp only [MSState.add_torque, rowState, add_assoc]
    · simp only [MSState.add_globals, rowState, LJGlobals.plus_eq]
      change _ = _ + (R.sums + 0)
      rw [add_zero]

/-- Two SoAs. -/
theorem msSoAPair_eq (newton3 : Bool) {molA molB : Nat → MSMol K} {nA nB : Nat} (s : MSState (Nat ⊕ Nat) K) :
    msSoAPair c newton3 molA molB nA nB s = s + ((List.range nA).map fun i => ((List.range nB).map fun j =>
      pairEvent shareSoA c newton3 (.inl i) (.inr j) (molA i) (molB j)).sum).sum := by
  unfold msSoAPair
  by_cases hn : nA = 0 ∨ nB = 0
  · rw [if_pos hn]
    rcases hn with rfl | rfl
    · simp
    · simp
  rw [if_neg hn]
  dsimp only
  set V := visits c molB (List.range nB) 0 with hV
  -- a row
  let row : Nat → MSInner K := fun i => if (molA i).own = .dummy then 0 else
    ((List.range (c.numSites (molA i).type)).map fun k => (V.map (innerEvent c molB newton3 (molA i) ((c.rotated (molA i)).getD k 0) k)).sum).sum
  have hstep : ∀ (F T : ForceArr K) (Φ : Nat → V3 (Num K)) (G : LJGlobals K) (i : Nat),
      msPairOuter c newton3 molA molB nB (msSiteCount c molB (List.range nB)) (msSites c molB (List.range nB)) ((F, T), Φ, G) i =
      ((F + Pi.single i (row i).forceSum, T + Pi.single i (row i).torqueSum), Φ + (row i).siteForce, G + (row i).sums) := by
    intro F T Φ G i
    unfold msPairOuter
    by_cases hd : (molA i).own = .dummy
    · rw [if_pos hd]
      have : row i = 0 := if_pos hd
      rw [this]
      change _ = ((F + Pi.single i 0, T + Pi.single i 0), Φ + 0, G + 0)
      simp
    · rw [if_neg hd]
      have : row i = _ := if_neg hd
      dsimp only
      rw [msRow_eq, ← hV, ← this, update_add, update_add]
      simp only [MSInner.add_forceSum, MSInner.add_torqueSum, MSInner.add_siteForce, MSInner.add_sums, zero_add]
  have hfold : ∀ (l : List Nat) (F T : ForceArr K) (Φ : Nat → V3 (Num K)) (G : LJGlobals K),
      l.foldl (msPairOuter c newton3 molA molB nB (msSiteCount c molB (List.range nB)) (msSites c molB (List.range nB))) ((F, T), Φ, G) =
      ((F + (l.map fun i => (Pi.single i (row i).forceSum : ForceArr K)).sum, T + (l.map fun i => (Pi.single i (row i).torqueSum : ForceArr K)).sum),
        Φ + (l.map fun i => (row i).siteForce).sum, G + (l.map fun i => (row i).sums).sum) := by
    intro l
    induction l with
    | nil => intro F T Φ G; simp
    | cons i l ih =>
      intro F T Φ G
      rw [List.foldl_cons, hstep, ih]
      simp only [List.map_cons, List.sum_cons, add_assoc]
  rw [hfold, msReduce_eq]
  have hrow : ∀ i, rowState c molB (Sum.inl i : Nat ⊕ Nat) Sum.inr V (row i) = ((List.range nB).map fun j =>
      pairEvent shareSoA c newton3 (.inl i) (.inr j) (molA i) (molB j)).sum := by
    intro i
    by_cases hd : (molA i).own = .dummy
    · rw [show row i = 0 from if_pos hd, rowState_zero]
      symm
      exact List.sum_eq_zero (fun x hx => by obtain ⟨m, -, rfl⟩ := List.mem_map.1 hx; exact pairEvent_dummy _ _ _ _ hd)
    · rw [← row_events (c := c) (mol := molB) newton3 (Sum.inl i : Nat ⊕ Nat) Sum.inr (List.range nB) 0 (molA i) hd]
      have : row i = _ := if_neg hd
      rw [this, rowState_sum]
      refine congrArg List.sum (List.map_congr_left fun k _ => ?_)
      rw [rowState_sum]
      refine congrArg List.sum (List.map_congr_left fun v hv => ?_)
      exact rowState_inner newton3 _ _ _ (visits_nodup _ 0) hv (molA i) k
  simp only [← hrow]
  -- the parts of the state
  have hparts : ((List.range nA).map fun i => rowState c molB (Sum.inl i : Nat ⊕ Nat) Sum.inr V (row i)).sum =
      ⟨((List.range nA).map fun i => (Pi.single (Sum.inl i) (row i).forceSum : Nat ⊕ Nat → V3 (Num K))).sum,
       ((List.range nA).map fun i => (Pi.single (Sum.inl i) (row i).torqueSum : Nat ⊕ Nat → V3 (Num K))).sum, ((List.range nA).map fun i => (row i).sums).sum⟩ +
      reduced c molB Sum.inr V ((List.range nA).map fun i => (row i).siteForce).sum := by
    rw [reduced_sum]
    generalize List.range nA = l
    induction l with
    | nil => exact (add_zero (0 : MSState (Nat ⊕ Nat) K)).symm
    | cons i l ih =>
      rw [List.map_cons, List.sum_cons, ih]
      simp only [List.map_cons, List.sum_cons, rowState]
      rw [add_add_add_comm]
      rfl
  rw [hparts]
  have hl1 : ∀ (l : List Nat) (f : Nat → V3 (Num K)) (x : Nat), (l.map fun i => (Pi.single (Sum.inl i) (f i) : Nat ⊕ Nat → V3 (Num K))).sum (.inl x) =
      (l.map fun i => (Pi.single i (f i) : Nat → V3 (Num K))).sum x := by
    intro l f x
    induction l with
    | nil => rfl
    | cons i l ih =>
      simp only [List.map_cons, List.sum_cons, Pi.add_apply, ih]
      congr 1
      by_cases h : x = i
      · subst h; simp
      · simp [h]
  have hl2 : ∀ (l : List Nat) (f : Nat → V3 (Num K)) (x : Nat), (l.map fun i => (Pi.single (Sum.inl i) (f i) : Nat ⊕ Nat → V3 (Num K))).sum (.inr x) = 0 := by
    intro l f x
    induction l with
    | nil => rfl
    | cons i l ih => simp [ih]
  have hr1 : ∀ (l : List (Nat × Nat × Nat)) (f : Nat × Nat × Nat → V3 (Num K)) (x : Nat),
      (l.map fun v => (Pi.single (Sum.inr v.1) (f v) : Nat ⊕ Nat → V3 (Num K))).sum (.inr x) = (l.map fun v => (Pi.single (id v.1) (f v) : Nat → V3 (Num K))).sum x := by
    intro l f x
    induction l with
    | nil => rfl
    | cons i l ih =>
      simp only [List.map_cons, List.sum_cons, Pi.add_apply, ih]
      congr 1
      by_cases h : x = i.1
      · subst h; simp
      · simp [h]
  have hr2 : ∀ (l : List (Nat × Nat × Nat)) (f : Nat × Nat × Nat → V3 (Num K)) (x : Nat),
      (l.map fun v => (Pi.single (Sum.inr v.1) (f v) : Nat ⊕ Nat → V3 (Num K))).sum (.inl x) = 0 := by
    intro l f x
    induction l with
    | nil => rfl
    | cons i l ih => simp [ih]
  have hz : (fun _ => 0 : Nat → V3 (Num K)) + ((List.range nA).map fun i => (row i).siteForce).sum = ((List.range nA).map fun i => (row i).siteForce).sum := zero_add _
  rw [hz]
  refine MSState.ext' ?_ ?_ ?_
  · funext x
    rcases x with x | x
    · simp only [Sum.elim_inl, MSState.add_force, Pi.add_apply, hl1, reduced, hr2, add_zero]
    · simp only [Sum.elim_inr, MSState.add_force, Pi.add_apply, hl2, reduced, hr1, zero_add, hV]
  · funext x
    rcases x with x | x
    · simp only [Sum.elim_inl, MSState.add_torque, Pi.add_apply, hl1, reduced, hr2, add_zero]
    · simp only [Sum.elim_inr, MSState.add_torque, Pi.add_apply, hl2, reduced, hr1, zero_add, hV]
  · simp only [MSState.add_globals, LJGlobals.plus_eq, LJGlobals.zero_eq, zero_add]
    change _ = _ + (_ + 0)
    rw [add_zero]

theorem inner_parts (newton3 : Bool) (a : MSMol K) (r : V3 K) (i : Nat) (V : List (Nat × Nat × Nat)) :
    (V.map (innerEvent c mol newton3 a r i)).sum = ⟨(V.map (innerEvent c mol newton3 a 0 i)).sum.siteForce, (V.map (innerEvent c mol newton3 a 0 i)).sum.forceSum,
      r.fin.cross (V.map (innerEvent c mol newton3 a 0 i)).sum.forceSum, (V.map (innerEvent c mol newton3 a 0 i)).sum.sums⟩ := by
  induction V with
  | nil =>
    refine MSInner.ext' rfl rfl ?_ rfl
    change (0 : V3 (Num K)) = r.fin.cross 0
    rw [cross_zero]
  | cons v V ih =>
    rw [List.map_cons, List.sum_cons, ih, List.map_cons, List.sum_cons]
    have h : innerEvent c mol newton3 a r i v = ⟨(innerEvent c mol newton3 a 0 i v).siteForce, (innerEvent c mol newton3 a 0 i v).forceSum,
        r.fin.cross (innerEvent c mol newton3 a 0 i v).forceSum, (innerEvent c mol newton3 a 0 i v).sums⟩ := by
      unfold innerEvent
      cases maskOf c a (mol v.1)
      · refine MSInner.ext' rfl rfl ?_ rfl
        change (0 : V3 (Num K)) = r.fin.cross 0
        rw [cross_zero]
      · rfl
    rw [h]
    refine MSInner.ext' rfl rfl ?_ rfl
    simp only [MSInner.add_torqueSum, MSInner.add_forceSum, cross_add]

/-- Forces on sites and sums, seen as a change of the molecules. -/
def siteState (c : MSCfg K) (mol : Nat → MSMol K) (V : List (Nat × Nat × Nat)) (s : (Nat → V3 (Num K)) × LJGlobals K) : MSState Nat K :=
  reduced c mol id V s.1 + ⟨0, 0, s.2⟩

theorem siteState_row (V : List (Nat × Nat × Nat)) (hn : (V.map fun v => v.2.2).Nodup) (V' : List (Nat × Nat × Nat)) (A i g : Nat) (hv : (A, i, g) ∈ V)
    (s : (Nat → V3 (Num K)) × LJGlobals K) (R : MSInner K) (hR : R = (V'.map (innerEvent c mol true (mol A) 0 i)).sum) :
    siteState c mol V (Function.update (s.1 + R.siteForce) g ((s.1 + R.siteForce) g + R.forceSum), s.2 + R.sums) =
      siteState c mol V s + rowState c mol A id V (V'.map (innerEvent c mol true (mol A) ((c.rotated (mol A)).getD i 0) i)).sum := by
  rw [inner_parts, ← hR, update_add]
  unfold siteState rowState
  dsimp only
  rw [reduced_add, reduced_add, reduced_single id V hn hv R.forceSum]
  refine MSState.ext' ?_ ?_ ?_
  · simp only [MSState.add_force, id]; abel
  · simp only [MSState.add_torque, id]; abel
  · simp only [MSState.add_globals]
    change (0 : LJGlobals K) + 0 + 0 + (s.2 + R.sums) = (0 + s.2) + (R.sums + 0)
    simp only [add_zero, zero_add]

/-- One molecule and those after it. -/
theorem msSingleOuter_eq {n : Nat} (pre : List (SoASite K)) (A : Nat) (V : List (Nat × Nat × Nat)) (hn : (V.map fun v => v.2.2).Nodup)
    (hV : ∀ v ∈ visits c mol (A :: List.range' (A + 1) (n - (A + 1))) pre.length, v ∈ V) (s : (Nat → V3 (Num K)) × LJGlobals K) :
    let ms := List.range' (A + 1) (n - (A + 1))
    let r := msSingleOuter c mol n (pre.length + msSiteCount c mol (A :: ms)) (pre ++ msSites c mol (A :: ms)) (pre.length, s) A
    r.1 = pre.length + c.numSites (mol A).type ∧
      siteState c mol V r.2 = siteState c mol V s + (ms.map fun m => pairEvent shareSoA c true A m (mol A) (mol m)).sum := by
  intro ms r
  have hr : r = msSingleOuter c mol n (pre.length + msSiteCount c mol (A :: ms)) (pre ++ msSites c mol (A :: ms)) (pre.length, s) A := rfl
  unfold msSingleOuter at hr
  by_cases hd : (mol A).own = .dummy
  · dsimp only at hr
    rw [if_pos hd] at hr
    rw [hr]
    refine ⟨rfl, ?_⟩
    have : ((ms.map fun m => pairEvent shareSoA c true A m (mol A) (mol m)).sum : MSState Nat K) = 0 :=
      List.sum_eq_zero (fun x hx => by obtain ⟨m, -, rfl⟩ := List.mem_map.1 hx; exact pairEvent_dummy _ _ _ _ hd)
    rw [this, add_zero]
  · dsimp only at hr
    rw [if_neg hd] at hr
    rw [hr]
    refine ⟨rfl, ?_⟩
    dsimp only
    set nA := c.numSites (mol A).type with hnA
    have hcount : pre.length + msSiteCount c mol (A :: ms) - (pre.length + nA) = msSiteCount c mol ms := by
      rw [siteCount_cons, ← hnA]; omega
    have hrg : List.range' pre.length nA = (List.range nA).map fun i => pre.length + i := List.range'_eq_map_range
    rw [hcount, Nat.add_sub_cancel_left, hrg, List.foldl_map]
    set pre' := pre ++ (List.range nA).map fun i => siteEntry c (mol A) i with hpre'
    have hsites : pre ++ msSites c mol (A :: ms) = pre' ++ msSites c mol ms := by
      rw [hpre', List.append_assoc]
      unfold msSites
      rw [List.flatMap_cons]
      rfl
    have hlen : pre.length + nA = pre'.length := by simp [hpre']
    have hinV : ∀ i < nA, (A, i, pre.length + i) ∈ visits c mol (A :: ms) pre.length := by
      intro i hi
      rw [visits]
      exact List.mem_append_left _ (List.mem_map.2 ⟨i, List.mem_range.2 hi, rfl⟩)
    refine Eq.trans ?_ (congrArg (fun e => siteState c mol V s + e) (row_events (c := c) (mol := mol) true A id ms pre'.length (mol A) hd))
    have hfold : ∀ (l : List Nat) (s : (Nat → V3 (Num K)) × LJGlobals K), (∀ i ∈ l, i < nA) →
        siteState c mol V (l.foldl (fun (s : (Nat → V3 (Num K)) × LJGlobals K) i =>
          (Function.update ((List.range (msSiteCount c mol ms)).foldl (msInner c true (decide ((mol A).own = .owned))
              ((pre ++ msSites c mol (A :: ms)).getD (pre.length + i) ⟨0, 0, false⟩).type ((pre ++ msSites c mol (A :: ms)).getD (pre.length + i) ⟨0, 0, false⟩).exact 0
              (pre ++ msSites c mol (A :: ms)) (msSiteMask c mol (mol A) ms) (pre.length + nA)) ⟨s.1, 0, 0, s.2⟩).siteForce (pre.length + i)
            (((List.range (msSiteCount c mol ms)).foldl (msInner c true (decide ((mol A).own = .owned))
              ((pre ++ msSites c mol (A :: ms)).getD (pre.length + i) ⟨0, 0, false⟩).type ((pre ++ msSites c mol (A :: ms)).getD (pre.length + i) ⟨0, 0, false⟩).exact 0
              (pre ++ msSites c mol (A :: ms)) (msSiteMask c mol (mol A) ms) (pre.length + nA)) ⟨s.1, 0, 0, s.2⟩).siteForce (pre.length + i) +
              ((List.range (msSiteCount c mol ms)).foldl (msInner c true (decide ((mol A).own = .owned))
              ((pre ++ msSites c mol (A :: ms)).getD (pre.length + i) ⟨0, 0, false⟩).type ((pre ++ msSites c mol (A :: ms)).getD (pre.length + i) ⟨0, 0, false⟩).exact 0
              (pre ++ msSites c mol (A :: ms)) (msSiteMask c mol (mol A) ms) (pre.length + nA)) ⟨s.1, 0, 0, s.2⟩).forceSum),
           ((List.range (msSiteCount c mol ms)).foldl (msInner c true (decide ((mol A).own = .owned))
              ((pre ++ msSites c mol (A :: ms)).getD (pre.length + i) ⟨0, 0, false⟩).type ((pre ++ msSites c mol (A :: ms)).getD (pre.length + i) ⟨0, 0, false⟩).exact 0
              (pre ++ msSites c mol (A :: ms)) (msSiteMask c mol (mol A) ms) (pre.length + nA)) ⟨s.1, 0, 0, s.2⟩).sums)) s) =
        siteState c mol V s + (l.map fun i => ((visits c mol ms pre'.length).map fun v =>
          if maskOf c (mol A) (mol v.1) then siteEvent shareSoA c true A (id v.1) (mol A) (mol v.1) i v.2.1 else 0).sum).sum := by
      intro l
      induction l with
      | nil => intro s _; simp
      | cons i l ih =>
        intro s hi
        rw [List.foldl_cons, ih _ (fun j hj => hi j (List.mem_cons_of_mem _ hj)), List.map_cons, List.sum_cons, ← add_assoc]
        congr 1
        have hi' := hi i List.mem_cons_self
        rw [sites_get (A :: ms) pre _ (hinV i hi'), hsites, hlen]
        simp only [siteEntry]
        rw [msInner_fold]
        simp only [MSInner.add_siteForce, MSInner.add_forceSum, MSInner.add_sums, zero_add]
        rw [siteState_row V hn (visits c mol ms pre'.length) A i (pre.length + i) (hV _ (hinV i hi')) s _ rfl, rowState_sum]
        congr 2
        refine List.map_congr_left fun v hv => ?_
        refine rowState_inner true A id V hn (hV v ?_) (mol A) i
        rw [visits, ← hnA, hlen]
        exact List.mem_append_right _ hv
    exact hfold _ s (fun i hi => List.mem_range.1 hi)

/-- One SoA. -/
theorem msSoASingle_eq {n : Nat} (s : MSState Nat K) :
    msSoASingle c mol n s = s + ((List.range n).map fun i => ((List.range' (i + 1) (n - (i + 1))).map fun j =>
      pairEvent shareSoA c true i j (mol i) (mol j)).sum).sum := by
  unfold msSoASingle
  by_cases h0 : n = 0
  · subst h0; simp
  rw [if_neg h0]
  dsimp only
  set V := visits c mol (List.range n) 0 with hVd
  have hn : (V.map fun v => v.2.2).Nodup := visits_nodup _ 0
  have hfold : ∀ (k A : Nat) (pre : List (SoASite K)) (t : (Nat → V3 (Num K)) × LJGlobals K), A + k = n →
      pre ++ msSites c mol (List.range' A k) = msSites c mol (List.range n) → pre.length + msSiteCount c mol (List.range' A k) = msSiteCount c mol (List.range n) →
      (∀ v ∈ visits c mol (List.range' A k) pre.length, v ∈ V) →
      siteState c mol V ((List.range' A k).foldl (msSingleOuter c mol n (msSiteCount c mol (List.range n)) (msSites c mol (List.range n))) (pre.length, t)).2 =
      siteState c mol V t + ((List.range' A k).map fun i => ((List.range' (i + 1) (n - (i + 1))).map fun j => pairEvent shareSoA c true i j (mol i) (mol j)).sum).sum := by
    intro k
    induction k with
    | zero => intro A pre t _ _ _ _; simp
    | succ k ih =>
      intro A pre t hA hs hc hv
      have hk : n - (A + 1) = k := by omega
      rw [List.range'_succ] at hs hc hv ⊢
      rw [List.foldl_cons]
      have hstep := msSingleOuter_eq (c := c) (mol := mol) (n := n) pre A V hn (by rw [hk]; exact hv) t
      rw [hk] at hstep
      dsimp only at hstep
      rw [hs, hc] at hstep
      set r := msSingleOuter c mol n (msSiteCount c mol (List.range n)) (msSites c mol (List.range n)) (pre.length, t) A with hr
      set pre' := pre ++ (List.range (c.numSites (mol A).type)).map fun i => siteEntry c (mol A) i with hpre'
      have hlen : pre'.length = pre.length + c.numSites (mol A).type := by simp [hpre']
      have e : r = (pre'.length, r.2) := by rw [hlen, ← hstep.1]
      rw [e, ih (A + 1) pre' r.2 (by omega) ?_ ?_ ?_, hstep.2, List.map_cons, List.sum_cons, hk, add_assoc]
      · rw [← hs, hpre', List.append_assoc]
        unfold msSites
        rw [List.flatMap_cons]
        rfl
      · rw [← hc, hlen, siteCount_cons]; omega
      · intro v hv'
        refine hv v ?_
        rw [visits, ← hlen]
        exact List.mem_append_right _ hv'
  have key := hfold n 0 [] ((fun _ => 0), LJGlobals.zero) (by omega) (by rw [List.range_eq_range']; rfl) (by rw [List.range_eq_range']; simp)
    (by rw [← List.range_eq_range']; intro v hv; exact hv)
  rw [← List.range_eq_range'] at key
  set r := (List.range n).foldl (msSingleOuter c mol n (msSiteCount c mol (List.range n)) (msSites c mol (List.range n))) (0, (fun _ => 0), LJGlobals.zero) with hr
  have hz : siteState c mol V ((fun _ => 0 : Nat → V3 (Num K)), (LJGlobals.zero : LJGlobals K)) = 0 := by
    unfold siteState
    change reduced c mol id V 0 + 0 = 0
    rw [reduced_zero, add_zero]
  rw [show ([] : List (SoASite K)).length = 0 from rfl, ← hr, hz, zero_add] at key
  rw [← key, msReduce_eq, ← hVd]
  unfold siteState
  refine MSState.ext' ?_ ?_ ?_
  · simp only [MSState.add_force, add_zero]
  · simp only [MSState.add_torque, add_zero]
  · simp only [MSState.add_globals, LJGlobals.plus_eq]
    change _ = _ + (0 + _)
    rw [zero_add]

end
end Verif
