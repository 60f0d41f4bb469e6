import Verif.Model.LJMultisite
import Verif.Lemmas.LJSoA
import Mathlib.Tactic.Abel
/-! Sums for the functor for molecules with several sites. -/
namespace Verif
open Spec

section
variable {K : Type} [Field K] [LinearOrder K] {P : Type}

/-! ### States form a monoid -/
instance : Add (MSState P K) := ⟨fun a b => ⟨a.force + b.force, a.torque + b.torque, a.globals + b.globals⟩⟩
instance : Zero (MSState P K) := ⟨⟨0, 0, 0⟩⟩

theorem MSState.ext' {a b : MSState P K} (h1 : a.force = b.force) (h2 : a.torque = b.torque) (h3 : a.globals = b.globals) : a = b := by
  cases a; cases b; simp only at h1 h2 h3; subst h1 h2 h3; rfl

instance : AddCommMonoid (MSState P K) where
  add_assoc a b c := MSState.ext' (add_assoc _ _ _) (add_assoc _ _ _) (add_assoc _ _ _)
  zero_add a := MSState.ext' (zero_add _) (zero_add _) (zero_add _)
  add_zero a := MSState.ext' (add_zero _) (add_zero _) (add_zero _)
  add_comm a b := MSState.ext' (add_comm _ _) (add_comm _ _) (add_comm _ _)
  nsmul := nsmulRec

instance : Add (MSInner K) := ⟨fun a b => ⟨a.siteForce + b.siteForce, a.forceSum + b.forceSum, a.torqueSum + b.torqueSum, a.sums + b.sums⟩⟩
instance : Zero (MSInner K) := ⟨⟨0, 0, 0, 0⟩⟩

theorem MSInner.ext' {a b : MSInner K} (h1 : a.siteForce = b.siteForce) (h2 : a.forceSum = b.forceSum) (h3 : a.torqueSum = b.torqueSum)
    (h4 : a.sums = b.sums) : a = b := by
  cases a; cases b; simp only at h1 h2 h3 h4; subst h1 h2 h3 h4; rfl

instance : AddCommMonoid (MSInner K) where
  add_assoc a b c := MSInner.ext' (add_assoc _ _ _) (add_assoc _ _ _) (add_assoc _ _ _) (add_assoc _ _ _)
  zero_add a := MSInner.ext' (zero_add _) (zero_add _) (zero_add _) (zero_add _)
  add_zero a := MSInner.ext' (add_zero _) (add_zero _) (add_zero _) (add_zero _)
  add_comm a b := MSInner.ext' (add_comm _ _) (add_comm _ _) (add_comm _ _) (add_comm _ _)
  nsmul := nsmulRec

@[simp] theorem MSState.add_force (a b : MSState P K) : (a + b).force = a.force + b.force := rfl
@[simp] theorem MSState.add_torque (a b : MSState P K) : (a + b).torque = a.torque + b.torque := rfl
@[simp] theorem MSState.add_globals (a b : MSState P K) : (a + b).globals = a.globals + b.globals := rfl
@[simp] theorem MSState.zero_force : (0 : MSState P K).force = 0 := rfl
@[simp] theorem MSState.zero_torque : (0 : MSState P K).torque = 0 := rfl
@[simp] theorem MSState.zero_globals : (0 : MSState P K).globals = 0 := rfl
@[simp] theorem MSInner.add_siteForce (a b : MSInner K) : (a + b).siteForce = a.siteForce + b.siteForce := rfl
@[simp] theorem MSInner.add_forceSum (a b : MSInner K) : (a + b).forceSum = a.forceSum + b.forceSum := rfl
@[simp] theorem MSInner.add_torqueSum (a b : MSInner K) : (a + b).torqueSum = a.torqueSum + b.torqueSum := rfl
@[simp] theorem MSInner.add_sums (a b : MSInner K) : (a + b).sums = a.sums + b.sums := rfl

theorem foldl_add {M X : Type} [AddCommMonoid M] (f : M → X → M) (e : X → M) (l : List X) :
    (∀ s, ∀ x ∈ l, f s x = s + e x) → ∀ s, l.foldl f s = s + (l.map e).sum := by
  induction l with
  | nil => intro _ s; simp
  | cons x l ih =>
    intro h s
    rw [List.foldl_cons, ih (fun s y hy => h s y (List.mem_cons_of_mem _ hy)), h s x List.mem_cons_self, List.map_cons, List.sum_cons, add_assoc]

theorem sum_map_swap {M X Y : Type} [AddCommMonoid M] (f : X → Y → M) (l : List X) (l' : List Y) :
    (l.map fun x => (l'.map fun y => f x y).sum).sum = (l'.map fun y => (l.map fun x => f x y).sum).sum := by
  induction l with
  | nil => simp
  | cons x l ih => simp only [List.map_cons, List.sum_cons, ih, List.sum_map_add]

/-! ### Products with a vector -/

theorem num_fin_mul_add (r : K) (a b : Num K) : .fin r * (a + b) = .fin r * a + .fin r * b := by
  cases a <;> cases b <;> simp [mul_add]

theorem num_neg_add (a b : Num K) : -(a + b) = -a + -b := by
  cases a <;> cases b <;> simp [add_comm]

theorem num_fin_mul_neg (r : K) (a : Num K) : .fin r * (-a) = -(.fin r * a) := by
  cases a <;> simp

theorem num_neg_neg (a : Num K) : - -a = a := by
  cases a <;> simp

theorem cross_add (r : V3 K) (f g : V3 (Num K)) : r.fin.cross (f + g) = r.fin.cross f + r.fin.cross g := by
  refine V3.ext' ?_ ?_ ?_ <;>
  · simp only [V3.cross, V3.add_x, V3.add_y, V3.add_z, V3.fin_x, V3.fin_y, V3.fin_z, Num.sub_def, num_fin_mul_add, num_neg_add]
    exact add_add_add_comm _ _ _ _

theorem cross_zero (r : V3 K) : r.fin.cross (0 : V3 (Num K)) = 0 := by
  refine V3.ext' ?_ ?_ ?_ <;>
  · simp only [V3.cross, V3.zero_x, V3.zero_y, V3.zero_z, V3.fin_x, V3.fin_y, V3.fin_z, Num.zero_def, Num.fin_mul, Num.fin_sub, mul_zero, sub_zero]

theorem cross_neg (r : V3 K) (f : V3 (Num K)) : r.fin.cross (-f) = -(r.fin.cross f) := by
  refine V3.ext' ?_ ?_ ?_ <;>
  · simp only [V3.cross, V3.neg_x, V3.neg_y, V3.neg_z, V3.fin_x, V3.fin_y, V3.fin_z, Num.sub_def, num_fin_mul_neg, num_neg_add]

theorem v3_sub_neg {a b : V3 (Num K)} : a - b = a + -b := rfl

theorem v3_neg_zero : -(0 : V3 (Num K)) = 0 := by
  refine V3.ext' ?_ ?_ ?_ <;> simp [Num.zero_def]

/-! ### The AoS kernel -/

/-- What the sums for the globals get from two sites: AoS. -/
def shareAoS (ownA ownB : Bool) (k : SiteForce K) : LJGlobals K :=
  (if ownA then ⟨k.virial, k.upot6⟩ else 0) + (if ownB then ⟨k.virial, k.upot6⟩ else 0)

/-- SoA: multiplied by a factor. -/
def shareSoA (ownA ownB : Bool) (k : SiteForce K) : LJGlobals K :=
  let factor : Num K := (if ownA then .fin 1 else .fin 0) + (if ownB then .fin 1 else .fin 0)
  ⟨⟨k.virial.x * factor, k.virial.y * factor, k.virial.z * factor⟩, k.upot6 * factor⟩

/-- The values computed for site `i` of `a` and site `j` of `b`. -/
def sitesKernel (c : MSCfg K) (a b : MSMol K) (i j : Nat) : SiteForce K :=
  msKernelAoS c ((c.siteIds a.type).getD i 0) ((c.siteIds b.type).getD j 0) (a.pos - b.pos - (c.rotated b).getD j 0 + (c.rotated a).getD i 0)

/-- What two sites change. -/
def siteEvent [DecidableEq P] (share : Bool → Bool → SiteForce K → LJGlobals K) (c : MSCfg K) (newton3 : Bool) (p q : P) (a b : MSMol K) (i j : Nat) : MSState P K :=
  let k := sitesKernel c a b i j
  ⟨Pi.single p k.force + (if newton3 then Pi.single q (-k.force) else 0),
   Pi.single p (((c.rotated a).getD i 0).fin.cross k.force) + (if newton3 then Pi.single q (-(((c.rotated b).getD j 0).fin.cross k.force)) else 0),
   share (decide (a.own = .owned)) (decide (newton3 = true ∧ b.own = .owned)) k⟩

/-- Molecules within the cutoff. -/
def MSNear (c : MSCfg K) (a b : MSMol K) : Prop := a.own ≠ .dummy ∧ b.own ≠ .dummy ∧ normSq (a.pos - b.pos) ≤ c.cutoffSquared

instance (c : MSCfg K) (a b : MSMol K) : Decidable (MSNear c a b) := by unfold MSNear; infer_instance

/-- What two molecules change. -/
def pairEvent [DecidableEq P] (share : Bool → Bool → SiteForce K → LJGlobals K) (c : MSCfg K) (newton3 : Bool) (p q : P) (a b : MSMol K) : MSState P K :=
  if MSNear c a b then ((List.range (c.numSites a.type)).map fun i => ((List.range (c.numSites b.type)).map fun j => siteEvent share c newton3 p q a b i j).sum).sum else 0

theorem msAoSSites_eq [DecidableEq P] (c : MSCfg K) (newton3 : Bool) (p q : P) (a b : MSMol K) (s : MSState P K) (i j : Nat) :
    msAoSSites c newton3 p q a b s i j = s + siteEvent shareAoS c newton3 p q a b i j := by
  unfold msAoSSites siteEvent shareAoS sitesKernel
  dsimp only
  simp only [v3_sub_neg, update_add]
  refine MSState.ext' ?_ ?_ ?_
  · simp only [MSState.add_force]
    cases newton3
    · simp
    · simp [add_assoc]
  · simp only [MSState.add_torque]
    cases newton3
    · simp
    · simp [add_assoc]
  · simp only [MSState.add_globals, LJGlobals.plus_eq]
    by_cases h1 : a.own = .owned <;> by_cases h2 : newton3 = true ∧ b.own = .owned <;> simp [h1, h2, add_assoc]

theorem msAoSCall_eq [DecidableEq P] (c : MSCfg K) (mol : P → MSMol K) (s : MSState P K) (call : PairCall P) :
    msAoSCall c mol s call = s + pairEvent shareAoS c call.newton3 call.p call.q (mol call.p) (mol call.q) := by
  unfold msAoSCall pairEvent
  dsimp only
  by_cases h1 : (mol call.p).own = .dummy ∨ (mol call.q).own = .dummy
  · rw [if_pos h1, if_neg (show ¬ MSNear c _ _ from fun h => h1.elim h.1 h.2.1), add_zero]
  · rw [if_neg h1]
    by_cases h2 : c.cutoffSquared < ((mol call.p).pos - (mol call.q).pos).inner ((mol call.p).pos - (mol call.q).pos)
    · rw [inner_normSq] at *
      rw [if_pos h2, if_neg (show ¬ MSNear c _ _ from fun h => absurd h.2.2 (not_le.2 h2)), add_zero]
    · rw [if_neg h2, if_pos (show MSNear c _ _ from ⟨fun h => h1 (.inl h), fun h => h1 (.inr h), by rw [inner_normSq] at h2; exact not_lt.1 h2⟩)]
      refine foldl_add _ _ _ (fun s i _ => ?_) s
      exact foldl_add _ _ _ (fun s j _ => msAoSSites_eq c call.newton3 call.p call.q (mol call.p) (mol call.q) s i j) s

theorem msRun_eq [DecidableEq P] (c : MSCfg K) (mol : P → MSMol K) (s : MSState P K) (calls : List (PairCall P)) :
    msRun c mol s calls = s + (calls.map fun call => pairEvent shareAoS c call.newton3 call.p call.q (mol call.p) (mol call.q)).sum :=
  foldl_add _ _ _ (fun s call _ => msAoSCall_eq c mol s call) s

/-! ### Site-wise arrays -/

/-- The sites of the molecules `mols`: molecule, number of the site in it, index in the arrays. -/
def visits (c : MSCfg K) (mol : Nat → MSMol K) : List Nat → Nat → List (Nat × Nat × Nat)
  | [], _ => []
  | m :: ms, off => ((List.range (c.numSites (mol m).type)).map fun s => (m, s, off + s)) ++ visits c mol ms (off + c.numSites (mol m).type)

variable {c : MSCfg K} {mol : Nat → MSMol K}

theorem siteCount_cons (m : Nat) (ms : List Nat) : msSiteCount c mol (m :: ms) = c.numSites (mol m).type + msSiteCount c mol ms := by
  unfold msSiteCount
  have h : ∀ (l : List Nat) (n : Nat), l.foldl (fun n m => n + c.numSites (mol m).type) n = n + l.foldl (fun n m => n + c.numSites (mol m).type) 0 := by
    intro l
    induction l with
    | nil => simp
    | cons x l ih => intro n; rw [List.foldl_cons, List.foldl_cons, ih, ih (0 + _)]; omega
  rw [List.foldl_cons, h]; omega

theorem siteCount_append (l l' : List Nat) : msSiteCount c mol (l ++ l') = msSiteCount c mol l + msSiteCount c mol l' := by
  induction l with
  | nil => simp [msSiteCount]
  | cons m l ih => rw [List.cons_append, siteCount_cons, siteCount_cons, ih]; omega

theorem visits_append (l l' : List Nat) : ∀ off, visits c mol (l ++ l') off = visits c mol l off ++ visits c mol l' (off + msSiteCount c mol l) := by
  induction l with
  | nil => intro off; simp [visits, msSiteCount]
  | cons m l ih => intro off; rw [List.cons_append, visits, visits, ih, siteCount_cons, List.append_assoc, add_assoc]

theorem visits_idx (mols : List Nat) : ∀ off, (visits c mol mols off).map (fun v => v.2.2) = List.range' off (msSiteCount c mol mols) := by
  induction mols with
  | nil => intro off; simp [visits, msSiteCount]
  | cons m ms ih =>
    intro off
    rw [visits, List.map_append, ih, siteCount_cons, List.map_map, ← List.range'_append_1]
    congr 1
    rw [List.range'_eq_map_range]
    rfl

theorem visits_ge (mols : List Nat) (off : Nat) {v : Nat × Nat × Nat} (hv : v ∈ visits c mol mols off) : off ≤ v.2.2 ∧ v.2.2 < off + msSiteCount c mol mols := by
  have : v.2.2 ∈ (visits c mol mols off).map (fun v => v.2.2) := List.mem_map_of_mem hv
  rw [visits_idx, List.mem_range'_1] at this
  exact this

theorem visits_mem (mols : List Nat) : ∀ off, ∀ v ∈ visits c mol mols off, v.1 ∈ mols ∧ v.2.1 < c.numSites (mol v.1).type := by
  induction mols with
  | nil => intro off v hv; cases hv
  | cons m ms ih =>
    intro off v hv
    rw [visits, List.mem_append, List.mem_map] at hv
    rcases hv with ⟨s, hs, rfl⟩ | hv
    · exact ⟨List.mem_cons_self, List.mem_range.1 hs⟩
    · exact ⟨List.mem_cons_of_mem _ (ih _ v hv).1, (ih _ v hv).2⟩

theorem visits_nodup (mols : List Nat) (off : Nat) : ((visits c mol mols off).map (fun v => v.2.2)).Nodup := by
  rw [visits_idx]; exact List.nodup_range'

/-- A loop over all indices is a loop over the sites. -/
theorem sum_range_visits {M : Type} [AddCommMonoid M] (mols : List Nat) (off : Nat) (G : Nat → M) :
    ((List.range (msSiteCount c mol mols)).map G).sum = ((visits c mol mols off).map fun v => G (v.2.2 - off)).sum := by
  have h := congrArg (List.map (fun g => G (g - off))) (visits_idx (c := c) (mol := mol) mols off)
  rw [List.map_map] at h
  rw [show (fun v : Nat × Nat × Nat => G (v.2.2 - off)) = (fun g => G (g - off)) ∘ (fun v => v.2.2) from rfl, h, List.range'_eq_map_range, List.map_map]
  refine congrArg List.sum (List.map_congr_left fun x _ => ?_)
  simp only [Function.comp]
  congr 1
  omega

/-- Sums over the sites are sums over the molecules and their sites. -/
theorem sum_visits {M : Type} [AddCommMonoid M] (H : Nat → Nat → M) (mols : List Nat) : ∀ off,
    ((visits c mol mols off).map fun v => H v.1 v.2.1).sum = (mols.map fun m => ((List.range (c.numSites (mol m).type)).map fun s => H m s).sum).sum := by
  induction mols with
  | nil => intro off; rfl
  | cons m ms ih => intro off; rw [visits, List.map_append, List.sum_append, ih, List.map_map, List.map_cons, List.sum_cons]; rfl

/-- The entry of a site. -/
def siteEntry (c : MSCfg K) (m : MSMol K) (s : Nat) : SoASite K :=
  ⟨(c.rotated m).getD s 0 + m.pos, (c.siteIds m.type).getD s 0, decide (m.own = .owned)⟩

theorem sites_length (mols : List Nat) : (msSites c mol mols).length = msSiteCount c mol mols := by
  induction mols with
  | nil => rfl
  | cons m ms ih => rw [siteCount_cons, ← ih]; simp [msSites]

theorem sites_get (mols : List Nat) : ∀ pre : List (SoASite K), ∀ v ∈ visits c mol mols pre.length,
    (pre ++ msSites c mol mols).getD v.2.2 ⟨0, 0, false⟩ = siteEntry c (mol v.1) v.2.1 := by
  induction mols with
  | nil => intro pre v hv; cases hv
  | cons m ms ih =>
    intro pre v hv
    have e : msSites c mol (m :: ms) = ((List.range (c.numSites (mol m).type)).map fun s => siteEntry c (mol m) s) ++ msSites c mol ms := by
      unfold msSites; rw [List.flatMap_cons]; rfl
    rw [visits, List.mem_append, List.mem_map] at hv
    rcases hv with ⟨s, hs, rfl⟩ | hv
    · rw [e]
      have hs' := List.mem_range.1 hs
      rw [List.getD_eq_getElem?_getD, List.getElem?_append_right (by simp), List.getElem?_append_left (by simpa using hs')]
      simp [hs']
    · have := ih (pre ++ (List.range (c.numSites (mol m).type)).map fun s => siteEntry c (mol m) s) v (by simpa using hv)
      rw [e, ← List.append_assoc]; exact this

/-- `molMask` -/
def maskOf (c : MSCfg K) (a b : MSMol K) : Bool := decide (normSq (a.pos - b.pos) ≤ c.cutoffSquared ∧ b.own ≠ .dummy)

theorem siteMask_cons (a : MSMol K) (m : Nat) (ms : List Nat) :
    msSiteMask c mol a (m :: ms) = (List.replicate (c.numSites (mol m).type) (maskOf c a (mol m))) ++ msSiteMask c mol a ms := by
  unfold msSiteMask maskOf
  simp only [List.map_cons, List.zip_cons_cons, List.flatMap_cons, prod_normSq]
  congr 1
  simp [List.map_const']

theorem mask_get (a : MSMol K) (mols : List Nat) : ∀ pre : List Bool, ∀ v ∈ visits c mol mols pre.length,
    (pre ++ msSiteMask c mol a mols).getD v.2.2 false = maskOf c a (mol v.1) := by
  induction mols with
  | nil => intro pre v hv; cases hv
  | cons m ms ih =>
    intro pre v hv
    rw [visits, List.mem_append, List.mem_map] at hv
    rw [siteMask_cons]
    rcases hv with ⟨s, hs, rfl⟩ | hv
    · have hs' := List.mem_range.1 hs
      rw [List.getD_eq_getElem?_getD, List.getElem?_append_right (by simp), List.getElem?_append_left (by simpa using hs')]
      simp [List.getElem?_replicate, hs']
    · have := ih (pre ++ List.replicate (c.numSites (mol m).type) (maskOf c a (mol m))) v (by simpa using hv)
      rw [← List.append_assoc]; exact this

theorem mask_get' (a : MSMol K) (mols : List Nat) (off : Nat) {v : Nat × Nat × Nat} (hv : v ∈ visits c mol mols off) :
    (msSiteMask c mol a mols).getD (v.2.2 - off) false = maskOf c a (mol v.1) := by
  have h := mask_get (c := c) (mol := mol) a mols (List.replicate off false) v (by simpa using hv)
  have hge := (visits_ge mols off hv).1
  rw [List.getD_eq_getElem?_getD, List.getElem?_append_right (by simpa using hge), List.length_replicate, ← List.getD_eq_getElem?_getD] at h
  exact h

end
end Verif
