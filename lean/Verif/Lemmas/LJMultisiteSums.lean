import Verif.Lemmas.LJMultisite
import Verif.Spec.LJMultisite
/-! The events of the multi-site functor are the textbook sums. -/
namespace Verif
open Spec

section
variable {K : Type} [Field K] [LinearOrder K] {P : Type} [DecidableEq P]

/-- Force, torque, virial and six times the energy, credited to `p`. -/
def msEvOf (p : P) (own : Bool) (F T V : V3 K) (U : K) : MSState P K :=
  ⟨Pi.single p F.fin, Pi.single p T.fin, if own then ⟨V.fin, .fin (6 * U)⟩ else 0⟩

omit [LinearOrder K] in
theorem v3_fin_add (a b : V3 K) : (a + b).fin = a.fin + b.fin := rfl

theorem msEvOf_add (p : P) (own : Bool) (F T V F' T' V' : V3 K) (U U' : K) :
    msEvOf p own (F + F') (T + T') (V + V') (U + U') = msEvOf p own F T V U + msEvOf p own F' T' V' U' := by
  refine MSState.ext' ?_ ?_ ?_
  · exact Pi.single_add (f := fun _ => V3 (Num K)) p F.fin F'.fin
  · exact Pi.single_add (f := fun _ => V3 (Num K)) p T.fin T'.fin
  · cases own
    · exact (add_zero (0 : LJGlobals K)).symm
    · refine LJGlobals.ext' rfl ?_
      change Num.fin (6 * (U + U')) = Num.fin (6 * U + 6 * U')
      rw [mul_add]

theorem msEvOf_zero (p : P) (own : Bool) : msEvOf p own (0 : V3 K) 0 0 0 = 0 := by
  refine MSState.ext' ?_ ?_ ?_
  · exact Pi.single_zero p
  · exact Pi.single_zero p
  · cases own
    · rfl
    · refine LJGlobals.ext' rfl ?_
      change Num.fin (6 * (0 : K)) = 0
      rw [mul_zero]; rfl

theorem msEvOf_sum {X : Type} (p : P) (own : Bool) (F T V : X → V3 K) (U : X → K) (l : List X) :
    (l.map fun x => msEvOf p own (F x) (T x) (V x) (U x)).sum = msEvOf p own (l.map F).sum (l.map T).sum (l.map V).sum (l.map U).sum := by
  induction l with
  | nil => exact (msEvOf_zero p own).symm
  | cons x l ih => rw [List.map_cons, List.sum_cons, ih, ← msEvOf_add]; rfl

/-- What `a` gets from `b`. -/
def msEvent (par : LJParams K) (sites : MolSites K) (rc2 : K) (mol : P → MSMol K) (t : P × P) : MSState P K :=
  msEvOf t.1 (decide ((mol t.1).own = .owned)) (msForceOn par sites rc2 (mol t.1) (mol t.2)) (msTorqueOn par sites rc2 (mol t.1) (mol t.2))
    (msVirialOf par sites rc2 (mol t.1) (mol t.2)) (msEnergyOf par sites rc2 (mol t.1) (mol t.2))

variable {c : MSCfg K} {par : LJParams K} {sites : MolSites K}

theorem sum_sites {M : Type} [AddCommMonoid M] (h : MSSetUp c par sites) (m : MSMol K) (H : Nat → V3 K → M) :
    ((List.range (c.numSites m.type)).map fun i => H ((c.siteIds m.type).getD i 0) ((c.rotated m).getD i 0)).sum =
      ((sites m.type).map fun s => H s.1 (rotatePosition m.q s.2)).sum := by
  congr 1
  have e : c.rotated m = (c.sitePos m.type).map (rotatePosition m.q) := rfl
  unfold MSCfg.numSites
  rw [e, h.ids, h.positions]
  refine List.ext_getElem (by simp) ?_
  intro i h1 h2
  have hi : i < (sites m.type).length := by simpa using h2
  simp [hi]

theorem kernel_textbook [IsStrictOrderedRing K] (h : MSSetUp c par sites) (i j : Nat) {x y : V3 K} (hd : x ≠ y) :
    msKernelAoS c i j (x - y) = ⟨(ljF (par.epsilon i j) (par.sigma i j) (x - y)).fin, ((x - y) * ljF (par.epsilon i j) (par.sigma i j) (x - y)).fin,
      .fin (6 * ljU (par.epsilon i j) (par.sigma i j) (par.shift i j) (normSq (x - y)))⟩ := by
  have h0 : normSq (x - y) ≠ 0 := fun h' => hd (normSq_eq_zero h')
  unfold msKernelAoS
  simp only [inner_normSq, Num.fin_div h0, Num.fin_mul, Num.fin_sub, Num.fin_add, h.epsilon, h.sigma, h.shift]
  have key : 24 * par.epsilon i j * (par.sigma i j ^ 2 * (1 / normSq (x - y)) * (par.sigma i j ^ 2 * (1 / normSq (x - y))) * (par.sigma i j ^ 2 * (1 / normSq (x - y))) *
        (par.sigma i j ^ 2 * (1 / normSq (x - y)) * (par.sigma i j ^ 2 * (1 / normSq (x - y))) * (par.sigma i j ^ 2 * (1 / normSq (x - y)))) +
        (par.sigma i j ^ 2 * (1 / normSq (x - y)) * (par.sigma i j ^ 2 * (1 / normSq (x - y))) * (par.sigma i j ^ 2 * (1 / normSq (x - y))) *
        (par.sigma i j ^ 2 * (1 / normSq (x - y)) * (par.sigma i j ^ 2 * (1 / normSq (x - y))) * (par.sigma i j ^ 2 * (1 / normSq (x - y)))) -
        par.sigma i j ^ 2 * (1 / normSq (x - y)) * (par.sigma i j ^ 2 * (1 / normSq (x - y))) * (par.sigma i j ^ 2 * (1 / normSq (x - y))))) * (1 / normSq (x - y)) =
      24 * par.epsilon i j * (2 * (par.sigma i j ^ 2 / normSq (x - y)) ^ 6 - (par.sigma i j ^ 2 / normSq (x - y)) ^ 3) / normSq (x - y) := by
    ring
  have hF : (x - y).fin.scale (Num.fin (24 * par.epsilon i j * (2 * (par.sigma i j ^ 2 / normSq (x - y)) ^ 6 - (par.sigma i j ^ 2 / normSq (x - y)) ^ 3) / normSq (x - y))) =
      (ljF (par.epsilon i j) (par.sigma i j) (x - y)).fin := by
    unfold ljF
    refine V3.ext' ?_ ?_ ?_ <;> simp
  rw [key, hF]
  congr 2
  unfold ljU
  ring

omit [LinearOrder K] in
theorem ljF_neg (ε σ : K) (x y : V3 K) : ljF ε σ (y - x) = -ljF ε σ (x - y) := by
  have e : normSq (y - x) = normSq (x - y) := by
    unfold normSq; simp only [V3.sub_x, V3.sub_y, V3.sub_z]; ring
  unfold ljF
  rw [e]
  refine V3.ext' ?_ ?_ ?_ <;> simp only [V3.scale_x, V3.scale_y, V3.scale_z, V3.neg_x, V3.neg_y, V3.neg_z, V3.sub_x, V3.sub_y, V3.sub_z] <;> ring

theorem siteForceOn_swap (hs : par.Symmetric) (a b : MSMol K) (s t : Nat × V3 K) : siteForceOn par b a t s = -siteForceOn par a b s t := by
  unfold siteForceOn
  rw [hs.epsilon t.1, hs.sigma t.1, ljF_neg]

/-- Both ways of counting the globals agree on finite values. -/
theorem share_fin (o1 o2 : Bool) (V : V3 K) (U : K) (F : V3 (Num K)) :
    shareAoS o1 o2 ⟨F, V.fin, .fin U⟩ = (if o1 then (⟨V.fin, .fin U⟩ : LJGlobals K) else 0) + (if o2 then ⟨V.fin, .fin U⟩ else 0) ∧
    shareSoA o1 o2 ⟨F, V.fin, .fin U⟩ = shareAoS o1 o2 ⟨F, V.fin, .fin U⟩ := by
  refine ⟨rfl, ?_⟩
  have e : ∀ x : K, Num.fin x * ((if o1 then (.fin 1 : Num K) else .fin 0) + (if o2 then .fin 1 else .fin 0)) = (if o1 then .fin x else 0) + (if o2 then .fin x else 0) := by
    intro x
    cases o1 <;> cases o2 <;> simp [Num.zero_def]
    ring
  unfold shareSoA shareAoS
  refine LJGlobals.ext' (V3.ext' ?_ ?_ ?_) ?_
  · refine (e V.x).trans ?_; cases o1 <;> cases o2 <;> rfl
  · refine (e V.y).trans ?_; cases o1 <;> cases o2 <;> rfl
  · refine (e V.z).trans ?_; cases o1 <;> cases o2 <;> rfl
  · refine (e U).trans ?_; cases o1 <;> cases o2 <;> rfl

/-- One pair of sites, textbook. -/
def msSiteEv (par : LJParams K) (p : P) (a b : MSMol K) (s t : Nat × V3 K) : MSState P K :=
  msEvOf p (decide (a.own = .owned)) (siteForceOn par a b s t) ((rotatePosition a.q s.2).cross (siteForceOn par a b s t))
    ((sitePosition a s - sitePosition b t) * siteForceOn par a b s t)
    (ljU (par.epsilon s.1 t.1) (par.sigma s.1 t.1) (par.shift s.1 t.1) (normSq (sitePosition a s - sitePosition b t)))

omit [LinearOrder K] in
theorem lever_eq (m : MSMol K) (s : Nat × V3 K) : sitePosition m s - m.pos = rotatePosition m.q s.2 := by
  unfold sitePosition
  refine V3.ext' ?_ ?_ ?_ <;> simp

theorem msSiteEv_sum {a b : MSMol K} (p : P) (rc2 : K) (hI : MSInteract rc2 a b) (mol : P → MSMol K) (q : P) (hp : mol p = a) (hq : mol q = b) :
    ((sites a.type).map fun s => ((sites b.type).map fun t => msSiteEv par p a b s t).sum).sum = msEvent par sites rc2 mol (p, q) := by
  unfold msSiteEv msEvent msForceOn msTorqueOn msVirialOf msEnergyOf overSites
  simp only [hp, hq, if_pos hI, msEvOf_sum, lever_eq]

omit [LinearOrder K] in
theorem v3_cross_neg (r f : V3 K) : r.cross (-f) = -(r.cross f) := by
  refine V3.ext' ?_ ?_ ?_ <;> simp only [V3.cross, V3.neg_x, V3.neg_y, V3.neg_z] <;> ring

theorem cross_fin (r f : V3 K) : r.fin.cross f.fin = (r.cross f).fin := by
  refine V3.ext' ?_ ?_ ?_ <;> simp [V3.cross, Num.fin_sub]

/-- The general shape of a counting rule for the globals. -/
def ShareOk (share : Bool → Bool → SiteForce K → LJGlobals K) : Prop :=
  ∀ o1 o2 (V : V3 K) (U : K) (F : V3 (Num K)), share o1 o2 ⟨F, V.fin, .fin U⟩ = shareAoS o1 o2 ⟨F, V.fin, .fin U⟩

theorem shareAoS_ok : ShareOk (shareAoS (K := K)) := fun _ _ _ _ _ => rfl
theorem shareSoA_ok : ShareOk (shareSoA (K := K)) := fun o1 o2 V U F => (share_fin o1 o2 V U F).2

theorem siteEvent_textbook [IsStrictOrderedRing K] (h : MSSetUp c par sites) (hs : par.Symmetric) {share} (hsh : ShareOk share) (newton3 : Bool) (p q : P) (a b : MSMol K)
    (s t : Nat × V3 K) (hd : sitePosition a s ≠ sitePosition b t) (k : SiteForce K)
    (hk : k = msKernelAoS c s.1 t.1 (a.pos - b.pos - rotatePosition b.q t.2 + rotatePosition a.q s.2)) :
    (⟨Pi.single p k.force + (if newton3 then Pi.single q (-k.force) else 0),
      Pi.single p ((rotatePosition a.q s.2).fin.cross k.force) + (if newton3 then Pi.single q (-((rotatePosition b.q t.2).fin.cross k.force)) else 0),
      share (decide (a.own = .owned)) (decide (newton3 = true ∧ b.own = .owned)) k⟩ : MSState P K) =
    msSiteEv par p a b s t + (if newton3 then msSiteEv par q b a t s else 0) := by
  have e : a.pos - b.pos - rotatePosition b.q t.2 + rotatePosition a.q s.2 = sitePosition a s - sitePosition b t := by
    unfold sitePosition
    refine V3.ext' ?_ ?_ ?_ <;> simp only [V3.add_x, V3.add_y, V3.add_z, V3.sub_x, V3.sub_y, V3.sub_z] <;> ring
  rw [e, kernel_textbook h s.1 t.1 hd] at hk
  have hV : (sitePosition b t - sitePosition a s) * siteForceOn par b a t s = (sitePosition a s - sitePosition b t) * siteForceOn par a b s t := by
    rw [siteForceOn_swap hs]
    refine V3.ext' ?_ ?_ ?_ <;> simp only [V3.mul_x, V3.mul_y, V3.mul_z, V3.neg_x, V3.neg_y, V3.neg_z, V3.sub_x, V3.sub_y, V3.sub_z] <;> ring
  have hU : ljU (par.epsilon t.1 s.1) (par.sigma t.1 s.1) (par.shift t.1 s.1) (normSq (sitePosition b t - sitePosition a s)) =
      ljU (par.epsilon s.1 t.1) (par.sigma s.1 t.1) (par.shift s.1 t.1) (normSq (sitePosition a s - sitePosition b t)) := by
    rw [hs.epsilon t.1, hs.sigma t.1, hs.shift t.1]
    congr 1
    unfold normSq; simp only [V3.sub_x, V3.sub_y, V3.sub_z]; ring
  unfold msSiteEv
  rw [hV, hU, siteForceOn_swap hs a b, v3_cross_neg]
  subst hk
  refine MSState.ext' ?_ ?_ ?_
  · cases newton3 <;> rfl
  · dsimp only
    rw [cross_fin, cross_fin]
    cases newton3 <;> rfl
  · dsimp only
    rw [hsh, (share_fin _ _ _ _ _).1]
    cases newton3
    · simp [msEvOf, siteForceOn]
    · by_cases h2 : b.own = .owned <;> simp [msEvOf, siteForceOn, h2]

/-- Two molecules. -/
theorem pairEvent_textbook [IsStrictOrderedRing K] (h : MSSetUp c par sites) (hs : par.Symmetric) {share} (hsh : ShareOk share) (newton3 : Bool) (mol : P → MSMol K) (p q : P)
    (hd : SitesApart sites c.cutoffSquared (mol p) (mol q)) :
    pairEvent share c newton3 p q (mol p) (mol q) = ((contributions [⟨p, q, newton3⟩]).map (msEvent par sites c.cutoffSquared mol)).sum := by
  have hsum : ((contributions [⟨p, q, newton3⟩]).map (msEvent par sites c.cutoffSquared mol)).sum =
      msEvent par sites c.cutoffSquared mol (p, q) + (if newton3 then msEvent par sites c.cutoffSquared mol (q, p) else 0) := by
    unfold contributions
    cases newton3 <;> simp
  rw [hsum]
  unfold pairEvent
  by_cases hI : MSNear c (mol p) (mol q)
  · rw [if_pos hI]
    have hI1 : MSInteract c.cutoffSquared (mol p) (mol q) := hI
    have hI2 : MSInteract c.cutoffSquared (mol q) (mol p) := by
      refine ⟨hI.2.1, hI.1, ?_⟩
      have e : normSq ((mol q).pos - (mol p).pos) = normSq ((mol p).pos - (mol q).pos) := by
        unfold normSq; simp only [V3.sub_x, V3.sub_y, V3.sub_z]; ring
      rw [e]; exact hI.2.2
    have e : ((List.range (c.numSites (mol p).type)).map fun i => ((List.range (c.numSites (mol q).type)).map fun j => siteEvent share c newton3 p q (mol p) (mol q) i j).sum).sum =
        ((sites (mol p).type).map fun s => ((sites (mol q).type).map fun t => (msSiteEv par p (mol p) (mol q) s t + (if newton3 then msSiteEv par q (mol q) (mol p) t s else 0))).sum).sum := by
      have inner : ∀ i, ((List.range (c.numSites (mol q).type)).map fun j => siteEvent share c newton3 p q (mol p) (mol q) i j).sum =
          ((sites (mol q).type).map fun t =>
            let k := msKernelAoS c ((c.siteIds (mol p).type).getD i 0) t.1 ((mol p).pos - (mol q).pos - rotatePosition (mol q).q t.2 + (c.rotated (mol p)).getD i 0)
            (⟨Pi.single p k.force + (if newton3 then Pi.single q (-k.force) else 0),
              Pi.single p (((c.rotated (mol p)).getD i 0).fin.cross k.force) + (if newton3 then Pi.single q (-((rotatePosition (mol q).q t.2).fin.cross k.force)) else 0),
              share (decide ((mol p).own = .owned)) (decide (newton3 = true ∧ (mol q).own = .owned)) k⟩ : MSState P K)).sum := by
        intro i
        exact sum_sites h (mol q) (fun ty rot =>
          let k := msKernelAoS c ((c.siteIds (mol p).type).getD i 0) ty ((mol p).pos - (mol q).pos - rot + (c.rotated (mol p)).getD i 0)
          (⟨Pi.single p k.force + (if newton3 then Pi.single q (-k.force) else 0),
            Pi.single p (((c.rotated (mol p)).getD i 0).fin.cross k.force) + (if newton3 then Pi.single q (-(rot.fin.cross k.force)) else 0),
            share (decide ((mol p).own = .owned)) (decide (newton3 = true ∧ (mol q).own = .owned)) k⟩ : MSState P K))
      simp only [inner]
      refine (sum_sites h (mol p) (fun ty rot => ((sites (mol q).type).map fun t =>
            let k := msKernelAoS c ty t.1 ((mol p).pos - (mol q).pos - rotatePosition (mol q).q t.2 + rot)
            (⟨Pi.single p k.force + (if newton3 then Pi.single q (-k.force) else 0),
              Pi.single p (rot.fin.cross k.force) + (if newton3 then Pi.single q (-((rotatePosition (mol q).q t.2).fin.cross k.force)) else 0),
              share (decide ((mol p).own = .owned)) (decide (newton3 = true ∧ (mol q).own = .owned)) k⟩ : MSState P K)).sum)).trans ?_
      refine congrArg List.sum (List.map_congr_left fun s hs' => congrArg List.sum (List.map_congr_left fun t ht => ?_))
      exact siteEvent_textbook h hs hsh newton3 p q (mol p) (mol q) s t (hd hI1 s hs' t ht) _ rfl
    rw [e]
    simp only [List.sum_map_add]
    rw [msSiteEv_sum p c.cutoffSquared hI1 mol q rfl rfl]
    congr 1
    cases newton3
    · simp
    · simp only [if_true]
      rw [sum_map_swap, msSiteEv_sum q c.cutoffSquared hI2 mol p rfl rfl]
  · rw [if_neg hI]
    have hz : ∀ a b : P, ¬ MSInteract c.cutoffSquared (mol a) (mol b) → msEvent par sites c.cutoffSquared mol (a, b) = 0 := by
      intro a b hn
      unfold msEvent msForceOn msTorqueOn msVirialOf msEnergyOf overSites
      simp only [if_neg hn]
      exact msEvOf_zero _ _
    have hI2 : ¬ MSInteract c.cutoffSquared (mol q) (mol p) := by
      intro h'
      refine hI ⟨h'.2.1, h'.1, ?_⟩
      have e : normSq ((mol q).pos - (mol p).pos) = normSq ((mol p).pos - (mol q).pos) := by
        unfold normSq; simp only [V3.sub_x, V3.sub_y, V3.sub_z]; ring
      rw [← e]; exact h'.2.2
    rw [hz p q hI, hz q p hI2, zero_add]
    cases newton3 <;> rfl

/-- Sums of events, seen at a molecule. -/
theorem msEvents_at (rc2 : K) (mol : P → MSMol K) (a : P) (es : List (P × P)) :
    ((es.map (msEvent par sites rc2 mol)).sum).force a = (((es.filter fun e => e.1 = a).map fun e => msForceOn par sites rc2 (mol a) (mol e.2)).sum).fin ∧
    ((es.map (msEvent par sites rc2 mol)).sum).torque a = (((es.filter fun e => e.1 = a).map fun e => msTorqueOn par sites rc2 (mol a) (mol e.2)).sum).fin := by
  induction es with
  | nil => exact ⟨rfl, rfl⟩
  | cons e es ih =>
    rw [List.map_cons, List.sum_cons, MSState.add_force, MSState.add_torque, Pi.add_apply, Pi.add_apply, ih.1, ih.2]
    by_cases he : e.1 = a
    · subst he
      rw [List.filter_cons_of_pos (by simp), List.map_cons, List.sum_cons, List.map_cons, List.sum_cons, v3_fin_add, v3_fin_add]
      constructor
      · congr 1; exact Pi.single_eq_same (M := fun _ => V3 (Num K)) e.1 _
      · congr 1; exact Pi.single_eq_same (M := fun _ => V3 (Num K)) e.1 _
    · rw [List.filter_cons_of_neg (by simpa using he)]
      have e1 : (msEvent par sites rc2 mol e).force a = 0 := Pi.single_eq_of_ne (M := fun _ => V3 (Num K)) (fun h => he h.symm) _
      have e2 : (msEvent par sites rc2 mol e).torque a = 0 := Pi.single_eq_of_ne (M := fun _ => V3 (Num K)) (fun h => he h.symm) _
      rw [e1, e2, zero_add, zero_add]
      exact ⟨rfl, rfl⟩

theorem msEvents_globals (rc2 : K) (mol : P → MSMol K) (es : List (P × P)) :
    ((es.map (msEvent par sites rc2 mol)).sum).globals =
      ⟨(((es.filter fun e => (mol e.1).own = .owned).map fun e => msVirialOf par sites rc2 (mol e.1) (mol e.2)).sum).fin,
        .fin (6 * ((es.filter fun e => (mol e.1).own = .owned).map fun e => msEnergyOf par sites rc2 (mol e.1) (mol e.2)).sum)⟩ := by
  induction es with
  | nil =>
    refine LJGlobals.ext' rfl ?_
    change (0 : Num K) = .fin (6 * 0)
    rw [mul_zero]; rfl
  | cons e es ih =>
    rw [List.map_cons, List.sum_cons, MSState.add_globals, ih]
    by_cases he : (mol e.1).own = .owned
    · rw [List.filter_cons_of_pos (by simpa using he), List.map_cons, List.sum_cons, List.map_cons, List.sum_cons, v3_fin_add, mul_add]
      have : (msEvent par sites rc2 mol e).globals = ⟨(msVirialOf par sites rc2 (mol e.1) (mol e.2)).fin, .fin (6 * msEnergyOf par sites rc2 (mol e.1) (mol e.2))⟩ := by
        unfold msEvent msEvOf; simp [he]
      rw [this]; rfl
    · rw [List.filter_cons_of_neg (by simpa using he)]
      have : (msEvent par sites rc2 mol e).globals = 0 := by
        unfold msEvent msEvOf; simp [he]
      rw [this, zero_add]

end
end Verif
