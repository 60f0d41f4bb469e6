import Verif.Lemmas.SPHKernel
import Verif.Lemmas.PairLoops
/-! The density and the force functor of the SPH library add the textbook terms. -/
namespace Verif
open Spec

theorem normSq_swap (a b : V3 ℝ) : normSq (b - a) = normSq (a - b) := by
  unfold normSq; simp only [V3.sub_x, V3.sub_y, V3.sub_z]; ring

theorem len_swap (a b : V3 ℝ) : len (b - a) = len (a - b) := by unfold len; rw [normSq_swap]

/-- What the density functor adds. -/
noncomputable def densityG (a b : SPHAttr) : ℝ := if a.own = .dummy then 0 else densityFrom a b

theorem sphDensity_adds : sphDensity.Adds (fun a => 0 < a.smth) id densityG where
  add _ _ := rfl
  zero := rfl
  aos i j hi hj := by
    rw [show sphDensity.aos i j = sphDensityAoS i j from rfl]
    unfold sphDensityAoS densityG densityFrom
    by_cases h1 : i.own = .dummy
    · rw [if_pos (.inl h1)]; simp [h1]
    · by_cases h2 : j.own = .dummy
      · rw [if_pos (.inr h2)]; simp [h2]
      · rw [if_neg (by tauto)]
        simp only [if_neg h1, if_neg h2, id]
        unfold sphWVec
        rw [inner_self_eq, sphW_eq hi (normSq_nonneg _), sphW_eq hj (normSq_nonneg _)]
        change (_ * spline _ (len _), _ * spline _ (len _)) = _
        rw [len_swap i.pos j.pos]
  soa i j hi hj ho := by
    rw [show sphDensity.soa i j = sphDensitySoA i j from rfl]
    have ho : i.own ≠ .dummy := ho
    unfold sphDensitySoA densityG densityFrom
    simp only
    have e : (i.pos - j.pos).x * (i.pos - j.pos).x + (i.pos - j.pos).y * (i.pos - j.pos).y + (i.pos - j.pos).z * (i.pos - j.pos).z =
        normSq (i.pos - j.pos) := inner_self_eq _
    rw [e, sphW_eq hi (normSq_nonneg _), sphW_eq hj (normSq_nonneg _)]
    by_cases h2 : j.own = .dummy
    · simp [h2]
    · simp only [if_neg ho, if_neg h2, id, ne_eq, not_false_eq_true, if_true, h2, if_false]
      change (_ * spline _ (len _), _ * spline _ (len _)) = _
      rw [len_swap i.pos j.pos]
  dummy i j _ _ ho := by
    have ho : i.own = .dummy := ho
    unfold densityG densityFrom
    simp [ho]

/-- Signal speeds with `max` as addition. -/
structure Sig where
  val : ℝ
  nonneg : 0 ≤ val

theorem Sig.ext' {a b : Sig} (h : a.val = b.val) : a = b := by cases a; cases b; simp only at h; subst h; rfl

noncomputable instance : Add Sig := ⟨fun a b => ⟨max a.val b.val, a.nonneg.trans (le_max_left _ _)⟩⟩
instance : Zero Sig := ⟨⟨0, le_rfl⟩⟩
noncomputable instance : AddCommMonoid Sig where
  add_assoc _ _ _ := Sig.ext' (max_assoc _ _ _)
  zero_add a := Sig.ext' (max_eq_right a.nonneg)
  add_zero a := Sig.ext' (max_eq_left a.nonneg)
  add_comm _ _ := Sig.ext' (max_comm _ _)
  nsmul := nsmulRec

@[simp] theorem Sig.add_val (a b : Sig) : (a + b).val = max a.val b.val := rfl
@[simp] theorem Sig.zero_val : (0 : Sig).val = 0 := rfl

/-- `max(0, x)` -/
noncomputable def Sig.of (x : ℝ) : Sig := ⟨max 0 x, le_max_left _ _⟩

/-- The three computed attributes. -/
abbrev HydroN := V3 ℝ × ℝ × Sig

/-- As in the particle. -/
def hydroφ (n : HydroN) : HydroOut := ⟨n.1, n.2.1, n.2.2.val⟩

open Classical in
/-- What the force functor adds. -/
noncomputable def hydroG (h : ℝ) (a b : SPHAttr) : HydroN :=
  (hydroAcc h a b, hydroHeat h a b, if HydroInteract h a b then Sig.of (signalSpeed a b) else 0)

/-- Valid particles with smoothing length `h`. -/
structure HydroValid (h : ℝ) (a : SPHAttr) : Prop where
  smth : a.smth = h
  density : 0 < a.density
  soundSpeed : 0 ≤ a.soundSpeed

theorem approach_nonpos (a b : SPHAttr) : approach a b ≤ 0 :=
  div_nonpos_of_nonpos_of_nonneg (min_le_left _ _) (len_nonneg _)

theorem approach_swap (a b : SPHAttr) : approach b a = approach a b := by
  unfold approach
  rw [len_swap a.pos b.pos]
  congr 2
  unfold V3.inner
  simp only [V3.sub_x, V3.sub_y, V3.sub_z]
  ring

theorem signalSpeed_swap (a b : SPHAttr) : signalSpeed b a = signalSpeed a b := by
  unfold signalSpeed; rw [approach_swap]; ring

theorem viscosity_swap (a b : SPHAttr) : viscosity b a = viscosity a b := by
  unfold viscosity; rw [approach_swap, signalSpeed_swap, add_comm a.density]

theorem interact_swap (h : ℝ) (a b : SPHAttr) : HydroInteract h b a ↔ HydroInteract h a b := by
  unfold HydroInteract; rw [len_swap]; tauto

theorem gradKernel_neg (h : ℝ) (a b : V3 ℝ) : gradKernel h (b - a) = -gradKernel h (a - b) := by
  unfold gradKernel
  rw [len_swap]
  refine V3.ext' ?_ ?_ ?_ <;> simp only [V3.scale_x, V3.scale_y, V3.scale_z, V3.neg_x, V3.neg_y, V3.neg_z, V3.sub_x, V3.sub_y, V3.sub_z] <;> ring

theorem gradMean_swap (a b : SPHAttr) : gradMean b a = -gradMean a b := by
  unfold gradMean
  rw [gradKernel_neg, gradKernel_neg a.smth]
  refine V3.ext' ?_ ?_ ?_ <;> simp only [V3.scale_x, V3.scale_y, V3.scale_z, V3.neg_x, V3.neg_y, V3.neg_z, V3.add_x, V3.add_y, V3.add_z] <;> ring

theorem signalSpeed_nonneg {h : ℝ} {a b : SPHAttr} (ha : HydroValid h a) (hb : HydroValid h b) : 0 ≤ signalSpeed a b := by
  unfold signalSpeed
  have := approach_nonpos a b
  linarith [ha.soundSpeed, hb.soundSpeed]

/-- The body of the functor computes the textbook terms. -/
theorem sphHydroBody_eq {h : ℝ} (hh : 0 < h) {a b : SPHAttr} (ha : HydroValid h a) (hb : HydroValid h b) (hI : HydroInteract h a b) :
    sphHydroBody a b (a.pos - b.pos) (normSq (a.pos - b.pos)) = (hydroφ (hydroG h a b), hydroφ (hydroG h b a)) := by
  have hI' := (interact_swap h a b).2 hI
  unfold sphHydroBody hydroφ hydroG hydroAcc hydroHeat
  simp only [if_pos hI, if_pos hI']
  have s0 := signalSpeed_nonneg ha hb
  have w : (if (a.vel - b.vel).inner (a.pos - b.pos) < 0 then (a.vel - b.vel).inner (a.pos - b.pos) / Real.sqrt (normSq (a.pos - b.pos)) else 0) =
      approach a b := by
    unfold approach len
    by_cases hc : (a.vel - b.vel).inner (a.pos - b.pos) < 0
    · rw [if_pos hc, min_eq_right hc.le]
    · rw [if_neg hc, min_eq_left (not_lt.1 hc), zero_div]
  have g : (sphGradW (a.pos - b.pos) a.smth + sphGradW (a.pos - b.pos) b.smth).scale 0.5 = gradMean a b := by
    unfold gradMean
    rw [sphGradW_eq (by rw [ha.smth]; exact hh), sphGradW_eq (by rw [hb.smth]; exact hh)]
    norm_num
  have av : -0.5 * signalSpeed a b * approach a b / (0.5 * (a.density + b.density)) = viscosity a b := by
    unfold viscosity
    have : a.density + b.density ≠ 0 := by have := ha.density; have := hb.density; positivity
    field_simp
  have v : a.soundSpeed + b.soundSpeed - 3 * approach a b = signalSpeed a b := rfl
  simp only [w, g, v, av, viscosity_swap a b, signalSpeed_swap a b, gradMean_swap a b]
  have so : (Sig.of (signalSpeed a b)).val = signalSpeed a b := max_eq_right s0
  rw [so]
  refine Prod.ext ?_ ?_
  · simp only [HydroOut.mk.injEq, and_true]
    refine ⟨V3.ext' ?_ ?_ ?_, ?_⟩
    · simp only [V3.scale_x, V3.neg_x]; ring
    · simp only [V3.scale_y, V3.neg_y]; ring
    · simp only [V3.scale_z, V3.neg_z]; ring
    · unfold V3.inner; norm_num; ring
  · simp only [HydroOut.mk.injEq, and_true]
    refine ⟨V3.ext' ?_ ?_ ?_, ?_⟩
    · simp only [V3.scale_x, V3.neg_x]; ring
    · simp only [V3.scale_y, V3.neg_y]; ring
    · simp only [V3.scale_z, V3.neg_z]; ring
    · unfold V3.inner
      simp only [V3.sub_x, V3.sub_y, V3.sub_z, V3.neg_x, V3.neg_y, V3.neg_z]
      norm_num; ring

theorem hydroG_zero {h : ℝ} {a b : SPHAttr} (hI : ¬ HydroInteract h a b) : hydroG h a b = 0 := by
  unfold hydroG hydroAcc hydroHeat
  rw [if_neg hI, if_neg hI, if_neg hI]
  rfl

theorem cutoff_iff {h : ℝ} (hh : 0 < h) (a b : V3 ℝ) : h * sphSupport * (h * sphSupport) ≤ normSq (a - b) ↔ ¬ len (a - b) < supportOf h := by
  have e : h * sphSupport = supportOf h := by unfold sphSupport supportOf; norm_num; ring
  have hp : 0 < supportOf h := by unfold supportOf; linarith
  rw [e, ← len_sq, not_lt]
  have := len_nonneg (a - b)
  constructor
  · intro h1; by_contra h2; nlinarith
  · intro h1; nlinarith

theorem sphHydro_adds {h : ℝ} (hh : 0 < h) : sphHydro.Adds (HydroValid h) hydroφ (hydroG h) where
  add _ _ := rfl
  zero := rfl
  aos i j hi hj := by
    rw [show sphHydro.aos i j = sphHydroAoS i j from rfl]
    unfold sphHydroAoS
    by_cases hd : i.own = .dummy ∨ j.own = .dummy
    · rw [if_pos hd]
      refine ⟨hydroG_zero ?_, hydroG_zero ?_⟩ <;> (intro hI; have := hI.1; have := hI.2.1; tauto)
    · rw [if_neg hd]
      simp only [inner_self_eq, hi.smth]
      by_cases hc : h * sphSupport * (h * sphSupport) ≤ normSq (i.pos - j.pos)
      · simp only [if_pos hc]
        have hc := (cutoff_iff hh _ _).1 hc
        exact ⟨hydroG_zero fun hI => hc hI.2.2, hydroG_zero fun hI => hc ((interact_swap h i j).1 hI).2.2⟩
      · simp only [if_neg hc]
        refine sphHydroBody_eq hh hi hj ⟨by tauto, by tauto, ?_⟩
        by_contra h'
        exact hc ((cutoff_iff hh _ _).2 h')
  soa i j hi hj ho := by
    rw [show sphHydro.soa i j = sphHydroSoA i j from rfl]
    have ho : i.own ≠ .dummy := ho
    unfold sphHydroSoA
    have e : (i.pos - j.pos).x * (i.pos - j.pos).x + (i.pos - j.pos).y * (i.pos - j.pos).y + (i.pos - j.pos).z * (i.pos - j.pos).z =
        normSq (i.pos - j.pos) := inner_self_eq _
    simp only [e, hi.smth]
    by_cases hc : h * sphSupport * (h * sphSupport) ≤ normSq (i.pos - j.pos) ∨ j.own = .dummy
    · rw [if_pos hc]
      have hn : ¬ HydroInteract h i j := by
        intro hI
        rcases hc with hc | hc
        · exact (cutoff_iff hh _ _).1 hc hI.2.2
        · exact hI.2.1 hc
      exact ⟨hydroG_zero hn, hydroG_zero fun hI => hn ((interact_swap h i j).1 hI)⟩
    · rw [if_neg hc]
      refine sphHydroBody_eq hh hi hj ⟨ho, by tauto, ?_⟩
      by_contra h'
      exact hc (.inl ((cutoff_iff hh _ _).2 h'))
  dummy i j _ _ ho := ⟨hydroG_zero fun hI => hI.1 ho, hydroG_zero fun hI => hI.2.1 ho⟩

/-- A position with real coordinates. -/
noncomputable def realPos (p : V3 Rat) : V3 ℝ := ⟨(p.x : ℝ), (p.y : ℝ), (p.z : ℝ)⟩

theorem normSq_realPos (a b : V3 Rat) : normSq (realPos a - realPos b) = (distSq a b : ℝ) := by
  unfold normSq realPos distSq
  simp only [V3.sub_x, V3.sub_y, V3.sub_z]
  push_cast
  ring

theorem support_le {h : ℝ} {cutoff : Rat} (h0 : 0 ≤ cutoff) (hh : supportOf h ≤ cutoff) {a b : V3 Rat}
    (hd : cutoff * cutoff ≤ distSq a b) : supportOf h ≤ len (realPos a - realPos b) := by
  have h0' : (0 : ℝ) ≤ cutoff := by exact_mod_cast h0
  refine hh.trans ?_
  unfold len
  rw [normSq_realPos]
  refine Real.le_sqrt_of_sq_le ?_
  rw [sq]
  exact_mod_cast hd

end Verif

namespace Verif
open Spec

private theorem add_swap {X : Type} (G : X → X → ℝ) (hG : ∀ a b, G b a = -G a b) (x : X) (l : List X) :
    (l.map (G x)).sum + (l.map fun a => G a x).sum = 0 := by
  induction l with
  | nil => simp
  | cons y l ih =>
    simp only [List.map_cons, List.sum_cons]
    rw [hG x y]
    linarith

theorem antisymm_sum {X : Type} (G : X → X → ℝ) (hG : ∀ a b, G b a = -G a b) (l : List X) : (l.map fun a => (l.map (G a)).sum).sum = 0 := by
  induction l with
  | nil => rfl
  | cons x l ih =>
    have h0 : G x x = 0 := by have := hG x x; linarith
    simp only [List.map_cons, List.sum_cons, h0, zero_add]
    rw [List.sum_map_add, ih, add_zero]
    exact add_swap G hG x l

theorem sum_filter_of_zero {X M : Type} [AddCommMonoid M] (p : X → Bool) (g : X → M) (l : List X) (h : ∀ x ∈ l, p x = false → g x = 0) :
    ((l.filter p).map g).sum = (l.map g).sum := by
  induction l with
  | nil => rfl
  | cons x l ih =>
    have ih := ih fun y hy => h y (List.mem_cons_of_mem _ hy)
    by_cases hp : p x = true
    · rw [List.filter_cons_of_pos hp, List.map_cons, List.sum_cons, ih, List.map_cons, List.sum_cons]
    · rw [List.filter_cons_of_neg hp, ih, List.map_cons, List.sum_cons, h x List.mem_cons_self (by simpa using hp), zero_add]

theorem sum_others {X M : Type} [DecidableEq X] [AddCommMonoid M] (g : X → M) {l : List X} (hl : l.Nodup) {a : X} (ha : a ∈ l) :
    g a + ((l.filter fun b => b ≠ a).map g).sum = (l.map g).sum := by
  induction l with
  | nil => cases ha
  | cons x l ih =>
    obtain ⟨h1, h2⟩ := List.nodup_cons.1 hl
    by_cases hx : x = a
    · subst hx
      rw [List.filter_cons_of_neg (by simp), List.map_cons, List.sum_cons]
      congr 3
      refine List.filter_eq_self.2 fun b hb => ?_
      simpa using fun h' : b = x => h1 (h' ▸ hb)
    · have ha : a ∈ l := (List.mem_cons.1 ha).resolve_left (fun h' => hx h'.symm)
      rw [List.filter_cons_of_pos (by simpa using hx), List.map_cons, List.sum_cons, List.map_cons, List.sum_cons, ← ih h2 ha,
        ← add_assoc, add_comm (g a), add_assoc]

/-- What the simulation stores for each particle, by its ID; positions and ownership are in the container. -/
structure SPHData where
  vel : Nat → V3 ℝ
  mass : Nat → ℝ
  smth : Nat → ℝ
  density : Nat → ℝ
  pressure : Nat → ℝ
  soundSpeed : Nat → ℝ

/-- What the functors read of a stored particle. -/
noncomputable def SPHData.attr (D : SPHData) (x : Slot) : SPHAttr :=
  ⟨realPos x.pos, D.vel x.particle.id, D.mass x.particle.id, D.smth x.particle.id, D.density x.particle.id, D.pressure x.particle.id,
    D.soundSpeed x.particle.id, x.own⟩

theorem sphSelfDensity_eq {P : Type} [DecidableEq P] (attr : P → SPHAttr) (p : P) (hp : 0 < (attr p).smth) :
    sphSelfDensity attr p = densityFrom (attr p) (attr p) := by
  unfold sphSelfDensity
  have := congrFun (gAoS_eq sphDensity_adds (attr := fun q : P => if (attr q).smth ≤ 0 then attr p else attr q) (by
    intro q
    show 0 < SPHAttr.smth (if _ then _ else _)
    split
    · exact hp
    · rename_i hq; exact not_le.1 hq) (fun _ => 0) ⟨p, p, true⟩) p
  have e : sphDensity.aosCall attr (fun _ => 0) ⟨p, p, true⟩ p =
      sphDensity.aosCall (fun q : P => if (attr q).smth ≤ 0 then attr p else attr q) (id ∘ fun _ => 0) ⟨p, p, true⟩ p := by
    unfold PairFunctor.aosCall
    simp only [ite_self]
    rfl
  rw [e, this]
  simp only [contributions, gEvent, if_true, List.flatMap_cons, List.flatMap_nil, List.append_nil, List.map_cons, List.map_nil, List.sum_cons,
    List.sum_nil, add_zero, Function.comp_apply, id, Pi.add_apply, zero_add, Pi.single_eq_same, ite_self]
  unfold densityG densityFrom
  split
  · simp
  · ring

end Verif
