import Verif.Model.ATTraversal
import Verif.Lemmas.AxilrodTeller
import Verif.Lemmas.LJTraversal
import Verif.Lemmas.WithRemainder3
/-! Calls of the Axilrod-Teller functor on many threads add up to the sum over all directed interactions. -/
namespace Verif
open Spec

theorem interact3_iff {c : ATCfg ℝ} {i j k : Mol ℝ} :
    Interact3 c.cutoffSquared i j k ↔ (i.own ≠ .dummy ∧ j.own ≠ .dummy ∧ k.own ≠ .dummy) ∧ ¬ atFar c i j k := by
  unfold Interact3 Interact atFar
  rw [inner_normSq, inner_normSq, inner_normSq, normSq_comm i.pos j.pos, normSq_comm j.pos k.pos, normSq_comm k.pos i.pos]
  simp only [not_or, not_lt]
  tauto

theorem Interact3.comm {rc2 : ℝ} {i j k : Mol ℝ} : Interact3 rc2 i j k ↔ Interact3 rc2 j i k := by
  unfold Interact3
  rw [interact_comm (i := i) (j := j), interact_comm (i := j) (j := k), interact_comm (i := k) (j := i)]
  tauto

theorem Interact3.rot {rc2 : ℝ} {i j k : Mol ℝ} : Interact3 rc2 i j k ↔ Interact3 rc2 k i j := by
  unfold Interact3
  tauto

open Classical in
/-- The force on `i` on account of `j` and `k`. -/
noncomputable def atForceOn (c : ATCfg ℝ) (i j k : Mol ℝ) : V3 ℝ :=
  if Interact3 c.cutoffSquared i j k then atF (c.nuOf i.type j.type k.type) i.pos j.pos k.pos else 0

open Classical in
/-- The energy of the three. -/
noncomputable def atEnergyOf (c : ATCfg ℝ) (i j k : Mol ℝ) : ℝ :=
  if Interact3 c.cutoffSquared i j k then atU (c.nuOf i.type j.type k.type) i.pos j.pos k.pos else 0

section
variable {P : Type} [DecidableEq P]

/-- One directed contribution. -/
noncomputable def atEvent (c : ATCfg ℝ) (mol : P → Mol ℝ) (e : P × P × P) : LJState P ℝ :=
  ⟨Pi.single e.1 (atForceOn c (mol e.1) (mol e.2.1) (mol e.2.2)).fin,
    if (mol e.1).own = .owned then ⟨(atForceOn c (mol e.1) (mol e.2.1) (mol e.2.2)).fin * (mol e.1).pos.fin,
      .fin (3 * atEnergyOf c (mol e.1) (mol e.2.1) (mol e.2.2))⟩ else 0⟩

/-- The three particles of a call sit on three spots, if they exist. -/
def Apart3 (mol : P → Mol ℝ) (a b d : P) : Prop :=
  (mol a).own ≠ .dummy → (mol b).own ≠ .dummy → (mol d).own ≠ .dummy →
    (mol a).pos ≠ (mol b).pos ∧ (mol b).pos ≠ (mol d).pos ∧ (mol d).pos ≠ (mol a).pos

theorem atAoSCall_eq {c : ATCfg ℝ} (hν : SymmetricNu c) (mol : P → Mol ℝ) (s : LJState P ℝ) (call : TripleCall P)
    (hd : Apart3 mol call.p call.q call.r) :
    atAoSCall sqrtR c mol s call = s + ((contributions3 [call]).map (atEvent c mol)).sum := by
  have hsum : ((contributions3 [call]).map (atEvent c mol)).sum = atEvent c mol (call.p, call.q, call.r) +
      (if call.newton3 then atEvent c mol (call.q, call.p, call.r) + atEvent c mol (call.r, call.p, call.q) else 0) := by
    unfold contributions3
    obtain ⟨p, q, r, n3⟩ := call
    cases n3 <;> simp
  rw [hsum]
  by_cases hI : Interact3 c.cutoffSquared (mol call.p) (mol call.q) (mol call.r)
  · obtain ⟨⟨o1, o2, o3⟩, hfar⟩ := interact3_iff.1 hI
    obtain ⟨h1, h2, h3⟩ := hd o1 o2 o3
    have ν1 : c.nuOf (mol call.q).type (mol call.p).type (mol call.r).type = c.nuOf (mol call.p).type (mol call.q).type (mol call.r).type :=
      (hν.swap _ _ _).symm
    have ν2 : c.nuOf (mol call.r).type (mol call.p).type (mol call.q).type = c.nuOf (mol call.p).type (mol call.q).type (mol call.r).type :=
      hν.rotate _ _ _
    have f1 : atForceOn c (mol call.p) (mol call.q) (mol call.r) =
      atF (c.nuOf (mol call.p).type (mol call.q).type (mol call.r).type) (mol call.p).pos (mol call.q).pos (mol call.r).pos := if_pos hI
    have f2 : atForceOn c (mol call.q) (mol call.p) (mol call.r) =
      atF (c.nuOf (mol call.p).type (mol call.q).type (mol call.r).type) (mol call.q).pos (mol call.r).pos (mol call.p).pos := by
      unfold atForceOn
      rw [if_pos (Interact3.comm.1 hI), ν1, atF_swap]
    have f3 : atForceOn c (mol call.r) (mol call.p) (mol call.q) =
      atF (c.nuOf (mol call.p).type (mol call.q).type (mol call.r).type) (mol call.r).pos (mol call.p).pos (mol call.q).pos := by
      unfold atForceOn
      rw [if_pos (Interact3.rot.1 hI), ν2]
    have u1 : atEnergyOf c (mol call.p) (mol call.q) (mol call.r) =
      atU (c.nuOf (mol call.p).type (mol call.q).type (mol call.r).type) (mol call.p).pos (mol call.q).pos (mol call.r).pos := if_pos hI
    have u2 : atEnergyOf c (mol call.q) (mol call.p) (mol call.r) =
      atU (c.nuOf (mol call.p).type (mol call.q).type (mol call.r).type) (mol call.p).pos (mol call.q).pos (mol call.r).pos := by
      unfold atEnergyOf
      rw [if_pos (Interact3.comm.1 hI), ν1, atU_swap]
    have u3 : atEnergyOf c (mol call.r) (mol call.p) (mol call.q) =
      atU (c.nuOf (mol call.p).type (mol call.q).type (mol call.r).type) (mol call.p).pos (mol call.q).pos (mol call.r).pos := by
      unfold atEnergyOf
      rw [if_pos (Interact3.rot.1 hI), ν2, atU_rotate]
    unfold atAoSCall atAoS
    rw [if_neg (by tauto), if_neg hfar]
    simp only [atKernel_eq c _ _ _ h1 h2 h3, LJGlobals.plus_eq, LJGlobals.zero_eq]
    refine LJState.ext' ?_ ?_
    · simp only [LJState.add_force, update_add]
      cases call.newton3
      · simp [atEvent, f1]
      · simp [atEvent, f1, f2, f3, add_assoc]
    · simp only [LJState.add_globals]
      congr 1
      cases call.newton3
      · simp only [atEvent, f1, u1, Bool.false_eq_true, false_and, if_false, zero_add]
        change (if _ then _ else _ : LJGlobals ℝ) = (if _ then _ else _) + 0
        rw [add_zero]
      · simp only [atEvent, f1, f2, f3, u1, u2, u3, if_true, true_and]
        rw [LJState.add_globals]
        by_cases g1 : (mol call.p).own = .owned <;> by_cases g2 : (mol call.q).own = .owned <;> by_cases g3 : (mol call.r).own = .owned <;>
          simp [g1, g2, g3, add_assoc]
  · have e : atAoS sqrtR c call.newton3 (mol call.p) (mol call.q) (mol call.r) = none := by
      rw [interact3_iff] at hI
      unfold atAoS
      split
      · rfl
      · rename_i hdum
        rw [if_pos]
        by_contra hfar
        simp only [not_or] at hdum
        exact hI ⟨hdum, hfar⟩
    have z : ∀ x y w, ¬ Interact3 c.cutoffSquared (mol x) (mol y) (mol w) → atEvent c mol (x, y, w) = 0 := by
      intro x y w h
      unfold atEvent atForceOn atEnergyOf
      simp only [if_neg h]
      refine LJState.ext' ?_ ?_
      · exact Pi.single_zero (M := fun _ : P => V3 (Num ℝ)) x
      · change (if _ then _ else _ : LJGlobals ℝ) = 0
        split
        · change (⟨⟨Num.fin (0 * _), Num.fin (0 * _), Num.fin (0 * _)⟩, Num.fin (3 * 0)⟩ : LJGlobals ℝ) = _
          simp only [zero_mul, mul_zero]
          rfl
        · rfl
    unfold atAoSCall
    rw [e, z _ _ _ hI, z _ _ _ (fun h => hI (Interact3.comm.2 h)), z _ _ _ (fun h => hI (Interact3.rot.2 h))]
    simp

private theorem sum_set_add3 {M : Type} [AddCommMonoid M] (l : List M) (d x : M) (i : Nat) (hi : i < l.length) :
    (l.set i (l.getD i d + x)).sum = l.sum + x := by
  induction l generalizing i with
  | nil => simp at hi
  | cons y l ih =>
    cases i with
    | zero => simp only [List.set_cons_zero, List.sum_cons, List.getD_cons_zero]; rw [add_assoc, add_assoc, add_comm x]
    | succ i =>
      simp only [List.set_cons_succ, List.sum_cons, List.getD_cons_succ]
      rw [ih i (by simpa using hi), add_assoc]

theorem atJobs_total {c : ATCfg ℝ} (hν : SymmetricNu c) (mol : P → Mol ℝ) (jobs : List (Nat × TripleCall P)) :
    ∀ s : LJThreads P ℝ, (∀ j ∈ jobs, j.1 < s.threadData.length ∧ Apart3 mol j.2.p j.2.q j.2.r) →
    (jobs.foldl (atJob sqrtR c mol) s).total = s.total + ((contributions3 (jobs.map Prod.snd)).map (atEvent c mol)).sum := by
  induction jobs with
  | nil => intro s _; simp [contributions3]
  | cons j jobs ih =>
    intro s hk
    obtain ⟨h1, h2⟩ := hk j List.mem_cons_self
    have step : (atJob sqrtR c mol s j).total = s.total + ((contributions3 [j.2]).map (atEvent c mol)).sum := by
      unfold atJob
      simp only [atAoSCall_eq hν mol _ j.2 h2]
      unfold LJThreads.total
      refine LJState.ext' rfl ?_
      exact sum_set_add3 _ _ _ _ h1
    have hlen : (atJob sqrtR c mol s j).threadData.length = s.threadData.length := by
      unfold atJob
      simp
    have hc : contributions3 ((j :: jobs).map Prod.snd) = contributions3 [j.2] ++ contributions3 (jobs.map Prod.snd) := by
      unfold contributions3
      simp
    rw [List.foldl_cons, ih _ (fun x hx => by rw [hlen]; exact hk x (List.mem_cons_of_mem _ hx)), step, hc, List.map_append, List.sum_append, add_assoc]

theorem atEndTraversal_eq (l : List (LJGlobals ℝ)) :
    atEndTraversal l = (l.sum.potentialEnergySum / .fin 3 / .fin 3, l.sum.virialSum) := by
  have key : ∀ (l : List (LJGlobals ℝ)) (a : Num ℝ) (b : V3 (Num ℝ)),
      l.foldl (fun s d => (s.1 + d.potentialEnergySum, s.2 + d.virialSum)) (a, b) = (a + l.sum.potentialEnergySum, b + l.sum.virialSum) := by
    intro l
    induction l with
    | nil => intro a b; exact Prod.ext (add_zero a).symm (add_zero b).symm
    | cons d l ih =>
      intro a b
      rw [List.foldl_cons, ih, List.sum_cons]
      refine Prod.ext ?_ ?_
      · change a + d.potentialEnergySum + _ = a + (d.potentialEnergySum + _); rw [add_assoc]
      · change b + d.virialSum + _ = b + (d.virialSum + _); rw [add_assoc]
  unfold atEndTraversal
  simp only [key, zero_add]

theorem atCompute_eq {c : ATCfg ℝ} (hν : SymmetricNu c) (threads : Nat) (mol : P → Mol ℝ) (force : P → V3 (Num ℝ))
    (jobs : List (Nat × TripleCall P)) (hk : ∀ j ∈ jobs, j.1 < threads ∧ Apart3 mol j.2.p j.2.q j.2.r) :
    let t := ((contributions3 (jobs.map Prod.snd)).map (atEvent c mol)).sum
    atCompute sqrtR c threads mol force jobs =
      (force + t.force, t.globals.potentialEnergySum / .fin 3 / .fin 3, t.globals.virialSum) := by
  intro t
  have := atJobs_total hν mol jobs ⟨force, List.replicate threads .zero⟩ (by simpa using hk)
  have z : (List.replicate threads (.zero : LJGlobals ℝ)).sum = 0 := by
    rw [LJGlobals.zero_eq]
    simp
  unfold atCompute
  simp only [atEndTraversal_eq]
  have e1 := congrArg LJState.force this
  have e2 := congrArg LJState.globals this
  rw [LJState.add_force] at e1
  rw [LJState.add_globals] at e2
  unfold LJThreads.total at e1 e2
  simp only [z, zero_add] at e1 e2
  rw [e1, e2]

theorem at_events_force (c : ATCfg ℝ) (mol : P → Mol ℝ) (a : P) (es : List (P × P × P)) :
    ((es.map (atEvent c mol)).sum).force a =
      (((es.filter fun e => e.1 = a).map fun e => atForceOn c (mol a) (mol e.2.1) (mol e.2.2)).sum).fin := by
  induction es with
  | nil => rfl
  | cons e es ih =>
    rw [List.map_cons, List.sum_cons, LJState.add_force, Pi.add_apply, ih]
    by_cases h : e.1 = a
    · rw [List.filter_cons_of_pos (by simpa using h), List.map_cons, List.sum_cons, V3.fin_add]
      congr 1
      simp only [atEvent, h, Pi.single_eq_same]
    · rw [List.filter_cons_of_neg (by simpa using h)]
      simp only [atEvent]
      rw [Pi.single_eq_of_ne (fun h' => h h'.symm), zero_add]

omit [DecidableEq P] in
theorem at_events_globals [DecidableEq P] (c : ATCfg ℝ) (mol : P → Mol ℝ) (es : List (P × P × P)) :
    ((es.map (atEvent c mol)).sum).globals =
      ⟨(((es.filter fun e => (mol e.1).own = .owned).map fun e => atForceOn c (mol e.1) (mol e.2.1) (mol e.2.2) * (mol e.1).pos).sum).fin,
        .fin (((es.filter fun e => (mol e.1).own = .owned).map fun e => 3 * atEnergyOf c (mol e.1) (mol e.2.1) (mol e.2.2)).sum)⟩ := by
  induction es with
  | nil => rfl
  | cons e es ih =>
    rw [List.map_cons, List.sum_cons, LJState.add_globals, ih]
    by_cases h : (mol e.1).own = .owned
    · rw [List.filter_cons_of_pos (by simpa using h), List.map_cons, List.sum_cons, List.map_cons, List.sum_cons]
      simp only [atEvent, if_pos h]
      rfl
    · rw [List.filter_cons_of_neg (by simpa using h)]
      simp only [atEvent, if_neg h, zero_add]

omit [DecidableEq P] in
private theorem sum_by_first3 [DecidableEq P] {M : Type} [AddCommMonoid M] (g : P × P × P → M) (es : List (P × P × P)) :
    ∀ l : List P, l.Nodup → (l.map fun a => ((es.filter fun e => e.1 = a).map g).sum).sum = ((es.filter fun e => e.1 ∈ l).map g).sum := by
  intro l hl
  induction l with
  | nil => simp
  | cons a l ih =>
    have hl' := List.nodup_cons.1 hl
    rw [List.map_cons, List.sum_cons, ih hl'.2]
    clear ih
    induction es with
    | nil => simp
    | cons e es ih =>
      by_cases h1 : e.1 = a
      · have h2 : e.1 ∉ l := h1 ▸ hl'.1
        rw [List.filter_cons_of_pos (by simpa using h1), List.filter_cons_of_neg (by simpa using h2), List.filter_cons_of_pos (by simp [h1]),
          List.map_cons, List.sum_cons, List.map_cons, List.sum_cons, ← ih, add_assoc]
      · by_cases h2 : e.1 ∈ l
        · rw [List.filter_cons_of_neg (by simpa using h1), List.filter_cons_of_pos (by simpa using h2), List.filter_cons_of_pos (by simp [h2]),
            List.map_cons, List.sum_cons, List.map_cons, List.sum_cons, ← ih, add_left_comm]
        · rw [List.filter_cons_of_neg (by simpa using h1), List.filter_cons_of_neg (by simpa using h2), List.filter_cons_of_neg (by simp [h1, h2]), ih]

/-- The contributions to owned particles, particle by particle. -/
theorem sum_owned3 {M : Type} [AddCommMonoid M] {pos : P → V3 Rat} {own : P → Ownership} {cutoff : Rat} {all : List P}
    {calls : List (TripleCall P)} (H : CompleteCalls3 pos own cutoff all calls) (hall : all.Nodup) (F : P → P → P → M) :
    (((contributions3 calls).filter fun t => own t.1 = .owned).map fun t => F t.1 t.2.1 t.2.2).sum =
      ((all.filter fun a => own a = .owned).map fun a => accumulated3 F calls a).sum := by
  have hnd : (all.filter fun a => decide (own a = .owned)).Nodup := hall.filter _
  have e : ((contributions3 calls).filter fun t => decide (own t.1 = .owned)) =
      (contributions3 calls).filter fun t => decide (t.1 ∈ all.filter fun a => decide (own a = .owned)) := by
    refine List.filter_congr fun t ht => ?_
    have hm : t.1 ∈ all := by
      refine (H.mem t.1 t.2.1 t.2.2 ?_).1
      unfold timesReceived3
      rw [← Nat.pos_iff_ne_zero, List.countP_pos_iff]
      exact ⟨t, ht, by simp⟩
    simp [hm]
  rw [e, ← sum_by_first3 (fun t => F t.1 t.2.1 t.2.2) _ _ hnd]
  congr 1
  refine List.map_congr_left fun a _ => ?_
  unfold accumulated3
  congr 1
  refine List.map_congr_left fun t ht => ?_
  have : t.1 = a := by simpa using (List.mem_filter.1 ht).2
  rw [this]

theorem MinusGradient.sum {X : Type} (U : X → V3 ℝ → ℝ) (F : X → V3 ℝ) (p : V3 ℝ) (l : List X) (h : ∀ x ∈ l, MinusGradient (U x) (F x) p) :
    MinusGradient (fun q => (l.map fun x => U x q).sum) ((l.map F).sum) p := by
  induction l with
  | nil =>
    refine ⟨?_, ?_, ?_⟩ <;> simpa using hasDerivAt_const _ _
  | cons x l ih =>
    have h1 := h x List.mem_cons_self
    have h2 := ih fun y hy => h y (List.mem_cons_of_mem _ hy)
    refine ⟨?_, ?_, ?_⟩
    · exact ((h1.x.add h2.x).congr_deriv (by rw [List.map_cons, List.sum_cons, V3.add_x, neg_add]))
    · exact ((h1.y.add h2.y).congr_deriv (by rw [List.map_cons, List.sum_cons, V3.add_y, neg_add]))
    · exact ((h1.z.add h2.z).congr_deriv (by rw [List.map_cons, List.sum_cons, V3.add_z, neg_add]))

end
end Verif
