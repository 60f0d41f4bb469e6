import Verif.Props.C88
/-!
# C89 — pausing the simulation in tuning phases does not change the trajectory

With `pauseSimulationDuringTuning` the particles stand still while the tuner tries configurations. However many tuning phases there are and however long they
are, the positions and velocities after the run are those of the velocity Verlet method, with one step for every iteration that is not a tuning
iteration: nothing is left of the forces that piled up.

Partial: without reflective boundaries. The forces of the walls are deleted at the end of a tuning phase (`C89_violated_reflecting_wall`).
-/
namespace Verif
open Spec

section
variable {K ι : Type} [Field K] [LinearOrder K] [IsStrictOrderedRing K] [DecidableEq ι] {c : Integrator K ι} {F : Forces K ι}

/-- Positions of one step ahead, velocities and old forces of the step to be finished. -/
def HalfWay (c : Integrator K ι) (F : Forces K ι) (p : Phase K ι) (s : ι → Body K) : Prop :=
  ∀ i, (s i).r = (verletStep c.dt c.mass (totalForce c.globalForce F) p).x i ∧ (s i).v = p.v i ∧
    (s i).oldF = totalForce c.globalForce F p.x i

theorem halfWay_start (hm : ∀ i, c.mass i ≠ 0) {o : List ι} (ho : Schedule o) {s s' : ι → Body K} (hf : ForcesUpToDate c.globalForce F s)
    (hok : c.updatePositions o s = .ok s') : HalfWay c F (phaseOf s) s' ∧ ∀ i, (s' i).f = c.globalForce := by
  obtain ⟨e, -⟩ := updatePositions_ok ho hok
  subst e
  refine ⟨fun i => ⟨?_, rfl, hf i⟩, fun i => rfl⟩
  show (s i).r + ((s i).v.scale c.dt + (s i).f.scale (c.dt * c.dt / (2 * c.mass i))) =
    (s i).r + (s i).v.scale c.dt + ((totalForce c.globalForce F (fun j => (s j).r) i).scale (1 / c.mass i)).scale (c.dt ^ 2 / 2)
  rw [← hf i]
  have h2 := hm i
  apply V3.ext' <;> simp only [V3.add_x, V3.add_y, V3.add_z, V3.scale_x, V3.scale_y, V3.scale_z] <;> field_simp <;> ring

omit [DecidableEq ι] [IsStrictOrderedRing K] in
theorem halfWay_force {p : Phase K ι} {s : ι → Body K} (h : HalfWay c F p s) (g : ι → V3 K) : HalfWay c F p fun i => { s i with f := g i } := h

/-- Finishing the step. -/
theorem halfWay_finish (hm : ∀ i, c.mass i ≠ 0) {o : List ι} (ho : Schedule o) {p : Phase K ι} {s : ι → Body K} (h : HalfWay c F p s)
    (hf : ForcesUpToDate c.globalForce F s) :
    phaseOf (c.updateVelocities o s) = verletStep c.dt c.mass (totalForce c.globalForce F) p ∧
      ForcesUpToDate c.globalForce F (c.updateVelocities o s) := by
  unfold Integrator.updateVelocities
  rw [forEachBody_schedule _ ho]
  have hx : (fun i => (s i).r) = (verletStep c.dt c.mass (totalForce c.globalForce F) p).x := funext fun i => (h i).1
  constructor
  · have hv : (fun i => (c.kick i (s i)).v) = (verletStep c.dt c.mass (totalForce c.globalForce F) p).v := by
      funext i
      show (s i).v + ((s i).f + (s i).oldF).scale (c.dt / (2 * c.mass i)) = p.v i + ((totalForce c.globalForce F p.x i).scale (1 / c.mass i) +
        (totalForce c.globalForce F (verletStep c.dt c.mass (totalForce c.globalForce F) p).x i).scale (1 / c.mass i)).scale (c.dt / 2)
      rw [(h i).2.1, (h i).2.2, hf i, hx]
      have h2 := hm i
      apply V3.ext' <;> simp only [V3.add_x, V3.add_y, V3.add_z, V3.scale_x, V3.scale_y, V3.scale_z] <;> field_simp <;> ring
    show Phase.mk (fun i => (s i).r) (fun i => (c.kick i (s i)).v) = _
    rw [hx, hv]
  · exact hf

omit [LinearOrder K] [IsStrictOrderedRing K] [DecidableEq ι] in
theorem addForces_noWall (hw : ∀ x i, F.wall x i = 0) (s : ι → Body K) : addForces F.wall s = s := by
  funext i
  unfold addForces
  rw [hw, add_zero]

omit [LinearOrder K] [IsStrictOrderedRing K] [DecidableEq ι] in
theorem upToDate_of_reset (hw : ∀ x i, F.wall x i = 0) {g : V3 K} {s : ι → Body K} (h : ∀ i, (s i).f = g) :
    ForcesUpToDate g F (addForces F.interaction s) := by
  intro i
  show (s i).f + F.interaction (fun j => (s j).r) i = totalForce g F (fun j => (s j).r) i
  unfold totalForce
  rw [h i, hw, add_zero]

/-- What holds between two iterations: `n` steps are complete; in a pause the next one is half done. -/
def PauseInv (c : Integrator K ι) (F : Forces K ι) (start : Phase K ι) (n : Nat) (st : PauseState K ι) : Prop :=
  let p := (verletStep c.dt c.mass (totalForce c.globalForce F))^[n] start
  (st.paused = false → phaseOf st.s = p ∧ ForcesUpToDate c.globalForce F st.s) ∧
  (st.paused = true → HalfWay c F p st.s ∧ st.current = true)

/-- One iteration: completes a step unless the simulation is paused afterwards. -/
theorem pauseIteration_inv (hm : ∀ i, c.mass i ≠ 0) (hw : ∀ x i, F.wall x i = 0) {start : Phase K ι} {n : Nat} {st st' : PauseState K ι}
    {inp : PauseInput ι} (ho : Schedule inp.order) (ho' : Schedule inp.order') (h : PauseInv c F start n st)
    (hok : c.pauseIteration F st inp = .ok st') : PauseInv c F start (if st'.paused then n else n + 1) st' := by
  unfold Integrator.pauseIteration at hok
  -- the state before the interactions
  have hhalf : ∃ s1, (if st.paused then Outcome.ok st.s else (c.updatePositions inp.order st.s).bind fun s => .ok (addForces F.wall s)) = .ok s1 ∧
      HalfWay c F ((verletStep c.dt c.mass (totalForce c.globalForce F))^[n] start) s1 ∧ (st.paused = false → ∀ i, (s1 i).f = c.globalForce) := by
    cases hp : st.paused with
    | true =>
      refine ⟨st.s, if_pos rfl, (h.2 hp).1, fun h => by cases h⟩
    | false =>
      rw [hp] at hok
      rw [if_neg (by simp)] at hok ⊢
      cases hu : c.updatePositions inp.order st.s with
      | ok s1 =>
        obtain ⟨hph, hf⟩ := h.1 hp
        obtain ⟨h1, h2⟩ := halfWay_start hm ho hf hu
        refine ⟨s1, by rw [show (Outcome.ok s1).bind (fun s => Outcome.ok (addForces F.wall s)) = .ok (addForces F.wall s1) from rfl,
          addForces_noWall hw], by rw [← hph]; exact h1, fun _ => h2⟩
      | throws => rw [hu] at hok; cases hok
      | ub => rw [hu] at hok; cases hok
      | diverges => rw [hu] at hok; cases hok
  obtain ⟨s1, e1, hh, hf1⟩ := hhalf
  rw [e1] at hok
  have hok : st' = _ := (Outcome.ok.inj hok).symm
  have hh2 : HalfWay c F ((verletStep c.dt c.mass (totalForce c.globalForce F))^[n] start) (addForces F.interaction s1) := hh
  cases hends : (st.current && !inp.tuning) with
  | true =>
    rw [hends] at hok
    simp only [if_true] at hok
    have hpf : st'.paused = false := by rw [hok]
    rw [hpf, if_neg (by simp)]
    refine ⟨fun _ => ?_, fun h => by rw [hpf] at h; cases h⟩
    rw [Function.iterate_succ_apply']
    have := halfWay_finish hm ho' (F := F) (s := addForces F.interaction fun i => { addForces F.interaction s1 i with f := c.globalForce }) hh2
      (upToDate_of_reset hw fun _ => rfl)
    rw [hok]; exact this
  | false =>
    rw [hends] at hok
    simp only [Bool.false_eq_true, if_false] at hok
    by_cases hpause : (if (inp.tuning && !st.current) = true then true else st.paused) = true
    · rw [if_pos hpause] at hok
      have hpt : st'.paused = true := by rw [hok]; exact hpause
      rw [hpt, if_pos rfl]
      refine ⟨fun h => (by rw [hpt] at h; cases h), fun _ => ?_⟩
      rw [hok]
      refine ⟨hh2, ?_⟩
      show inp.tuning = true
      cases ht : inp.tuning with
      | true => rfl
      | false =>
        rw [ht] at hends hpause
        simp only [Bool.false_and, Bool.false_eq_true, if_false] at hpause
        rw [(h.2 hpause).2] at hends
        cases hends
    · rw [if_neg hpause] at hok
      have hpf : st'.paused = false := by rw [hok]; exact Bool.eq_false_iff.2 hpause
      rw [hpf, if_neg (by simp)]
      refine ⟨fun _ => ?_, fun h => by rw [hpf] at h; cases h⟩
      rw [Function.iterate_succ_apply', hok]
      have hstp : st.paused = false := by
        cases hp : st.paused with
        | false => rfl
        | true => rw [hp, ite_self] at hpause; exact absurd rfl hpause
      exact halfWay_finish hm ho' hh2 (upToDate_of_reset hw (hf1 hstp))

/-- However the tuner behaves: if the simulation is not paused at the end, the trajectory is the velocity Verlet trajectory for some number of steps, at
most one per iteration. -/
theorem C89_trajectory_partial (hm : ∀ i, c.mass i ≠ 0) (hw : ∀ x i, F.wall x i = 0) (inputs : List (PauseInput ι))
    (ho : ∀ i ∈ inputs, Schedule i.order ∧ Schedule i.order') {s : ι → Body K} {st' : PauseState K ι} (hf : ForcesUpToDate c.globalForce F s)
    (hok : c.pauseRun F inputs ⟨s, false, false⟩ = .ok st') (hend : st'.paused = false) :
    ∃ n ≤ inputs.length, phaseOf st'.s = (verletStep c.dt c.mass (totalForce c.globalForce F))^[n] (phaseOf s) ∧
      ForcesUpToDate c.globalForce F st'.s := by
  have key : ∀ (inputs : List (PauseInput ι)), (∀ i ∈ inputs, Schedule i.order ∧ Schedule i.order') → ∀ n (st : PauseState K ι),
      PauseInv c F (phaseOf s) n st → c.pauseRun F inputs st = .ok st' → ∃ m ≤ inputs.length, PauseInv c F (phaseOf s) (n + m) st' := by
    intro inputs
    induction inputs with
    | nil => intro _ n st h e; injection e with e; subst e; exact ⟨0, le_rfl, h⟩
    | cons i is ih =>
      intro ho n st h e
      unfold Integrator.pauseRun at e
      cases hi : c.pauseIteration F st i with
      | ok st1 =>
        rw [hi] at e
        have h1 := pauseIteration_inv hm hw (ho i List.mem_cons_self).1 (ho i List.mem_cons_self).2 h hi
        obtain ⟨m, hmle, h2⟩ := ih (fun j hj => ho j (List.mem_cons_of_mem _ hj)) _ st1 h1 e
        split at h2
        · exact ⟨m, by rw [List.length_cons]; omega, h2⟩
        · exact ⟨m + 1, by rw [List.length_cons]; omega, by rw [show n + (m + 1) = n + 1 + m by omega]; exact h2⟩
      | throws => rw [hi] at e; cases e
      | ub => rw [hi] at e; cases e
      | diverges => rw [hi] at e; cases e
  obtain ⟨m, hmle, h⟩ := key inputs ho 0 ⟨s, false, false⟩ ⟨fun _ => ⟨rfl, hf⟩, fun h => by cases h⟩ hok
  rw [Nat.zero_add] at h
  exact ⟨m, hmle, h.1 hend⟩

/-- If no new tuning phase starts within the iteration that ends one: one step for every iteration that is not a tuning iteration, and the simulation
stands still exactly in the tuning iterations. -/
theorem C89_one_step_per_iteration_partial (hm : ∀ i, c.mass i ≠ 0) (hw : ∀ x i, F.wall x i = 0) (inputs : List (PauseInput ι))
    (ho : ∀ i ∈ inputs, Schedule i.order ∧ Schedule i.order') (hagain : ∀ i ∈ inputs, i.again = false) {s : ι → Body K} {st' : PauseState K ι}
    (hf : ForcesUpToDate c.globalForce F s) (hok : c.pauseRun F inputs ⟨s, false, false⟩ = .ok st')
    (hlast : ∀ i, inputs.getLast? = some i → i.tuning = false) :
    phaseOf st'.s = (verletStep c.dt c.mass (totalForce c.globalForce F))^[inputs.countP fun i => !i.tuning] (phaseOf s) := by
  have hiter : ∀ (i : PauseInput ι) (st st' : PauseState K ι), i.again = false → st.paused = st.current → c.pauseIteration F st i = .ok st' →
      st'.paused = i.tuning ∧ st'.current = i.tuning := by
    intro i st st' hag hpc e
    unfold Integrator.pauseIteration at e
    cases hb : (if st.paused then Outcome.ok st.s else (c.updatePositions i.order st.s).bind fun s => .ok (addForces F.wall s)) with
    | ok s1 =>
      rw [hb] at e
      have e : st' = _ := (Outcome.ok.inj e).symm
      rw [e]
      dsimp only
      rw [hpc, hag]
      cases st.current <;> cases i.tuning <;> exact ⟨rfl, rfl⟩
    | throws => rw [hb] at e; cases e
    | ub => rw [hb] at e; cases e
    | diverges => rw [hb] at e; cases e
  have key : ∀ (inputs : List (PauseInput ι)), (∀ i ∈ inputs, Schedule i.order ∧ Schedule i.order') → (∀ i ∈ inputs, i.again = false) →
      ∀ n (st : PauseState K ι), st.paused = st.current → PauseInv c F (phaseOf s) n st → c.pauseRun F inputs st = .ok st' →
      PauseInv c F (phaseOf s) (n + inputs.countP fun i => !i.tuning) st' ∧ st'.paused = ((inputs.getLast?.map (·.tuning)).getD st.paused) := by
    intro inputs
    induction inputs with
    | nil => intro _ _ n st _ h e; injection e with e; subst e; exact ⟨h, rfl⟩
    | cons i is ih =>
      intro ho hag n st hpc h e
      unfold Integrator.pauseRun at e
      cases hi : c.pauseIteration F st i with
      | ok st1 =>
        rw [hi] at e
        have h1 := pauseIteration_inv hm hw (ho i List.mem_cons_self).1 (ho i List.mem_cons_self).2 h hi
        obtain ⟨hp1, hc1⟩ := hiter i st st1 (hag i List.mem_cons_self) hpc hi
        obtain ⟨h2, h3⟩ := ih (fun j hj => ho j (List.mem_cons_of_mem _ hj)) (fun j hj => hag j (List.mem_cons_of_mem _ hj)) _ st1
          (hp1.trans hc1.symm) h1 e
        constructor
        · rw [hp1] at h2
          rw [List.countP_cons]
          cases ht : i.tuning with
          | true => rw [ht] at h2; simpa using h2
          | false =>
            rw [ht] at h2
            simp only [Bool.false_eq_true, if_false] at h2
            simp only [Bool.not_false, if_true]
            rw [show n + (List.countP (fun i => !i.tuning) is + 1) = n + 1 + List.countP (fun i => !i.tuning) is by omega]
            exact h2
        · rw [h3, hp1]
          cases is with
          | nil => rfl
          | cons j js => rw [List.getLast?_cons_cons]; cases hl : (j :: js).getLast? with
            | none => rw [List.getLast?_eq_none_iff] at hl; cases hl
            | some _ => rfl
      | throws => rw [hi] at e; cases e
      | ub => rw [hi] at e; cases e
      | diverges => rw [hi] at e; cases e
  obtain ⟨h, hp⟩ := key inputs ho hagain 0 ⟨s, false, false⟩ rfl ⟨fun _ => ⟨rfl, hf⟩, fun h => by cases h⟩ hok
  rw [Nat.zero_add] at h
  refine (h.1 ?_).1
  rw [hp]
  cases hl : inputs.getLast? with
  | none => rfl
  | some i => exact hlast i hl

end

/-! ### A tuning phase deletes the force of a wall -/

private def exPauseC : Integrator Rat (Fin 1) := ⟨1, fun _ => 1, 0, 100, false⟩
/-- A wall that pushes a particle below 1 upwards. -/
private def exPauseF : Forces Rat (Fin 1) := ⟨fun _ _ => 0, fun x i => if (x i).x < 1 then ⟨8, 0, 0⟩ else 0⟩
private def exPauseS : Fin 1 → Body Rat := fun _ => ⟨⟨3/2, 0, 0⟩, ⟨-1, 0, 0⟩, 0, 0⟩
private def exPauseIn (b : Bool) : PauseInput (Fin 1) := ⟨[0], [0], b, false⟩

/-- A particle that reaches the wall in the iteration in which a tuning phase begins passes it without being pushed back, while without the tuning phase
its velocity is reversed. -/
theorem C89_violated_reflecting_wall :
    (match exPauseC.pauseRun exPauseF [exPauseIn true, exPauseIn false] ⟨exPauseS, false, false⟩ with
      | .ok st => some ((st.s 0).v, st.paused) | _ => none) = some (⟨-1, 0, 0⟩, false) ∧
    (match exPauseC.run exPauseF [([0], [0])] exPauseS with | .ok s => some (s 0).v | _ => none) = some ⟨3, 0, 0⟩ ∧
    ForcesUpToDate exPauseC.globalForce exPauseF exPauseS := by
  refine ⟨by decide +kernel, by decide +kernel, ?_⟩
  intro i; revert i; decide +kernel

/-! ### Non-vacuity -/

private def exSpring1 : Forces Rat (Fin 1) := ⟨fun x i => -(x i), fun _ _ => 0⟩
private def exSpringS : Fin 1 → Body Rat := fun _ => ⟨⟨1, 0, 0⟩, 0, ⟨-1, 0, 0⟩, 0⟩

/-- A particle on a spring, three iterations of tuning between two others. -/
example : ∃ st', exPauseC.pauseRun exSpring1 [exPauseIn false, exPauseIn true, exPauseIn true, exPauseIn true, exPauseIn false] ⟨exSpringS, false, false⟩
    = .ok st' ∧ phaseOf st'.s = (verletStep 1 (fun _ => 1) (totalForce 0 exSpring1))^[2] (phaseOf exSpringS) := by
  have hok : ∃ st', exPauseC.pauseRun exSpring1 [exPauseIn false, exPauseIn true, exPauseIn true, exPauseIn true, exPauseIn false]
      ⟨exSpringS, false, false⟩ = .ok st' := by
    have : (match exPauseC.pauseRun exSpring1 [exPauseIn false, exPauseIn true, exPauseIn true, exPauseIn true, exPauseIn false]
      ⟨exSpringS, false, false⟩ with | .ok _ => true | _ => false) = true := by decide +kernel
    revert this
    generalize exPauseC.pauseRun exSpring1 _ _ = r
    intro h
    cases r with
    | ok st => exact ⟨st, rfl⟩
    | throws => cases h
    | ub => cases h
    | diverges => cases h
  obtain ⟨st', hok⟩ := hok
  have hs : Schedule [(0 : Fin 1)] := ⟨by decide, by decide⟩
  refine ⟨st', hok, C89_one_step_per_iteration_partial (by decide +kernel) (fun _ _ => rfl) _ ?_ ?_ ?_ hok ?_⟩
  · intro i hi
    simp only [List.mem_cons, List.not_mem_nil, or_false] at hi
    rcases hi with rfl | rfl | rfl | rfl | rfl <;> exact ⟨hs, hs⟩
  · intro i hi
    simp only [List.mem_cons, List.not_mem_nil, or_false] at hi
    rcases hi with rfl | rfl | rfl | rfl | rfl <;> rfl
  · intro i; revert i; decide +kernel
  · intro i hi
    injection hi with hi
    rw [← hi]; rfl

end Verif
