import Verif.Spec.MDLoop
/-!
# C136: md-flexible simulates as many steps as asked for, and its files show the trajectory
-/
namespace Verif
open Spec
variable {σ : Type}

private theorem isMultiple_pos {x m : Nat} (h : 0 < m) : isMultiple x m = .ok (decide (m ∣ x)) := by
  have h0 : m ≠ 0 := by omega
  simp only [isMultiple, h0, if_false, Nat.dvd_iff_mod_eq_zero]
  rfl

/-- The state of the loop after `n` steps of the trajectory. -/
private structure At (c : MDLoopConfig) (e : MDParts σ) (s : σ) (n : Nat) (l : MDLoop σ) : Prop where
  state : l.s = trajectory c e s n
  iteration : l.iteration = n
  paused : l.paused = false
  current : l.current = (n != 0 && tunes c e s (n - 1))
  phases : l.phases = phasesWithin c e s n
  records : l.records = if c.vtk then ((List.range n).filter fun k => decide (c.vtkWriteFrequency ∣ k)).map fun k => (k, trajectory c e s k) else []

private theorem phasesWithin_succ (c : MDLoopConfig) (e : MDParts σ) (s : σ) (n : Nat) :
    phasesWithin c e s (n + 1) =
      if !tunes c e s n && (n != 0 && tunes c e s (n - 1)) then phasesWithin c e s n + 1 else phasesWithin c e s n := by
  cases n with
  | zero => simp [phasesWithin]
  | succ m =>
    simp only [phasesWithin, Nat.add_sub_cancel, List.range_succ, List.filter_append, List.length_append]
    cases h1 : tunes c e s m <;> cases h2 : tunes c e s (m + 1) <;> simp [h1, h2]

private theorem pass_at {c : MDLoopConfig} {e : MDParts σ} {s : σ} {n : Nat} {l : MDLoop σ} (hI : Intervals c)
    (hp : c.pause = false ∨ ∀ k, tunes c e s k = false) (h : At c e s n l) :
    ∃ l', l.pass c e = .ok l' ∧ At c e s (n + 1) l' := by
  obtain ⟨hs, hi, hpa, hcu, hph, hr⟩ := h
  -- writing
  have hw : l.write c = .ok { l with records := if c.vtk then ((List.range (n + 1)).filter fun k => decide (c.vtkWriteFrequency ∣ k)).map fun k => (k, trajectory c e s k) else [] } := by
    unfold MDLoop.write
    cases hv : c.vtk with
    | false =>
      rw [hv] at hr
      simp only [Bool.false_eq_true, if_false] at hr ⊢
      rw [← hr]
    | true =>
      rw [hv] at hr
      simp only [if_true] at hr ⊢
      rw [isMultiple_pos (hI.vtk hv)]
      simp only [Outcome.bind, hi, List.range_succ, List.filter_append, List.map_append]
      by_cases hd : c.vtkWriteFrequency ∣ n
      · simp [hd, MDLoop.record, hr, hi, hs]
      · simp only [hd, decide_false, Bool.false_eq_true, if_false, List.filter_cons, List.filter_nil, List.map_nil, List.append_nil]
        rw [← hr, ← hi]
  have hmid : ∀ l1 : MDLoop σ, l1.s = trajectory c e s n → l1.iteration = n → l1.paused = false →
      ∃ s1, l1.moveAll c e = .ok { l1 with s := s1 } ∧ e.forces s1 = midStep c e n (trajectory c e s n) := by
    intro l1 h1 h2 h3
    unfold MDLoop.moveAll midStep
    cases hm : c.moving with
    | false => exact ⟨l1.s, by simp, by simp [h1]⟩
    | true =>
      refine ⟨e.exchange (if c.loadBalancingInterval ∣ n then e.balance (e.move (trajectory c e s n)) else e.move (trajectory c e s n)), ?_, ?_⟩
      · simp [h3, h2, isMultiple_pos (hI.balance hm), Outcome.bind, h1]
      · simp
  obtain ⟨s1, hm1, hm2⟩ := hmid { l with records := if c.vtk then ((List.range (n + 1)).filter fun k => decide (c.vtkWriteFrequency ∣ k)).map fun k => (k, trajectory c e s k) else [] } hs hi hpa
  have ht : e.tuned (e.forces s1) = tunes c e s n := by rw [hm2]; rfl
  unfold MDLoop.pass
  rw [hw]
  simp only [Outcome.bind]
  rw [hm1]
  simp only [Outcome.bind]
  -- forces, pause
  generalize hl2 : (MDLoop.updateForces e _ : MDLoop σ) = l2
  have hpu : (if c.pause then l2.updatePause e else l2) = l2 := by
    rcases hp with hp | hp
    · simp [hp]
    · have h1 : l2.current = false := by rw [← hl2]; simp [MDLoop.updateForces, ht, hp]
      have h2 : l2.previous = false := by rw [← hl2]; simp [MDLoop.updateForces, hcu, hp]
      cases hc : c.pause <;> simp [MDLoop.updatePause, h1, h2]
  rw [hpu]
  have h2s : l2.s = midStep c e n (trajectory c e s n) := by rw [← hl2]; exact hm2
  have h2i : l2.iteration = n := by rw [← hl2]; exact hi
  have h2p : l2.paused = false := by rw [← hl2]; exact hpa
  have h2c : l2.current = tunes c e s n := by rw [← hl2]; exact ht
  have h2h : l2.phases = phasesWithin c e s (n + 1) := by
    rw [← hl2, phasesWithin_succ]
    simp only [MDLoop.updateForces, ht, hcu, hph]
  have h2r : l2.records = if c.vtk then ((List.range (n + 1)).filter fun k => decide (c.vtkWriteFrequency ∣ k)).map fun k => (k, trajectory c e s k) else [] := by
    rw [← hl2]; rfl
  clear hl2 hpu
  obtain ⟨a1, a2, a3, a4, a5, a6, a7⟩ := l2
  simp only at h2s h2i h2p h2c h2h h2r
  subst h2s h2i h2p h2c h2h h2r
  have hf : MDLoop.finishStep c e ⟨midStep c e a2 (trajectory c e s a2), a2, false, tunes c e s a2, a5, phasesWithin c e s (a2 + 1),
      if c.vtk then ((List.range (a2 + 1)).filter fun k => decide (c.vtkWriteFrequency ∣ k)).map fun k => (k, trajectory c e s k) else []⟩ =
      .ok ⟨trajectory c e s (a2 + 1), a2, false, tunes c e s a2, a5, phasesWithin c e s (a2 + 1),
      if c.vtk then ((List.range (a2 + 1)).filter fun k => decide (c.vtkWriteFrequency ∣ k)).map fun k => (k, trajectory c e s k) else []⟩ := by
    unfold MDLoop.finishStep
    simp only [Bool.not_false, Bool.and_true, trajectory, timeStep]
    cases hm : c.moving with
    | false => simp
    | true =>
      simp only [if_true]
      cases hu : c.useThermostat with
      | false => simp
      | true =>
        simp only [if_true, isMultiple_pos (hI.thermostat hm hu), Outcome.bind, true_and]
        by_cases hd : c.thermostatInterval ∣ a2 <;> simp [hd]
  rw [hf]
  simp only [Outcome.bind, Bool.false_eq_true, if_false]
  exact ⟨_, rfl, ⟨rfl, rfl, rfl, by simp, rfl, rfl⟩⟩

private theorem needsMore_at {c : MDLoopConfig} {e : MDParts σ} {s : σ} {n : Nat} {l : MDLoop σ} (h : At c e s n l) :
    l.needsMore c = true ↔ ¬ done c e s n := by
  simp only [MDLoop.needsMore, h.iteration, h.phases, done, Bool.or_eq_true, decide_eq_true_eq]
  omega

private theorem run_at {c : MDLoopConfig} {e : MDParts σ} {s : σ} (hI : Intervals c)
    (hp : c.pause = false ∨ ∀ k, tunes c e s k = false) (N : Nat) (hN : done c e s N) (hmin : ∀ m < N, ¬ done c e s m) :
    ∀ (d n : Nat) (l : MDLoop σ) (fuel : Nat), N = n + d → d < fuel → At c e s n l →
      ∃ l', At c e s N l' ∧ l.run c e fuel = .ok (if c.vtk then l'.record else l') := by
  intro d
  induction d with
  | zero =>
    intro n l fuel hn hf h
    obtain ⟨f, rfl⟩ : ∃ f, fuel = f + 1 := ⟨fuel - 1, by omega⟩
    have hn' : n = N := by omega
    subst hn'
    have : l.needsMore c = false := by
      cases hc : l.needsMore c with
      | false => rfl
      | true => exact absurd hN ((needsMore_at h).1 hc)
    exact ⟨l, h, by simp [MDLoop.run, this]⟩
  | succ d ih =>
    intro n l fuel hn hf h
    obtain ⟨f, rfl⟩ : ∃ f, fuel = f + 1 := ⟨fuel - 1, by omega⟩
    have : l.needsMore c = true := (needsMore_at h).2 (hmin n (by omega))
    obtain ⟨l1, h1, h2⟩ := pass_at hI hp h
    obtain ⟨l', h3, h4⟩ := ih (n + 1) l1 f (by omega) (by omega) h2
    exact ⟨l', h3, by simp only [MDLoop.run, this, if_true, h1, Outcome.bind, h4]⟩

private theorem at_start (c : MDLoopConfig) (e : MDParts σ) (s : σ) : At c e s 0 { s := s } :=
  ⟨rfl, rfl, rfl, rfl, by simp [phasesWithin], by simp⟩

private theorem find_unique {α : Type} (L : List (Nat × α)) (k : Nat) (a : α) (hm : (k, a) ∈ L) (hu : ∀ b, (k, b) ∈ L → b = a) :
    (L.find? fun r => r.1 == k).map Prod.snd = some a := by
  cases h : L.find? fun r => r.1 == k with
  | none => exact absurd (List.find?_eq_none.1 h _ hm) (by simp)
  | some r =>
    have h1 := List.find?_some h
    have h2 := List.mem_of_find?_eq_some h
    obtain ⟨i, b⟩ := r
    simp only [beq_iff_eq] at h1
    subst h1
    simp [hu b h2]

/-- Without pausing, or when nothing is tuned: the simulation stops after the first number of time steps with which everything is done, its state is the
trajectory's, the files are exactly those of the multiples of the frequency and of the end, each is written once, and each holds the state after
as many time steps as its name says. Missing: pausing during tuning phases, see `C136_violated_pause`, and intervals of zero. -/
theorem C136_partial {c : MDLoopConfig} {e : MDParts σ} {s : σ} (hI : Intervals c) (hp : c.pause = false ∨ ∀ k, tunes c e s k = false)
    (N : Nat) (hN : done c e s N) (hmin : ∀ m < N, ¬ done c e s m) (fuel : Nat) (hf : N < fuel) :
    ∃ l, MDLoop.run c e fuel { s := s } = .ok l ∧ l.s = trajectory c e s N ∧ l.iteration = N ∧
      (l.records.map Prod.fst).Nodup ∧
      ∀ k, l.file k = if c.vtk = true ∧ (k = N ∨ (k < N ∧ c.vtkWriteFrequency ∣ k)) then some (trajectory c e s k) else none := by
  obtain ⟨l, h, hr⟩ := run_at hI hp N hN hmin N 0 { s := s } fuel (by omega) hf (at_start c e s)
  refine ⟨_, hr, ?_, ?_, ?_, ?_⟩
  · cases c.vtk <;> simp [MDLoop.record, h.state]
  · cases c.vtk <;> simp [MDLoop.record, h.iteration]
  · cases hv : c.vtk with
    | false => simp [h.records, hv]
    | true =>
      simp only [if_true, MDLoop.record, h.records, hv, h.iteration, List.map_append, List.map_map, List.map_cons, List.map_nil]
      rw [List.nodup_append]
      refine ⟨?_, by simp, ?_⟩
      · have : (Prod.fst ∘ fun k => (k, trajectory c e s k)) = id := rfl
        rw [this, List.map_id]
        exact List.nodup_range.sublist List.filter_sublist
      · intro a ha b hb hab
        simp only [List.mem_map, List.mem_filter, List.mem_range, Function.comp] at ha
        obtain ⟨k, ⟨hk, -⟩, rfl⟩ := ha
        simp only [List.mem_singleton] at hb
        omega
  · intro k
    cases hv : c.vtk with
    | false => simp [MDLoop.file, h.records, hv]
    | true =>
      simp only [if_true, true_and, MDLoop.file, MDLoop.record]
      have hmem : ∀ a, (k, a) ∈ (l.records ++ [(l.iteration, l.s)]).reverse ↔
          (k = N ∨ (k < N ∧ c.vtkWriteFrequency ∣ k)) ∧ a = trajectory c e s k := by
        intro a
        rw [List.mem_reverse, h.records, hv, h.iteration, h.state]
        simp only [if_true, List.mem_append, List.mem_map, List.mem_filter, List.mem_range, decide_eq_true_eq, List.mem_singleton, Prod.mk.injEq]
        constructor
        · rintro (⟨j, ⟨h1, h2⟩, rfl, rfl⟩ | ⟨rfl, rfl⟩)
          · exact ⟨Or.inr ⟨h1, h2⟩, rfl⟩
          · exact ⟨Or.inl rfl, rfl⟩
        · rintro ⟨rfl | ⟨h1, h2⟩, rfl⟩
          · exact Or.inr ⟨rfl, rfl⟩
          · exact Or.inl ⟨k, ⟨h1, h2⟩, rfl, rfl⟩
      by_cases hk : k = N ∨ (k < N ∧ c.vtkWriteFrequency ∣ k)
      · rw [if_pos hk]
        exact find_unique _ k _ ((hmem _).2 ⟨hk, rfl⟩) fun b hb => ((hmem b).1 hb).2
      · rw [if_neg hk, Option.map_eq_none_iff, List.find?_eq_none]
        rintro ⟨i, a⟩ hx hi
        simp only [beq_iff_eq] at hi
        subst hi
        exact hk ((hmem a).1 hx).1

/-- Without a limit on tuning phases, these are exactly the iterations that were asked for. -/
theorem C136_iterations {c : MDLoopConfig} {e : MDParts σ} {s : σ} (hI : Intervals c) (hp : c.pause = false) (ht : c.tuningPhases = 0)
    (fuel : Nat) (hf : c.iterations < fuel) :
    ∃ l, MDLoop.run c e fuel { s := s } = .ok l ∧ l.s = trajectory c e s c.iterations ∧ l.iteration = c.iterations := by
  obtain ⟨l, h1, h2, h3, -⟩ := C136_partial (s := s) (e := e) hI (Or.inl hp) c.iterations ⟨Nat.le_refl _, by omega⟩
    (fun m hm h => by have := h.1; omega) fuel hf
  exact ⟨l, h1, h2, h3⟩

/-- A simulation that is limited by tuning phases goes on for ever if these never end, e.g. because tuning finds nothing to do. -/
theorem C136_endless {c : MDLoopConfig} {e : MDParts σ} {s : σ} (hI : Intervals c) (hp : c.pause = false ∨ ∀ k, tunes c e s k = false)
    (hN : ∀ n, ¬ done c e s n) (fuel : Nat) : MDLoop.run c e fuel { s := s } = .diverges := by
  suffices h : ∀ (fuel n : Nat) (l : MDLoop σ), At c e s n l → l.run c e fuel = .diverges from h fuel 0 _ (at_start c e s)
  intro fuel
  induction fuel with
  | zero => intro n l _; rfl
  | succ f ih =>
    intro n l h
    have : l.needsMore c = true := (needsMore_at h).2 (hN n)
    obtain ⟨l1, h1, h2⟩ := pass_at hI hp h
    simp only [MDLoop.run, this, if_true, h1, Outcome.bind, ih (n + 1) l1 h2]

/-- `--vtk-write-frequency 0` and `load-balancing-interval: 0`, which the parsers accept (C133, C134), are remainders by zero in the first iteration. -/
theorem C136_violated_intervals {c : MDLoopConfig} {e : MDParts σ} {s : σ} (hn : 0 < c.iterations)
    (h : (c.vtk = true ∧ c.vtkWriteFrequency = 0) ∨ (c.moving = true ∧ c.loadBalancingInterval = 0)) (fuel : Nat) :
    MDLoop.run c e (fuel + 1) { s := s } = .ub := by
  have hm : (MDLoop.needsMore c { s := s }) = true := by simp [MDLoop.needsMore, hn]
  simp only [MDLoop.run, hm, if_true]
  have : MDLoop.pass c e { s := s } = .ub := by
    unfold MDLoop.pass MDLoop.write
    rcases h with ⟨h1, h2⟩ | ⟨h1, h2⟩
    · simp [h1, h2, isMultiple, Outcome.bind]
    · cases hv : c.vtk
      · simp [Outcome.bind, MDLoop.moveAll, h1, h2, isMultiple]
      · by_cases hz : c.vtkWriteFrequency = 0
        · simp [hz, isMultiple, Outcome.bind]
        · simp [hz, isMultiple, Outcome.bind, MDLoop.moveAll, h1, h2, MDLoop.record]
  rw [this]
  rfl

/-- A simulation that pauses while tuning, and starts with a tuning phase of at least two iterations: in the second pass the file of iteration 0, which
held the initial state, is overwritten with the particles in the middle of the first time step. -/
theorem C136_violated_pause {c : MDLoopConfig} {e : MDParts σ} {s : σ} (hI : Intervals c) (hp : c.pause = true) (hv : c.vtk = true)
    (h1 : e.tuned (midStep c e 0 s) = true) (h2 : e.tuned (e.forces (midStep c e 0 s)) = true) :
    ∃ l l', MDLoop.pass c e { s := s } = .ok l ∧ l.file 0 = some s ∧ MDLoop.pass c e l = .ok l' ∧ l'.file 0 = some (midStep c e 0 s) := by
  have hf := hI.vtk hv
  have hf0 : c.vtkWriteFrequency ≠ 0 := by omega
  have hz : isMultiple 0 c.vtkWriteFrequency = .ok true := by simp [isMultiple, hf0]
  have hmid : ∀ l1 : MDLoop σ, l1.s = s → l1.iteration = 0 → l1.paused = false →
      ∃ s1, l1.moveAll c e = .ok { l1 with s := s1 } ∧ e.forces s1 = midStep c e 0 s := by
    intro l1 h1 h2 h3
    unfold MDLoop.moveAll midStep
    cases hm : c.moving with
    | false => exact ⟨l1.s, by simp, by simp [h1]⟩
    | true =>
      refine ⟨e.exchange (e.balance (e.move s)), ?_, ?_⟩
      · simp [h3, h2, isMultiple_pos (hI.balance hm), Outcome.bind, h1]
      · simp
  obtain ⟨s1, ha, hb⟩ := hmid { s := s, records := [(0, s)] } rfl rfl rfl
  have hpass : MDLoop.pass c e { s := s } =
      .ok { s := midStep c e 0 s, iteration := 0, paused := true, current := true, previous := false, phases := 0, records := [(0, s)] } := by
    unfold MDLoop.pass MDLoop.write
    simp only [hv, if_true, hz, Outcome.bind, MDLoop.record, List.nil_append]
    rw [ha]
    simp [hp, MDLoop.updateForces, hb, h1, MDLoop.updatePause, MDLoop.finishStep]
  refine ⟨_, ⟨e.forces (midStep c e 0 s), 0, true, true, true, 0, [(0, s), (0, midStep c e 0 s)]⟩, hpass, by simp [MDLoop.file], ?_,
    by simp [MDLoop.file]⟩
  unfold MDLoop.pass MDLoop.write
  simp only [hv, if_true, hz, Outcome.bind, MDLoop.record, MDLoop.moveAll, Bool.not_true, Bool.and_false, Bool.false_eq_true, if_false]
  simp [hp, MDLoop.updateForces, h2, MDLoop.updatePause, MDLoop.finishStep]

/-! ### A particle on a line: position, velocity, force and the number of force computations -/

private structure Dot where
  x : Int
  v : Int
  f : Int
  calls : Nat
deriving DecidableEq

/-- A constant force of 2; the first `t` force computations are tuning iterations. -/
private def dots (t : Nat) : MDParts Dot where
  move p := { p with x := p.x + p.v, f := 0 }
  balance p := p
  exchange p := p
  forces p := { p with f := p.f + 2, calls := p.calls + 1 }
  tuned p := p.calls ≤ t
  resetForces p := { p with f := 0 }
  kick p := { p with v := p.v + p.f }
  thermostat p := { p with v := 1 }

private def cfg : MDLoopConfig := ⟨5, 0, true, 2, true, 3, true, 4, false⟩

/-- Five steps with files at 0, 2, 4 and 5. -/
example : ∃ l, MDLoop.run cfg (dots 3) 6 { s := ⟨0, 1, 0, 0⟩ } = .ok l ∧ l.records.map Prod.fst = [0, 2, 4, 5] ∧ l.s.x = 17 :=
  ⟨_, rfl, by decide +kernel, by decide +kernel⟩

example : Intervals cfg := ⟨by decide, by decide, by decide⟩

/-- Limited by one tuning phase: it ends in step 4. -/
example : done { cfg with iterations := 0, tuningPhases := 1 } (dots 3) ⟨0, 1, 0, 0⟩ 4 ∧
    ∀ m < 4, ¬ done { cfg with iterations := 0, tuningPhases := 1 } (dots 3) ⟨0, 1, 0, 0⟩ m := by
  refine ⟨⟨by decide, by decide⟩, ?_⟩
  intro m hm
  rintro ⟨-, h⟩
  have : m = 0 ∨ m = 1 ∨ m = 2 ∨ m = 3 := by omega
  rcases this with rfl | rfl | rfl | rfl <;> exact absurd h (by decide)

/-- With pausing, the whole simulation ends with the wrong file 0: position 1 instead of 0. -/
theorem C136_violated_pause_file :
    ∃ l, MDLoop.run { cfg with pause := true } (dots 3) 20 { s := ⟨0, 1, 0, 0⟩ } = .ok l ∧
      (l.file 0).map Dot.x = some 1 ∧ (trajectory cfg (dots 3) ⟨0, 1, 0, 0⟩ 0).x = 0 :=
  ⟨_, rfl, by decide +kernel, rfl⟩

/-- Nothing to tune, but a tuning phase is asked for. -/
example : ∀ n, ¬ done { cfg with tuningPhases := 1 } (dots 0) ⟨0, 1, 0, 0⟩ n := by
  rintro n ⟨-, h⟩
  have ht : ∀ k, tunes { cfg with tuningPhases := 1 } (dots 0) ⟨0, 1, 0, 0⟩ k = false := by
    intro k
    simp [tunes, midStep, cfg, dots]
  have hf : (List.range (n - 1)).filter (fun _ => false) = [] := List.filter_eq_nil_iff.2 (by simp)
  simp [phasesWithin, ht, hf] at h

end Verif
