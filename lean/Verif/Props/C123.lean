import Verif.Lemmas.SPHProtocol
import Verif.Lemmas.SPHLeaving
import Mathlib.Algebra.Order.BigOperators.Group.Finset
import Mathlib.Algebra.BigOperators.Group.Finset.Basic
import Mathlib.Tactic.FinCases
/-!
# C123 — the messages of the examples for smoothed particle hydrodynamics

Each rank sends to one partner and receives from another, round after round. Whatever the speed of the ranks and whether or not MPI buffers the messages: the
exchange never gets stuck, ends after three actions per rank and round, and each rank has then received, in order, exactly what its partners sent to it in
the respective rounds, although all messages carry the same tag and a partner is often the same rank in different rounds.
-/
namespace Verif
open Spec

variable {R M : Type} [DecidableEq R] {P : SPHRounds R M} {G : R → Prop} {N : SPHNet R M} {sched : List R}

/-- No message is taken for another: at any time a rank has received what its partners sent in the rounds up to now. -/
theorem C123_messages (hA : PartnersAgree P G) (hG : ∀ r ∈ sched, G r) (hr : sphExRun P sched = some N) (r : R) :
    ∃ k, N.round r ≤ k ∧ k ≤ P.rounds ∧ N.log r = expectedLog P k r := by
  have h := netInv_run hA hG hr
  refine ⟨N.taken r, by unfold SPHNet.taken; omega, ?_, h.log r⟩
  have h1 := h.le r
  unfold SPHNet.taken
  split
  · rename_i e; have := h1.2 (by rw [e]; decide); omega
  · omega

/-- No deadlock: as long as some rank has not finished, some rank can go on. -/
theorem C123_no_deadlock (hA : PartnersAgree P G) (hG : ∀ r ∈ sched, G r) (hr : sphExRun P sched = some N) {r : R} (hr' : G r)
    (hu : N.round r < P.rounds) : ∃ s N', G s ∧ sphExStep P N s = some N' := by
  obtain ⟨s, hs, h⟩ := net_progress hA (netInv_run hA hG hr) hr' hu
  obtain ⟨N', hN'⟩ := Option.isSome_iff_exists.1 h
  exact ⟨s, N', hs, hN'⟩

/-- Every execution ends: no rank acts more than three times per round. -/
theorem C123_terminates (hA : PartnersAgree P G) (hG : ∀ r ∈ sched, G r) (hr : sphExRun P sched = some N) (r : R) : sched.count r ≤ 3 * P.rounds := by
  rw [← progress_run hr r]
  exact progress_le (netInv_run hA hG hr) r

/-- For finitely many ranks: the length of every execution is bounded. -/
theorem C123_bounded [Fintype R] (hA : PartnersAgree P G) (hG : ∀ r ∈ sched, G r) (hr : sphExRun P sched = some N) :
    sched.length ≤ Fintype.card R * (3 * P.rounds) := by
  have e : sched.length = ∑ r : R, sched.count r := by
    rw [← List.sum_toFinset_count_eq_length]
    refine Finset.sum_subset (Finset.subset_univ _) fun r _ hr => ?_
    exact List.count_eq_zero.2 fun h => hr (List.mem_toFinset.2 h)
  rw [e, ← Finset.card_univ]
  exact Finset.sum_le_card_nsmul _ _ _ fun r _ => C123_terminates hA hG hr r

/-- When no rank can go on, all have finished, each has received everything that was meant for it, and no message is left over. -/
theorem C123_end (hA : PartnersAgree P G) (hG : ∀ r ∈ sched, G r) (hr : sphExRun P sched = some N) (hend : ∀ s, G s → sphExStep P N s = none) {r : R} (hr' : G r) :
    N.round r = P.rounds ∧ N.log r = expectedLog P P.rounds r ∧ sched.count r = 3 * P.rounds ∧ ∀ s, N.chan s r = [] := by
  have h := netInv_run hA hG hr
  have hfin : ∀ s, G s → N.round s = P.rounds ∧ N.phase s = .send := by
    intro s hs
    have h1 := h.le s
    have h2 : N.round s = P.rounds := by
      by_contra hc
      obtain ⟨t, N', ht, hN'⟩ := C123_no_deadlock hA hG hr hs (by omega)
      rw [hend t ht] at hN'
      cases hN'
    refine ⟨h2, ?_⟩
    by_contra hc
    have := h1.2 hc
    omega
  obtain ⟨h1, h2⟩ := hfin r hr'
  have htaken : N.taken r = P.rounds := by unfold SPHNet.taken; rw [h1, h2]; simp
  refine ⟨h1, by rw [h.log r, htaken], ?_, fun s => ?_⟩
  · rw [← progress_run hr r]; unfold SPHNet.progress; rw [h1, h2]; rfl
  · rw [h.chan s r, htaken]
    refine onTheWay_nil ?_
    unfold SPHNet.sent
    have h1 := h.le s
    split
    · omega
    · rename_i e; have := h1.2 e; omega

/-- The result does not depend on the schedule, nor on which messages MPI buffers. -/
theorem C123_schedule {eager : R → Nat → Bool} {sched' : List R} {N' : SPHNet R M} (hA : PartnersAgree P G) (hG : ∀ r ∈ sched, G r) (hG' : ∀ r ∈ sched', G r)
    (hr : sphExRun P sched = some N) (hr' : sphExRun { P with eager := eager } sched' = some N') (hend : ∀ s, G s → sphExStep P N s = none)
    (hend' : ∀ s, G s → sphExStep { P with eager := eager } N' s = none) {r : R} (hg : G r) : N.log r = N'.log r := by
  have hA' : PartnersAgree { P with eager := eager } G := ⟨hA.dst_mem, hA.src_mem, hA.src_dst, hA.dst_src⟩
  rw [(C123_end hA hG hr hend hg).2.1, (C123_end hA' hG' hr' hend' hg).2.1]
  have : ∀ k (t : R), expectedLog P k t = expectedLog { P with eager := eager } k t := by
    intro k
    induction k with
    | zero => intro t; rfl
    | succ k ih => intro t; simp only [expectedLog]; rw [ih, ih]
  exact this _ _

/-! ### The exchanges of the example -/

theorem sphDiffs_getD (k : Nat) (a : Axis) : IsDiff ((sphDiffs.getD k ⟨0, 0, 0⟩).at a) := by
  by_cases hk : k < sphDiffs.length
  · rw [List.getD_eq_getElem _ _ hk]
    exact (mem_sphDiffs.1 (List.getElem_mem hk)).1 a
  · rw [List.getD_eq_default _ _ (not_lt.1 hk)]
    cases a <;> exact Or.inr (Or.inl rfl)

/-- `getSendRecvPartner` pairs the ranks up, for every grid of ranks, also with one or two ranks in a dimension. -/
theorem C123_partners {D : SPHGrid} (hg : ∀ d : Axis, 0 < D.grid.at d) (out : V3 Nat → V3 Int → List Particle) (eager : V3 Nat → Nat → Bool) :
    PartnersAgree (D.exchange out eager) (OnGrid D) where
  dst_mem := fun _ k hr => sendPartner_onGrid hg hr fun a => sphDiffs_getD k a
  src_mem := fun _ k hr => recvPartner_onGrid hg hr fun a => sphDiffs_getD k a
  src_dst := fun _ k hr => recvPartner_sendPartner hg hr fun a => sphDiffs_getD k a
  dst_src := fun _ k hr => sendPartner_recvPartner hg hr fun a => sphDiffs_getD k a

theorem expectedLog_exchange {D : SPHGrid} {out : V3 Nat → V3 Int → List Particle} {eager : V3 Nat → Nat → Bool} (r : V3 Nat) (k : Nat) (hk : k ≤ sphDiffs.length) :
    expectedLog (D.exchange out eager) k r = (sphDiffs.take k).map fun diff => out (D.recvPartner r diff) diff := by
  induction k with
  | zero => simp [expectedLog]
  | succ k ih =>
    rw [expectedLog, ih (by omega), List.take_succ_eq_append_getElem (by omega : k < sphDiffs.length), List.map_append]
    congr 1
    simp only [SPHGrid.exchange, List.getD_eq_getElem _ _ (by omega : k < sphDiffs.length), List.map_cons, List.map_nil]

/-- What every rank gets in the 26 rounds, for every schedule. -/
theorem C123_exchange {D : SPHGrid} (hg : ∀ d : Axis, 0 < D.grid.at d) {out : V3 Nat → V3 Int → List Particle} {eager : V3 Nat → Nat → Bool} {sched : List (V3 Nat)}
    {N : SPHNet (V3 Nat) (List Particle)} (hG : ∀ r ∈ sched, OnGrid D r) (hr : sphExRun (D.exchange out eager) sched = some N)
    (hend : ∀ s, OnGrid D s → sphExStep (D.exchange out eager) N s = none) {r : V3 Nat} (hr' : OnGrid D r) :
    N.log r = sphDiffs.map fun diff => out (D.recvPartner r diff) diff := by
  rw [(C123_end (C123_partners hg out eager) hG hr hend hr').2.1]
  show expectedLog _ sphDiffs.length r = _
  rw [expectedLog_exchange r _ le_rfl, List.take_length]

/-- `updateHaloParticles` and `periodicBoundaryUpdate` have the results that C122 is about, for every schedule. -/
theorem C123_halo {D : SPHGrid} (hg : ∀ d : Axis, 0 < D.grid.at d) {own : V3 Nat → List Particle} {eager : V3 Nat → Nat → Bool} {sched : List (V3 Nat)}
    {N : SPHNet (V3 Nat) (List Particle)} (hG : ∀ r ∈ sched, OnGrid D r) (hr : sphExRun (D.exchange (D.haloMessage own) eager) sched = some N)
    (hend : ∀ s, OnGrid D s → sphExStep (D.exchange (D.haloMessage own) eager) N s = none) {r : V3 Nat} (hr' : OnGrid D r) :
    (N.log r).flatten = D.halo own r := by
  rw [C123_exchange hg hG hr hend hr']
  exact (List.flatMap_def).symm

theorem C123_entering {D : SPHGrid} (hg : ∀ d : Axis, 0 < D.grid.at d) {invalid : V3 Nat → List Particle} {eager : V3 Nat → Nat → Bool} {sched : List (V3 Nat)}
    {N : SPHNet (V3 Nat) (List Particle)} (hG : ∀ r ∈ sched, OnGrid D r) (hr : sphExRun (D.exchange (D.leavingMessage invalid) eager) sched = some N)
    (hend : ∀ s, OnGrid D s → sphExStep (D.exchange (D.leavingMessage invalid) eager) N s = none) (below : Rat → Rat) {r : V3 Nat} (hr' : OnGrid D r) :
    (N.log r).flatten.map (D.correct below r) = D.entering below invalid r := by
  rw [C123_exchange hg hG hr hend hr']
  unfold SPHGrid.entering
  rw [List.flatMap_def]

/-! ### Examples -/

/-- Two ranks that exchange numbers in two rounds with each other; the second message is the sum of what was received. -/
def sphPing : SPHRounds Bool Nat := ⟨2, fun r k l => if k = 0 then (if r then 5 else 7) else 100 + l.sum, fun r _ => !r, fun r _ => !r, fun _ _ => false⟩

theorem sphPing_agree : PartnersAgree sphPing (fun _ => True) :=
  ⟨fun _ _ _ => trivial, fun _ _ _ => trivial, fun r _ _ => by cases r <;> rfl, fun r _ _ => by cases r <;> rfl⟩

/-- A complete execution in which one rank is ahead as often as it can. -/
def sphPingSched : List Bool := [true, false, true, false, false, false, true, true, true, false, false, true]

example : (sphExRun sphPing sphPingSched).map (fun N => (N.log true, N.log false, N.round true, N.round false)) = some ([7, 105], [5, 107], 2, 2) := by decide
example : ∃ N, sphExRun sphPing sphPingSched = some N ∧ (∀ s, sphExStep sphPing N s = none) ∧ N.log true = expectedLog sphPing 2 true := by
  refine ⟨(sphExRun sphPing sphPingSched).get (by decide), by rw [Option.some_get], ?_, ?_⟩
  · intro s
    have hl : ((sphExRun sphPing sphPingSched).get (by decide)).round s = 2 := by cases s <;> decide
    unfold sphExStep
    rw [if_neg (by rw [hl]; decide)]
  · exact (C123_end sphPing_agree (fun _ _ => trivial) (by rw [Option.some_get]) (fun s _ => by
      have hl : ((sphExRun sphPing sphPingSched).get (by decide)).round s = 2 := by cases s <;> decide
      unfold sphExStep
      rw [if_neg (by rw [hl]; decide)]) trivial).2.1

/-- A rank cannot receive before its partner has sent. -/
example : sphExRun sphPing [true, true] = none := rfl

/-- One rank in every dimension talks to itself. -/
example : PartnersAgree (SPHGrid.exchange ⟨⟨0, 0, 0⟩, ⟨1, 1, 1⟩, ⟨1, 1, 1⟩, 1⟩ (fun _ _ => []) fun _ _ => false) (OnGrid ⟨⟨0, 0, 0⟩, ⟨1, 1, 1⟩, ⟨1, 1, 1⟩, 1⟩) :=
  C123_partners (fun d => by cases d <;> decide) _ _

/-- If the partners do not agree, the exchange can get stuck: with the partner of the sender taken for receiving as well, three ranks in a row wait for ever. -/
example : ∃ (P : SPHRounds (Fin 3) Nat) (sched : List (Fin 3)) (N : SPHNet (Fin 3) Nat), sphExRun P sched = some N ∧ (∀ r, N.round r < P.rounds) ∧
    ∀ r, sphExStep P N r = none := by
  refine ⟨⟨1, fun _ _ _ => 0, fun r _ => r + 1, fun r _ => r + 1, fun _ _ => true⟩, [0, 1, 2],
    (sphExRun ⟨1, fun _ _ _ => 0, fun r _ => r + 1, fun r _ => r + 1, fun _ _ => true⟩ [0, 1, 2]).get (by decide), by rw [Option.some_get], ?_, ?_⟩
  · intro r; fin_cases r <;> decide
  · intro r
    fin_cases r <;> rfl

end Verif
