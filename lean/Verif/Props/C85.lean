import Verif.Props.C84
import Verif.Lemmas.MDMigrate
import Mathlib.Tactic.IntervalCases
/-!
# C85 — no particle is lost when it moves to another rank of md-flexible

Whatever particles have left the local boxes: after `exchangeMigratingParticles` every one of them is stored by exactly one rank, the one whose
local box contains its position (put back into the global box across periodic boundaries), and no rank throws.

This needs: no particle has gone further than the neighbouring domain, the box is not too far from the origin, and in non-periodic dimensions no
particle has left the global box. Without the last, what happens depends on the number of ranks
(`C85_violated_open_boundary`, `C85_violated_reflecting_wall`).
-/
namespace Verif
open Spec

variable {D : RGD} {cut : Axis → Nat → Rat} {w s : Rat} {wr : Wrap} {em : V3 Nat → List Particle}

theorem C85_migration_partial (h : Tiling D cut w) (hnear : ∀ d : Axis, max |D.gMin.at d| |D.gMax.at d| < 1000000000 * w) (hwr : WrapOk D cut wr)
    (h0 : 0 ≤ s) (hsw : ∀ d : Axis, s + 1 / 2 ^ 53 * max |D.gMin.at d| |D.gMax.at d| ≤ w) (hem : Emigrants D cut s em) :
    ∃ added : V3 Nat → List Particle,
      (∀ r, IsRank D r → D.exchangeMigrating wr em r = .ok (added r) ∧ ∀ p ∈ added r, InBox p.pos (D.lo r) (D.hi r)) ∧
      ((ranks D.dec).flatMap added).Perm (((ranks D.dec).flatMap em).map (rewrap D wr)) := by
  have hw : 0 ≤ w := by
    have := hsw .x
    have hM : 0 ≤ 1 / 2 ^ 53 * max |D.gMin.at .x| |D.gMax.at .x| := by positivity
    linarith
  obtain ⟨a, b, c⟩ := migrate_spec h (sharp_of_near h hw hnear) hwr h0 hsw hem
  refine ⟨(D.migrate wr em).added, fun r hr => ⟨?_, a r hr⟩, c⟩
  unfold RGD.exchangeMigrating
  dsimp only
  rw [b r hr, if_neg (by simp)]

/-- Which rank gets a particle: each rank exactly the particles whose new position is in its local box, each as often as it was an emigrant. -/
theorem C85_right_rank_partial (h : Tiling D cut w) (hnear : ∀ d : Axis, max |D.gMin.at d| |D.gMax.at d| < 1000000000 * w) (hwr : WrapOk D cut wr)
    (h0 : 0 ≤ s) (hsw : ∀ d : Axis, s + 1 / 2 ^ 53 * max |D.gMin.at d| |D.gMax.at d| ≤ w) (hem : Emigrants D cut s em) {r : V3 Nat} (hr : IsRank D r) :
    ∃ added, D.exchangeMigrating wr em r = .ok added ∧
      added.Perm ((((ranks D.dec).flatMap em).map (rewrap D wr)).filter fun p => decide (InBox p.pos (D.lo r) (D.hi r))) := by
  have hw : 0 ≤ w := by
    have := hsw .x
    have hM : 0 ≤ 1 / 2 ^ 53 * max |D.gMin.at .x| |D.gMax.at .x| := by positivity
    linarith
  obtain ⟨added, h1, h2⟩ := C85_migration_partial h hnear hwr h0 hsw hem
  refine ⟨added r, (h1 r hr).1, ?_⟩
  refine List.Perm.trans (List.Perm.of_eq ?_) (h2.filter _)
  rw [List.filter_flatMap, flatMap_only (ranks_nodup D.dec) (mem_ranks.2 hr) (by
    intro t ht hne
    refine List.filter_eq_nil_iff.2 fun q hq hq' => hne ?_
    exact box_unique h hw (mem_ranks.1 ht) hr ((h1 t (mem_ranks.1 ht)).2 q hq) (of_decide_eq_true hq'))]
  exact (List.filter_eq_self.2 fun q hq => decide_eq_true ((h1 r hr).2 q hq)).symm

/-- The new position: the old one, moved by whole box lengths, up to rounding. -/
theorem C85_position (hwr : WrapOk D cut wr) {d : Axis} {x : Rat} (hL : D.gMin.at d < D.gMax.at d)
    (h1 : D.gMin.at d - (D.gMax.at d - D.gMin.at d) ≤ x) (h2 : x < D.gMax.at d + (D.gMax.at d - D.gMin.at d)) :
    ∃ k : Int, |rewrapCoord D wr d x - (x + k * (D.gMax.at d - D.gMin.at d))| ≤
      1 / 2 ^ 53 * max |D.gMin.at d| |D.gMax.at d| + (D.gMax.at d - wr.inside d) := by
  have hin := hwr.inside_lt d
  have hb : ∀ y, D.gMin.at d ≤ y → y < D.gMax.at d → (1 : Rat) / 2 ^ 53 * |y| ≤ 1 / 2 ^ 53 * max |D.gMin.at d| |D.gMax.at d| := by
    intro y y1 y2
    refine mul_le_mul_of_nonneg_left (abs_le.2 ⟨?_, ?_⟩) (by positivity)
    · have := neg_abs_le (D.gMin.at d); have := le_max_left |D.gMin.at d| |D.gMax.at d|
      linarith
    · have := le_abs_self (D.gMax.at d); have := le_max_right |D.gMin.at d| |D.gMax.at d|
      linarith
  have hM : 0 ≤ 1 / 2 ^ 53 * max |D.gMin.at d| |D.gMax.at d| := by positivity
  unfold rewrapCoord
  by_cases c1 : x < D.gMin.at d
  · rw [if_pos c1]
    refine ⟨1, ?_⟩
    rw [Int.cast_one, one_mul]
    have hy := hb (x + (D.gMax.at d - D.gMin.at d)) (by linarith) (by linarith)
    have he := abs_le.1 (hwr.rounding.err (x + (D.gMax.at d - D.gMin.at d)))
    rw [abs_le]
    rcases le_total (wr.inside d) (wr.rnd (x + (D.gMax.at d - D.gMin.at d))) with c | c
    · rw [min_eq_left c]; constructor <;> linarith [he.1, he.2]
    · rw [min_eq_right c]; constructor <;> linarith [he.1, he.2]
  · rw [if_neg c1]
    by_cases c2 : D.gMax.at d ≤ x
    · rw [if_pos c2]
      refine ⟨-1, ?_⟩
      rw [Int.cast_neg, Int.cast_one, neg_one_mul, ← sub_eq_add_neg]
      have hy := hb (x - (D.gMax.at d - D.gMin.at d)) (by linarith) (by linarith)
      have he := abs_le.1 (hwr.rounding.err (x - (D.gMax.at d - D.gMin.at d)))
      rw [abs_le]
      rcases le_total (D.gMin.at d) (wr.rnd (x - (D.gMax.at d - D.gMin.at d))) with c | c
      · rw [max_eq_right c]; constructor <;> linarith [he.1, he.2]
      · rw [max_eq_left c]; constructor <;> linarith [he.1, he.2]
    · rw [if_neg c2]
      exact ⟨0, by rw [Int.cast_zero, zero_mul, add_zero, sub_self, abs_zero]; linarith⟩

/-! ### Non-vacuity -/

private def exMigD : RGD := RGD.init ⟨0, 0, 0⟩ ⟨12, 6, 6⟩ ⟨3, 2, 1⟩ ⟨.periodic, .periodic, .periodic⟩ 1 (1/5)
private def exMigWr : Wrap := ⟨id, fun d => match d with | .x => 119/10 | _ => 59/10⟩
private def exMigEm : V3 Nat → List Particle := fun r => if r = ⟨0, 0, 0⟩ then [⟨7, ⟨-1/10, -1/5, 61/10⟩, .owned⟩, ⟨8, ⟨1, 31/10, 2⟩, .owned⟩] else []

private theorem exMig_tiling : Tiling exMigD (fun d i => i * (((⟨12, 6, 6⟩ : V3 Rat).at d - (⟨0, 0, 0⟩ : V3 Rat).at d) / (⟨3, 2, 1⟩ : V3 Nat).at d) +
    (⟨0, 0, 0⟩ : V3 Rat).at d) 3 :=
  C83_local_boxes_tile _ _ _ _ _ _ _ (by intro d; cases d <;> decide) (by intro d; cases d <;> norm_num [V3.at, RGD.init, exMigD])

private theorem exMig_wrap : WrapOk exMigD (fun d i => i * (((⟨12, 6, 6⟩ : V3 Rat).at d - (⟨0, 0, 0⟩ : V3 Rat).at d) / (⟨3, 2, 1⟩ : V3 Nat).at d) +
    (⟨0, 0, 0⟩ : V3 Rat).at d) exMigWr where
  rounding := Rounding.exact
  inside_lt := by intro d; cases d <;> decide +kernel
  inside_ge := by
    intro d i hi
    cases d
    · have hi' : i < 3 := hi
      interval_cases i <;> norm_num [V3.at, exMigWr]
    · have hi' : i < 2 := hi
      interval_cases i <;> norm_num [V3.at, exMigWr]
    · have hi' : i < 1 := hi
      interval_cases i; norm_num [V3.at, exMigWr]

private theorem exMig_em : Emigrants exMigD (fun d i => i * (((⟨12, 6, 6⟩ : V3 Rat).at d - (⟨0, 0, 0⟩ : V3 Rat).at d) / (⟨3, 2, 1⟩ : V3 Nat).at d) +
    (⟨0, 0, 0⟩ : V3 Rat).at d) 1 exMigEm where
  outside := by
    intro r _ p hp
    unfold exMigEm at hp
    split at hp
    · next e =>
      subst e
      simp only [List.mem_cons, List.not_mem_nil, or_false] at hp
      rcases hp with rfl | rfl <;> decide +kernel
    · cases hp
  close := by
    intro r hr p hp d
    unfold exMigEm at hp
    split at hp
    · next e =>
      subst e
      simp only [List.mem_cons, List.not_mem_nil, or_false] at hp
      refine notFar_of_close exMig_tiling (by norm_num) hr ?_ ?_ <;> rcases hp with rfl | rfl <;> cases d <;> decide +kernel
    · cases hp
  global := by
    intro r _ p _ d hb
    exact absurd (by cases d <;> rfl) hb

/-- The hypotheses are met by particles leaving over a corner and over a face. -/
example : ∃ added : V3 Nat → List Particle,
    (∀ r, IsRank exMigD r → exMigD.exchangeMigrating exMigWr exMigEm r = .ok (added r) ∧ ∀ p ∈ added r, InBox p.pos (exMigD.lo r) (exMigD.hi r)) ∧
      ((ranks exMigD.dec).flatMap added).Perm (((ranks exMigD.dec).flatMap exMigEm).map (rewrap exMigD exMigWr)) :=
  C85_migration_partial exMig_tiling (by intro d; cases d <;> norm_num [exMigD, RGD.init, V3.at, abs_of_pos]) exMig_wrap (by norm_num)
    (by intro d; cases d <;> norm_num [exMigD, RGD.init, V3.at, abs_of_pos]) exMig_em

example : exMigD.exchangeMigrating exMigWr exMigEm ⟨2, 1, 0⟩ = .ok [⟨7, ⟨119/10, 29/5, 1/10⟩, .owned⟩] := by decide +kernel
example : exMigD.exchangeMigrating exMigWr exMigEm ⟨0, 1, 0⟩ = .ok [⟨8, ⟨1, 31/10, 2⟩, .owned⟩] := by decide +kernel

/-! ### Where the property fails -/

private def openD (n : Nat) (b : BoundaryType) : RGD := RGD.init ⟨0, 0, 0⟩ ⟨8, 8, 8⟩ ⟨n, 1, 1⟩ ⟨b, .periodic, .periodic⟩ 1 0
private def openWr : Wrap := ⟨id, fun _ => 79/10⟩
private def openEm : V3 Nat → List Particle := fun r => if r = ⟨0, 0, 0⟩ then [⟨7, ⟨-1/10, 4, 4⟩, .owned⟩] else []

/-- A particle leaves the box through an open boundary. With one rank it is gone; with two ranks it comes back on the other side. -/
theorem C85_violated_open_boundary :
    (openD 1 .none).exchangeMigrating openWr openEm ⟨0, 0, 0⟩ = .ok [] ∧
    (openD 2 .none).exchangeMigrating openWr openEm ⟨1, 0, 0⟩ = .ok [⟨7, ⟨79/10, 4, 4⟩, .owned⟩] := by
  constructor <;> decide +kernel

/-- A particle gets through a reflecting wall. With one rank the program stops; with two ranks the particle appears at the opposite wall and the
program goes on. -/
theorem C85_violated_reflecting_wall :
    (openD 1 .reflective).exchangeMigrating openWr openEm ⟨0, 0, 0⟩ = .throws ∧
    (openD 2 .reflective).exchangeMigrating openWr openEm ⟨0, 0, 0⟩ = .ok [] ∧
    (openD 2 .reflective).exchangeMigrating openWr openEm ⟨1, 0, 0⟩ = .ok [⟨7, ⟨79/10, 4, 4⟩, .owned⟩] := by
  refine ⟨?_, ?_, ?_⟩ <;> decide +kernel

end Verif
