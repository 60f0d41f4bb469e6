import Verif.Lemmas.CheckpointPieces
/-!
C105: a checkpoint of md-flexible contains all particles and can be loaded again.

Writing and loading are modelled character by character in `Model/Checkpoint.lean`; what is preserved is stated in `Spec/Checkpoint.lean`.
-/
namespace Verif

open Spec.Checkpoint

theorem storedVec_spec {v : V3 Dbl} (h : FiniteV3 v) : StoredV3 v (storedVec v) := by
  obtain ⟨x, y, z, rfl⟩ := h
  exact ⟨⟨x, _, rfl, rfl, roundSig_closest (by norm_num) x⟩, ⟨y, _, rfl, rfl, roundSig_closest (by norm_num) y⟩,
    ⟨z, _, rfl, rfl, roundSig_closest (by norm_num) z⟩⟩

/-- The precision of all components exists if the file was written. -/
theorem position_precisions {multisite : Bool} {boxMax : V3 Rat} {ps : List CkParticle} {f : List Char}
    (h : vtuFile multisite boxMax ps = .ok f) : ∀ p ∈ ps, FiniteV3 p.pos → ∃ x y z Px Py Pz, p.pos = ⟨.num x, .num y, .num z⟩ ∧
      positionPrecision x boxMax.x = .ok Px ∧ positionPrecision y boxMax.y = .ok Py ∧ positionPrecision z boxMax.z = .ok Pz := by
  rw [vtuFile, Outcome.bind_ok] at h
  obtain ⟨pt, hpt, hrest⟩ := h
  clear hrest f
  induction ps generalizing pt with
  | nil => intro p hp; cases hp
  | cons q ps ih =>
    rw [positionLines, Outcome.bind_ok] at hpt
    obtain ⟨l, hl, h⟩ := hpt
    rw [Outcome.bind_ok] at h
    obtain ⟨ls, hls, _⟩ := h
    intro p hp hf
    rcases List.mem_cons.1 hp with rfl | hp
    · obtain ⟨x, y, z, hpos⟩ := hf
      rw [positionLine, hpos] at hl
      simp only [positionText, Outcome.bind_ok] at hl
      obtain ⟨_, ⟨Px, hx, _⟩, _, ⟨Py, hy, _⟩, _, ⟨Pz, hz, _⟩, _⟩ := hl
      exact ⟨x, y, z, Px, Py, Pz, hpos, hx, hy, hz⟩
    · exact ih _ hls p hp hf

theorem storedParticle_spec {multisite : Bool} {boxMax : V3 Rat} {ps : List CkParticle} {f : List Char}
    (h : vtuFile multisite boxMax ps = .ok f) (hreg : ∀ p ∈ ps, Regular p) : ∀ p ∈ ps, Stored multisite p (storedParticle multisite boxMax p) := by
  intro p hp
  have hr := hreg p hp
  obtain ⟨x, y, z, Px, Py, Pz, hpos, hx, hy, hz⟩ := position_precisions h p hp hr.pos
  have rx := positionPrecision_range hx
  have ry := positionPrecision_range hy
  have rz := positionPrecision_range hz
  refine ⟨?_, storedVec_spec hr.vel, storedVec_spec hr.force, rfl, rfl, ?_, ?_, ?_⟩
  · simp only [storedParticle, storedPosition, hpos, storedPosDbl, hx, hy, hz]
    exact ⟨⟨Px, rx.1, rx.2, x, _, rfl, rfl, roundSig_closest (by omega) x⟩, ⟨Py, ry.1, ry.2, y, _, rfl, rfl, roundSig_closest (by omega) y⟩,
      ⟨Pz, rz.1, rz.2, z, _, rfl, rfl, roundSig_closest (by omega) z⟩⟩
  · rintro rfl
    obtain ⟨a, b, c, d, hq⟩ := hr.quat
    simp only [storedParticle, hq, if_true]
    exact ⟨⟨a, _, rfl, rfl, roundSig_closest (by norm_num) a⟩, ⟨b, _, rfl, rfl, roundSig_closest (by norm_num) b⟩,
      ⟨c, _, rfl, rfl, roundSig_closest (by norm_num) c⟩, ⟨d, _, rfl, rfl, roundSig_closest (by norm_num) d⟩⟩
  · rintro rfl
    exact storedVec_spec hr.angVel
  · rintro rfl
    exact storedVec_spec hr.torque

/-- What the ranks load: their own particles or everything on rank 0. -/
theorem load_written {multisite : Bool} {dir name : List Char} (hslash : '/' ∉ name) (hpiece : NoPiece name) {width iteration : Nat}
    {ranks : List (V3 Rat × List CkParticle)}
    (hranks : ∀ x ∈ ranks, x.2 ≠ [] ∧ x.2.length < 2 ^ 64 ∧ ∀ p ∈ x.2, Regular p) {files order : List (List Char × List Char)}
    (h : checkpointFiles multisite dir name width iteration ranks = .ok files) (ho : order.Perm files) (fs : FileSystem)
    {numRanks rank : Nat} (hr : rank < numRanks) :
    loadCheckpoint multisite (fs.writeAll order) (pvtuPath dir name width iteration) rank numRanks =
      .ok (if numRanks = ranks.length then (ranks.map fun x => x.2.map (storedParticle multisite x.1)).getD rank []
        else if rank = 0 then (ranks.map fun x => x.2.map (storedParticle multisite x.1)).flatten else []) := by
  obtain ⟨h1, h2⟩ := checkpoint_written h ho fs
  have hrec : ∀ i (hi : i < ranks.length), loadRankRecord multisite (fs.writeAll order) (pvtuPath dir name width iteration) i =
      .ok ((ranks[i]).2.map (storedParticle multisite (ranks[i]).1)) := by
    intro i hi
    obtain ⟨f, hf, hw⟩ := h2 i hi
    obtain ⟨a, b, c⟩ := hranks ranks[i] (List.getElem_mem hi)
    rw [loadRankRecord, rankFilename_pvtu hslash, hw]
    exact loadVtu_vtuFile a b c hf
  rw [loadCheckpoint, h1]
  dsimp only
  rw [numPieces_pvtu multisite hpiece]
  by_cases hn : numRanks = ranks.length
  · rw [if_pos hn, if_pos hn, hrec rank (by omega)]
    simp [List.getD, show rank < ranks.length by omega]
  · rw [if_neg hn, if_neg hn]
    by_cases h0 : rank = 0
    · rw [if_pos h0, if_pos h0]
      have := loadPieces_eq (load := loadRankRecord multisite (fs.writeAll order) (pvtuPath dir name width iteration))
        (qs := ranks.map fun x => x.2.map (storedParticle multisite x.1)) ranks.length 0 (by simp)
        (by intro j hj; rw [hrec j (by simpa using hj)]; simp)
      rw [this, List.drop_zero]
    · rw [if_neg h0, if_neg h0]

/-- A checkpoint of any number of ranks can be loaded with any number of ranks: with the same number every rank gets its own particles,
otherwise rank 0 gets all, in the same order, with all numbers rounded to the closest decimal number with (at least) six digits. The files
may be written in any order and replace older ones. Missing: ranks without particles, session names with a word that begins with `Piece`,
particles with NaN or infinite values, see below. -/
theorem C105_roundtrip_partial (multisite : Bool) (dir name : List Char) (hslash : '/' ∉ name) (hpiece : NoPiece name) (width iteration : Nat)
    (ranks : List (V3 Rat × List CkParticle))
    (hranks : ∀ x ∈ ranks, x.2 ≠ [] ∧ x.2.length < 2 ^ 64 ∧ ∀ p ∈ x.2, Regular p) {files order : List (List Char × List Char)}
    (h : checkpointFiles multisite dir name width iteration ranks = .ok files) (ho : order.Perm files) (fs : FileSystem) :
    ∃ copies : List (List CkParticle), List.Forall₂ (List.Forall₂ (Stored multisite)) (ranks.map (·.2)) copies ∧
      ∀ numRanks rank, rank < numRanks →
        loadCheckpoint multisite (fs.writeAll order) (pvtuPath dir name width iteration) rank numRanks =
          .ok (if numRanks = ranks.length then copies.getD rank [] else if rank = 0 then copies.flatten else []) := by
  refine ⟨ranks.map fun x => x.2.map (storedParticle multisite x.1), ?_, fun numRanks rank hr => load_written hslash hpiece hranks h ho fs hr⟩
  obtain ⟨_, h2⟩ := checkpoint_written h ho fs
  rw [List.forall₂_iff_get]
  refine ⟨by simp, fun i h1 h3 => ?_⟩
  have hi : i < ranks.length := by simpa using h1
  obtain ⟨f, hf, _⟩ := h2 i hi
  simp only [List.get_eq_getElem, List.getElem_map]
  rw [List.forall₂_iff_get]
  refine ⟨by simp, fun j h4 h5 => ?_⟩
  simp only [List.get_eq_getElem, List.getElem_map]
  exact storedParticle_spec hf (hranks ranks[i] (List.getElem_mem hi)).2.2 _ (List.getElem_mem _)

/-- The relative error of a stored number with `P` digits is at most `5 · 10⁻ᴾ`. -/
theorem C105_accuracy {P : Nat} (hP : 1 ≤ P) {q r : Rat} (h : Closest P q r) : |q - r| ≤ |q| * (5 / 10 ^ P) := by
  have h1 := h.2 _ (roundSig_closest hP q).1
  by_cases h0 : q = 0
  · subst h0
    rw [roundSig_zero, sub_self, abs_zero] at h1
    simpa using h1
  · have h2 := roundSig_error hP h0
    have ha : 0 < |q| := abs_pos.2 h0
    have h3 : (10 : Rat) ^ Int.log 10 |q| ≤ |q| := by exact_mod_cast Int.zpow_log_le_self (b := 10) (by norm_num) ha
    have h4 : (10 : Rat) ^ (Int.log 10 |q| - ((P : Int) - 1)) / 2 = (10 : Rat) ^ Int.log 10 |q| * (5 / 10 ^ P) := by
      rw [show Int.log 10 |q| - ((P : Int) - 1) = Int.log 10 |q| + 1 - (P : Int) by ring, zpow_sub₀ (by norm_num : (10 : Rat) ≠ 0),
        zpow_add₀ (by norm_num : (10 : Rat) ≠ 0), zpow_natCast]
      ring
    have h5 : (0 : Rat) ≤ 5 / 10 ^ P := by positivity
    have h6 := mul_le_mul_of_nonneg_right h3 h5
    linarith

/-- Storing a loaded number again does not change it any more. -/
theorem C105_again {P : Nat} {q r r' : Rat} (h : Closest P q r) (h' : Closest P r r') : r' = r := by
  have := h'.2 r h.1
  rw [sub_self, abs_zero] at this
  linarith [abs_eq_zero.1 (le_antisymm this (abs_nonneg _))]

/-- A particle in the box is loaded at a position in the box, if the corners of the box are decimal numbers with six digits in the range of
10⁵ and negative coordinates are not exactly in the middle between two decimal numbers. Missing: other boxes, see below. -/
theorem C105_inside_partial {multisite : Bool} {boxMin boxMax : V3 Rat} {ps : List CkParticle} (hne : ps ≠ []) (hlen : ps.length < 2 ^ 64)
    (hreg : ∀ p ∈ ps, Regular p) {f : List Char} (h : vtuFile multisite boxMax ps = .ok f)
    (hd : Decimal 6 boxMin.x ∧ Decimal 6 boxMin.y ∧ Decimal 6 boxMin.z ∧ Decimal 6 boxMax.x ∧ Decimal 6 boxMax.y ∧ Decimal 6 boxMax.z)
    (hb : ∀ p ∈ ps, ∀ x y z, p.pos = ⟨.num x, .num y, .num z⟩ →
      (boxMin.x ≤ x ∧ x < boxMax.x ∧ |x| ≤ 10 ^ 5) ∧ (boxMin.y ≤ y ∧ y < boxMax.y ∧ |y| ≤ 10 ^ 5) ∧ (boxMin.z ≤ z ∧ z < boxMax.z ∧ |z| ≤ 10 ^ 5) ∧
        (0 ≤ x ∨ ∀ k : Int, Int.fract (x * (10 : Rat) ^ k) ≠ 1 / 2) ∧ (0 ≤ y ∨ ∀ k : Int, Int.fract (y * (10 : Rat) ^ k) ≠ 1 / 2) ∧
          (0 ≤ z ∨ ∀ k : Int, Int.fract (z * (10 : Rat) ^ k) ≠ 1 / 2)) :
    ∃ qs, loadVtu multisite f = .ok qs ∧ qs.length = ps.length ∧ ∀ q ∈ qs, ∃ x y z, q.pos = ⟨.num x, .num y, .num z⟩ ∧
      (boxMin.x ≤ x ∧ x < boxMax.x) ∧ (boxMin.y ≤ y ∧ y < boxMax.y) ∧ (boxMin.z ≤ z ∧ z < boxMax.z) := by
  refine ⟨_, loadVtu_vtuFile hne hlen hreg h, by simp, fun q hq => ?_⟩
  obtain ⟨p, hp, rfl⟩ := List.mem_map.1 hq
  obtain ⟨x, y, z, Px, Py, Pz, hpos, hx, hy, hz⟩ := position_precisions h p hp (hreg p hp).pos
  obtain ⟨d1, d2, d3, d4, d5, d6⟩ := hd
  obtain ⟨⟨x1, x2, x3⟩, ⟨y1, y2, y3⟩, ⟨z1, z2, z3⟩, tx, ty, tz⟩ := hb p hp x y z hpos
  have rx := positionPrecision_range hx
  have ry := positionPrecision_range hy
  have rz := positionPrecision_range hz
  refine ⟨roundSig Px x, roundSig Py y, roundSig Pz z, ?_, ⟨?_, ?_⟩, ⟨?_, ?_⟩, ?_, ?_⟩
  · simp only [storedParticle, storedPosition, hpos, storedPosDbl, hx, hy, hz]
  · exact le_closest (roundSig_closest (by omega) x) (decimal_mono rx.1 d1) x1
  · exact stored_lt_border d4 x3 x2 tx hx
  · exact le_closest (roundSig_closest (by omega) y) (decimal_mono ry.1 d2) y1
  · exact stored_lt_border d5 y3 y2 ty hy
  · exact le_closest (roundSig_closest (by omega) z) (decimal_mono rz.1 d3) z1
  · exact stored_lt_border d6 z3 z2 tz hz

/-- Writing a position succeeds if it is at least 10⁻⁹ away from the border. -/
theorem C105_writes {p b : Rat} (hp : |p| ≤ 10 ^ 5) (h : 1 / 10 ^ 9 ≤ b - p) : ∃ t, positionText (.num p) b = .ok t := by
  suffices ∃ P, positionPrecision p b = .ok P by
    obtain ⟨P, hP⟩ := this
    exact ⟨ratText P p, by rw [positionText, hP]; rfl⟩
  have h15 : isNearAbs (roundFloating p 15) b (1 / 10 ^ 15) = false := by
    have herr : |p - roundFloating p 15| ≤ |p| * (5 / 10 ^ 15) := by
      refine C105_accuracy (P := 15) (by norm_num) ?_
      rcases lt_trichotomy p 0 with h | h | h
      · have := closest_neg (roundFloating_spec (P := 15) (by norm_num) (d := -p) (by linarith)).1
        rwa [roundFloating_neg, neg_neg, neg_neg] at this
      · subst h
        rw [roundFloating, if_pos rfl]
        exact closest_zero (by norm_num)
      · exact (roundFloating_spec (P := 15) (by norm_num) h).1
    simp only [isNearAbs, decide_eq_false_iff_not, not_le]
    rw [abs_le] at herr
    have h1 : |p| * (5 / 10 ^ 15) ≤ 10 ^ 5 * (5 / 10 ^ 15) := mul_le_mul_of_nonneg_right hp (by norm_num)
    rw [abs_of_neg]
    · norm_num at *; linarith [herr.1]
    · norm_num at *; linarith [herr.1]
  have loop : ∀ fuel prec, prec ≤ 15 → 16 ≤ fuel + prec → ∃ P, precisionLoop p b fuel prec = .ok P := by
    intro fuel
    induction fuel with
    | zero => intro prec h1 h2; omega
    | succ k ih =>
      intro prec h1 h2
      rw [precisionLoop]
      by_cases hn : isNearAbs (roundFloating p prec) b (1 / 10 ^ prec) = true
      · rw [if_pos hn]
        have hlt : prec ≠ 15 := by
          rintro rfl
          rw [h15] at hn
          exact absurd hn (by decide)
        rw [if_neg (by omega)]
        exact ih _ (by omega) (by omega)
      · rw [if_neg hn]
        exact ⟨_, rfl⟩
  unfold positionPrecision
  split_ifs
  · exact loop 10 6 (by norm_num) (by norm_num)
  · exact ⟨6, rfl⟩

/-! ### Violations -/

/-- A rank without particles: the checkpoint cannot be loaded with the same number of ranks. -/
theorem C105_violated_empty_rank (multisite : Bool) (dir name : List Char) (hslash : '/' ∉ name) (hpiece : NoPiece name) (width iteration : Nat)
    (ranks : List (V3 Rat × List CkParticle)) {r : Nat} (hr : r < ranks.length) (hempty : (ranks[r]).2 = [])
    {files order : List (List Char × List Char)} (h : checkpointFiles multisite dir name width iteration ranks = .ok files)
    (ho : order.Perm files) (fs : FileSystem) :
    loadCheckpoint multisite (fs.writeAll order) (pvtuPath dir name width iteration) r ranks.length = .throws := by
  obtain ⟨h1, h2⟩ := checkpoint_written h ho fs
  obtain ⟨f, hf, hw⟩ := h2 r hr
  rw [loadCheckpoint, h1]
  dsimp only
  rw [numPieces_pvtu multisite hpiece, if_pos rfl, loadRankRecord, rankFilename_pvtu hslash, hw]
  dsimp only
  rw [hempty, vtuFile, Outcome.bind_ok] at hf
  obtain ⟨pt, _, hf⟩ := hf
  obtain rfl := Outcome.ok.inj hf
  have hr1 : findWordGo "NumberOfPoints".toList [] vtuHead = .good "=\"".toList := by decide +kernel
  have hr2 : "=\"".toList.dropWhile (· ≠ '"') = ['"'] := by decide +kernel
  rw [loadVtu, findWord, findWordGo_append _ hr1, ok_bind_eq]
  dsimp only
  rw [ignoreUntil_append _ hr2, List.nil_append]
  have hv : vtuPoints = '"' :: vtuPoints.tail := by decide
  have hq : ∀ rest : List Char, (readNat (.good (natText ([] : List CkParticle).length ++ (vtuPoints ++ rest)))).1 = 0 := by
    intro rest
    have := readNat_text (n := 0) (by norm_num) (ws := []) (by intro c hc; cases hc) (c := '"') (by decide) (vtuPoints.tail ++ rest)
    rw [List.nil_append] at this
    rw [hv]
    exact congrArg Prod.fst this
  rw [if_pos (hq _)]

/-- Session name `Piece`: twice as many pieces are counted as there are, so that a checkpoint of one rank cannot be loaded. -/
theorem C105_violated_name (multisite : Bool) (dir : List Char) (boxMax : V3 Rat) (ps : List CkParticle) (hne : ps ≠ [])
    (hlen : ps.length < 2 ^ 64) (hreg : ∀ p ∈ ps, Regular p) {files : List (List Char × List Char)}
    (h : checkpointFiles multisite dir "Piece".toList 1 0 [(boxMax, ps)] = .ok files) :
    loadCheckpoint multisite (FileSystem.writeAll (fun _ => none) files) (pvtuPath dir "Piece".toList 1 0) 0 1 = .throws := by
  obtain ⟨h1, h2⟩ := checkpoint_written h (List.Perm.refl _) (fun _ => none)
  obtain ⟨f, hf, hw⟩ := h2 0 (by simp)
  have hn : numPieces (pvtuFile multisite "Piece".toList 1 0 1) = 2 := by
    rw [numPieces_eq]
    have hp := wordRun_pieceLine "Piece".toList 1 0 0
    have h3 : (wordRun [] "Piece".toList).1 = 1 := by decide +kernel
    rw [h3] at hp
    have : (List.range 1).flatMap (pieceLine "Piece".toList 1 0) = pieceLine "Piece".toList 1 0 0 := by simp
    rw [← this] at hp
    exact numPieces_aux (wordRun_head multisite) hp wordRun_end
  have hslash : '/' ∉ "Piece".toList := by decide +kernel
  have hnone : FileSystem.writeAll (fun _ => none) files (vtuPath dir "Piece".toList 1 0 1) = none := by
    rw [checkpointFiles, Outcome.bind_ok] at h
    obtain ⟨fs', hgo, h⟩ := h
    obtain rfl := Outcome.ok.inj h
    rw [checkpointFiles.go, Outcome.bind_ok] at hgo
    obtain ⟨g, _, hgo⟩ := hgo
    rw [checkpointFiles.go, ok_bind_eq] at hgo
    obtain rfl := Outcome.ok.inj hgo
    simp only [FileSystem.writeAll, List.foldl_cons, List.foldl_nil, FileSystem.write]
    rw [if_neg (fun he => absurd (vtuPath_injective he) (by norm_num)), if_neg vtuPath_ne_pvtu]
  rw [loadCheckpoint, h1]
  dsimp only
  rw [List.length_singleton, hn, if_neg (by norm_num), if_pos rfl, loadPieces, loadPieces, loadPieces]
  have h0 : loadRankRecord multisite (FileSystem.writeAll (fun _ => none) files) (pvtuPath dir "Piece".toList 1 0) 0 =
      .ok (ps.map (storedParticle multisite boxMax)) := by
    rw [loadRankRecord, rankFilename_pvtu hslash, hw]
    exact loadVtu_vtuFile hne hlen hreg hf
  have h1 : loadRankRecord multisite (FileSystem.writeAll (fun _ => none) files) (pvtuPath dir "Piece".toList 1 0) (0 + 1) = .throws := by
    rw [loadRankRecord, rankFilename_pvtu hslash, hnone]
  rw [h0, h1]
  rfl

/-- A checkpoint in the current directory, given without `/`: the files of the ranks are not found. -/
theorem C105_violated_plain_name (multisite : Bool) (fs : FileSystem) (filename : List Char) (hslash : '/' ∉ filename)
    (hfile : ∀ t, fs (filename ++ '/' :: t) = none) (name : List Char) (hpiece : NoPiece name) (width iteration numRanks : Nat)
    (hn : 0 < numRanks) (h : fs filename = some (pvtuFile multisite name width iteration numRanks)) (numRanks' : Nat) :
    loadCheckpoint multisite fs filename 0 numRanks' = .throws := by
  have hrec : ∀ r, loadRankRecord multisite fs filename r = .throws := by
    intro r
    have hs : splitLast '/' filename = none := by rw [splitLast, if_neg hslash]
    have hd : "/data/".toList = '/' :: "data/".toList := by decide +kernel
    have : ∃ t, rankFilename filename r = filename ++ '/' :: t := by
      simp only [rankFilename, hs, hd, List.append_assoc, List.cons_append]
      exact ⟨_, rfl⟩
    obtain ⟨t, ht⟩ := this
    rw [loadRankRecord, ht, hfile]
  rw [loadCheckpoint, h]
  dsimp only
  rw [numPieces_pvtu multisite hpiece]
  split_ifs with h1
  · exact hrec _
  · obtain ⟨k, rfl⟩ : ∃ k, numRanks = k + 1 := ⟨numRanks - 1, by omega⟩
    rw [loadPieces, hrec]
    rfl
  · exact absurd rfl ‹¬ (0 : Nat) = 0›

theorem dataLine_three (a b c : List Char) : dataLine [a, b, c] = lineIndent ++ (a ++ (' ' :: (b ++ ' ' :: (c ++ ['\n'])))) := by
  simp [dataLine, List.intercalate]

theorem readDouble_failed : readDouble .failed = (0, .failed) := rfl

theorem readPayload_failed (n : Nat) : (readPayload readV3 n .failed).2 = .failed := by
  induction n with
  | zero => rfl
  | succ k ih => exact ih

/-- A particle with a velocity that is not a number: loading the checkpoint never ends. -/
theorem C105_violated_nan (multisite : Bool) (boxMax : V3 Rat) (p : CkParticle) (ps : List CkParticle) (hnan : p.vel.x = .nan)
    (hlen : (p :: ps).length < 2 ^ 64) {f : List Char} (h : vtuFile multisite boxMax (p :: ps) = .ok f) : loadVtu multisite f = .diverges := by
  rw [vtuFile, Outcome.bind_ok] at h
  obtain ⟨pt, hpt, h⟩ := h
  obtain rfl := Outcome.ok.inj h
  have hr1 : findWordGo "NumberOfPoints".toList [] vtuHead = .good "=\"".toList := by decide +kernel
  have hr2 : "=\"".toList.dropWhile (· ≠ '"') = ['"'] := by decide +kernel
  rw [loadVtu, findWord, findWordGo_append _ hr1, ok_bind_eq]
  dsimp only
  rw [ignoreUntil_append _ hr2, List.nil_append]
  have hq : ∀ rest : List Char, readNat (.good (natText (p :: ps).length ++ (vtuPoints ++ rest))) =
      ((p :: ps).length, .good (vtuPoints ++ rest)) := by
    intro rest
    have hv : vtuPoints = '"' :: vtuPoints.tail := by decide
    have := readNat_text hlen (ws := []) (by intro c hc; cases hc) (c := '"') (by decide) (vtuPoints.tail ++ rest)
    rw [List.nil_append] at this
    rw [hv]
    exact this
  rw [hq]
  dsimp only
  rw [if_neg (by simp)]
  have h1 : findWordGo "velocities".toList [] (vtuPoints ++ arrayOpen "velocities" "3" "Float32") =
      .good "\" NumberOfComponents=\"3\" format=\"ascii\" type=\"Float32\">\n".toList := by decide +kernel
  have h2 : "\" NumberOfComponents=\"3\" format=\"ascii\" type=\"Float32\">\n".toList.dropWhile (· ≠ '\n') = ['\n'] := by decide +kernel
  have hnanRead : ∀ rest : List Char, readDouble (.good (lineIndent ++ ("nan".toList ++ rest))) = (0, .failed) := by
    intro rest
    have hn : "nan".toList = ['n', 'a', 'n'] := by decide +kernel
    have hd := dropWhile_spaces (ws := lineIndent) (by decide) (c := 'n') (by decide) ('a' :: 'n' :: rest)
    rw [hn]
    simp only [List.cons_append, List.nil_append]
    simp only [readDouble, hd]
    rfl
  have hvel : ∀ rest : List Char, ∃ x, readArray "velocities" readV3 (p :: ps).length
      (.good (vtuPoints ++ (dataArray "velocities" "3" "Float32" ((p :: ps).map fun p => v3Text p.vel) ++ rest))) = .ok (x, .failed) := by
    intro rest
    have heq : vtuPoints ++ (dataArray "velocities" "3" "Float32" ((p :: ps).map fun p => v3Text p.vel) ++ rest) =
        (vtuPoints ++ arrayOpen "velocities" "3" "Float32") ++ (lineIndent ++ ("nan".toList ++
          ((' ' :: (dblText 6 p.vel.y ++ ' ' :: (dblText 6 p.vel.z ++ ['\n']))) ++ ((ps.map fun p => v3Text p.vel).flatMap dataLine ++ (arrayClose ++ rest))))) := by
      rw [dataArray, List.map_cons, List.flatMap_cons, v3Text, hnan, show dblText 6 .nan = "nan".toList from rfl, dataLine_three]
      simp only [List.append_assoc]
    rw [heq, readArray, findWord, findWordGo_append _ h1, ok_bind_eq, ignoreUntil_append _ h2, List.nil_append, List.length_cons, readPayload]
    have hv : ∀ rest : List Char, (readV3 (.good (lineIndent ++ ("nan".toList ++ rest)))).2 = .failed := by
      intro rest
      simp only [readV3, hnanRead, readDouble_failed]
    rw [hv, readPayload_failed]
    exact ⟨_, rfl⟩
  obtain ⟨x, hx⟩ := hvel _
  rw [hx, ok_bind_eq]
  rfl

/-- A border with more than six digits: a particle at 17.39877 in a box up to 17.39878 is loaded at 17.3988, outside. -/
theorem C105_violated_border : ∃ t, positionText (.num (1739877 / 100000)) (1739878 / 100000) = .ok t ∧
    (1739878 / 100000 : Rat) < (readDouble (.good (t ++ ['\n']))).1 := by
  refine ⟨ratText 6 (1739877 / 100000), ?_, ?_⟩ <;> decide +kernel

/-- A large box: a particle at 999999.8 in a box up to 1000000 is loaded at the border, outside of the half-open box. -/
theorem C105_violated_large_box : ∃ t, positionText (.num (9999998 / 10)) 1000000 = .ok t ∧
    (readDouble (.good (t ++ ['\n']))).1 = 1000000 := by
  refine ⟨ratText 6 (9999998 / 10), ?_, ?_⟩ <;> decide +kernel

/-- A negative border: a particle at -10000.25 in a box up to -10000.2 is loaded at the border, because the check rounds ties away from zero
and the output to even digits. -/
theorem C105_violated_tie : ∃ t, positionText (.num (-1000025 / 100)) (-100002 / 10) = .ok t ∧
    (readDouble (.good (t ++ ['\n']))).1 = -100002 / 10 := by
  refine ⟨ratText 6 (-1000025 / 100), ?_, ?_⟩ <;> decide +kernel

/-! ### The hypotheses are met -/

/-- A particle next to the upper border of a box of length 5. -/
def sampleCk : CkParticle :=
  { pos := ⟨.num (49999999 / 10000000), .num 1, .num (1 / 3)⟩, vel := ⟨.num (-2), .num 0, .num (1 / 7000000)⟩, force := ⟨.num 123456789, .num 1, .num 2⟩, typeId := 3, id := 17 }

example : Regular sampleCk :=
  ⟨⟨_, _, _, rfl⟩, ⟨_, _, _, rfl⟩, ⟨_, _, _, rfl⟩, by decide, by decide, ⟨_, _, _, _, rfl⟩, ⟨_, _, _, rfl⟩, ⟨_, _, _, rfl⟩⟩

/-- It is written with eight digits in the first component. -/
example : positionLine ⟨5, 5, 5⟩ sampleCk = .ok "        4.9999999 1 0.333333\n".toList := by decide +kernel

example : (v3Text sampleCk.vel, v3Text sampleCk.force) =
    (["-2".toList, "0".toList, "1.42857e-07".toList], ["1.23457e+08".toList, "1".toList, "2".toList]) := by decide +kernel

/-- A checkpoint of two ranks is written. -/
example : ∃ files, checkpointFiles false "out/run".toList "run".toList 3 12 [(⟨5, 5, 5⟩, [sampleCk]), (⟨5, 5, 5⟩, [sampleCk, sampleCk])] = .ok files := by
  have h : positionLine ⟨5, 5, 5⟩ sampleCk = .ok "        4.9999999 1 0.333333\n".toList := by decide +kernel
  simp only [checkpointFiles, checkpointFiles.go, vtuFile, positionLines, h, Outcome.bind]
  exact ⟨_, rfl⟩

example : '/' ∉ "run".toList ∧ NoPiece "run".toList := by
  refine ⟨by decide +kernel, fun a b h => ?_⟩
  have := congrArg List.length h
  simp only [List.length_append] at this
  have h1 : "run".toList.length = 3 := by decide +kernel
  have h2 : "Piece".toList.length = 5 := by decide +kernel
  omega

example : Decimal 6 (173988 / 10000) := ⟨173988, -4, by norm_num, by norm_num⟩

end Verif
