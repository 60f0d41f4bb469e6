import Verif.Model.MDLoad
import Verif.Lemmas.MDHalo
import Verif.Props.C83
import Verif.Lemmas.LogicControl
import Verif.Lemmas.MDObjectsPacked
/-!
Lemmas on the distribution of the particles (C106).
-/
namespace Verif

open Spec

variable {D : RGD} {cut : Axis → Nat → Rat}

theorem isInside_iff {r : V3 Nat} {p : V3 Rat} : D.isInside r p = true ↔ InBox p (D.lo r) (D.hi r) := by
  rw [RGD.isInside, inBoxB_at, inBox_iff_at]

/-- The particle as stored by AutoPas. -/
def asOwned (p : Particle) : Particle := { p with own := .owned }

/-- All ranks by number. -/
theorem ranks_perm (D : RGD) : ((List.range D.numRanks).map D.rankAt).Perm (ranks D.dec) := by
  refine (List.perm_ext_iff_of_nodup ?_ (ranks_nodup D.dec)).2 fun r => ?_
  · refine List.Nodup.map_on (fun a ha b hb hab => ?_) List.nodup_range
    have h1 := (C83_id_of_index D.dec a (List.mem_range.1 ha)).2
    have h2 := (C83_id_of_index D.dec b (List.mem_range.1 hb)).2
    rw [← h1, ← h2]
    exact congrArg (fun r => convertIdToIndex r D.dec) hab
  · rw [mem_ranks, List.mem_map]
    constructor
    · rintro ⟨i, hi, rfl⟩
      exact (C83_id_of_index D.dec i (List.mem_range.1 hi)).1
    · intro h
      exact ⟨convertIdToIndex r D.dec, List.mem_range.2 (C83_index_of_id D.dec r h).1, (C83_index_of_id D.dec r h).2⟩

theorem rank_pos {r : V3 Nat} (hr : IsRank D r) : convertIdToIndex r D.dec < D.numRanks ∧ D.rankAt (convertIdToIndex r D.dec) = r :=
  C83_index_of_id D.dec r hr

theorem loadOwn_eq (cfg : V3 Nat → List Particle) (r : V3 Nat) (hd : ∀ p ∈ cfg r, p.own ≠ .dummy) :
    loadOwn D cfg r = .ok (((cfg r).filter fun p => D.isInside r p.pos).map asOwned, (cfg r).filter fun p => !D.isInside r p.pos) := by
  have h1 : ∀ ps : List Particle, (ps.filter fun p => (loadPredicate D r p).1) = ps.filter fun p => D.isInside r p.pos := by
    intro ps
    refine List.filter_congr fun p _ => ?_
    unfold loadPredicate
    split_ifs with h <;> simp [h]
  have h2 : ∀ ps : List Particle, (∀ p ∈ ps, D.isInside r p.pos = true) →
      (ps.map fun p => (loadPredicate D r p).2) = ps.map fun p => { p with own := .dummy } := by
    intro ps hps
    refine List.map_congr_left fun p hp => ?_
    rw [loadPredicate, if_pos (hps p hp)]
  have h3 : ∀ ps : List Particle, (∀ p ∈ ps, p.own ≠ .dummy) →
      ((ps.map fun p => (loadPredicate D r p).2).filter fun p => !decide (p.own = .dummy)) = ps.filter fun p => !D.isInside r p.pos := by
    intro ps
    induction ps with
    | nil => intro _; rfl
    | cons p ps ih =>
      intro hps
      have hp := hps p List.mem_cons_self
      have hi := ih fun q hq => hps q (List.mem_cons_of_mem _ hq)
      rw [List.map_cons, List.filter_cons, List.filter_cons, hi]
      by_cases h : D.isInside r p.pos = true
      · simp [loadPredicate, h]
      · simp [loadPredicate, h, hp]
  have hin : ∀ p ∈ (cfg r).filter fun p => D.isInside r p.pos, D.isInside r p.pos = true := fun p hp => (List.mem_filter.1 hp).2
  rw [loadOwn, addParticlesIf]
  simp only [h1]
  rw [h2 _ hin, if_pos, ok_bind_eq]
  · dsimp only
    rw [h3 _ hd, List.map_map]
    rfl
  · rw [List.all_eq_true]
    intro p hp
    obtain ⟨q, hq, rfl⟩ := List.mem_map.1 hp
    exact hin q hq

theorem loadOthers_eq (remaining : V3 Nat → List Particle) (rank : Nat) :
    loadOthers D remaining rank = .ok ((((List.range D.numRanks).flatMap fun s => if s = rank then [] else remaining (D.rankAt s)).filter
      fun p => D.isInside (D.rankAt rank) p.pos).map asOwned) := by
  rw [loadOthers, addParticlesIf]
  simp only [List.map_id']
  rw [if_pos, ok_bind_eq]
  · rfl
  · rw [List.all_eq_true]
    intro p hp
    exact (List.mem_filter.1 hp).2

theorem allRanks_value {α : Type} {dec : V3 Nat} {f : V3 Nat → Outcome α} {g : V3 Nat → α} (dflt : α) (h : ∀ r ∈ ranks dec, f r = .ok (g r)) :
    ∃ F, allRanks dec f dflt = .ok F ∧ ∀ r ∈ ranks dec, F r = g r := by
  refine ⟨_, if_pos ?_, fun r hr => ?_⟩
  · rw [List.all_eq_true]
    intro r hr
    rw [h r hr]
  · simp only [h r hr]

theorem flatMap_without {α β : Type} [DecidableEq α] (l : List α) (hl : l.Nodup) {r : α} (hr : r ∈ l) (f : α → List β) :
    (f r ++ l.flatMap fun s => if s = r then [] else f s).Perm (l.flatMap f) := by
  induction l with
  | nil => cases hr
  | cons a l ih =>
    rw [List.nodup_cons] at hl
    rw [List.flatMap_cons, List.flatMap_cons]
    rcases List.mem_cons.1 hr with rfl | hr
    · rw [if_pos rfl, List.nil_append]
      refine List.Perm.append_left _ (List.Perm.of_eq ?_)
      refine List.flatMap_congr fun s hs => ?_
      rw [if_neg (fun h : s = r => hl.1 (h ▸ hs))]
    · rw [if_neg (fun h : a = r => hl.1 (h ▸ hr))]
      refine List.Perm.trans ?_ (List.Perm.append_left (f a) (ih hl.2 hr))
      rw [← List.append_assoc, ← List.append_assoc]
      exact List.Perm.append_right _ List.perm_append_comm

/-- All particles of the configuration. -/
def allConfigured (D : RGD) (cfg : V3 Nat → List Particle) : List Particle := (ranks D.dec).flatMap cfg

theorem others_filter (h : Tiling D cut 0) {cfg : V3 Nat → List Particle} {r : V3 Nat} (hr : IsRank D r) {f : V3 Nat → List Particle × List Particle}
    (hf : ∀ s ∈ ranks D.dec, f s = (((cfg s).filter fun p => D.isInside s p.pos).map asOwned, (cfg s).filter fun p => !D.isInside s p.pos))
    {s : Nat} (hs : s < D.numRanks) (hsr : s ≠ convertIdToIndex r D.dec) :
    ((f (D.rankAt s)).2.filter fun p => D.isInside r p.pos) = (cfg (D.rankAt s)).filter fun p => D.isInside r p.pos := by
  have hmem : IsRank D (D.rankAt s) := (C83_id_of_index D.dec s hs).1
  rw [hf _ (mem_ranks.2 hmem)]
  dsimp only
  rw [List.filter_filter]
  refine List.filter_congr fun p _ => ?_
  by_cases hp : D.isInside r p.pos = true
  · have hn : D.isInside (D.rankAt s) p.pos = false := by
      by_contra hc
      rw [Bool.not_eq_false] at hc
      have := box_unique h le_rfl hr hmem (isInside_iff.1 hp) (isInside_iff.1 hc)
      apply hsr
      rw [this]
      exact ((C83_id_of_index D.dec s hs).2).symm
    rw [hp, hn]; rfl
  · rw [Bool.not_eq_true] at hp
    rw [hp]; rfl

theorem rank_filter (h : Tiling D cut 0) {cfg : V3 Nat → List Particle} {r : V3 Nat} (hr : IsRank D r) {f : V3 Nat → List Particle × List Particle}
    (hf : ∀ s ∈ ranks D.dec, f s = (((cfg s).filter fun p => D.isInside s p.pos).map asOwned, (cfg s).filter fun p => !D.isInside s p.pos)) :
    ((f r).1 ++ (((List.range D.numRanks).flatMap fun s => if s = convertIdToIndex r D.dec then [] else (f (D.rankAt s)).2).filter
      fun p => D.isInside r p.pos).map asOwned).Perm (((allConfigured D cfg).filter fun p => D.isInside r p.pos).map asOwned) := by
  obtain ⟨hlt, hrank⟩ := rank_pos hr
  obtain ⟨g, hg⟩ : ∃ g : Nat → List Particle, g = fun s => (cfg (D.rankAt s)).filter fun p => D.isInside r p.pos := ⟨_, rfl⟩
  have e1 : (((List.range D.numRanks).flatMap fun s => if s = convertIdToIndex r D.dec then [] else (f (D.rankAt s)).2).filter
      fun p => D.isInside r p.pos) = (List.range D.numRanks).flatMap fun s => if s = convertIdToIndex r D.dec then [] else g s := by
    rw [List.filter_flatMap]
    refine List.flatMap_congr fun s hs => ?_
    by_cases hsr : s = convertIdToIndex r D.dec
    · rw [if_pos hsr, if_pos hsr]; rfl
    · rw [if_neg hsr, if_neg hsr, hg]
      exact others_filter h hr hf (List.mem_range.1 hs) hsr
  have e2 : (f r).1 = (g (convertIdToIndex r D.dec)).map asOwned := by
    rw [hg, hf r (mem_ranks.2 hr)]
    dsimp only
    rw [hrank]
  rw [e1, e2, ← List.map_append]
  refine List.Perm.map _ ?_
  refine (flatMap_without (List.range D.numRanks) List.nodup_range (List.mem_range.2 hlt) g).trans ?_
  have := (ranks_perm D).flatMap_right fun s => (cfg s).filter fun p => D.isInside r p.pos
  rw [List.flatMap_map] at this
  rw [allConfigured, List.filter_flatMap, hg]
  exact this

/-- Every particle in the global box is in the box of exactly one rank. -/
theorem boxes_partition (h : Tiling D cut 0) (ps : List Particle) :
    ((ranks D.dec).flatMap fun r => ps.filter fun p => D.isInside r p.pos).Perm (ps.filter fun p => inBoxB p.pos D.gMin D.gMax) := by
  induction ps with
  | nil => simp
  | cons p ps ih =>
    have e : ((ranks D.dec).flatMap fun r => (p :: ps).filter fun p => D.isInside r p.pos) =
        (ranks D.dec).flatMap fun r => (if D.isInside r p.pos then [p] else []) ++ ps.filter fun p => D.isInside r p.pos := by
      refine List.flatMap_congr fun r _ => ?_
      rw [List.filter_cons]
      split_ifs <;> rfl
    rw [e]
    refine (List.flatMap_append_perm _ _ _).symm.trans ?_
    have e2 : ((ranks D.dec).flatMap fun r => if D.isInside r p.pos then [p] else []) = if inBoxB p.pos D.gMin D.gMax then [p] else [] := by
      by_cases hp : inBoxB p.pos D.gMin D.gMax = true
      · have hg : InBox p.pos D.gMin D.gMax := inBox_iff_at.2 (inBoxB_at.1 hp)
        obtain ⟨r, ⟨hr, hin⟩, huniq⟩ := C83_exactly_one_rank D cut h p.pos hg
        rw [if_pos hp, flatMap_only (ranks_nodup D.dec) (mem_ranks.2 hr), if_pos (isInside_iff.2 hin)]
        intro s hs hne
        rw [if_neg (fun hc => hne (huniq s (mem_ranks.1 hs) (isInside_iff.1 hc)))]
      · rw [if_neg hp, List.flatMap_eq_nil_iff]
        intro r hr
        rw [if_neg]
        intro hc
        exact hp (inBoxB_at.2 fun d => box_in_global h le_rfl (mem_ranks.1 hr : IsRank D r) (isInside_iff.1 hc) d)
    rw [e2, List.filter_cons]
    split_ifs
    · exact List.Perm.cons _ ih
    · exact ih

theorem reduceSum_eq (D : RGD) (f : V3 Nat → List Particle) : reduceSum D (fun r => (f r).length) = ((ranks D.dec).flatMap f).length % 2 ^ 64 := by
  rw [reduceSum, List.length_flatMap]
  have := ((ranks_perm D).map fun r => (f r).length).sum_eq
  rw [List.map_map] at this
  exact congrArg (· % 2 ^ 64) this

/-- What `loadParticles` does, up to the order within the ranks. -/
theorem loadParticles_eq (h : Tiling D cut 0) {cfg : V3 Nat → List Particle} (hd : ∀ p ∈ allConfigured D cfg, p.own ≠ .dummy)
    (hlen : (allConfigured D cfg).length < 2 ^ 64) :
    ∃ own, (∀ r, IsRank D r → (own r).Perm (((allConfigured D cfg).filter fun p => D.isInside r p.pos).map asOwned)) ∧
      loadParticles D cfg = if ∀ p ∈ allConfigured D cfg, inBoxB p.pos D.gMin D.gMax = true then .ok own else .throws := by
  have hd' : ∀ r ∈ ranks D.dec, ∀ p ∈ cfg r, p.own ≠ .dummy := fun r hr p hp => hd p (List.mem_flatMap.2 ⟨r, hr, hp⟩)
  obtain ⟨first, h1, hf⟩ := allRanks_value (dec := D.dec) ([], []) fun r hr => loadOwn_eq (D := D) cfg r (hd' r hr)
  obtain ⟨second, h2, hs⟩ := allRanks_value (dec := D.dec) ([] : List Particle) fun r _ => loadOthers_eq (D := D) (fun s => (first s).2) (convertIdToIndex r D.dec)
  have hperm : ∀ r, IsRank D r → ((first r).1 ++ second r).Perm (((allConfigured D cfg).filter fun p => D.isInside r p.pos).map asOwned) := by
    intro r hr
    rw [hs r (mem_ranks.2 hr), (rank_pos hr).2]
    exact rank_filter h hr hf
  refine ⟨fun r => (first r).1 ++ second r, hperm, ?_⟩
  rw [loadParticles, h1, ok_bind_eq, h2, ok_bind_eq]
  dsimp only
  rw [reduceSum_eq, reduceSum_eq]
  have htotal : ((ranks D.dec).flatMap fun r => (first r).1 ++ second r).Perm
      (((allConfigured D cfg).filter fun p => inBoxB p.pos D.gMin D.gMax).map asOwned) := by
    refine (List.Perm.flatMap_left _ fun r hr => hperm r (mem_ranks.1 hr)).trans ?_
    rw [← List.map_flatMap]
    exact (boxes_partition h _).map _
  rw [htotal.length_eq, List.length_map]
  have hle := List.length_filter_le (fun p : Particle => inBoxB p.pos D.gMin D.gMax) (allConfigured D cfg)
  have hcfg : ((ranks D.dec).flatMap cfg).length = (allConfigured D cfg).length := rfl
  rw [hcfg, Nat.mod_eq_of_lt (by omega), Nat.mod_eq_of_lt hlen]
  by_cases hall : ∀ p ∈ allConfigured D cfg, inBoxB p.pos D.gMin D.gMax = true
  · rw [if_pos hall, if_neg]
    rw [List.filter_eq_self.2 hall]
    exact fun hc => hc rfl
  · rw [if_neg hall, if_pos]
    intro hc
    apply hall
    have := List.filter_sublist.eq_of_length hc
    intro p hp
    rw [← this] at hp
    exact (List.mem_filter.1 hp).2

end Verif
