import Verif.Lemmas.MDLoad
import Verif.Props.C87
import Verif.Props.C105
/-!
C106: at the start of md-flexible every particle of the configuration comes to the rank whose part of the box it lies in.
-/
namespace Verif

open Spec

variable {D : RGD} {cut : Axis → Nat → Rat}

/-- Whichever rank has which particles in its configuration: if all lie in the global box, afterwards every rank owns exactly those in its local box. -/
theorem C106_distributed (h : Tiling D cut 0) (cfg : V3 Nat → List Particle)
    (hd : ∀ r, IsRank D r → ∀ p ∈ cfg r, p.own ≠ .dummy) (hlen : ((ranks D.dec).flatMap cfg).length < 2 ^ 64)
    (hin : ∀ r, IsRank D r → ∀ p ∈ cfg r, InBox p.pos D.gMin D.gMax) :
    ∃ own, loadParticles D cfg = .ok own ∧
      (∀ r, IsRank D r → (own r).Perm ((((ranks D.dec).flatMap cfg).filter fun p => decide (InBox p.pos (D.lo r) (D.hi r))).map
        fun p => { p with own := .owned })) ∧
      ((ranks D.dec).flatMap own).Perm (((ranks D.dec).flatMap cfg).map fun p => { p with own := .owned }) := by
  have hmem : ∀ p ∈ allConfigured D cfg, ∃ r, IsRank D r ∧ p ∈ cfg r := fun p hp => by
    obtain ⟨r, hr, hp⟩ := List.mem_flatMap.1 hp
    exact ⟨r, mem_ranks.1 hr, hp⟩
  obtain ⟨own, h1, h2⟩ := loadParticles_eq h (cfg := cfg)
    (fun p hp => by obtain ⟨r, hr, hp⟩ := hmem p hp; exact hd r hr p hp) hlen
  have hall : ∀ p ∈ allConfigured D cfg, inBoxB p.pos D.gMin D.gMax = true := fun p hp => by
    obtain ⟨r, hr, hp⟩ := hmem p hp
    exact inBoxB_at.2 (inBox_iff_at.1 (hin r hr p hp))
  rw [if_pos hall] at h2
  refine ⟨own, h2, fun r hr => ?_, ?_⟩
  · have e : ((ranks D.dec).flatMap cfg).filter (fun p => decide (InBox p.pos (D.lo r) (D.hi r))) =
        (allConfigured D cfg).filter fun p => D.isInside r p.pos := by
      refine List.filter_congr fun p _ => ?_
      rw [Bool.eq_iff_iff, decide_eq_true_eq, isInside_iff]
    rw [e]
    exact h1 r hr
  · refine (List.Perm.flatMap_left _ fun r hr => h1 r (mem_ranks.1 hr)).trans ?_
    rw [← List.map_flatMap]
    have := (boxes_partition h (allConfigured D cfg)).map asOwned
    rw [List.filter_eq_self.2 hall] at this
    exact this

/-- If a particle lies outside of the global box the simulation does not start: there is an exception instead of a lost particle. -/
theorem C106_outside (h : Tiling D cut 0) (cfg : V3 Nat → List Particle)
    (hd : ∀ r, IsRank D r → ∀ p ∈ cfg r, p.own ≠ .dummy) (hlen : ((ranks D.dec).flatMap cfg).length < 2 ^ 64) {r : V3 Nat} (hr : IsRank D r)
    {p : Particle} (hp : p ∈ cfg r) (hout : ¬ InBox p.pos D.gMin D.gMax) : loadParticles D cfg = .throws := by
  obtain ⟨own, h1, h2⟩ := loadParticles_eq h (cfg := cfg)
    (fun p hp => by obtain ⟨r, hr, hp⟩ := List.mem_flatMap.1 hp; exact hd r (mem_ranks.1 hr) p hp) hlen
  rw [h2, if_neg]
  intro hall
  exact hout (inBox_iff_at.2 (inBoxB_at.1 (hall p (List.mem_flatMap.2 ⟨r, mem_ranks.2 hr, hp⟩))))

/-- The state is one the simulation loop can start from: with a setup as in C87, any number of iterations keep all particles of the configuration. -/
theorem C106_run {wr : Wrap} {δ : Rat} (hset : GoodSetup D wr δ) (h : Tiling D cut (2 * reach D)) (cfg : V3 Nat → List Particle)
    (hd : ∀ r, IsRank D r → ∀ p ∈ cfg r, p.own ≠ .dummy) (hlen : ((ranks D.dec).flatMap cfg).length < 2 ^ 64)
    (hin : ∀ r, IsRank D r → ∀ p ∈ cfg r, InBox p.pos D.gMin D.gMax) (inputs : List MDInput) (hinp : ∀ inp ∈ inputs, GoodInput D δ inp) :
    ∃ own st, loadParticles D cfg = .ok own ∧ mdRun wr { D := D, own := own } inputs = .ok st ∧ InPlace D st ∧
      (((ranks D.dec).flatMap st.own).map (·.id)).Perm (((ranks D.dec).flatMap cfg).map (·.id)) := by
  have hpos : 0 ≤ 2 * reach D := by have := hset.cutoff; have := hset.skin; unfold reach; linarith
  have h0 : Tiling D cut 0 := ⟨h.pos, h.first, h.last, fun d i hi => le_trans hpos (h.wide d i hi), h.lo, h.hi⟩
  obtain ⟨own, h1, h2, h3⟩ := C106_distributed h0 cfg hd hlen hin
  have hplace : InPlace D { D := D, own := own } := by
    refine ⟨rfl, ⟨cut, h⟩, fun r hr p hp => ?_⟩
    obtain ⟨q, hq, rfl⟩ := List.mem_map.1 ((h2 r hr).mem_iff.1 hp)
    exact of_decide_eq_true (List.mem_filter.1 hq).2
  obtain ⟨st, e, hst, hids⟩ := C87_run_partial hset inputs hinp _ hplace
  refine ⟨own, st, h1, e, hst, hids.trans ?_⟩
  have := h3.map (fun p : Particle => p.id)
  rwa [List.map_map] at this

/-- A particle as read from a checkpoint, in the model of the domain decomposition. -/
def ofCheckpoint (p : CkParticle) : Particle :=
  { id := p.id, own := .owned, pos := match p.pos with | ⟨.num x, .num y, .num z⟩ => ⟨x, y, z⟩ | _ => ⟨0, 0, 0⟩ }

/-- Restart from a checkpoint with any number of ranks and any decomposition: every particle of the checkpoint comes to exactly one rank, the one
whose local box contains its (rounded) position. Missing are the checkpoints excluded in C105. -/
theorem C106_restart_partial (h : Tiling D cut 0) (multisite : Bool) (dir name : List Char) (hslash : '/' ∉ name) (hpiece : Spec.Checkpoint.NoPiece name)
    (width iteration : Nat) (writers : List (V3 Rat × List CkParticle))
    (hw : ∀ x ∈ writers, x.2 ≠ [] ∧ x.2.length < 2 ^ 64 ∧ ∀ p ∈ x.2, Spec.Checkpoint.Regular p) {files order : List (List Char × List Char)}
    (hf : checkpointFiles multisite dir name width iteration writers = .ok files) (ho : order.Perm files) (fs : FileSystem)
    (hlen : (writers.flatMap (·.2)).length < 2 ^ 64) :
    ∃ copies : List CkParticle, List.Forall₂ (Spec.Checkpoint.Stored multisite) (writers.flatMap (·.2)) copies ∧
      ∃ cfg : V3 Nat → List CkParticle, (∀ r, IsRank D r → loadCheckpoint multisite (fs.writeAll order) (pvtuPath dir name width iteration) (convertIdToIndex r D.dec) D.numRanks
        = .ok (cfg r)) ∧
        if ∀ p ∈ copies, InBox (ofCheckpoint p).pos D.gMin D.gMax then
          ∃ own, loadParticles D (fun r => (cfg r).map ofCheckpoint) = .ok own ∧
            ∀ r, IsRank D r → (own r).Perm ((copies.map ofCheckpoint).filter fun p => decide (InBox p.pos (D.lo r) (D.hi r)))
        else loadParticles D (fun r => (cfg r).map ofCheckpoint) = .throws := by
  obtain ⟨copies, hc, hl⟩ := C105_roundtrip_partial multisite dir name hslash hpiece width iteration writers hw hf ho fs
  have hlens : copies.length = writers.length := by have := hc.length_eq; simpa using this.symm
  refine ⟨copies.flatten, ?_, ?_⟩
  · rw [List.flatMap_def]
    exact List.rel_flatten hc
  have hflen : (copies.flatten).length = (writers.flatMap (·.2)).length := by
    have : List.Forall₂ (Spec.Checkpoint.Stored multisite) (writers.flatMap (·.2)) copies.flatten := by
      rw [List.flatMap_def]; exact List.rel_flatten hc
    exact this.length_eq.symm
  let cfg : V3 Nat → List CkParticle := fun r => if D.numRanks = writers.length then copies.getD (convertIdToIndex r D.dec) []
    else if convertIdToIndex r D.dec = 0 then copies.flatten else []
  have hcfg : ((ranks D.dec).flatMap cfg).Perm copies.flatten := by
    have hp := ((ranks_perm D).flatMap_right cfg).symm
    refine hp.trans (List.Perm.of_eq ?_)
    rw [List.flatMap_map]
    have hidx : ∀ i ∈ List.range D.numRanks, cfg (D.rankAt i) = if D.numRanks = writers.length then copies.getD i [] else if i = 0 then copies.flatten else [] := by
      intro i hi
      have := (C83_id_of_index D.dec i (List.mem_range.1 hi)).2
      simp only [cfg, RGD.rankAt, this]
    rw [List.flatMap_congr hidx]
    by_cases hn : D.numRanks = writers.length
    · simp only [if_pos hn]
      rw [hn, ← hlens, List.flatMap_def]
      congr 1
      apply List.ext_getElem (by simp)
      intro i h1 h2
      simp [List.getD, h2]
    · simp only [if_neg hn]
      have hpos : 0 < D.numRanks := Nat.mul_pos (Nat.mul_pos (h.pos .x) (h.pos .y)) (h.pos .z)
      rw [flatMap_only List.nodup_range (List.mem_range.2 hpos), if_pos rfl]
      intro s _ hs
      rw [if_neg hs]
  refine ⟨cfg, fun r hr => hl _ _ (rank_pos hr).1, ?_⟩
  have hall : ((ranks D.dec).flatMap fun r => (cfg r).map ofCheckpoint).Perm (copies.flatten.map ofCheckpoint) := by
    rw [← List.map_flatMap]
    exact hcfg.map _
  have hd : ∀ r, IsRank D r → ∀ p ∈ (cfg r).map ofCheckpoint, p.own ≠ .dummy := by
    intro r _ p hp
    obtain ⟨q, _, rfl⟩ := List.mem_map.1 hp
    simp [ofCheckpoint]
  have hlen' : ((ranks D.dec).flatMap fun r => (cfg r).map ofCheckpoint).length < 2 ^ 64 := by
    rw [hall.length_eq, List.length_map, hflen]
    exact hlen
  split_ifs with hin
  · obtain ⟨own, h1, h2, -⟩ := C106_distributed h (fun r => (cfg r).map ofCheckpoint) hd hlen' fun r hr p hp => by
      have : p ∈ copies.flatten.map ofCheckpoint := hall.mem_iff.1 (List.mem_flatMap.2 ⟨r, mem_ranks.2 hr, hp⟩)
      obtain ⟨q, hq, rfl⟩ := List.mem_map.1 this
      exact hin q hq
    refine ⟨own, h1, fun r hr => (h2 r hr).trans ?_⟩
    refine ((hall.filter _).map _).trans (List.Perm.of_eq ?_)
    conv_rhs => rw [← List.map_id ((copies.flatten.map ofCheckpoint).filter _)]
    refine List.map_congr_left fun p hp => ?_
    obtain ⟨q, _, rfl⟩ := List.mem_map.1 (List.mem_filter.1 hp).1
    rfl
  · simp only [not_forall] at hin
    obtain ⟨q, hq, hout⟩ := hin
    have : ofCheckpoint q ∈ (ranks D.dec).flatMap fun r => (cfg r).map ofCheckpoint := hall.mem_iff.2 (List.mem_map.2 ⟨q, hq, rfl⟩)
    obtain ⟨r, hr, hp⟩ := List.mem_flatMap.1 this
    exact C106_outside h _ hd hlen' (mem_ranks.1 hr) hp hout

/-- Objects generated on rank 0 are distributed in the same way. -/
theorem C106_objects (h : Tiling D cut 0) (generated : List Particle) (hd : ∀ p ∈ generated, p.own ≠ .dummy) (hlen : generated.length < 2 ^ 64)
    (hin : ∀ p ∈ generated, InBox p.pos D.gMin D.gMax) :
    ∃ own, loadParticles D (configOfObjects D generated) = .ok own ∧
      ∀ r, IsRank D r → (own r).Perm ((generated.filter fun p => decide (InBox p.pos (D.lo r) (D.hi r))).map fun p => { p with own := .owned }) := by
  have hpos : 0 < D.numRanks := Nat.mul_pos (Nat.mul_pos (h.pos .x) (h.pos .y)) (h.pos .z)
  have hall : ((ranks D.dec).flatMap (configOfObjects D generated)).Perm generated := by
    refine ((ranks_perm D).flatMap_right _).symm.trans (List.Perm.of_eq ?_)
    rw [List.flatMap_map, flatMap_only List.nodup_range (List.mem_range.2 hpos)]
    · have := (C83_id_of_index D.dec 0 hpos).2
      rw [configOfObjects, RGD.rankAt, if_pos this]
    · intro s hs hne
      have := (C83_id_of_index D.dec s (List.mem_range.1 hs)).2
      rw [configOfObjects, RGD.rankAt, if_neg (by omega)]
  have hsub : ∀ r, ∀ p ∈ configOfObjects D generated r, p ∈ generated := by
    intro r p hp
    unfold configOfObjects at hp
    split_ifs at hp with h0
    · exact hp
    · cases hp
  obtain ⟨own, h1, h2, -⟩ := C106_distributed h (configOfObjects D generated) (fun r _ p hp => hd p (hsub r p hp)) (by rw [hall.length_eq]; exact hlen)
    (fun r _ p hp => hin p (hsub r p hp))
  exact ⟨own, h1, fun r hr => (h2 r hr).trans ((hall.filter _).map _)⟩

/-! ### The hypotheses are met -/

/-- Two domains along x, the particles given the wrong way round. -/
def sampleSplit : RGD := RGD.init ⟨0, 0, 0⟩ ⟨4, 2, 2⟩ ⟨2, 1, 1⟩ ⟨.periodic, .periodic, .periodic⟩ (1 / 2) (1 / 4)

def sampleCfg (r : V3 Nat) : List Particle :=
  if r = ⟨0, 0, 0⟩ then [⟨0, ⟨3, 1, 1⟩, .owned⟩, ⟨1, ⟨1, 1, 1⟩, .owned⟩] else [⟨2, ⟨1 / 2, 0, 0⟩, .owned⟩]

example : ∃ cut, Tiling sampleSplit cut 0 :=
  ⟨_, C83_local_boxes_tile _ _ _ _ _ _ 0 (by intro d; cases d <;> decide) (by intro d; cases d <;> norm_num [V3.at])⟩

/-- The first rank ends up with particles 1 and 2, the second one with particle 0. -/
example : (match loadParticles sampleSplit sampleCfg with
    | .ok own => some ((own ⟨0, 0, 0⟩).map (·.id), (own ⟨1, 0, 0⟩).map (·.id))
    | _ => none) = some ([1, 2], [0]) := by decide +kernel

end Verif
