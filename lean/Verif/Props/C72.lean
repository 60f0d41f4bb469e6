import Verif.Lemmas.OctreeIterThreads
import Verif.Props.C33
import Verif.Props.C69
/-!
# C72 — Iterating the octree visits every matching particle exactly once

For any number of threads, behaviour, region, contents of the trees. A region that is empty can make the iterator read behind the children of a node
(`C72_violated_empty_region`), a behaviour that asks for dummies but not for owned particles does not see the dummies among the owned
particles (`C72_violated_dummies`).
-/
namespace Verif
open Spec Octree

private theorem not_seq {behavior : Nat} (h : ¬ Sequential behavior) : behavior &&& ibForceSequential = 0 := by
  by_contra hc; exact h ((seq_bit behavior).1 hc)

private theorem wantsOwned_iff (c : OTCfg) (behavior T t : Nat) : (otIterCfg c behavior T t).wantsOwned = behavior.testBit 0 := by
  rw [Bool.eq_iff_iff]
  simp only [otIterCfg, decide_eq_true_eq]
  exact and_bit_ne_zero behavior 0

private theorem wantsHalo_iff (c : OTCfg) (behavior T t : Nat) : (otIterCfg c behavior T t).wantsHalo = behavior.testBit 1 := by
  rw [Bool.eq_iff_iff]
  simp only [otIterCfg, decide_eq_true_eq]
  exact and_bit_ne_zero behavior 1

private theorem unwanted_owned {c : OTCfg} {m : Rat} {owned halo : OTree Particle} {vecs : List (List Particle)} (hs : OTStorage c m owned halo vecs)
    {behavior : Nat} (hb : NoDummyOrAll behavior) (h0 : behavior.testBit 0 = false) : ∀ p ∈ collectAll owned, wanted behavior p.own = false := by
  intro p hp
  cases ho : p.own with
  | owned => exact h0
  | halo => exact absurd ho (hs.ownedIn p hp)
  | dummy =>
    show behavior.testBit 2 = false
    by_contra hc
    rw [(hb (by simpa using hc)).1] at h0
    cases h0

private theorem unwanted_halo {c : OTCfg} {m : Rat} {owned halo : OTree Particle} {vecs : List (List Particle)} (hs : OTStorage c m owned halo vecs)
    {behavior : Nat} (hb : NoDummyOrAll behavior) (h0 : behavior.testBit 1 = false) : ∀ p ∈ collectAll halo, wanted behavior p.own = false := by
  intro p hp
  cases ho : p.own with
  | owned => exact absurd ho (hs.haloIn p hp)
  | halo => exact h0
  | dummy =>
    show behavior.testBit 2 = false
    by_contra hc
    rw [(hb (by simpa using hc)).2] at h0
    cases h0

private theorem iterOk_all {c : OTCfg} {m : Rat} {owned halo : OTree Particle} {vecs : List (List Particle)} (hs : OTStorage c m owned halo vecs)
    {behavior : Nat} (hb : NoDummyOrAll behavior) (T t : Nat) : IterOk (otIterCfg c behavior T t) owned halo vecs := by
  refine ⟨⟨hs.ownedDepth, hs.haloDepth⟩, ?_, ?_, ?_, ⟨hs.ownedSmall, hs.haloSmall⟩, hs.vsmall, hs.vnum⟩
  · intro e _ r hr
    cases hr
  · intro hw p hp
    show fulfillsOwnership behavior p.own = false
    rw [fulfills_wanted]
    exact unwanted_owned hs hb (by rw [← wantsOwned_iff c behavior T t]; exact hw) p hp
  · intro hw _ p hp
    show fulfillsOwnership behavior p.own = false
    rw [fulfills_wanted]
    exact unwanted_halo hs hb (by rw [← wantsHalo_iff c behavior T t]; exact hw) p hp

private theorem clamp_axis {lo hi bLo bHi il m : Rat} (h : lo < hi) (hb : bLo ≤ bHi) (hil : 0 < il) (hm : 0 ≤ m) :
    max lo (bLo + -il) + -m < min hi (bHi + il) + m ∨ bHi + il ≤ max lo (bLo + -il) + -m ∨ min hi (bHi + il) + m ≤ bLo - il := by
  by_cases h1 : max lo (bLo + -il) + -m < min hi (bHi + il) + m
  · exact Or.inl h1
  · right
    push Not at h1
    rcases max_choice lo (bLo + -il) with e1 | e1 <;> rcases min_choice hi (bHi + il) with e2 | e2 <;> rw [e1, e2] at h1 <;> rw [e1, e2]
    · exfalso; linarith
    · left; linarith
    · right; linarith
    · exfalso; linarith

private theorem relOk_otRegion (c : OTCfg) (hil : 0 < c.il)
    (hbox : c.box.lo.x ≤ c.box.hi.x ∧ c.box.lo.y ≤ c.box.hi.y ∧ c.box.lo.z ≤ c.box.hi.z) {margin : Rat} (hm : 0 ≤ margin) {lo hi : V3 Rat}
    (hreg : lo.x < hi.x ∧ lo.y < hi.y ∧ lo.z < hi.z) (behavior T t : Nat) :
    ∃ I : Box → Prop, RelOk (otRegionCfg c margin lo hi behavior T t) I :=
  ⟨_, relOk_region rfl c hil.le rfl rfl hbox (clamp_axis hreg.1 hbox.1 hil hm) (clamp_axis hreg.2.1 hbox.2.1 hil hm)
    (clamp_axis hreg.2.2 hbox.2.2 hil hm)⟩

private theorem near_axis {p old lo hi m s1 s2 : Rat} (h1 : lo ≤ old) (h2 : old < hi) (h3 : |p - old| ≤ m) (h4 : s1 ≤ p) (h5 : p < s2) :
    hi > s1 + -m ∧ s2 + m > lo := by
  rw [abs_le] at h3
  constructor <;> linarith [h3.1, h3.2]

private theorem iterOk_region {c : OTCfg} {margin : Rat} {owned halo : OTree Particle} {vecs : List (List Particle)}
    (hs : OTStorage c margin owned halo vecs) {behavior : Nat} (hb : NoDummyOrAll behavior) (lo hi : V3 Rat) (T t : Nat) :
    IterOk (otRegionCfg c margin lo hi behavior T t) owned halo vecs := by
  have hall := iterOk_all hs hb T t
  have hful : ∀ p, (otIterCfg c behavior T t).ful p = false → (otRegionCfg c margin lo hi behavior T t).ful p = false := by
    intro p hp
    have hp' : fulfillsOwnership behavior p.own = false := hp
    simp only [otRegionCfg, hp', Bool.and_false]
  refine ⟨hall.depth, ?_, fun hw p hp => hful p (hall.noOwned hw p hp), fun h1 h2 p hp => hful p (hall.noHalo h1 h2 p hp), hall.small, hall.vsmall,
    hall.vnum⟩
  intro e he r hr hov p hp
  have hsorted : ∃ old : V3 Rat, InBox old e.2.1.lo e.2.1.hi ∧ |p.pos.x - old.x| ≤ margin ∧ |p.pos.y - old.y| ≤ margin ∧ |p.pos.z - old.z| ≤ margin := by
    rw [allLeaves, List.mem_append] at he
    rcases he with he | he
    · exact under_sorted margin _ _ _ hs.ownedSorted e he p hp
    · exact under_sorted margin _ _ _ hs.haloSorted e he p hp
  obtain ⟨old, ⟨⟨x1, x2⟩, ⟨y1, y2⟩, ⟨z1, z2⟩⟩, mx, my, mz⟩ := hsorted
  simp only [otRegionCfg, Option.some.injEq] at hr
  subst hr
  simp only [otRegionCfg, Bool.and_eq_false_iff]
  left
  by_contra hin
  rw [Bool.not_eq_false, inBoxB_spec] at hin
  obtain ⟨⟨a1, a2⟩, ⟨b1, b2⟩, ⟨c1, c2⟩⟩ := hin
  obtain ⟨k1, k2⟩ := near_axis x1 x2 mx a1 a2
  obtain ⟨k3, k4⟩ := near_axis y1 y2 my b1 b2
  obtain ⟨k5, k6⟩ := near_axis z1 z2 mz c1 c2
  rw [← Bool.not_eq_true] at hov
  apply hov
  unfold boxesOverlap
  rw [Bool.and_eq_true, Bool.and_eq_true, Bool.and_eq_true, Bool.and_eq_true, Bool.and_eq_true]
  exact ⟨⟨⟨decide_eq_true k1, decide_eq_true k2⟩, decide_eq_true k3, decide_eq_true k4⟩, decide_eq_true k5, decide_eq_true k6⟩

/-- `T` threads iterate concurrently (reading only). No thread touches anything undefined, every thread's loop ends, and the particles visited by all
threads together are the stored particles with a wanted ownership state, in the trees and in the additional vectors, each visited by
exactly one thread exactly once. Missing for the full property: behaviours that ask for dummies but not for everything (where it
fails, `C72_violated_dummies`) and trees deeper than 18. -/
theorem C72_threads_partition_partial (c : OTCfg) (m : Rat) (behavior T : Nat) (hT : 0 < T) (hseq : ¬ Sequential behavior) (hb : NoDummyOrAll behavior)
    (owned halo : OTree Particle) (vecs : List (List Particle)) (hs : OTStorage c m owned halo vecs) :
    ∃ vs : Nat → List (Visit Particle),
      (∀ t, t < T → ∃ owned' halo' vecs', OTLoopEnds (otIterCfg c behavior T t) readOnly owned halo vecs (vs t) owned' halo' vecs') ∧
      ((List.range T).flatMap fun t => (vs t).map Visit.before).Perm
        ((collectAll owned ++ collectAll halo ++ vecs.flatten).filter fun p => wanted behavior p.own) := by
  obtain ⟨vs, h1, h2⟩ := threads_partition (relOk_all (cfg := otIterCfg c behavior T 0) rfl) (iterOk_all hs hb T 0) hT
  have hns := not_seq hseq
  have hcfg : ∀ t, (otIterCfg c behavior T 0).onThread T t = otIterCfg c behavior T t := by
    intro t
    unfold OTIterCfg.onThread otIterCfg iterThread iterStride
    simp [hns]
  refine ⟨vs, fun t ht => by rw [← hcfg t]; exact h1 t ht, ?_⟩
  have hful : (otIterCfg c behavior T 0).ful = fun p => wanted behavior p.own := by
    funext p; exact fulfills_wanted behavior p.own
  rw [hful] at h2
  exact h2

/-- `T` threads iterate a region. If no particle moved further than the safety margin the iterator uses since it was sorted in, no thread touches
anything undefined, all loops end and together visit the wanted particles that lie in the region and within an interaction length of the
box, each exactly once. Missing for the full property: empty regions (where it fails, `C72_violated_empty_region`), behaviours that ask for
dummies but not for everything, particles further away from the box, displacements beyond the margin, trees deeper than 18. -/
theorem C72_region_exact_partial (c : OTCfg) (hil : 0 < c.il)
    (hbox : c.box.lo.x ≤ c.box.hi.x ∧ c.box.lo.y ≤ c.box.hi.y ∧ c.box.lo.z ≤ c.box.hi.z) (margin : Rat) (hm : 0 ≤ margin) (lo hi : V3 Rat)
    (hreg : lo.x < hi.x ∧ lo.y < hi.y ∧ lo.z < hi.z) (behavior T : Nat) (hT : 0 < T) (hseq : ¬ Sequential behavior) (hb : NoDummyOrAll behavior)
    (owned halo : OTree Particle) (vecs : List (List Particle)) (hs : OTStorage c margin owned halo vecs) :
    ∃ vs : Nat → List (Visit Particle),
      (∀ t, t < T → ∃ owned' halo' vecs', OTLoopEnds (otRegionCfg c margin lo hi behavior T t) readOnly owned halo vecs (vs t) owned' halo' vecs') ∧
      ((List.range T).flatMap fun t => (vs t).map Visit.before).Perm
        ((collectAll owned ++ collectAll halo ++ vecs.flatten).filter fun p => wanted behavior p.own ∧ InBox p.pos lo hi ∧
          InBox p.pos (c.box.lo.addScalar (-c.il)) (c.box.hi.addScalar c.il)) := by
  obtain ⟨I, hI⟩ := relOk_otRegion c hil hbox hm hreg behavior T 0
  obtain ⟨vs, h1, h2⟩ := threads_partition hI (iterOk_region hs hb lo hi T 0) hT
  have hns := not_seq hseq
  have hcfg : ∀ t, (otRegionCfg c margin lo hi behavior T 0).onThread T t = otRegionCfg c margin lo hi behavior T t := by
    intro t
    unfold OTIterCfg.onThread otRegionCfg otIterCfg iterThread iterStride
    simp [hns]
  refine ⟨vs, fun t ht => by rw [← hcfg t]; exact h1 t ht, ?_⟩
  have hful : (otRegionCfg c margin lo hi behavior T 0).ful = fun p => decide (wanted behavior p.own ∧ InBox p.pos lo hi ∧
      InBox p.pos (c.box.lo.addScalar (-c.il)) (c.box.hi.addScalar c.il)) := by
    funext p
    simp only [otRegionCfg, clamped_iff, fulfills_wanted]
    rw [Bool.eq_iff_iff]; simp [and_comm]
  rw [hful] at h2
  exact h2

/-- A loop that overwrites and deletes particles while no other thread iterates. The decisions may depend on everything visited so far. The loop
ends without touching anything undefined, visits each wanted particle exactly once, and afterwards exactly what the body
asked for has happened to the stored particles. The additional vectors are not missing (AutoPas always passes its buffers; without them see
C33), or nothing is deleted. Missing for the full property: as for `C72_threads_partition_partial`. -/
theorem C72_modify_partial (c : OTCfg) (m : Rat) (behavior T t : Nat) (hone : Sequential behavior ∨ (T = 1 ∧ t = 0)) (hb : NoDummyOrAll behavior)
    (owned halo : OTree Particle) (vecs : List (List Particle)) (hs : OTStorage c m owned halo vecs)
    (body : List Particle → Particle → Option Particle) (hbody : vecs ≠ [] ∨ ∀ seen p, body seen p ≠ none) :
    ∃ vs owned' halo' vecs', OTLoopEnds (otIterCfg c behavior T t) body owned halo vecs vs owned' halo' vecs' ∧
      (vs.map Visit.before).Perm ((collectAll owned ++ collectAll halo ++ vecs.flatten).filter fun p => wanted behavior p.own) ∧
      Obeys body vs ∧
      (collectAll owned' ++ collectAll halo' ++ vecs'.flatten ++ vs.map Visit.before).Perm
        (collectAll owned ++ collectAll halo ++ vecs.flatten ++ vs.filterMap Visit.after) := by
  have hst : (otIterCfg c behavior T t).stride = 1 ∧ (otIterCfg c behavior T t).thread = 0 := by
    rcases hone with h | ⟨rfl, rfl⟩
    · have hns : behavior &&& ibForceSequential ≠ 0 := (seq_bit behavior).2 h
      simp [otIterCfg, iterStride, iterThread, hns]
    · simp [otIterCfg, iterStride, iterThread]
  obtain ⟨vs, o', h', v', h1, h2, h3, h4⟩ := alone_modify (relOk_all (cfg := otIterCfg c behavior T t) rfl) (iterOk_all hs hb T t) hst.1 hst.2 body hbody
  refine ⟨vs, o', h', v', h1, ?_, obeys_of_follows h3, h4⟩
  have hful : (otIterCfg c behavior T t).ful = fun p => wanted behavior p.own := by
    funext p; exact fulfills_wanted behavior p.own
  rw [hful] at h2
  exact h2

/-! ### The storage after a history -/

private theorem good_depth {il : Rat} (n : Nat) : ∀ (t : OTree Particle) (b : Box), Good il Particle.pos t b → b.width .x < 2 ^ (n + 1) * il →
    DepthAtMost n t := by
  induction n with
  | zero =>
    intro t b hg hw
    cases t with
    | leaf ps => trivial
    | inner c =>
      have := tooSmall_false.1 hg.1 .x
      norm_num at hw
      linarith
  | succ n ih =>
    intro t b hg hw
    cases t with
    | leaf ps => trivial
    | inner c =>
      intro o
      refine ih (c o) (childBox b o) (hg.2 o) ?_
      rw [childBox_width]
      rw [pow_succ] at hw
      linarith

private theorem depth_map {g : Particle → Particle} (n : Nat) : ∀ t : OTree Particle, DepthAtMost n t → DepthAtMost n (t.map g) := by
  induction n with
  | zero => intro t ht; cases t with
    | leaf ps => trivial
    | inner c => exact ht
  | succ n ih => intro t ht; cases t with
    | leaf ps => trivial
    | inner c => exact fun o => ih (c o) (ht o)

private theorem sorted_map {il m : Rat} {g : Particle → Particle} (t : OTree Particle) (b : Box) (hg : Good il Particle.pos t b)
    (hm : ∀ p ∈ collectAll t, |(g p).pos.x - p.pos.x| ≤ m ∧ |(g p).pos.y - p.pos.y| ≤ m ∧ |(g p).pos.z - p.pos.z| ≤ m) : SortedWithin m (t.map g) b := by
  induction t generalizing b with
  | leaf ps =>
    intro q hq
    obtain ⟨p, hp, rfl⟩ := List.mem_map.1 hq
    exact ⟨p.pos, hg p hp, hm p hp⟩
  | inner c ih =>
    intro o
    refine ih o _ (hg.2 o) (fun p hp => hm p ?_)
    rw [collectAll, List.mem_flatMap]
    exact ⟨o, by cases o <;> decide, hp⟩

/-- The assumption of the theorems above is met by what the container holds after any allowed history (C69), if the user then moves particles by at
most `m`, the box is less than 500000 interaction lengths wide, owned particles were inserted as owned and halo particles as
halo. -/
theorem C72_storage (c : OTCfg) (hil : 0 < c.il) (hw : c.box.width .x < 500000 * c.il) (acts : List OTAction)
    (ha : otAllowedRun c OTState.empty OTContents.empty acts)
    (hmo : (otExpected c OTState.empty OTContents.empty acts).2.ownedMoved = false)
    (hmh : (otExpected c OTState.empty OTContents.empty acts).2.haloMoved = false)
    (ho : ∀ p ∈ (otExpected c OTState.empty OTContents.empty acts).2.owned, p.own ≠ .halo)
    (hh : ∀ p ∈ (otExpected c OTState.empty OTContents.empty acts).2.halo, p.own ≠ .owned)
    (hn : (otExpected c OTState.empty OTContents.empty acts).2.owned.length < 2 ^ 64 ∧ (otExpected c OTState.empty OTContents.empty acts).2.halo.length < 2 ^ 64)
    (m : Rat) (g : Particle → Particle) (hown : ∀ p, (g p).own = p.own)
    (hm : ∀ p, |(g p).pos.x - p.pos.x| ≤ m ∧ |(g p).pos.y - p.pos.y| ≤ m ∧ |(g p).pos.z - p.pos.z| ≤ m)
    (vecs : List (List Particle)) (hv : ∀ l ∈ vecs, l.length < 2 ^ 64) (hvn : vecs.length < 2 ^ 64) :
    OTStorage c m ((OTState.empty.run c acts).2.owned.map g) ((OTState.empty.run c acts).2.halo.map g) vecs := by
  obtain ⟨-, h2⟩ := otHolds_run acts _ _ (otHolds_empty c) ha
  have go := h2.ownedSorted hmo
  have gh := h2.haloSorted hmh
  have hw2 : c.haloBox.width .x < 2 ^ (18 + 1) * c.il := by
    have : c.haloBox.width .x = c.box.width .x + 2 * c.il := by
      simp only [OTCfg.haloBox, Box.grow, Box.width, comp]; ring
    rw [this]
    norm_num
    linarith
  refine ⟨?_, ?_, depth_map _ _ (good_depth 18 _ _ go (by norm_num; linarith)), depth_map _ _ (good_depth 18 _ _ gh hw2),
    sorted_map _ _ go (fun p _ => hm p), sorted_map _ _ gh (fun p _ => hm p), ?_, ?_, hv, hvn⟩
  · intro q hq
    rw [collectAll_map] at hq
    obtain ⟨p, hp, rfl⟩ := List.mem_map.1 hq
    rw [hown]
    exact ho p (h2.owned.mem_iff.1 hp)
  · intro q hq
    rw [collectAll_map] at hq
    obtain ⟨p, hp, rfl⟩ := List.mem_map.1 hq
    rw [hown]
    exact hh p (h2.halo.mem_iff.1 hp)
  · rw [collectAll_map, List.length_map, h2.owned.length_eq]
    exact hn.1
  · rw [collectAll_map, List.length_map, h2.halo.length_eq]
    exact hn.2

/-! ### Violations and examples: box `[0,10)³`, interaction length 1. -/

private def xC : OTCfg := ⟨⟨⟨0, 0, 0⟩, ⟨10, 10, 10⟩⟩, 1⟩
private def xO (i : Nat) : Particle := ⟨i, ⟨(i : Rat) / 2, 1, 1⟩, .owned⟩
private def xH (i : Nat) : Particle := ⟨100 + i, ⟨(i : Rat) / 2, 1, -1/2⟩, .halo⟩
private def xActs : List OTAction := (List.range 17).map (fun i => .add (xO i)) ++ (List.range 17).map (fun i => .addHalo (xH i))

private def xIn (c : OTCfg) : OTAction → Bool
  | .add p => decide (InBox p.pos c.box.lo c.box.hi ∧ p.own = .owned)
  | .addHalo p => decide (InBox p.pos c.haloBox.lo c.haloBox.hi ∧ p.own = .halo)
  | _ => false

private theorem inserts_ok (c : OTCfg) (acts : List OTAction) : ∀ (s : OTState) (k : OTContents), (∀ a ∈ acts, xIn c a = true) → k.ownedMoved = false →
    k.haloMoved = false → (∀ p ∈ k.owned, p.own = .owned) → (∀ p ∈ k.halo, p.own = .halo) → otAllowedRun c s k acts ∧
    (otExpected c s k acts).2.ownedMoved = false ∧ (otExpected c s k acts).2.haloMoved = false ∧
    (∀ p ∈ (otExpected c s k acts).2.owned, p.own = .owned) ∧ (∀ p ∈ (otExpected c s k acts).2.halo, p.own = .halo) := by
  induction acts with
  | nil => intro s k _ h1 h2 h3 h4; exact ⟨trivial, h1, h2, h3, h4⟩
  | cons a as ih =>
    intro s k h h1 h2 h3 h4
    have ha := h a (by simp)
    have has : ∀ b ∈ as, xIn c b = true := fun b hb => h b (by simp [hb])
    cases a with
    | add p =>
      have ha := of_decide_eq_true ha
      obtain ⟨g1, g2⟩ := ih (s.step c (.add p)).2 (k.step c.box.lo c.box.hi (otPointee s (.add p)) (.add p)).2 has h1 h2
        (fun q hq => (List.mem_cons.1 hq).elim (fun e => e ▸ ha.2) (h3 q)) h4
      exact ⟨⟨⟨ha.1, h1⟩, g1⟩, g2⟩
    | addHalo p =>
      have ha := of_decide_eq_true ha
      obtain ⟨g1, g2⟩ := ih (s.step c (.addHalo p)).2 (k.step c.box.lo c.box.hi (otPointee s (.addHalo p)) (.addHalo p)).2 has h1 h2
        h3 (fun q hq => (List.mem_cons.1 hq).elim (fun e => e ▸ ha.2) (h4 q))
      exact ⟨⟨⟨ha.1, h2⟩, g1⟩, g2⟩
    | change _ => cases ha
    | update => cases ha
    | deleteHalo => cases ha
    | deleteOwnedAt _ _ => cases ha
    | deleteHaloAt _ _ => cases ha

private theorem xActs_ok : otAllowedRun xC OTState.empty OTContents.empty xActs ∧
    (otExpected xC OTState.empty OTContents.empty xActs).2.ownedMoved = false ∧ (otExpected xC OTState.empty OTContents.empty xActs).2.haloMoved = false ∧
    (∀ p ∈ (otExpected xC OTState.empty OTContents.empty xActs).2.owned, p.own = .owned) ∧
    (∀ p ∈ (otExpected xC OTState.empty OTContents.empty xActs).2.halo, p.own = .halo) :=
  inserts_ok xC xActs OTState.empty OTContents.empty (by decide +kernel) rfl rfl (fun _ h => by cases h) (fun _ h => by cases h)

/-- The property fails for an empty region: seventeen halo particles make the halo tree a node with eight children. The region that consists of no
point, with both corners in the center of the box, overlaps the box of the tree but none of the boxes of its children; the search
for the first relevant child goes on behind the last one. -/
theorem C72_violated_empty_region :
    let s := (OTState.empty.run xC xActs).2
    (∀ p, ¬ InBox p ⟨5, 5, 5⟩ ⟨5, 5, 5⟩) ∧ otAllowedRun xC OTState.empty OTContents.empty xActs ∧
    OTIter.begin (otRegionCfg xC 0 ⟨5, 5, 5⟩ ⟨5, 5, 5⟩ ibOwnedOrHalo 1 0) s.owned s.halo [[]] = .ub := by
  intro s
  refine ⟨?_, xActs_ok.1, ?_⟩
  · rintro p ⟨⟨h1, h2⟩, -⟩
    exact absurd h2 (not_lt.2 h1)
  · have : (match OTIter.begin (otRegionCfg xC 0 ⟨5, 5, 5⟩ ⟨5, 5, 5⟩ ibOwnedOrHalo 1 0) s.owned s.halo [[]] with
      | .ub => true
      | _ => false) = true := by decide +kernel
    revert this
    cases OTIter.begin (otRegionCfg xC 0 ⟨5, 5, 5⟩ ⟨5, 5, 5⟩ ibOwnedOrHalo 1 0) s.owned s.halo [[]] <;> simp

/-- The property fails for behaviours that ask for dummies only: an owned particle that was marked as deleted is a dummy in the tree of the owned
particles, which is not visited. -/
theorem C72_violated_dummies : ∃ (c : OTCfg) (acts : List OTAction) (p : Particle),
    otAllowedRun c OTState.empty OTContents.empty acts ∧ collectAll (OTState.empty.run c acts).2.owned = [p] ∧ wanted ibDummy p.own = true ∧
    OTLoopEnds (otIterCfg c ibDummy 1 0) readOnly (OTState.empty.run c acts).2.owned (OTState.empty.run c acts).2.halo [[]] []
      (OTState.empty.run c acts).2.owned (OTState.empty.run c acts).2.halo [[]] := by
  refine ⟨xC, [.add (xO 1), .change fun p => { p with own := .dummy }], { xO 1 with own := .dummy },
    ⟨⟨by decide +kernel, rfl⟩, trivial, trivial⟩, by decide +kernel, by decide +kernel, 1, ?_⟩
  intro m hm
  obtain ⟨k, rfl⟩ : ∃ k, m = k + 1 := ⟨m - 1, by omega⟩
  have e1 : (OTState.empty.run xC [.add (xO 1), .change fun p => { p with own := .dummy }]).2.owned = .leaf [{ xO 1 with own := .dummy }] := by
    have : insert Particle.pos treeSplitThreshold xC.il xC.box (.leaf []) (xO 1) = .leaf [xO 1] := by
      unfold Octree.insert insertWith
      cases splitFuel xC.il xC.box with
      | zero => rfl
      | succ n => rw [leafInsert, if_pos (Or.inl (by decide))]; rfl
    simp only [OTState.run, OTState.step, OTState.add, OTState.empty, this, OTree.map]
    rfl
  have e2 : (OTState.empty.run xC [.add (xO 1), .change fun p => { p with own := .dummy }]).2.halo = .leaf [] := by rfl
  rw [e1, e2]
  have hv : ∀ f : IterCfg Particle, f.stride = 1 → findInVecs f [[]] 0 0 = none := by
    intro f hf
    rw [findInVecs, dif_neg (by rw [hf]; decide)]
    split
    · rw [findInVecs, dif_pos (by rw [hf]; decide)]
    · rename_i h; cases h
  have hg : getTreeParticle (otIterCfg xC ibDummy 1 0) (.leaf [{ xO 1 with own := .dummy }]) (.leaf []) 0 0 = .ok none := by rfl
  refine ⟨⟨.leaf [{ xO 1 with own := .dummy }], .leaf [], [[]], true, idxMod - 1, idxMod - 1, none⟩, _, ?_, rfl, rfl, rfl, rfl⟩
  unfold OTIter.begin OTIter.fetch
  simp only [Bool.false_eq_true, if_false, hg, Outcome.bind]
  unfold OTIter.fetchVecs
  have := hv ⟨(otIterCfg xC ibDummy 1 0).ful, fun _ => true, 0, 0, (otIterCfg xC ibDummy 1 0).thread, (otIterCfg xC ibDummy 1 0).stride⟩ rfl
  simp only [show (otIterCfg xC ibDummy 1 0).thread = 0 from rfl] at this ⊢
  rw [this]
  rfl

/-- Non-vacuity: both trees are divided; all particles moved by 1/10, some out of their leaves; one more particle is in a buffer. -/
private def xMove (p : Particle) : Particle := ⟨p.id, ⟨p.pos.x + 1/10, p.pos.y - 1/10, p.pos.z⟩, p.own⟩

private theorem xStorage : OTStorage xC (1/10) ((OTState.empty.run xC xActs).2.owned.map xMove) ((OTState.empty.run xC xActs).2.halo.map xMove) [[xO 50]] :=
  C72_storage xC (by decide +kernel) (by decide +kernel) xActs xActs_ok.1 xActs_ok.2.1 xActs_ok.2.2.1 (fun p hp h => by rw [xActs_ok.2.2.2.1 p hp] at h; cases h)
    (fun p hp h => by rw [xActs_ok.2.2.2.2 p hp] at h; cases h) (by decide +kernel) (1/10) xMove (fun _ => rfl)
    (fun p => by simp only [xMove]; refine ⟨?_, ?_, ?_⟩ <;> rw [abs_le] <;> constructor <;> linarith) [[xO 50]] (by decide) (by decide)

example : ∃ vs : Nat → List (Visit Particle),
      (∀ t, t < 3 → ∃ owned' halo' vecs', OTLoopEnds (otIterCfg xC ibOwned 3 t) readOnly ((OTState.empty.run xC xActs).2.owned.map xMove)
        ((OTState.empty.run xC xActs).2.halo.map xMove) [[xO 50]] (vs t) owned' halo' vecs') ∧
      (((List.range 3).flatMap fun t => (vs t).map Visit.before).length = 18) := by
  obtain ⟨vs, h1, h2⟩ := C72_threads_partition_partial xC (1/10) ibOwned 3 (by decide) (by unfold Sequential; decide) (by unfold NoDummyOrAll; decide) _ _ _ xStorage
  refine ⟨vs, h1, ?_⟩
  rw [h2.length_eq]
  decide +kernel

example : ∃ vs : Nat → List (Visit Particle),
      (∀ t, t < 2 → ∃ owned' halo' vecs', OTLoopEnds (otRegionCfg xC (1/10) ⟨5, 0, -1⟩ ⟨20, 20, 20⟩ ibOwnedOrHalo 2 t) readOnly
        ((OTState.empty.run xC xActs).2.owned.map xMove) ((OTState.empty.run xC xActs).2.halo.map xMove) [[xO 50]] (vs t) owned' halo' vecs') ∧
      (((List.range 2).flatMap fun t => (vs t).map Visit.before).length = 14) := by
  obtain ⟨vs, h1, h2⟩ := C72_region_exact_partial xC (by decide +kernel) (by decide +kernel) (1/10) (by norm_num) ⟨5, 0, -1⟩ ⟨20, 20, 20⟩ (by norm_num) ibOwnedOrHalo 2
    (by decide) (by unfold Sequential; decide) (by unfold NoDummyOrAll; decide) _ _ _ xStorage
  refine ⟨vs, h1, ?_⟩
  rw [h2.length_eq]
  decide +kernel

example : ∃ vs owned' halo' vecs', OTLoopEnds (otIterCfg xC ibOwnedOrHalo 1 0) (deleteIf fun p => decide (p.id % 2 = 0)) ((OTState.empty.run xC xActs).2.owned.map xMove)
      ((OTState.empty.run xC xActs).2.halo.map xMove) [[xO 50]] vs owned' halo' vecs' ∧ vs.length = 35 := by
  obtain ⟨vs, o, h, v, h1, h2, -⟩ := C72_modify_partial xC (1/10) ibOwnedOrHalo 1 0 (Or.inr ⟨rfl, rfl⟩) (by unfold NoDummyOrAll; decide) _ _ _ xStorage
    (deleteIf fun p => decide (p.id % 2 = 0)) (Or.inl (by simp))
  refine ⟨vs, o, h, v, h1, ?_⟩
  have := h2.length_eq
  rw [List.length_map] at this
  rw [this]
  decide +kernel

end Verif
