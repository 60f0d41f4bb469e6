import Verif.Lemmas.VerletListsC08
import Verif.Props.C57
/-!
# C58 — the lists made for `vlc_c08`

VerletListsCells builds different lists for the traversal `vlc_c08`: those of a base cell hold all pairs of the `2 × 2 × 2` cells from the
base cell on that do not belong to another base cell. Every neighbour is still used exactly once while the lists are kept, and base cells
processed at the same time do not update the same particle. The circumstances are those of C53 (`ListsKept`); `fac` and `est` are the
numbers that the estimate of the number of lists is made of, and this estimate: they may be anything.
-/
namespace Verif
open Spec

section
variable {P : Type} [DecidableEq P] {bMin bMax : V3 Rat} {cutoff skin csf : Rat} {pos₀ pos : P → V3 Rat} {own₀ own : P → Ownership}
  {newton3 : Bool} {cells : List (List P)} {fac : Nat → Rat} {est : Nat → Nat}

/-- `isApplicable` of `vlc_c08`, VLCC08Traversal.h:56-62. -/
def VLCC08Applicable (blk : CellBlock) (il : Rat) : Prop := il ≤ min blk.cellLength.x (min blk.cellLength.y blk.cellLength.z)

theorem VLCC08Applicable.le {blk : CellBlock} {il : Rat} (h : VLCC08Applicable blk il) :
    il ≤ blk.cellLength.x ∧ il ≤ blk.cellLength.y ∧ il ≤ blk.cellLength.z := by
  unfold VLCC08Applicable at h
  rw [le_min_iff, le_min_iff] at h
  exact h

/-- Lists made of the calls of a traversal that go to neighbours are complete. -/
theorem facts_complete (hcut : 0 ≤ cutoff) (hskin : 0 ≤ skin) (hbox : GoodBox bMin bMax (cutoff + skin) csf) {ops : List CellOp}
    (facts : LCFacts bMin bMax (cutoff + skin) csf true ops)
    (hs : SortedIn (CellBlock.rebuild id bMin bMax (cutoff + skin) csf) pos₀ cells)
    (hk : ListsKept bMin bMax skin false pos₀ pos own₀ own cells.flatten) {calls : List (PairCall P)}
    (hp : calls.Perm ((ops.flatMap ((c08Functor pos₀ (cutoff + skin) newton3).op (lcCells (CellBlock.rebuild id bMin bMax (cutoff + skin) csf) cells))).filter
      fun c => c08IsNeighbour pos₀ own₀ (cutoff + skin) c.p c.q)) :
    CompleteCalls pos own cutoff cells.flatten calls := by
  have hil : 0 ≤ cutoff + skin := by linarith
  set f := c08Functor pos₀ (cutoff + skin) newton3 with hf
  have hsorts : f.Sorts pos₀ := sortByProjection_sorted pos₀
  have hboth : (f.newton3 || f.bidirectional) = true := by simp [f, c08Functor]
  have hrec : ∀ a b, timesReceived calls a b = if c08IsNeighbour pos₀ own₀ (cutoff + skin) a b then
      timesReceived (ops.flatMap (f.op (lcCells (CellBlock.rebuild id bMin bMax (cutoff + skin) csf) cells))) a b else 0 := by
    intro a b
    rw [show timesReceived calls a b = _ from (contributions_perm hp).count_eq (a, b)]
    exact timesReceived_filter _ (c08IsNeighbour pos₀ own₀ (cutoff + skin)) a b (.inr (c08IsNeighbour_symm a b))
  have hmem : ∀ a b, timesReceived (ops.flatMap (f.op (lcCells (CellBlock.rebuild id bMin bMax (cutoff + skin) csf) cells))) a b ≠ 0 →
      a ∈ cells.flatten ∧ b ∈ cells.flatten ∧ a ≠ b := by
    intro a b hab
    obtain ⟨c, hc, hm⟩ := mem_contributions_calls hab
    obtain ⟨op, hop, hc⟩ := List.mem_flatMap.1 hc
    have mem : ∀ k : Int, ∀ p ∈ (cellAt (lcCells (CellBlock.rebuild id bMin bMax (cutoff + skin) csf) cells) k).particles, p ∈ cells.flatten := by
      intro k p hp
      rw [(cellAt_lcCells k).1] at hp
      exact mem_flatten_getD'.2 ⟨_, hp⟩
    obtain ⟨i, j, hi, hj, hne, -⟩ := op_calls (cells_ok hs) hsorts (validOp_of (facts.valid op hop)) hc
    rcases hm with ⟨rfl, rfl⟩ | ⟨-, rfl, rfl⟩
    · exact ⟨mem i _ hi, mem j _ hj, hne⟩
    · exact ⟨mem j _ hj, mem i _ hi, hne.symm⟩
  refine ⟨?_, ?_, ?_⟩
  · intro a ha b hb hab hao hbo hd
    obtain ⟨o1, o2⟩ := hk.owned a ha hao
    have hd₀ : distSq (pos₀ a) (pos₀ b) < (cutoff + skin) * (cutoff + skin) := by
      have m1 := hk.moved a ha
      have m2 := hk.moved b hb
      have e1 : distSq (pos a) (pos₀ a) ≤ (skin / 2) * (skin / 2) := by linarith
      have e2 : distSq (pos b) (pos₀ b) ≤ (skin / 2) * (skin / 2) := by linarith
      have k2 := distSq_triangle_lt (by linarith) (by linarith) hd e2
      rw [distSq_symm] at k2
      have k3 := distSq_triangle_lt (by linarith) (by linarith) k2 e1
      rw [distSq_symm]
      calc _ < _ := k3
        _ = _ := by ring
    have hnb : c08IsNeighbour pos₀ own₀ (cutoff + skin) a b = true := by
      unfold c08IsNeighbour
      simp only [Bool.and_eq_true, Bool.not_eq_true', Bool.or_eq_false_iff, decide_eq_false_iff_not, decide_eq_true_eq]
      refine ⟨⟨⟨hab, by rw [o1]; decide⟩, fun hy => hbo (hk.deleted rfl b hb hy)⟩, ?_⟩
      rw [distSq_symm]; exact hd₀
    rw [hrec, if_pos hnb]
    rw [timesReceived_flatMap_indicator (q := hits true
      (threeToOneD ((CellBlock.rebuild id bMin bMax (cutoff + skin) csf).indexOfPosition id (pos₀ a)) (CellBlock.rebuild id bMin bMax (cutoff + skin) csf).dims)
      (threeToOneD ((CellBlock.rebuild id bMin bMax (cutoff + skin) csf).indexOfPosition id (pos₀ b)) (CellBlock.rebuild id bMin bMax (cutoff + skin) csf).dims))]
    · exact facts.once _ _ (le_of_lt hd₀) o2
    · intro op hop
      obtain ⟨ma, la⟩ := mem_own_cell hs ha
      obtain ⟨mb, lb⟩ := mem_own_cell hs hb
      have main := fun h1 h2 h3 => op_received (cells_ok hs) hsorts hab ma mb h1 (by rfl) h2 (validOp_of (facts.valid op hop)) h3
      rw [hboth] at main
      refine main ?_ ?_ ?_
      · rw [(cellAt_lcCells _).2 (by simpa using la), Bool.not_eq_true', ← Bool.not_eq_true]
        simp only [Int.toNat_natCast]
        have hd := hbox.dims_ge
        rw [cellCanContainHalo_iff (b := CellBlock.rebuild id bMin bMax (cutoff + skin) csf) rfl rfl hd.1 hd.2.1 hd.2.2 (hbox.inGrid (pos₀ a))]
        exact hbox.not_halo o2
      · unfold Near
        exact le_of_lt hd₀
      · rintro i j dir rfl
        exact lc_notBehind hbox facts hs (fun p _ => by simp [distSq]; nlinarith) hop
  · intro a b
    rw [hrec]
    by_cases hab : a = b
    · by_contra hx
      split at hx
      · exact (hmem a b (by omega)).2.2 hab
      · omega
    · split
      · refine le_trans (timesReceived_flatMap_le (q := hits true
          (threeToOneD ((CellBlock.rebuild id bMin bMax (cutoff + skin) csf).indexOfPosition id (pos₀ a)) (CellBlock.rebuild id bMin bMax (cutoff + skin) csf).dims)
          (threeToOneD ((CellBlock.rebuild id bMin bMax (cutoff + skin) csf).indexOfPosition id (pos₀ b)) (CellBlock.rebuild id bMin bMax (cutoff + skin) csf).dims)) ?_)
          (facts.most _ _ (hbox.inGrid _) (hbox.inGrid _))
        intro op hop
        have main := op_received_le (cells_ok hs) hsorts hab (validOp_of (facts.valid op hop))
        rw [hboth] at main
        exact main
      · omega
  · intro a b hx
    rw [hrec] at hx
    split at hx
    · exact hmem a b hx
    · exact absurd rfl hx

/-- The container part of `computeInteractions`. -/
theorem vlcC08_complete (hcut : 0 ≤ cutoff) (hskin : 0 ≤ skin) (hbox : GoodBox bMin bMax (cutoff + skin) csf)
    (ht : VLCC08Applicable (CellBlock.rebuild id bMin bMax (cutoff + skin) csf) (cutoff + skin))
    (hs : SortedIn (CellBlock.rebuild id bMin bMax (cutoff + skin) csf) pos₀ cells)
    (hk : ListsKept bMin bMax skin false pos₀ pos own₀ own cells.flatten) (soa : Bool) :
    CompleteCalls pos own cutoff cells.flatten
      (vlcCalls soa newton3 (CellBlock.rebuild id bMin bMax (cutoff + skin) csf).dims cells.flatten cells
        (vlcBuildC08 pos₀ own₀ (cutoff + skin) newton3 (CellBlock.rebuild id bMin bMax (cutoff + skin) csf) cells fac est)
        (vlcC08Bases (CellBlock.rebuild id bMin bMax (cutoff + skin) csf).dims
          (CellBlock.rebuild id bMin bMax (cutoff + skin) csf).cellLength (cutoff + skin))) :=
  facts_complete hcut hskin hbox (c08List_facts hbox ht.le (nodup_colorTraversal _ _ _) fun _ => c08Bases_mem) hs hk
    (c08Calls_perm hbox ht.le hs soa)

/-- `computeInteractions` with `vlc_c08`: the lists and the remainder traversal. -/
def vlcC08Interactions (pos₀ pos : P → V3 Rat) (own₀ own : P → Ownership) (blk : CellBlock) (cutoff skin : Rat) (newton3 : Bool)
    (fac : Nat → Rat) (est : Nat → Nat) (soa : Bool) (cells pb hb : List (List P)) : List (PairCall P) :=
  vlcCalls soa newton3 blk.dims cells.flatten cells (vlcBuildC08 pos₀ own₀ (cutoff + skin) newton3 blk cells fac est)
      (vlcC08Bases blk.dims blk.cellLength (cutoff + skin)) ++
    remainder2B pos own newton3 cutoff cells.flatten pb hb

variable {pb hb : List (List P)}

/-- C58. Every owned particle receives the contribution of every other particle closer than the cutoff exactly once. -/
theorem C58_every_neighbour_once (hcut : 0 ≤ cutoff) (hskin : 0 ≤ skin) (hbox : GoodBox bMin bMax (cutoff + skin) csf)
    (ht : VLCC08Applicable (CellBlock.rebuild id bMin bMax (cutoff + skin) csf) (cutoff + skin))
    (hs : SortedIn (CellBlock.rebuild id bMin bMax (cutoff + skin) csf) pos₀ cells)
    (hk : ListsKept bMin bMax skin false pos₀ pos own₀ own cells.flatten)
    (hin : RemInput cells.flatten pb hb) (hhb : ∀ x ∈ hb.flatten, own x = .halo) (soa : Bool) (a b : P)
    (ha : a ∈ cells.flatten ++ (pb.flatten ++ hb.flatten)) (hb' : b ∈ cells.flatten ++ (pb.flatten ++ hb.flatten)) (hab : a ≠ b)
    (hao : own a = .owned) (hbo : own b ≠ .dummy) (hd : distSq (pos a) (pos b) < cutoff * cutoff) :
    timesReceived (vlcC08Interactions pos₀ pos own₀ own (CellBlock.rebuild id bMin bMax (cutoff + skin) csf) cutoff skin newton3 fac est soa
      cells pb hb) a b = 1 :=
  ((vlcC08_complete hcut hskin hbox ht hs hk soa).with_remainder hcut hin hhb newton3).once a ha b hb' hab hao hbo hd

/-- No contribution is received twice, and only stored particles take part. -/
theorem C58_nothing_twice (hcut : 0 ≤ cutoff) (hskin : 0 ≤ skin) (hbox : GoodBox bMin bMax (cutoff + skin) csf)
    (ht : VLCC08Applicable (CellBlock.rebuild id bMin bMax (cutoff + skin) csf) (cutoff + skin))
    (hs : SortedIn (CellBlock.rebuild id bMin bMax (cutoff + skin) csf) pos₀ cells)
    (hk : ListsKept bMin bMax skin false pos₀ pos own₀ own cells.flatten)
    (hin : RemInput cells.flatten pb hb) (hhb : ∀ x ∈ hb.flatten, own x = .halo) (soa : Bool) (a b : P) :
    let calls := vlcC08Interactions pos₀ pos own₀ own (CellBlock.rebuild id bMin bMax (cutoff + skin) csf) cutoff skin newton3 fac est soa
      cells pb hb
    timesReceived calls a b ≤ 1 ∧ (timesReceived calls a b ≠ 0 →
      a ∈ cells.flatten ++ (pb.flatten ++ hb.flatten) ∧ b ∈ cells.flatten ++ (pb.flatten ++ hb.flatten) ∧ a ≠ b) :=
  have h := (vlcC08_complete hcut hskin hbox ht hs hk soa).with_remainder hcut hin hhb newton3
  ⟨h.most a b, h.mem a b⟩

/-- What the user sees: the sum over all other particles. -/
theorem C58_accumulates_sum {M : Type} [AddCommMonoid M] (hcut : 0 ≤ cutoff) (hskin : 0 ≤ skin)
    (hbox : GoodBox bMin bMax (cutoff + skin) csf)
    (ht : VLCC08Applicable (CellBlock.rebuild id bMin bMax (cutoff + skin) csf) (cutoff + skin))
    (hs : SortedIn (CellBlock.rebuild id bMin bMax (cutoff + skin) csf) pos₀ cells)
    (hk : ListsKept bMin bMax skin false pos₀ pos own₀ own cells.flatten)
    (hin : RemInput cells.flatten pb hb) (hhb : ∀ x ∈ hb.flatten, own x = .halo) (soa : Bool) (F : P → P → M)
    (hz : ∀ a b, (own b = .dummy ∨ cutoff * cutoff ≤ distSq (pos a) (pos b)) → F a b = 0) (a : P)
    (ha : a ∈ cells.flatten ++ (pb.flatten ++ hb.flatten)) (hao : own a = .owned) :
    accumulated F (vlcC08Interactions pos₀ pos own₀ own (CellBlock.rebuild id bMin bMax (cutoff + skin) csf) cutoff skin newton3 fac est soa
      cells pb hb) a = (((cells.flatten ++ (pb.flatten ++ hb.flatten)).filter fun b => b ≠ a).map (F a)).sum :=
  ((vlcC08_complete hcut hskin hbox ht hs hk soa).with_remainder hcut hin hhb newton3).accumulated hin.nodup F hz a ha hao

/-- Base cells of one colour, which may be processed at the same time, update disjoint sets of particles. -/
theorem C58_race_free {il : Rat} (hbox : GoodBox bMin bMax il csf) (ht : VLCC08Applicable (CellBlock.rebuild id bMin bMax il csf) il)
    (hs : SortedIn (CellBlock.rebuild id bMin bMax il csf) pos₀ cells) (soa : Bool) (phase : List (List (V3 Nat)))
    (hphase : phase ∈ vlcC08Bases (CellBlock.rebuild id bMin bMax il csf).dims (CellBlock.rebuild id bMin bMax il csf).cellLength il)
    (n m : Nat) (hn : n < phase.length) (hm : m < phase.length) (hnm : n ≠ m) (p : P)
    (hp : p ∈ writtenBy (vlcPackage soa newton3 (CellBlock.rebuild id bMin bMax il csf).dims cells.flatten cells
      (vlcBuildC08 pos₀ own₀ il newton3 (CellBlock.rebuild id bMin bMax il csf) cells fac est) phase[n])) :
    p ∉ writtenBy (vlcPackage soa newton3 (CellBlock.rebuild id bMin bMax il csf).dims cells.flatten cells
      (vlcBuildC08 pos₀ own₀ il newton3 (CellBlock.rebuild id bMin bMax il csf) cells fac est) phase[m]) := by
  have hov := overlap_eq_one hbox ht.le
  have hent := fun b hb => c08List_entries (own := own₀) (newton3 := newton3) (fac := fac) (est := est) hbox hs (b := b) hb
  have hd := hbox.dims_ge
  have hgrid : ∀ p, InGrid ((CellBlock.rebuild id bMin bMax il csf).indexOfPosition id p) (CellBlock.rebuild id bMin bMax il csf).dims :=
    fun p => hbox.inGrid p
  unfold vlcC08Bases at hphase
  rw [hov, List.mem_map] at hphase
  obtain ⟨colour, hcol, rfl⟩ := hphase
  simp only [List.length_map] at hn hm
  simp only [List.getElem_map] at hp ⊢
  set blk := CellBlock.rebuild id bMin bMax il csf
  generalize vlcBuildC08 pos₀ own₀ il newton3 blk cells fac est = lists at hent hp ⊢
  have key : ∀ b ∈ colour, p ∈ writtenBy (vlcPackage soa newton3 blk.dims cells.flatten cells lists [b]) →
      let c := blk.indexOfPosition id (pos₀ p)
      (b.x ≤ c.x ∧ c.x ≤ b.x + 1) ∧ (b.y ≤ c.y ∧ c.y ≤ b.y + 1) ∧ (b.z ≤ c.z ∧ c.z ≤ b.z + 1) := by
    intro b hb hw c
    have hb' : b.x < blk.dims.x - 1 ∧ b.y < blk.dims.y - 1 ∧ b.z < blk.dims.z - 1 := c08Bases_mem.1 (List.mem_flatten.2 ⟨_, hcol, hb⟩)
    have cell : ∀ u : V3 Nat, (u.x ≤ 1 ∧ u.y ≤ 1 ∧ u.z ≤ 1) → ∀ q, q ∈ cells.getD (threeToOneD (cellPlus b u) blk.dims) [] →
        blk.indexOfPosition id (pos₀ q) = cellPlus b u := by
      intro u hu q hq
      refine flat_inj (hgrid _) ⟨by simp only [cellPlus]; omega, by simp only [cellPlus]; omega, by simp only [cellPlus]; omega⟩ (hs.home _ q hq)
    have hm : ∀ e ∈ vlcEntries (lists.getD (threeToOneD b blk.dims) []), e.1 ∈ cells.flatten ∧ e.2 ∈ cells.flatten := by
      intro e he
      obtain ⟨s, -, he⟩ := List.mem_flatMap.1 ((hent b hb').mem_iff.1 he)
      rcases mem_c08CellEntries he with ⟨h1, h2⟩ | ⟨h1, h2⟩ <;> exact ⟨mem_flatten_getD'.2 ⟨_, h1⟩, mem_flatten_getD'.2 ⟨_, h2⟩⟩
    have e0 : vlcPackage soa newton3 blk.dims cells.flatten cells lists [b] = vlcProcessAoS newton3 lists (threeToOneD b blk.dims) := by
      unfold vlcPackage
      simp only [List.flatMap_cons, List.flatMap_nil, List.append_nil]
      split
      · exact vlcProcessSoA_eq newton3 hm
      · rfl
    rw [e0, vlcProcessAoS_eq] at hw
    obtain ⟨call, hcall, hpc⟩ := mem_writtenBy.1 hw
    obtain ⟨e, he, rfl⟩ := List.mem_map.1 hcall
    obtain ⟨s, hs', he⟩ := List.mem_flatMap.1 ((hent b hb').mem_iff.1 he)
    rw [mem_c08Blocks] at hs'
    have : c = cellPlus b s.1 ∨ c = cellPlus b s.2 := by
      simp only at hpc
      rcases mem_c08CellEntries he with ⟨h1, h2⟩ | ⟨h1, h2⟩ <;> rcases hpc with rfl | ⟨-, rfl⟩
      · exact .inl (cell _ hs'.1 _ h1)
      · exact .inr (cell _ hs'.2.1 _ h2)
      · exact .inr (cell _ hs'.2.1 _ h1)
      · exact .inl (cell _ hs'.1 _ h2)
    rcases this with h | h <;> rw [h] <;> simp only [cellPlus] <;> omega
  intro hp'
  have k1 := key _ (List.getElem_mem hn) hp
  have k2 := key _ (List.getElem_mem hm) hp'
  have hne := nodup_getElem_ne ((List.nodup_flatten.1 (nodup_colorTraversal _ _ _)).1 colour hcol) hn hm hnm
  obtain ⟨f1, f2, f3⟩ := C06_same_color_far_apart _ _ _ colour hcol _ _ (List.getElem_mem hn) (List.getElem_mem hm)
  apply hne
  generalize colour[n] = a at *
  generalize colour[m] = a' at *
  rcases a with ⟨ax, ay, az⟩
  rcases a' with ⟨bx, by', bz⟩
  simp only [V3.mk.injEq] at *
  omega

end

/-! Non-vacuity: the situation of the example of C53. -/

private theorem exBox58 : GoodBox ⟨0, 0, 0⟩ ⟨1, 1, 1⟩ (3/4 + 1/4) 1 := by
  have e : (3/4 + 1/4 : Rat) = 1 := by norm_num
  rw [e]; exact exGood

private theorem exRem58 : RemInput exCells.flatten exVecs [[]] := ⟨by decide +kernel, rfl⟩

private def exPos58 (p : Particle) : V3 Rat := ⟨p.pos.x + 1/20, p.pos.y, p.pos.z⟩

private def exOwn58 (p : Particle) : Ownership := if p = exOwned2 then .dummy else p.own

private theorem exKept58 : ListsKept ⟨0, 0, 0⟩ ⟨1, 1, 1⟩ (1/4) false Particle.pos exPos58 Particle.own exOwn58 exCells.flatten := by
  refine ⟨?_, by decide +kernel, fun _ => by decide +kernel⟩
  intro p _
  unfold distSq exPos58
  simp only [add_sub_cancel_left, sub_self]
  norm_num

private theorem exApplicable58 : VLCC08Applicable (CellBlock.rebuild id ⟨0, 0, 0⟩ ⟨1, 1, 1⟩ (3/4 + 1/4) 1) (3/4 + 1/4) := by
  unfold VLCC08Applicable
  decide +kernel

example (soa newton3 : Bool) (fac : Nat → Rat) (est : Nat → Nat) :
    timesReceived (vlcC08Interactions Particle.pos exPos58 Particle.own exOwn58 (CellBlock.rebuild id ⟨0, 0, 0⟩ ⟨1, 1, 1⟩ (3/4 + 1/4) 1)
      (3/4) (1/4) newton3 fac est soa exCells exVecs [[]]) exOwned ⟨5, ⟨1/8, 1/8, 1/8⟩, .owned⟩ = 1 := by
  have h1 : exOwned ∈ exCells.flatten ++ (exVecs.flatten ++ [[]].flatten) := by decide +kernel
  have h2 : (⟨5, ⟨1/8, 1/8, 1/8⟩, .owned⟩ : Particle) ∈ exCells.flatten ++ (exVecs.flatten ++ [[]].flatten) := by decide +kernel
  have h3 : exOwned ≠ (⟨5, ⟨1/8, 1/8, 1/8⟩, .owned⟩ : Particle) := by decide +kernel
  have h4 : exOwn58 exOwned = .owned ∧ exOwn58 ⟨5, ⟨1/8, 1/8, 1/8⟩, .owned⟩ ≠ .dummy := by decide +kernel
  have h5 : distSq (exPos58 exOwned) (exPos58 ⟨5, ⟨1/8, 1/8, 1/8⟩, .owned⟩) < 3/4 * (3/4) := by decide +kernel
  exact C58_every_neighbour_once (by norm_num) (by norm_num) exBox58 exApplicable58 exSortedIn exKept58 exRem58 (by simp) soa _ _
    h1 h2 h3 h4.1 h4.2 h5

/-- Two base cells of one colour in the box `[0,6) × [0,1) × [0,1)`. -/
example : (∃ phase ∈ vlcC08Bases (CellBlock.rebuild id ⟨0, 0, 0⟩ ⟨6, 1, 1⟩ 1 1).dims
      (CellBlock.rebuild id ⟨0, 0, 0⟩ ⟨6, 1, 1⟩ 1 1).cellLength 1, [⟨1, 1, 1⟩] ∈ phase ∧ [⟨3, 1, 1⟩] ∈ phase) ∧
    VLCC08Applicable (CellBlock.rebuild id ⟨0, 0, 0⟩ ⟨6, 1, 1⟩ 1 1) 1 := by
  unfold VLCC08Applicable
  decide +kernel

end Verif
