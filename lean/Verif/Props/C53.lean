import Verif.Lemmas.VerletListsUse
/-!
# C53 — Verlet lists stay complete while they are kept

The VerletLists container, for both layouts of the list construction and both layouts of the computation. `pos₀`, `own₀` are the positions
and ownership states when the lists were built, `pos`, `own` those of the moment in which interactions are computed; in between no
particle moved further than half the skin and no particle was stored or taken away (they may have been marked as deleted).
-/
namespace Verif
open Spec

section
variable {P : Type} [DecidableEq P]

/-- The circumstances in which neighbour lists are used. `p` ranges over the stored particles. -/
structure ListsKept (bMin bMax : V3 Rat) (skin : Rat) (soaBuild : Bool) (pos₀ pos : P → V3 Rat) (own₀ own : P → Ownership)
    (stored : List P) : Prop where
  /-- no particle moved further than half the skin since the lists were built -/
  moved : ∀ p ∈ stored, 4 * distSq (pos p) (pos₀ p) ≤ skin * skin
  /-- who is owned now was so when the lists were built, and was inside of the box -/
  owned : ∀ p ∈ stored, own p = .owned → own₀ p = .owned ∧ InBox (pos₀ p) bMin bMax
  /-- deleted particles do not come back (needed only if the lists are built in AoS layout, which ignores dummies) -/
  deleted : soaBuild = false → ∀ p ∈ stored, own₀ p = .dummy → own p = .dummy

/-- The lists contain exactly the pairs within the interaction length, each once. -/
theorem C53_lists_exact (bMin bMax : V3 Rat) (il csf : Rat) (hil : 0 ≤ il) (hbox : GoodBox bMin bMax il csf) (pos : P → V3 Rat)
    (own : P → Ownership) (f : CellFunctorCfg P) (cells : List (List P)) (a b : P) :
    let blk := CellBlock.rebuild id bMin bMax il csf
    FunctorFor .c08 pos il f → f.newton3 = false → (∀ p, f.isHalo p = decide (own p = .halo)) →
    SortedIn blk pos cells →
    (a ∈ cells.flatten → b ∈ cells.flatten → a ≠ b → own a = .owned → InBox (pos a) bMin bMax →
      (f.soa = false → own b ≠ .dummy) → distSq (pos a) (pos b) < il * il →
      (verletListsBuild pos own blk il f cells).count (a, b) = 1) ∧
    (verletListsBuild pos own blk il f cells).count (a, b) ≤ 1 ∧
    ((a, b) ∈ verletListsBuild pos own blk il f cells →
      a ∈ cells.flatten ∧ b ∈ cells.flatten ∧ a ≠ b ∧ distSq (pos a) (pos b) < il * il) := by
  intro blk hf hn hh hs
  have happ : LCTraversal.c08.Applicable blk.dims blk.cellLength il := trivial
  have h0 : il + 0 = il := add_zero il
  have hcalls := fun c => C51_linked_cells_calls bMin bMax il 0 csf (by rw [h0]; exact hbox) .c08 pos pos f cells c
  have honce := C51_linked_cells_exactly_once bMin bMax il 0 csf hil (le_refl 0) (by rw [h0]; exact hbox) .c08 pos pos f cells a b
  have hmost := C51_linked_cells_at_most_once bMin bMax il 0 csf (by rw [h0]; exact hbox) .c08 pos pos f cells a b
  simp only [h0] at hcalls honce hmost
  set calls := f.run (lcCells blk cells) (LCTraversal.c08.ops blk.dims blk.cellLength il) with hcl
  have hcalls : ∀ c ∈ calls, c.p ∈ cells.flatten ∧ c.q ∈ cells.flatten ∧ c.p ≠ c.q ∧ c.newton3 = false := fun c hc => by
    have := hcalls c happ hf hs hc
    rwa [hn] at this
  have hn3 : ∀ c ∈ calls, c.newton3 = false := fun c hc => (hcalls c hc).2.2.2
  have hcount : ∃ q : Prop, ∃ d : Decidable q, ((f.soa = false → own a ≠ .dummy ∧ own b ≠ .dummy) → distSq (pos a) (pos b) < il * il → q) ∧
      (verletListsBuild pos own blk il f cells).count (a, b) = if q then timesReceived calls a b else 0 := by
    by_cases hsoa : f.soa = true
    · refine ⟨distSq (pos a) (pos b) < il * il, inferInstance, fun _ h => h, ?_⟩
      unfold verletListsBuild
      rw [if_pos hsoa, ← hcl]
      refine count_entries calls hn3 _ a b _ ?_ ?_
      · intro c _ h1 h2
        unfold verletGenSoA
        rw [h1, h2]
        split <;> simp
      · intro c _ h12
        unfold verletGenSoA
        split
        · rw [List.count_cons_of_ne (by intro hy; cases hy; exact h12 ⟨rfl, rfl⟩)]; rfl
        · rfl
    · refine ⟨¬ (own a = .dummy ∨ own b = .dummy) ∧ distSq (pos a) (pos b) < il * il, inferInstance, fun h1 h2 => ⟨?_, h2⟩, ?_⟩
      · have := h1 (by simpa using hsoa)
        rw [not_or]; exact this
      unfold verletListsBuild
      rw [if_neg hsoa, ← hcl]
      unfold verletBuild
      refine count_entries calls hn3 _ a b _ ?_ ?_
      · intro c _ h1 h2
        unfold verletGen
        rw [h1, h2]
        by_cases hd : own a = .dummy ∨ own b = .dummy
        · rw [if_pos hd, if_neg (fun h => h.1 hd)]; rfl
        · rw [if_neg hd]
          by_cases hx : distSq (pos a) (pos b) < il * il
          · rw [if_pos hx, if_pos ⟨hd, hx⟩]; simp
          · rw [if_neg hx, if_neg (fun h => hx h.2)]; rfl
      · intro c _ h12
        unfold verletGen
        split
        · rfl
        · split
          · rw [List.count_cons_of_ne (by intro hy; cases hy; exact h12 ⟨rfl, rfl⟩)]; rfl
          · rfl
  obtain ⟨q, dq, hq, hcount⟩ := hcount
  have hmem : (a, b) ∈ verletListsBuild pos own blk il f cells → a ∈ cells.flatten ∧ b ∈ cells.flatten ∧ a ≠ b ∧ distSq (pos a) (pos b) < il * il := by
    intro hm
    have : ∃ c ∈ calls, a = c.p ∧ b = c.q ∧ distSq (pos c.p) (pos c.q) < il * il := by
      unfold verletListsBuild verletBuild at hm
      rw [← hcl] at hm
      dsimp only at hm
      split at hm
      · obtain ⟨c, hc, hm⟩ := List.mem_flatMap.1 hm
        unfold verletGenSoA at hm
        split at hm
        · rw [List.mem_singleton] at hm; cases hm; exact ⟨c, hc, rfl, rfl, by assumption⟩
        · cases hm
      · obtain ⟨c, hc, hm⟩ := List.mem_flatMap.1 hm
        unfold verletGen at hm
        split at hm
        · cases hm
        · split at hm
          · rw [List.mem_singleton] at hm; cases hm; exact ⟨c, hc, rfl, rfl, by assumption⟩
          · cases hm
    obtain ⟨c, hc, rfl, rfl, hd⟩ := this
    obtain ⟨k1, k2, k3, -⟩ := hcalls c hc
    exact ⟨k1, k2, k3, hd⟩
  refine ⟨?_, ?_, hmem⟩
  · intro ha hb hab hao hin hbo hd
    rw [hcount, if_pos (hq (fun hx => ⟨by rw [hao]; decide, hbo hx⟩) hd)]
    refine honce happ hf hs ?_ ha hb hab ?_ hin (le_of_lt hd)
    · intro p _
      simp [distSq]
    · rw [hh, hao]; rfl
  · by_cases hab : a = b
    · by_contra hx
      exact (hmem (List.count_pos_iff.1 (by omega))).2.2.1 hab
    · rw [hcount]
      have := hmost happ hf hs hab
      split <;> omega

variable {bMin bMax : V3 Rat} {cutoff skin csf : Rat} {pos₀ pos : P → V3 Rat} {own₀ own : P → Ownership} {f : CellFunctorCfg P}
  {cells : List (List P)}

/-- The container part of `computeInteractions`. -/
theorem verletLists_complete (hcut : 0 ≤ cutoff) (hskin : 0 ≤ skin) (hbox : GoodBox bMin bMax (cutoff + skin) csf)
    (hf : FunctorFor .c08 pos₀ (cutoff + skin) f) (hn : f.newton3 = false) (hh : ∀ p, f.isHalo p = decide (own₀ p = .halo))
    (hs : SortedIn (CellBlock.rebuild id bMin bMax (cutoff + skin) csf) pos₀ cells)
    (hk : ListsKept bMin bMax skin f.soa pos₀ pos own₀ own cells.flatten) (soa : Bool) :
    CompleteCalls pos own cutoff cells.flatten
      (verletListsCalls soa cells.flatten cells (verletListsBuild pos₀ own₀ (CellBlock.rebuild id bMin bMax (cutoff + skin) csf) (cutoff + skin) f cells)) := by
  set lists := verletListsBuild pos₀ own₀ (CellBlock.rebuild id bMin bMax (cutoff + skin) csf) (cutoff + skin) f cells with hl
  have hil : 0 ≤ cutoff + skin := by linarith
  have ex := fun a b => C53_lists_exact bMin bMax (cutoff + skin) csf hil hbox pos₀ own₀ f cells a b hf hn hh hs
  rw [← hl] at ex
  have hperm : (verletListsCalls soa cells.flatten cells lists).Perm (verletIterate lists) := by
    unfold verletListsCalls
    split
    · exact verletIterateSoA_perm hs.nodup fun e he => by
        have := (ex e.1 e.2).2.2 he
        exact ⟨this.1, this.2.1⟩
    · exact List.Perm.refl _
  have hrec : ∀ a b, timesReceived (verletListsCalls soa cells.flatten cells lists) a b = lists.count (a, b) := by
    intro a b
    rw [← received_verletIterate]
    exact (contributions_perm hperm).count_eq _
  refine ⟨?_, ?_, ?_⟩
  · intro a ha b hb hab hao hbo hd
    rw [hrec]
    obtain ⟨o1, o2⟩ := hk.owned a ha hao
    refine (ex a b).1 ha hb hab o1 o2 (fun hx hy => hbo (hk.deleted hx b hb hy)) ?_
    have m1 := hk.moved a ha
    have m2 := hk.moved b hb
    have e1 : distSq (pos₀ a) (pos a) ≤ (skin / 2) * (skin / 2) := by rw [distSq_symm]; linarith
    have e2 : distSq (pos b) (pos₀ b) ≤ (skin / 2) * (skin / 2) := by linarith
    have k2 := distSq_triangle_lt (by linarith) (by linarith) hd e2
    rw [distSq_symm] at k2
    rw [distSq_symm] at e1
    have k3 := distSq_triangle_lt (by linarith) (by linarith) k2 e1
    rw [distSq_symm]
    calc _ < _ := k3
      _ = _ := by ring
  · intro a b; rw [hrec]; exact (ex a b).2.1
  · intro a b hx
    rw [hrec] at hx
    obtain ⟨k1, k2, k3, -⟩ := (ex a b).2.2 (List.count_pos_iff.1 (Nat.pos_of_ne_zero hx))
    exact ⟨k1, k2, k3⟩

/-- `computeInteractions` with the VerletLists container: the lists and the remainder traversal over the buffers `pb` of the owned and `hb`
of the halo particles. -/
def verletListsInteractions (pos₀ pos : P → V3 Rat) (own₀ own : P → Ownership) (blk : CellBlock) (cutoff skin : Rat)
    (f : CellFunctorCfg P) (soa newton3 : Bool) (cells pb hb : List (List P)) : List (PairCall P) :=
  verletListsCalls soa cells.flatten cells (verletListsBuild pos₀ own₀ blk (cutoff + skin) f cells) ++
    remainder2B pos own newton3 cutoff cells.flatten pb hb

variable {pb hb : List (List P)}

/-- C53. Every owned particle receives the contribution of every other particle closer than the cutoff exactly once. -/
theorem C53_every_neighbour_once (hcut : 0 ≤ cutoff) (hskin : 0 ≤ skin) (hbox : GoodBox bMin bMax (cutoff + skin) csf)
    (hf : FunctorFor .c08 pos₀ (cutoff + skin) f) (hn : f.newton3 = false) (hh : ∀ p, f.isHalo p = decide (own₀ p = .halo))
    (hs : SortedIn (CellBlock.rebuild id bMin bMax (cutoff + skin) csf) pos₀ cells)
    (hk : ListsKept bMin bMax skin f.soa pos₀ pos own₀ own cells.flatten)
    (hin : RemInput cells.flatten pb hb) (hhb : ∀ x ∈ hb.flatten, own x = .halo) (soa newton3 : Bool) (a b : P)
    (ha : a ∈ cells.flatten ++ (pb.flatten ++ hb.flatten)) (hb' : b ∈ cells.flatten ++ (pb.flatten ++ hb.flatten)) (hab : a ≠ b)
    (hao : own a = .owned) (hbo : own b ≠ .dummy) (hd : distSq (pos a) (pos b) < cutoff * cutoff) :
    timesReceived (verletListsInteractions pos₀ pos own₀ own (CellBlock.rebuild id bMin bMax (cutoff + skin) csf) cutoff skin f soa newton3
      cells pb hb) a b = 1 :=
  ((verletLists_complete hcut hskin hbox hf hn hh hs hk soa).with_remainder hcut hin hhb newton3).once a ha b hb' hab hao hbo hd

/-- No contribution is received twice, and only stored particles take part. -/
theorem C53_nothing_twice (hcut : 0 ≤ cutoff) (hskin : 0 ≤ skin) (hbox : GoodBox bMin bMax (cutoff + skin) csf)
    (hf : FunctorFor .c08 pos₀ (cutoff + skin) f) (hn : f.newton3 = false) (hh : ∀ p, f.isHalo p = decide (own₀ p = .halo))
    (hs : SortedIn (CellBlock.rebuild id bMin bMax (cutoff + skin) csf) pos₀ cells)
    (hk : ListsKept bMin bMax skin f.soa pos₀ pos own₀ own cells.flatten)
    (hin : RemInput cells.flatten pb hb) (hhb : ∀ x ∈ hb.flatten, own x = .halo) (soa newton3 : Bool) (a b : P) :
    let calls := verletListsInteractions pos₀ pos own₀ own (CellBlock.rebuild id bMin bMax (cutoff + skin) csf) cutoff skin f soa newton3
      cells pb hb
    timesReceived calls a b ≤ 1 ∧ (timesReceived calls a b ≠ 0 →
      a ∈ cells.flatten ++ (pb.flatten ++ hb.flatten) ∧ b ∈ cells.flatten ++ (pb.flatten ++ hb.flatten) ∧ a ≠ b) :=
  have h := (verletLists_complete hcut hskin hbox hf hn hh hs hk soa).with_remainder hcut hin hhb newton3
  ⟨h.most a b, h.mem a b⟩

/-- What the user sees: the sum over all other particles. -/
theorem C53_accumulates_sum {M : Type} [AddCommMonoid M] (hcut : 0 ≤ cutoff) (hskin : 0 ≤ skin)
    (hbox : GoodBox bMin bMax (cutoff + skin) csf)
    (hf : FunctorFor .c08 pos₀ (cutoff + skin) f) (hn : f.newton3 = false) (hh : ∀ p, f.isHalo p = decide (own₀ p = .halo))
    (hs : SortedIn (CellBlock.rebuild id bMin bMax (cutoff + skin) csf) pos₀ cells)
    (hk : ListsKept bMin bMax skin f.soa pos₀ pos own₀ own cells.flatten)
    (hin : RemInput cells.flatten pb hb) (hhb : ∀ x ∈ hb.flatten, own x = .halo) (soa newton3 : Bool) (F : P → P → M)
    (hz : ∀ a b, (own b = .dummy ∨ cutoff * cutoff ≤ distSq (pos a) (pos b)) → F a b = 0) (a : P)
    (ha : a ∈ cells.flatten ++ (pb.flatten ++ hb.flatten)) (hao : own a = .owned) :
    accumulated F (verletListsInteractions pos₀ pos own₀ own (CellBlock.rebuild id bMin bMax (cutoff + skin) csf) cutoff skin f soa newton3
      cells pb hb) a = (((cells.flatten ++ (pb.flatten ++ hb.flatten)).filter fun b => b ≠ a).map (F a)).sum :=
  ((verletLists_complete hcut hskin hbox hf hn hh hs hk soa).with_remainder hcut hin hhb newton3).accumulated hin.nodup F hz a ha hao

end

/-! Non-vacuity: the container of C51; since the lists were built all particles moved by a twentieth and the particle `exOwned2` was deleted;
a particle is in a buffer. -/

private def exF53 (soa : Bool) : CellFunctorCfg Particle :=
  ⟨fun p => p.own = .halo, soa, false, true, 0, 3/4 + 1/4, ⟨1, 1, 1⟩, sortByProjection Particle.pos⟩

private theorem exF53_for (soa : Bool) : FunctorFor .c08 Particle.pos (3/4 + 1/4) (exF53 soa) :=
  ⟨rfl, rfl, fun _ => rfl, sortByProjection_sorted _⟩

private theorem exBox53 : GoodBox ⟨0, 0, 0⟩ ⟨1, 1, 1⟩ (3/4 + 1/4) 1 := by
  have e : (3/4 + 1/4 : Rat) = 1 := by norm_num
  rw [e]; exact exGood

private theorem exRem53 : RemInput exCells.flatten exVecs [[]] := ⟨by decide +kernel, rfl⟩

private def exPos53 (p : Particle) : V3 Rat := ⟨p.pos.x + 1/20, p.pos.y, p.pos.z⟩

private def exOwn53 (p : Particle) : Ownership := if p = exOwned2 then .dummy else p.own

private theorem exKept53 (soaBuild : Bool) : ListsKept ⟨0, 0, 0⟩ ⟨1, 1, 1⟩ (1/4) soaBuild Particle.pos exPos53 Particle.own exOwn53 exCells.flatten := by
  refine ⟨?_, by decide +kernel, fun _ => by decide +kernel⟩
  intro p _
  unfold distSq exPos53
  simp only [add_sub_cancel_left, sub_self]
  norm_num

example (soaBuild soa newton3 : Bool) : timesReceived (verletListsInteractions Particle.pos exPos53 Particle.own exOwn53
    (CellBlock.rebuild id ⟨0, 0, 0⟩ ⟨1, 1, 1⟩ (3/4 + 1/4) 1) (3/4) (1/4) (exF53 soaBuild) soa newton3 exCells exVecs [[]])
    exOwned ⟨5, ⟨1/8, 1/8, 1/8⟩, .owned⟩ = 1 := by
  have h1 : exOwned ∈ exCells.flatten ++ (exVecs.flatten ++ [[]].flatten) := by decide +kernel
  have h2 : (⟨5, ⟨1/8, 1/8, 1/8⟩, .owned⟩ : Particle) ∈ exCells.flatten ++ (exVecs.flatten ++ [[]].flatten) := by decide +kernel
  have h3 : exOwned ≠ (⟨5, ⟨1/8, 1/8, 1/8⟩, .owned⟩ : Particle) := by decide +kernel
  have h4 : exOwn53 exOwned = .owned ∧ exOwn53 ⟨5, ⟨1/8, 1/8, 1/8⟩, .owned⟩ ≠ .dummy := by decide +kernel
  have h5 : distSq (exPos53 exOwned) (exPos53 ⟨5, ⟨1/8, 1/8, 1/8⟩, .owned⟩) < 3/4 * (3/4) := by decide +kernel
  exact C53_every_neighbour_once (by norm_num) (by norm_num) exBox53 (exF53_for soaBuild) rfl (fun _ => rfl) exSortedIn (exKept53 _)
    exRem53 (by simp) soa newton3 _ _ h1 h2 h3 h4.1 h4.2 h5

/-- The lists of that container: the two owned particles are neighbours of each other. -/
example (soaBuild : Bool) : (verletListsBuild Particle.pos Particle.own (CellBlock.rebuild id ⟨0, 0, 0⟩ ⟨1, 1, 1⟩ (3/4 + 1/4) 1) (3/4 + 1/4)
    (exF53 soaBuild) exCells).count (exOwned, exOwned2) = 1 := by
  exact (C53_lists_exact ⟨0, 0, 0⟩ ⟨1, 1, 1⟩ (3/4 + 1/4) 1 (by norm_num) exBox53 Particle.pos Particle.own (exF53 soaBuild)
    exCells exOwned exOwned2 (exF53_for soaBuild) rfl (fun _ => rfl) exSortedIn).1
    (by decide +kernel) (by decide +kernel) (by decide) rfl (by decide +kernel) (fun _ => by decide) (by decide +kernel)

end Verif
