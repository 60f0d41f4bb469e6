import Verif.Spec.ContainerSelector
import Verif.Props.C82
import Verif.Lemmas.OctreeInsert
import Verif.Lemmas.LCStore
import Verif.Props.C25
/-!
# C92 — switching the container keeps all particles

Whatever the type of the container and of the next one, and whatever the parameters: switching does not throw and the new container holds exactly the owned and
halo particles of the old one, for any number of switches.

Partial: the owned particles have to be inside the box and the halo particles outside, and not farther than the interaction length, at the time of the switch.
This is so after `updateContainer`, as long as nothing moves (C27). If a particle moved across the boundary, there is an exception (`C92_violated_moved`),
and with halo particles farther away the octree loses particles (`C92_violated_far_halo`).
-/
namespace Verif
open Spec Octree

variable {S : SelectorCfg} {i : SelectorInfo}

/-- The container holds exactly the particles `l`, all well placed, and is fit for more. -/
def StoreInv (S : SelectorCfg) (i : SelectorInfo) (l : List Particle) : ParticleStore → Prop
  | .cells cells => cells.length = (S.params i).block.numCells ∧ cells.flatten.Perm l
  | .references r => LRInv (S.params i) r ∧ (∀ k, ∀ p ∈ r.look.getD k [], PlaceOk (S.params i) 0 k p) ∧ r.arr.Perm l
  | .directSum cells => cells.length = 7 ∧ cells.flatten.Perm l
  | .octree t => Good (S.il i) Particle.pos t.owned (S.otCfg i).box ∧ Good (S.il i) Particle.pos t.halo (S.otCfg i).haloBox ∧
      (collectAll t.owned ++ collectAll t.halo).Perm l
  | .clusters towers toAdd => towers.flatten = [] ∧ 0 < toAdd.length ∧ toAdd.flatten.Perm l

theorem storeInv_particles {l : List Particle} (hl : ∀ p ∈ l, p.own ≠ .dummy) {st : ParticleStore} (h : StoreInv S i l st) :
    ∃ l', st.particles = some l' ∧ l'.Perm l := by
  have hf : l.filter (fun p => decide (p.own ≠ .dummy)) = l := List.filter_eq_self.2 fun p hp => decide_eq_true (hl p hp)
  have key : ∀ {m : List Particle}, m.Perm l → (m.filter fun p => decide (p.own ≠ .dummy)).Perm l := by
    intro m hm
    rw [← hf]; exact hm.filter _
  cases st with
  | cells cells => exact ⟨_, rfl, key h.2⟩
  | references r =>
    obtain ⟨h1, -, h3⟩ := h
    refine ⟨r.look.flatten.filter fun p => decide (p.own ≠ .dummy), ?_, ?_⟩
    · show r.view.map _ = _
      rw [h1.view]; rfl
    · exact h1.live.trans (key h3)
  | directSum cells => exact ⟨_, rfl, key h.2⟩
  | octree t => exact ⟨_, rfl, key h.2.2⟩
  | clusters towers toAdd =>
    refine ⟨_, rfl, key ?_⟩
    rw [h.1, List.nil_append]
    exact h.2.2

theorem construct_inv (hi : InfoOk S i) (k : ContainerKind) : StoreInv S i [] (S.construct k i) := by
  have hc : StoreInv S i [] (.cells (List.replicate (S.params i).block.numCells [])) := by
    refine ⟨by simp, ?_⟩
    rw [List.flatten_eq_nil_iff.2 (fun l hl => (List.mem_replicate.1 hl).2)]
  have hil : 0 < S.il i := hi.box.ilPos
  cases k with
  | directSum => exact ⟨rfl, List.Perm.refl _⟩
  | linkedCells => exact hc
  | verletLists => exact hc
  | verletListsCells => exact hc
  | pairwiseVerletLists => exact hc
  | varVerletListsAsBuild => exact hc
  | linkedCellsReferences =>
    obtain ⟨h1, h2⟩ := lrInit_inv hi
    refine ⟨h1, fun k p hp => ?_, List.Perm.refl _⟩
    rw [h2 k] at hp; cases hp
  | octree => exact ⟨fun p hp => (by cases hp), fun p hp => (by cases hp), List.Perm.refl _⟩
  | verletClusterLists =>
    have ht : 0 < S.numThreads := hi.threads
    refine ⟨rfl, by simpa using ht, ?_⟩
    rw [List.flatten_eq_nil_iff.2 (fun l hl => (List.mem_replicate.1 hl).2)]

theorem copy_one (hi : InfoOk S i) (hg : ∀ n, n < S.grow n) {l : List Particle} (hl : ∀ q ∈ l, WellPlaced S i q) {st : ParticleStore}
    (h : StoreInv S i l st) {p : Particle} (hp : WellPlaced S i p) :
    ∃ st', (if p.own = .owned then S.add i st p else S.addHalo i st p) = .ok st' ∧ StoreInv S i (p :: l) st' := by
  have hfit : ∀ q, WellPlaced S i q → LRFitting (S.params i) q ∧ q.own ≠ .dummy := by
    rintro q (⟨h1, h2⟩ | ⟨h1, h2, -⟩)
    · exact ⟨(fitting_iff hi q).2 (Or.inl ⟨h1, by rw [inBoxB_iff]; exact decide_eq_true h2⟩), by rw [h1]; decide⟩
    · exact ⟨(fitting_iff hi q).2 (Or.inr ⟨h1, by rw [inBoxB_iff]; exact decide_eq_false h2⟩), by rw [h1]; decide⟩
  have hcons : ∀ {m : List Particle}, m.Perm l → (m ++ [p]).Perm (p :: l) := fun hm => (List.perm_append_singleton _ _).trans (hm.cons _)
  -- the containers with cells, and the one with references, do the same for both kinds
  have hcells : ∀ cells, StoreInv S i l (.cells cells) → StoreInv S i (p :: l) (.cells (lcAdd (S.params i).block cells p)) :=
    fun cells h => ⟨(lcAdd_length _ _ _).trans h.1, (lcAdd_perm hi h.1 p).trans (hcons h.2)⟩
  have hrefs : ∀ r, StoreInv S i l (.references r) → ∃ r', r.add (S.params i) S.grow p = .ok r' ∧ StoreInv S i (p :: l) (.references r') := by
    rintro r ⟨h1, h2, h3⟩
    rcases lrAdd_spec hi hg h1 h2 (hfit p hp).1 (hfit p hp).2 with ⟨⟨q, hq, -, hq2⟩, -⟩ | ⟨r', e1, e2, e3, e4⟩
    · exact absurd (hfit q (hl q (h3.subset hq))).1 hq2
    · exact ⟨r', e1, e3, e4, by rw [e2]; exact hcons h3⟩
  have hclus : ∀ towers toAdd, StoreInv S i l (.clusters towers toAdd) → StoreInv S i (p :: l) (.clusters towers (bufAdd toAdd 0 p)) := by
    rintro towers toAdd ⟨h1, h2, h3⟩
    refine ⟨h1, by unfold bufAdd; simpa using h2, ?_⟩
    unfold bufAdd
    exact (flatten_set_append h2 p).trans (hcons h3)
  rcases hp with ⟨h1, h2⟩ | ⟨h1, h2, h4⟩
  · rw [if_pos h1]
    unfold SelectorCfg.add
    have hb : ¬ inBoxB p.pos S.bMin S.bMax = false := by rw [inBoxB_iff, decide_eq_true h2]; simp
    rw [if_neg hb]
    cases st with
    | cells cells => exact ⟨_, rfl, hcells cells h⟩
    | references r =>
      obtain ⟨r', e, hr⟩ := hrefs r h
      exact ⟨.references r', by simp only [e]; rfl, hr⟩
    | directSum cells =>
      refine ⟨_, rfl, by unfold dsAdd; simpa using h.1, ?_⟩
      unfold dsAdd
      exact (flatten_set_append (by rw [h.1]; decide) p).trans (hcons h.2)
    | octree t =>
      obtain ⟨g1, g2, g3⟩ := h
      obtain ⟨f1, f2⟩ := insert_spec (pos := Particle.pos) (thr := treeSplitThreshold) g1 (show InBox p.pos S.bMin S.bMax from h2)
      refine ⟨_, rfl, f1, g2, ?_⟩
      show (collectAll (insert _ _ _ _ t.owned p) ++ collectAll t.halo).Perm _
      exact (f2.append_right _).trans (g3.cons _)
    | clusters towers toAdd => exact ⟨_, rfl, hclus towers toAdd h⟩
  · rw [if_neg (by rw [h1]; decide)]
    unfold SelectorCfg.addHalo
    have hb : ¬ inBoxB p.pos S.bMin S.bMax = true := by rw [inBoxB_iff, decide_eq_false h2]; simp
    rw [if_neg hb]
    cases st with
    | cells cells => exact ⟨_, rfl, hcells cells h⟩
    | references r =>
      obtain ⟨r', e, hr⟩ := hrefs r h
      exact ⟨.references r', by simp only [e]; rfl, hr⟩
    | directSum cells =>
      have hk : dsCellOf S.bMin S.bMax p.pos ≠ 0 ∧ dsCellOf S.bMin S.bMax p.pos < 7 := by
        unfold dsCellOf
        split_ifs with a1 a2 a3 a4 a5 a6 <;> first | (constructor <;> decide) | skip
        exact absurd ⟨⟨not_lt.1 a1, not_le.1 a2⟩, ⟨not_lt.1 a3, not_le.1 a4⟩, not_lt.1 a5, not_le.1 a6⟩ h2
      refine ⟨_, rfl, ?_, ?_⟩
      · unfold dsAddHalo; dsimp only; rw [if_neg hk.1]; simpa using h.1
      · unfold dsAddHalo; dsimp only; rw [if_neg hk.1]
        exact (flatten_set_append (by rw [h.1]; exact hk.2) p).trans (hcons h.2)
    | octree t =>
      obtain ⟨g1, g2, g3⟩ := h
      obtain ⟨f1, f2⟩ := insert_spec (pos := Particle.pos) (thr := treeSplitThreshold) g2
        (show InBox p.pos (S.otCfg i).haloBox.lo (S.otCfg i).haloBox.hi from by
          have e1 : (S.otCfg i).haloBox.lo = S.bMin.addScalar (-S.il i) := by
            simp [SelectorCfg.otCfg, OTCfg.haloBox, Box.grow, V3.addScalar, sub_eq_add_neg]
          have e2 : (S.otCfg i).haloBox.hi = S.bMax.addScalar (S.il i) := by
            simp [SelectorCfg.otCfg, OTCfg.haloBox, Box.grow, V3.addScalar]
          rw [e1, e2]; exact h4)
      refine ⟨_, rfl, g1, f1, ?_⟩
      show (collectAll t.owned ++ collectAll (insert _ _ _ _ t.halo p)).Perm _
      exact (f2.append_left _).trans (List.perm_middle.trans (g3.cons _))
    | clusters towers toAdd => exact ⟨_, rfl, hclus towers toAdd h⟩

theorem copyAll_inv (hi : InfoOk S i) (hg : ∀ n, n < S.grow n) (ps : List Particle) (hps : ∀ p ∈ ps, WellPlaced S i p) : ∀ {l : List Particle}
    (_ : ∀ q ∈ l, WellPlaced S i q) {st : ParticleStore} (_ : StoreInv S i l st),
    ∃ st', S.copyAll i st ps = .ok st' ∧ StoreInv S i (ps.reverse ++ l) st' := by
  induction ps with
  | nil => intro l _ st h; exact ⟨st, rfl, h⟩
  | cons p ps ih =>
    intro l hl st h
    obtain ⟨st1, e1, h1⟩ := copy_one hi hg hl h (hps p (by simp))
    obtain ⟨st2, e2, h2⟩ := ih (fun q hq => hps q (by simp [hq])) (l := p :: l)
      (fun q hq => by rcases List.mem_cons.1 hq with rfl | hq; exacts [hps _ (by simp), hl q hq]) h1
    refine ⟨st2, ?_, by simpa using h2⟩
    unfold SelectorCfg.copyAll
    rw [e1]; exact e2

/-- One switch, from any container to any other: the new one holds the same particles. -/
theorem C92_switch_partial (hi : InfoOk S i) (hg : ∀ n, n < S.grow n) (k : ContainerKind) {sched : List Particle → List Particle}
    (hs : ∀ l, (sched l).Perm l) {s : CSelector} {l : List Particle} (h : SelectorHolds s l) (hl : ∀ p ∈ l, WellPlaced S i p) :
    ∃ s', s.select S k i sched = .ok s' ∧ s'.current.map Prod.fst = some k ∧ SelectorHolds s' l := by
  obtain ⟨k0, st, l', hc, hp, hpm⟩ := h
  unfold CSelector.select
  by_cases hsame : (decide (s.current.map Prod.fst = some k) && s.info.same i) = true
  · rw [if_pos hsame]
    rw [Bool.and_eq_true, decide_eq_true_eq] at hsame
    exact ⟨s, rfl, hsame.1, k0, st, l', hc, hp, hpm⟩
  · rw [if_neg hsame]
    unfold SelectorCfg.generate
    rw [hc]
    dsimp only
    rw [hp]
    dsimp only
    obtain ⟨st', e, h'⟩ := copyAll_inv hi hg (sched l') (fun p hq => hl p (hpm.subset ((hs l').subset hq))) (l := []) (by simp) (construct_inv hi k)
    rw [e]
    have hperm : (sched l').Perm l := (hs l').trans hpm
    obtain ⟨l2, e2, p2⟩ := storeInv_particles (l := (sched l').reverse ++ []) (fun q hq => by
      rw [List.append_nil, List.mem_reverse] at hq
      rcases hl q (hperm.subset hq) with ⟨h1, -⟩ | ⟨h1, -⟩ <;> rw [h1] <;> decide) h'
    refine ⟨_, rfl, rfl, k, st', l2, rfl, e2, p2.trans ?_⟩
    rw [List.append_nil]
    exact (List.reverse_perm _).trans hperm

/-- The container that is used after a switch is the requested one, and the parameters are recorded: the container is kept only if kind, cell size factor, skin, cluster
size and load estimator are the requested ones, otherwise it is built anew with the requested parameters. -/
theorem C92_parameters (k : ContainerKind) {sched : List Particle → List Particle} {s s' : CSelector} (he : s.select S k i sched = .ok s') :
    s'.current.map Prod.fst = some k ∧
    (s'.info.cellSizeFactor, s'.info.skinPerTimestep, s'.info.clusterSize, s'.info.loadEstimator) =
      (i.cellSizeFactor, i.skinPerTimestep, i.clusterSize, i.loadEstimator) ∧
    (s' = s ∨ (s'.info = i ∧ ∃ st, S.generate k i sched s.current = .ok st ∧ s'.current = some (k, st))) := by
  unfold CSelector.select at he
  split at he
  next hsame =>
    cases he
    rw [Bool.and_eq_true, decide_eq_true_eq] at hsame
    obtain ⟨h1, h2⟩ := hsame
    unfold SelectorInfo.same at h2
    simp only [Bool.and_eq_true, decide_eq_true_eq] at h2
    obtain ⟨⟨⟨a, b⟩, c⟩, d⟩ := h2
    exact ⟨h1, by rw [a, b, c, d], Or.inl rfl⟩
  · cases hg : S.generate k i sched s.current with
    | ok st =>
      rw [hg] at he
      cases he
      exact ⟨rfl, rfl, Or.inr ⟨rfl, st, rfl, rfl⟩⟩
    | throws => rw [hg] at he; cases he
    | ub => rw [hg] at he; cases he
    | diverges => rw [hg] at he; cases he

/-- Any number of switches. -/
theorem C92_switches_partial (hg : ∀ n, n < S.grow n) (as : List (ContainerKind × SelectorInfo × (List Particle → List Particle)))
    (hs : ∀ a ∈ as, ∀ l, (a.2.2 l).Perm l) {s : CSelector} {l : List Particle} (h : SelectorHolds s l)
    (hl : ∀ a ∈ as, InfoOk S a.2.1 ∧ ∀ p ∈ l, WellPlaced S a.2.1 p) :
    ∃ s', s.run S as = .ok s' ∧ SelectorHolds s' l ∧ ∀ a, as.getLast? = some a → s'.current.map Prod.fst = some a.1 := by
  induction as generalizing s with
  | nil => exact ⟨s, rfl, h, fun a ha => by simp at ha⟩
  | cons a as ih =>
    obtain ⟨s1, e1, k1, h1⟩ := C92_switch_partial (hl a (by simp)).1 hg a.1 (hs a (by simp)) h (hl a (by simp)).2
    obtain ⟨s2, e2, h2, k2⟩ := ih (fun b hb => hs b (by simp [hb])) h1 (fun b hb => hl b (by simp [hb]))
    refine ⟨s2, ?_, h2, fun b hb => ?_⟩
    · unfold CSelector.run; rw [e1]; exact e2
    · cases as with
      | nil =>
        simp only [List.getLast?_singleton, Option.some.injEq] at hb
        subst hb
        unfold CSelector.run at e2
        injection e2 with e2
        subst e2; exact k1
      | cons c as => exact k2 b (by simpa [List.getLast?_cons_cons] using hb)

/-! ### During a simulation -/

/-- Not a movement of particles. -/
def standsStill : LHAction → Bool
  | .move _ => false
  | _ => true

theorem wanted_inside {c : LHParams} (rest : List LHAction) (hr : ∀ a ∈ rest, standsStill a = true) (L : List Particle)
    (hL : ∀ p ∈ L, InBox p.pos c.bMin c.bMax) : ∀ p ∈ (wantedRun c L rest).1, InBox p.pos c.bMin c.bMax := by
  induction rest generalizing L with
  | nil => exact hL
  | cons a rest ih =>
    refine ih (fun b hb => hr b (by simp [hb])) _ ?_
    have ha := hr a (by simp)
    cases a with
    | move f => cases ha
    | add t p =>
      intro q hq
      unfold wantedStep at hq
      dsimp only at hq
      split at hq
      · rename_i h
        rcases List.mem_append.1 hq with hq | hq
        · exact hL q hq
        · rw [List.mem_singleton.1 hq]; exact h
      · exact hL q hq
    | addHalo t p => exact hL
    | delete b d =>
      intro q hq
      unfold wantedStep at hq
      dsimp only at hq
      split at hq
      · exact hL q (List.mem_of_mem_filter hq)
      · exact hL q hq
    | update e o => exact fun q hq => hL q (List.mem_of_mem_filter hq)
    | compute => exact hL
    | deleteAll => exact fun q hq => by cases hq

theorem wantedRun_append (c : LHParams) (h1 h2 : List LHAction) (L : List Particle) : (wantedRun c L (h1 ++ h2)).1 = (wantedRun c (wantedRun c L h1).1 h2).1 := by
  induction h1 generalizing L with
  | nil => rfl
  | cons a h1 ih => exact ih _

/-- In every history in which nothing moved since the last `updateContainer`, LinkedCells can be replaced by any container: no exception, and the particles
are those that were stored. The halo particles have to be in the halo of the new container. -/
theorem C92_during_simulation_partial (hi : InfoOk S i) (hg : ∀ n, n < S.grow n) {i0 : SelectorInfo} {h rest : List LHAction} {e : Bool}
    {order : List ((V3 Rat × V3 Rat) × Nat)} (H : GoodHistory (S.params i0) (h ++ .update e order :: rest)) (hrest : ∀ a ∈ rest, standsStill a = true)
    {s : LHState} {outs : List (List Particle)} (hr : lhRun (S.params i0) (LHState.init (S.params i0)) (h ++ .update e order :: rest) = some (s, outs))
    (hhalo : ∀ p ∈ s.cells.flatten, p.own = .halo → InBox p.pos (S.bMin.addScalar (-S.il i)) (S.bMax.addScalar (S.il i)))
    (k0 k : ContainerKind) {sched : List Particle → List Particle} (hs : ∀ l, (sched l).Perm l) :
    ∃ s', (⟨some (k0, .cells s.cells), i0⟩ : CSelector).select S k i sched = .ok s' ∧ s'.current.map Prod.fst = some k ∧
      SelectorHolds s' (s.cells.flatten.filter fun p => p.own ≠ .dummy) := by
  obtain ⟨s0, outs', h1, ⟨mv, h2⟩, h3, -⟩ := lhRun_spec H.params _ (init_inv (S.params i0)) (by have := H.short; omega) H.obligations
  rw [hr] at h1
  simp only [Option.some.injEq, Prod.mk.injEq] at h1
  obtain ⟨rfl, -⟩ := h1
  refine C92_switch_partial hi hg k hs ⟨k0, _, _, rfl, rfl, List.Perm.refl _⟩ fun p hp => ?_
  rw [List.mem_filter, decide_eq_true_eq] at hp
  obtain ⟨hp, hnd⟩ := hp
  cases hown : p.own with
  | dummy => exact absurd hown hnd
  | owned =>
    left
    refine ⟨hown, ?_⟩
    have hmem : p ∈ ownedOf s := by
      unfold ownedOf
      rw [List.mem_filter]
      exact ⟨by simp [hp], decide_eq_true hown⟩
    have := h3.subset hmem
    rw [ownedOf_init, wantedRun_append] at this
    refine wanted_inside (c := S.params i0) rest hrest _ ?_ p this
    intro q hq
    have := List.of_mem_filter hq
    simpa using this
  | halo =>
    right
    refine ⟨hown, ?_, hhalo p hp hown⟩
    obtain ⟨l, hl, hpl⟩ := List.mem_flatten.1 hp
    obtain ⟨n, hn, rfl⟩ := List.mem_iff_getElem.1 hl
    have := (h2.place n p (by rw [List.getD_eq_getElem _ _ hn]; exact hpl)).haloOut hown
    rw [inBoxB_iff, decide_eq_false_iff_not] at this
    exact this

/-! ### Violations -/

/-- An owned particle moved out of the box since the last `updateContainer`: the switch throws, whatever the new container. -/
theorem C92_violated_moved {k0 k : ContainerKind} (hk : k0 ≠ k) {st : ParticleStore} {l : List Particle} (hp : st.particles = some l) {info : SelectorInfo} {p : Particle}
    (hm : l = [p]) (ho : p.own = .owned) (hout : ¬ InBox p.pos S.bMin S.bMax) :
    (⟨some (k0, st), info⟩ : CSelector).select S k i id = .throws := by
  unfold CSelector.select
  rw [if_neg (by simp [hk])]
  unfold SelectorCfg.generate
  dsimp only
  rw [hp]
  dsimp only
  rw [hm, id]
  unfold SelectorCfg.copyAll
  rw [if_pos ho]
  unfold SelectorCfg.add
  rw [if_pos (by rw [inBoxB_iff, decide_eq_false hout])]
  rfl

private def farCfg : SelectorCfg := ⟨⟨0, 0, 0⟩, ⟨10, 10, 10⟩, 9/10, 2, fun n => 2 * n + 1⟩
private def farInfo : SelectorInfo := ⟨1, 1/100, 10, 4, 0⟩
private def farP : Particle := ⟨99, ⟨-50, 1, 1⟩, .halo⟩
private def farAll : List Particle := farP :: (List.range 16).map fun i => ⟨i, ⟨(i : Rat) / 2, 1, -1/2⟩, .halo⟩
private def farSel : CSelector := ⟨some (.directSum, .directSum [[], farAll, [], [], [], [], []]), farInfo⟩
private def farLost (o : Outcome CSelector) : Bool :=
  match o with
  | .ok ⟨some (_, st), _⟩ => match st.particles with
    | some l => decide (farP ∉ l)
    | none => false
  | _ => false

/-- A halo particle farther away than the interaction length, which `addHaloParticle` accepts, gets lost on the way from DirectSum to the octree
if the tree of the halo particles is divided. -/
theorem C92_violated_far_halo : ∃ (S : SelectorCfg) (i : SelectorInfo) (s s' : CSelector) (l l' : List Particle) (p : Particle), InfoOk S i ∧
    (∀ q ∈ l, q.own = .halo ∧ ¬ InBox q.pos S.bMin S.bMax) ∧
    SelectorHolds s l ∧ p ∈ l ∧ s.select S .octree i id = .ok s' ∧ SelectorHolds s' l' ∧ p ∉ l' := by
  have hl : farLost (farSel.select farCfg .octree farInfo id) = true := by decide +kernel
  have hok : InfoOk farCfg farInfo :=
    ⟨⟨by decide +kernel, by decide +kernel, by decide +kernel, by decide +kernel, by decide +kernel⟩, by decide +kernel, by decide +kernel,
      by decide +kernel, by decide +kernel⟩
  have hall : ∀ q ∈ farAll, q.own = .halo ∧ ¬ InBox q.pos farCfg.bMin farCfg.bMax := by decide +kernel
  cases hs : farSel.select farCfg .octree farInfo id with
  | ok s' =>
    rw [hs] at hl
    obtain ⟨cur, inf⟩ := s'
    cases cur with
    | none => cases hl
    | some kst =>
      obtain ⟨k, st⟩ := kst
      cases hp : st.particles with
      | none => simp [farLost, hp] at hl
      | some l' =>
        simp only [farLost, hp, decide_eq_true_eq] at hl
        exact ⟨farCfg, farInfo, farSel, _, farAll, l', farP, hok, hall, ⟨_, _, _, rfl, rfl, List.Perm.of_eq (by decide +kernel)⟩,
          List.mem_cons_self .., hs, ⟨_, _, _, rfl, hp, List.Perm.refl _⟩, hl⟩
  | throws => rw [hs] at hl; cases hl
  | ub => rw [hs] at hl; cases hl
  | diverges => rw [hs] at hl; cases hl

/-! ### Non-vacuity -/

private def exSel : SelectorCfg := ⟨⟨0, 0, 0⟩, ⟨10, 10, 10⟩, 9/10, 2, fun n => 2 * n + 1⟩
private def exInfo : SelectorInfo := ⟨1, 1/100, 10, 4, 0⟩
private theorem exInfo_ok : InfoOk exSel exInfo :=
  ⟨⟨by decide +kernel, by decide +kernel, by decide +kernel, by decide +kernel, by decide +kernel⟩, by decide +kernel, by decide +kernel,
    by decide +kernel, by decide +kernel⟩
private def exOwnedP : Particle := ⟨1, ⟨19/2, 5, 5⟩, .owned⟩
private def exHaloP : Particle := ⟨2, ⟨-1/2, 5, 5⟩, .halo⟩
private def exGone : Particle := ⟨3, ⟨5, 5, 5⟩, .dummy⟩

private theorem ex_placed : ∀ p ∈ [exOwnedP, exHaloP], WellPlaced exSel exInfo p := by
  intro p hp
  rcases List.mem_cons.1 hp with rfl | hp
  · exact Or.inl ⟨rfl, by decide +kernel⟩
  · rw [List.mem_singleton.1 hp]; exact Or.inr ⟨rfl, by decide +kernel, by decide +kernel⟩

/-- From DirectSum over the octree and VerletClusterLists to linked cells; the dummy is not copied. -/
example : ∃ s', (⟨some (.directSum, .directSum [[exOwnedP, exGone], [exHaloP], [], [], [], [], []]), exInfo⟩ : CSelector).run exSel
      [(.octree, exInfo, List.reverse), (.verletClusterLists, exInfo, id), (.linkedCellsReferences, exInfo, id), (.verletLists, exInfo, id)] = .ok s' ∧
    SelectorHolds s' [exOwnedP, exHaloP] ∧ s'.current.map Prod.fst = some .verletLists := by
  obtain ⟨s', e, h, hk⟩ := C92_switches_partial (S := exSel) (fun n => by show n < 2 * n + 1; omega)
    [(.octree, exInfo, List.reverse), (.verletClusterLists, exInfo, id), (.linkedCellsReferences, exInfo, id), (.verletLists, exInfo, id)]
    (by
      intro a ha l
      simp only [List.mem_cons, List.not_mem_nil, or_false] at ha
      rcases ha with rfl | rfl | rfl | rfl
      · exact List.reverse_perm l
      all_goals exact List.Perm.refl _)
    (s := ⟨some (.directSum, .directSum [[exOwnedP, exGone], [exHaloP], [], [], [], [], []]), exInfo⟩) (l := [exOwnedP, exHaloP])
    ⟨_, _, _, rfl, rfl, List.Perm.of_eq (by decide +kernel)⟩
    (by
      intro a ha
      simp only [List.mem_cons, List.not_mem_nil, or_false] at ha
      rcases ha with rfl | rfl | rfl | rfl <;> exact ⟨exInfo_ok, ex_placed⟩)
  exact ⟨s', e, h, hk _ rfl⟩

example : (⟨some (.linkedCells, .cells [[⟨1, ⟨21/2, 5, 5⟩, .owned⟩]]), exInfo⟩ : CSelector).select exSel .octree exInfo id = .throws :=
  C92_violated_moved (by decide) rfl rfl rfl (by decide +kernel)

private def unitSel : SelectorCfg := ⟨⟨0, 0, 0⟩, ⟨1, 1, 1⟩, 1/2, 2, fun n => 2 * n + 1⟩
private def unitInfo : SelectorInfo := ⟨1, 1/10, 5, 4, 0⟩
private theorem unit_params : unitSel.params unitInfo = exParams := by
  have : unitSel.il unitInfo = 1 := by decide +kernel
  unfold SelectorCfg.params
  rw [this]; rfl

private theorem purge_none (v : Particle → Fate) : purge v [] 0 = ([], []) := by
  unfold purge; simp

private theorem rebuild_empty (c : LHParams) (n : Nat) : lcUpdateRebuild c (List.replicate n []) = (List.replicate n [], []) := by
  have h1 : lcClearHalo c.block (List.replicate n []) = List.replicate n [] := by
    unfold lcClearHalo
    rw [List.eq_replicate_iff]
    refine ⟨by simp, fun l hl => ?_⟩
    obtain ⟨k, hk, rfl⟩ := List.mem_map.1 hl
    have h0 : (fun i => (List.replicate n ([] : List Particle)).getD i []) = fun _ => [] := by funext i; simp [List.getD_replicate]
    rw [h0]
    unfold clearHaloCells
    generalize clearHaloIndices c.block.dims c.block.x.cpil = is
    have : ∀ is : List Nat, is.foldl (fun (cs : Nat → List Particle) index => fun i => if i = index then [] else cs i) (fun _ => []) = fun _ => [] := by
      intro is
      induction is with
      | nil => rfl
      | cons a is ih =>
        rw [List.foldl_cons]
        have : (fun i => if i = a then ([] : List Particle) else []) = fun _ => [] := by funext i; simp
        rw [this]; exact ih
    exact congrFun (this is) k
  unfold lcUpdateRebuild
  dsimp only
  rw [h1]
  have h2 : ((List.range (List.replicate n ([] : List Particle)).length).map fun k =>
      purge (cellVerdict c.block k) (((List.replicate n ([] : List Particle)).getD k []).filter fun p => decide (p.own ≠ .dummy)) 0) =
      List.replicate n ([], []) := by
    rw [List.eq_replicate_iff]
    refine ⟨by simp, fun l hl => ?_⟩
    obtain ⟨k, hk, rfl⟩ := List.mem_map.1 hl
    have : (List.replicate n ([] : List Particle)).getD k [] = [] := by simp [List.getD_replicate]
    rw [this]
    exact purge_none _
  rw [h2]
  have h3 : (List.replicate n (([], []) : List Particle × List Particle)).flatMap Prod.snd = [] := by
    rw [List.flatMap_eq_nil_iff]
    intro x hx
    rw [(List.mem_replicate.1 hx).2]
  rw [h3]
  simp

private def restActs : List LHAction := [.add 0 ⟨1, ⟨19/20, 1/2, 1/2⟩, .owned⟩, .add 1 ⟨2, ⟨1/4, 1/2, 1/2⟩, .owned⟩, .compute]

private theorem unit_good : GoodHistory exParams ([] ++ .update true exOrder :: restActs) :=
  ⟨exParams_ok, ⟨List.Perm.refl _, fun r5 _ => ⟨(by decide : 0 < 2), fun r6 _ => ⟨(by decide : 1 < 2), fun r7 _ => ⟨trivial, fun _ _ => trivial⟩⟩⟩⟩, by decide⟩

private theorem update_init : lhStep exParams (LHState.init exParams) (.update true exOrder) = some (LHState.init exParams, []) := by
  have hv : listsStillValid exParams (LHState.init exParams) true = false := by decide +kernel
  have hb : (LHState.init exParams).bump false = LHState.init exParams := rfl
  unfold lhStep
  dsimp only
  unfold LHState.updateContainer
  dsimp only
  rw [hv, hb]
  have h1 : bufsToContainer exParams (LHState.init exParams).cells (LHState.init exParams).bufs.flatten = ((LHState.init exParams).cells, []) := rfl
  rw [h1, show lcUpdateRebuild exParams (LHState.init exParams).cells = ((LHState.init exParams).cells, []) from rebuild_empty _ _]
  rfl

/-- An update, two particles, a force calculation; then the container can be replaced by every other one. -/
example (k : ContainerKind) : ∃ s outs s', lhRun exParams (LHState.init exParams) ([] ++ .update true exOrder :: restActs) = some (s, outs) ∧
    (⟨some (.linkedCells, .cells s.cells), unitInfo⟩ : CSelector).select unitSel k unitInfo id = .ok s' ∧
    s'.current.map Prod.fst = some k ∧ SelectorHolds s' [⟨1, ⟨19/20, 1/2, 1/2⟩, .owned⟩, ⟨2, ⟨1/4, 1/2, 1/2⟩, .owned⟩] := by
  have hg : GoodHistory (unitSel.params unitInfo) ([] ++ .update true exOrder :: restActs) := by
    rw [unit_params]; exact unit_good
  obtain ⟨s, outs, h1, -, -⟩ := C25_particles_conserved unit_good
  have hrun : lhRun exParams (LHState.init exParams) ([] ++ .update true exOrder :: restActs) =
      (lhRun exParams (LHState.init exParams) restActs).map fun r => (r.1, [] :: r.2) := by
    show lhRun exParams (LHState.init exParams) (.update true exOrder :: restActs) = _
    rw [lhRun, update_init]
  have hh : (lhRun exParams (LHState.init exParams) restActs).all (fun r =>
      decide (r.1.cells.flatten = [⟨1, ⟨19/20, 1/2, 1/2⟩, .owned⟩, ⟨2, ⟨1/4, 1/2, 1/2⟩, .owned⟩])) = true := by
    decide +kernel
  have h1' := h1
  rw [hrun] at h1'
  obtain ⟨r, hr, he⟩ := Option.map_eq_some_iff.1 h1'
  rw [hr] at hh
  have hc : s.cells.flatten = [⟨1, ⟨19/20, 1/2, 1/2⟩, .owned⟩, ⟨2, ⟨1/4, 1/2, 1/2⟩, .owned⟩] := by
    have := congrArg Prod.fst he
    dsimp only at this
    rw [← this]
    simpa using hh
  obtain ⟨s', e1, e2, e3⟩ := C92_during_simulation_partial (S := unitSel) (i := unitInfo) (by unfold InfoOk; rw [unit_params]; exact exParams_ok)
    (fun n => by show n < 2 * n + 1; omega) hg (by decide) (by rw [unit_params]; exact h1)
    (fun p hp hpo => by
      rw [hc] at hp
      simp only [List.mem_cons, List.not_mem_nil, or_false] at hp
      rcases hp with rfl | rfl <;> cases hpo) .linkedCells k (sched := id) (fun l => List.Perm.refl _)
  rw [hc] at e3
  exact ⟨s, outs, s', h1, e1, e2, e3⟩

end Verif
