import Verif.Props.C86
import Verif.Spec.MDRun
/-!
# C87 — a parallel run of md-flexible keeps track of all particles

However long the simulation runs, however the particles move (by less than a domain width per step), whatever loads are reported at the load balancing
steps: no rank throws, no particle is lost or duplicated, every particle is always stored by the one rank whose local box it is in, and after the halo
exchange of every iteration every rank sees exactly the periodic images within reach.

Partial: as for C84, C85 and C86.
-/
namespace Verif
open Spec

variable {D : RGD} {wr : Wrap} {δ : Rat}

theorem inBoxB_eq_decide (p lo hi : V3 Rat) : inBoxB p lo hi = decide (InBox p lo hi) := by
  by_cases h : InBox p lo hi
  · rw [decide_eq_true h]; exact inBoxB_at.2 (inBox_iff_at.1 h)
  · rw [decide_eq_false h]
    exact Bool.eq_false_iff.2 fun hb => h (inBox_iff_at.2 (inBoxB_at.1 hb))

theorem mdKept_perm (D D' : RGD) (moved : V3 Nat → List Particle) (r : V3 Nat) :
    (mdKept D D' moved r).Perm ((moved r).filter fun p => inBoxB p.pos (D'.lo r) (D'.hi r)) := by
  unfold mdKept
  dsimp only
  rw [← List.filter_append]
  exact (List.filter_append_perm _ _).filter _

theorem mdEmigrants_perm (D D' : RGD) (moved : V3 Nat → List Particle) (r : V3 Nat) :
    (mdEmigrants D D' moved r).Perm ((moved r).filter fun p => !inBoxB p.pos (D'.lo r) (D'.hi r)) := by
  unfold mdEmigrants
  dsimp only
  rw [← List.filter_append]
  exact (List.perm_append_comm.trans (List.filter_append_perm _ _)).filter _

theorem allRanks_ok {α : Type} {dec : V3 Nat} {f : V3 Nat → Outcome α} {dflt : α} {g : V3 Nat → α}
    (h : ∀ r ∈ ranks dec, f r = .ok (g r)) : ∃ g', allRanks dec f dflt = .ok g' ∧ ∀ r ∈ ranks dec, g' r = g r := by
  unfold allRanks
  rw [if_pos (List.all_eq_true.2 fun r hr => by rw [h r hr])]
  refine ⟨_, rfl, fun r hr => ?_⟩
  rw [h r hr]

/-- Fields that are the same for all states of a run. -/
theorem sameGrid_fields {D D' : RGD} (h : SameGrid D D') : D'.gMin = D.gMin ∧ D'.gMax = D.gMax ∧ D'.dec = D.dec ∧ D'.boundary = D.boundary ∧
    D'.cutoff = D.cutoff ∧ D'.skin = D.skin := by
  unfold SameGrid at h; rw [h]; exact ⟨rfl, rfl, rfl, rfl, rfl, rfl⟩

theorem sameGrid_reach {D D' : RGD} (h : SameGrid D D') : reach D' = reach D := by
  obtain ⟨-, -, -, -, e, f⟩ := (sameGrid_fields h)
  unfold reach; rw [e, f]

theorem sameGrid_isRank {D D' : RGD} (h : SameGrid D D') {r : V3 Nat} : IsRank D' r ↔ IsRank D r := by
  obtain ⟨-, -, e, -⟩ := (sameGrid_fields h)
  unfold IsRank; rw [e]

/-- The new boxes: with or without load balancing. -/
theorem update_spec (hset : GoodSetup D wr δ) {D1 : RGD} (hsame : SameGrid D D1) {cut : Axis → Nat → Rat} (ht : Tiling D1 cut (2 * reach D))
    {inp : MDInput} (hin : GoodInput D δ inp) :
    ∃ (D' : RGD) (cut' : Axis → Nat → Rat), D1.update inp.balance = .ok D' ∧ SameGrid D D' ∧ Tiling D' cut' (2 * reach D) ∧
      ∀ r, IsRank D r → ∀ (d : Axis) x, (D1.lo r).at d - δ ≤ x → x < (D1.hi r).at d + δ → NotFar D' cut' δ r d x := by
  obtain ⟨f1, f2, f3, f4, f5, f6⟩ := (sameGrid_fields hsame)
  have hre := sameGrid_reach hsame
  have hmw : D1.minWidth = 2 * reach D := by rw [← hre]; rfl
  have hpos : 0 < reach D := by have := hset.cutoff; have := hset.skin; unfold reach; linarith
  have hδ : δ ≤ 2 * reach D := by
    have := hset.slow .x
    have hM : 0 ≤ 1 / 2 ^ 53 * max |D.gMin.at .x| |D.gMax.at .x| := by positivity
    linarith
  cases hb : inp.balance with
  | none =>
    refine ⟨D1, cut, rfl, hsame, ht, fun r hr d x h1 h2 => notFar_of_close ht hδ ((sameGrid_isRank hsame).2 hr) h1 h2⟩
  | some work =>
    rw [← hmw] at ht
    obtain ⟨cut', D2, e1, e2, e3, e4⟩ := C86_balance_keeps_tiling_partial (work := work) ht (by rw [hmw]; linarith)
      (by intro d; rw [hmw, f1, f2]; have := hset.near d; linarith)
      (fun r hr => hin.load work hb r ((sameGrid_isRank hsame).1 hr))
    let D3 : RGD := { D1 with lo := fun r => ((D1.balanceBox work r).getD (D1.lo r, D1.hi r)).1, hi := fun r => ((D1.balanceBox work r).getD (D1.lo r, D1.hi r)).2 }
    have hlo : ∀ r, IsRank D1 r → D3.lo r = D2.lo r := fun r hr => by
      show ((D1.balanceBox work r).getD _).1 = _; rw [e2 r hr]; rfl
    have hhi : ∀ r, IsRank D1 r → D3.hi r = D2.hi r := fun r hr => by
      show ((D1.balanceBox work r).getD _).2 = _; rw [e2 r hr]; rfl
    obtain ⟨g1, g2, g3, -⟩ := sameGrid_fields e1
    have ht3 : Tiling D3 cut' D1.minWidth := by
      refine ⟨fun d => ?_, fun d => ?_, fun d => ?_, fun d i hi => ?_, fun r hr d => ?_, fun r hr d => ?_⟩
      · have := e3.pos d; rwa [g3] at this
      · have := e3.first d; rwa [g1] at this
      · have := e3.last d; rwa [g2, g3] at this
      · exact e3.wide d i (by rw [g3]; exact hi)
      · rw [hlo r hr]; exact e3.lo r ((sameGrid_isRank e1).2 hr) d
      · rw [hhi r hr]; exact e3.hi r ((sameGrid_isRank e1).2 hr) d
    refine ⟨D3, cut', ?_, ?_, by rw [← hmw]; exact ht3, fun r hr d x h1 h2 => ?_⟩
    · unfold RGD.update
      dsimp only
      rw [if_pos (List.all_eq_true.2 fun r hr => by rw [e2 r (mem_ranks.1 hr)]; rfl)]
    · unfold SameGrid at hsame ⊢
      show D3 = _
      have : D1 = { D with lo := D1.lo, hi := D1.hi } := hsame
      show { D1 with lo := D3.lo, hi := D3.hi } = _
      rw [this]
    · exact C86_particles_stay_close D1 D3 cut cut' δ rfl ht (by rw [hmw]; exact hδ) e4 ht3 r ((sameGrid_isRank hsame).2 hr) d x h1 h2

/-- One iteration. -/
theorem C87_step_partial (hset : GoodSetup D wr δ) {st : MDState} (hst : InPlace D st) {inp : MDInput} (hin : GoodInput D δ inp) :
    ∃ st' halo, mdStep wr st inp = .ok (st', halo) ∧ InPlace D st' ∧
      ((ranks D.dec).flatMap st'.own).Perm (((ranks D.dec).flatMap (inp.move st.own)).map (rewrap D wr)) ∧
      ∀ r, IsRank D r → (halo r).Perm ((((ranks D.dec).flatMap st'.own).flatMap (imagesOf D)).filter fun q =>
        decide (InReach st'.D r q.pos ∧ ¬ InBox q.pos (st'.D.lo r) (st'.D.hi r))) := by
  obtain ⟨hsame, ⟨cut, ht⟩, hown⟩ := hst
  obtain ⟨D', cut', hup, hsame', ht', hfar⟩ := update_spec hset hsame ht hin
  obtain ⟨f1, f2, f3, f4, f5, f6⟩ := (sameGrid_fields hsame)
  obtain ⟨f1', f2', f3', f4', f5', f6'⟩ := (sameGrid_fields hsame')
  have hre' := sameGrid_reach hsame'
  have hpos : 0 < reach D := by have := hset.cutoff; have := hset.skin; unfold reach; linarith
  have hw2 : 0 ≤ 2 * reach D := by linarith
  have hglob : ∀ r, IsRank D r → ∀ p ∈ st.own r, InBox p.pos D.gMin D.gMax := fun r hr p hp => inBox_iff_at.2 fun d => by
    have := box_in_global ht hw2 ((sameGrid_isRank hsame).2 hr) (hown r hr p hp) d
    rwa [f1, f2] at this
  set moved := inp.move st.own with hmoved
  -- where the particles are
  have hmove : ∀ r, IsRank D r → ∀ p ∈ moved r, ∀ d : Axis, (st.D.lo r).at d - δ ≤ p.pos.at d ∧ p.pos.at d < (st.D.hi r).at d + δ := by
    intro r hr p hp d
    have hall := hin.small st.own r
    obtain ⟨q, hq, hm⟩ : ∃ q ∈ st.own r, MovesBy δ q p := by
      rw [← hmoved] at hall
      clear_value moved
      generalize st.own r = l at hall
      generalize moved r = l' at hall hp
      induction hall with
      | nil => cases hp
      | cons hab _ ih =>
        rcases List.mem_cons.1 hp with rfl | hp
        · exact ⟨_, List.mem_cons_self, hab⟩
        · obtain ⟨q, hq, hm⟩ := ih hp
          exact ⟨q, List.mem_cons_of_mem _ hq, hm⟩
    have h1 := inBox_iff_at.1 (hown r hr q hq) d
    have h2 := abs_le.1 (hm.2 d)
    constructor <;> linarith [h1.1, h1.2, h2.1, h2.2]
  -- the emigrants
  have hem : Emigrants D' cut' δ (mdEmigrants st.D D' moved) := by
    have hmem : ∀ r p, p ∈ mdEmigrants st.D D' moved r → p ∈ moved r ∧ inBoxB p.pos (D'.lo r) (D'.hi r) = false := by
      intro r p hp
      rw [(mdEmigrants_perm _ _ _ _).mem_iff, List.mem_filter, Bool.not_eq_true'] at hp
      exact hp
    refine ⟨fun r hr p hp hbox => ?_, fun r hr p hp d => ?_, fun r hr p hp d hb => ?_⟩
    · have := (hmem r p hp).2
      rw [inBoxB_at.2 (inBox_iff_at.1 hbox)] at this
      cases this
    · have := hmove r ((sameGrid_isRank hsame').1 hr) p (hmem r p hp).1 d
      exact hfar r ((sameGrid_isRank hsame').1 hr) d _ this.1 this.2
    · rw [f1', f2']
      rw [f4'] at hb
      have hr' := (sameGrid_isRank hsame').1 hr
      exact hin.inside st.own r hr' (hglob r hr') p (hmem r p hp).1 d hb
  have hwr : WrapOk D' cut' wr := by
    refine ⟨hset.rounding, fun d => by rw [f2']; exact hset.inside_lt d, fun d i hi => ?_⟩
    have h1 := cut_mono ht' hw2 (d := d) (show i ≤ D'.dec.at d - 1 by omega) (by omega)
    have h2 := ht'.wide d (D'.dec.at d - 1) (by omega)
    rw [show D'.dec.at d - 1 + 1 = D'.dec.at d by omega, ht'.last, f2'] at h2
    have := hset.inside_ge d
    linarith
  obtain ⟨added, ha, hperm⟩ := C85_migration_partial (em := mdEmigrants st.D D' moved) ht'
    (by intro d; rw [f1', f2']; have := hset.near d; linarith) hwr hset.nonneg (by intro d; rw [f1', f2']; exact hset.slow d) hem
  obtain ⟨added', hok, heq⟩ := allRanks_ok (dec := D'.dec) (f := D'.exchangeMigrating wr (mdEmigrants st.D D' moved)) (dflt := []) (g := added)
    (fun r hr => (ha r (mem_ranks.1 hr)).1)
  -- the new owned particles
  let own' : V3 Nat → List Particle := fun r => mdKept st.D D' moved r ++ added' r
  have hkept : ∀ r p, p ∈ mdKept st.D D' moved r → InBox p.pos (D'.lo r) (D'.hi r) := by
    intro r p hp
    rw [(mdKept_perm _ _ _ _).mem_iff, List.mem_filter] at hp
    exact inBox_iff_at.2 (inBoxB_at.1 hp.2)
  have hhouse : Housed D' own' := by
    intro r hr p hp
    rcases List.mem_append.1 hp with hp | hp
    · exact hkept r p hp
    · rw [heq r (mem_ranks.2 hr)] at hp; exact (ha r hr).2 p hp
  have hbox : (ranks D'.dec).all D'.boxAccepted = true := by
    refine List.all_eq_true.2 fun r hr => ?_
    have hr := mem_ranks.1 hr
    unfold RGD.boxAccepted
    refine List.all_eq_true.2 fun d _ => ?_
    rw [Bool.and_eq_true, decide_eq_true_eq, decide_eq_true_eq, ht'.lo r hr, ht'.hi r hr]
    have := ht'.wide d (r.at d) (isRank_iff.1 hr d)
    have e : D'.cutoff + D'.skin = reach D := hre'
    rw [e]
    constructor <;> linarith
  have hok1 : ((ranks D'.dec).all fun r => (added' r).all fun p => inBoxB p.pos (D'.lo r) (D'.hi r)) = true := by
    refine List.all_eq_true.2 fun r hr => List.all_eq_true.2 fun p hp => ?_
    rw [heq r hr] at hp
    exact inBoxB_at.2 (inBox_iff_at.1 ((ha r (mem_ranks.1 hr)).2 p hp))
  have hex : ExchangeOk D' cut' := by
    refine ⟨?_, by rw [f5']; exact hset.cutoff, by rw [f6']; exact hset.skin, ?_, ?_, ?_⟩
    · rw [hre']
      exact ⟨ht'.pos, ht'.first, ht'.last, fun d i hi => by have := ht'.wide d i hi; linarith, ht'.lo, ht'.hi⟩
    · intro d; rw [f1', f2', hre']; exact hset.near d
    · intro d hd; rw [f4', f3']; exact hset.per d hd
    · intro d _ s hs
      rw [hre', ht'.lo s hs, ht'.hi s hs]
      exact ht'.wide d (s.at d) (isRank_iff.1 hs d)
  have himg : ∀ p, imagesOf D' p = imagesOf D p := by
    intro p; unfold imagesOf image; rw [f1', f2', f4']
  have hhalo : ∀ r, IsRank D r → (D'.exchangeHalo own' r).Perm ((((ranks D.dec).flatMap own').flatMap (imagesOf D)).filter fun q =>
      decide (InReach D' r q.pos ∧ ¬ InBox q.pos (D'.lo r) (D'.hi r))) := by
    intro r hr
    have := C84_halo_partial hex hhouse ((sameGrid_isRank hsame').2 hr)
    rw [f3'] at this
    rwa [show imagesOf D' = imagesOf D from funext himg] at this
  have hok2 : ((ranks D'.dec).all fun r => (D'.exchangeHalo own' r).all fun p => !inBoxB p.pos (D'.lo r) (D'.hi r)) = true := by
    refine List.all_eq_true.2 fun r hr => List.all_eq_true.2 fun p hp => ?_
    have hr' := (sameGrid_isRank hsame').1 (mem_ranks.1 hr)
    rw [(hhalo r hr').mem_iff, List.mem_filter, decide_eq_true_eq] at hp
    rw [Bool.not_eq_true', inBoxB_eq_decide, decide_eq_false hp.2.2]
  refine ⟨⟨D', own'⟩, D'.exchangeHalo own', ?_, ⟨hsame', ⟨cut', ht'⟩, fun r hr p hp => hhouse r ((sameGrid_isRank hsame').2 hr) p hp⟩, ?_, hhalo⟩
  · unfold mdStep
    rw [hup]
    show (if (!(ranks D'.dec).all D'.boxAccepted) = true then Outcome.throws else _) = _
    rw [hbox, if_neg (by simp), ← hmoved, hok]
    show (if _ then _ else _) = _
    rw [hok1, if_neg (by simp)]
    show (if (!(ranks D'.dec).all fun r => (D'.exchangeHalo own' r).all fun p => !inBoxB p.pos (D'.lo r) (D'.hi r)) = true then _ else _) = _
    rw [hok2, if_neg (by simp)]
  · show ((ranks D.dec).flatMap own').Perm _
    refine (flatMap_append_distrib _ _ _).trans ?_
    have e1 : (ranks D.dec).flatMap added' = (ranks D.dec).flatMap added := List.flatMap_congr fun r hr => heq r (by rw [f3']; exact hr)
    rw [e1]
    rw [f3'] at hperm
    have hre : rewrap D' wr = rewrap D wr := by
      funext p; unfold rewrap rewrapCoord; rw [f1', f2']
    rw [hre] at hperm
    refine (List.Perm.append_left _ hperm).trans ?_
    have e2 : (ranks D.dec).flatMap (mdKept st.D D' moved) = ((ranks D.dec).flatMap (mdKept st.D D' moved)).map (rewrap D wr) := by
      symm
      refine (List.map_congr_left fun p hp => ?_).trans (List.map_id _)
      obtain ⟨r, hr, hp⟩ := List.mem_flatMap.1 hp
      have hg : ∀ d : Axis, D.gMin.at d ≤ p.pos.at d ∧ p.pos.at d < D.gMax.at d := fun d => by
        have := box_in_global ht' hw2 ((sameGrid_isRank hsame').2 (mem_ranks.1 hr)) (hkept r p hp) d
        rwa [f1', f2'] at this
      rw [← rewrap_eq]
      rw [rewrapAt_id (hg .x).1 (hg .x).2, rewrapAt_id (hg .y).1 (hg .y).2, rewrapAt_id (hg .z).1 (hg .z).2]
      rfl
    rw [e2, ← List.map_append]
    refine List.Perm.map _ ?_
    refine (flatMap_append_distrib _ _ _).symm.trans ?_
    refine flatMap_perm_pointwise fun r _ => ?_
    refine ((mdKept_perm _ _ _ _).append (mdEmigrants_perm _ _ _ _)).trans ?_
    exact List.filter_append_perm _ _

theorem ids_move {inp : MDInput} (hin : GoodInput D δ inp) (own : V3 Nat → List Particle) (l : List (V3 Nat)) :
    (l.flatMap (inp.move own)).map (·.id) = (l.flatMap own).map (·.id) := by
  induction l with
  | nil => rfl
  | cons r l ih =>
    rw [List.flatMap_cons, List.flatMap_cons, List.map_append, List.map_append, ih]
    congr 1
    have := hin.small own r
    generalize inp.move own r = a at this
    generalize own r = b at this
    induction this with
    | nil => rfl
    | cons h _ ih => rw [List.map_cons, List.map_cons, ih, h.1]

/-- Any number of iterations: nothing throws, every particle is still there exactly once and in its place. -/
theorem C87_run_partial (hset : GoodSetup D wr δ) (inputs : List MDInput) (hin : ∀ inp ∈ inputs, GoodInput D δ inp) :
    ∀ st, InPlace D st → ∃ st', mdRun wr st inputs = .ok st' ∧ InPlace D st' ∧
      (((ranks D.dec).flatMap st'.own).map (·.id)).Perm (((ranks D.dec).flatMap st.own).map (·.id)) := by
  induction inputs with
  | nil => intro st hst; exact ⟨st, rfl, hst, List.Perm.refl _⟩
  | cons inp inputs ih =>
    intro st hst
    have hgi := hin inp List.mem_cons_self
    obtain ⟨st1, halo, e, hst1, hp, -⟩ := C87_step_partial hset hst hgi
    obtain ⟨st2, e2, hst2, hp2⟩ := ih (fun i hi => hin i (List.mem_cons_of_mem _ hi)) st1 hst1
    refine ⟨st2, ?_, hst2, hp2.trans ?_⟩
    · unfold mdRun; rw [e]; exact e2
    · refine (hp.map _).trans (List.Perm.of_eq ?_)
      rw [List.map_map, ← ids_move hgi st.own]
      rfl

/-- Every partner is there: in every iteration of every run, for two particles on whatever ranks, if an image of the second is within cutoff plus skin of the
first, the rank that stores the first has this image among its particles or halo particles, and has it exactly as often as the image occurs in the
system. -/
theorem C87_partners_partial (hset : GoodSetup D wr δ) (inputs : List MDInput) (hin : ∀ inp ∈ inputs, GoodInput D δ inp) (st : MDState)
    (hst : InPlace D st) (last : MDInput) (hlast : GoodInput D δ last) :
    ∃ st1 st2 halo, mdRun wr st inputs = .ok st1 ∧ mdStep wr st1 last = .ok (st2, halo) ∧
      ∀ r s, IsRank D r → IsRank D s → ∀ a ∈ st2.own r, ∀ b ∈ st2.own s, ∀ k : V3 Int,
        (∀ d : Axis, D.boundary.at d ≠ .periodic → k.at d = 0) → distSq a.pos (image D b k).pos ≤ reach D ^ 2 →
          image D b k ∈ st2.own r ++ halo r ∧
          (st2.own r ++ halo r).count (image D b k) = (((ranks D.dec).flatMap st2.own).flatMap (imagesOf D)).count (image D b k) := by
  obtain ⟨st1, e1, h1, -⟩ := C87_run_partial hset inputs hin st hst
  obtain ⟨st2, halo, e2, h2, hp2, hh2⟩ := C87_step_partial hset h1 hlast
  refine ⟨st1, st2, halo, e1, e2, ?_⟩
  intro r s hr hs a ha b hb k hk hd
  obtain ⟨hsame, ⟨cut, ht⟩, hown⟩ := h2
  obtain ⟨f1, f2, f3, f4, f5, f6⟩ := (sameGrid_fields hsame)
  have hre := sameGrid_reach hsame
  have hpos : 0 < reach D := by have := hset.cutoff; have := hset.skin; unfold reach; linarith
  have hex : ExchangeOk st2.D cut := by
    refine ⟨?_, by rw [f5]; exact hset.cutoff, by rw [f6]; exact hset.skin, ?_, ?_, ?_⟩
    · rw [hre]
      exact ⟨ht.pos, ht.first, ht.last, fun d i hi => by have := ht.wide d i hi; linarith, ht.lo, ht.hi⟩
    · intro d; rw [f1, f2, hre]; exact hset.near d
    · intro d hd; rw [f4, f3]; exact hset.per d hd
    · intro d _ s hs
      rw [hre, ht.lo s hs, ht.hi s hs]
      exact ht.wide d (s.at d) (isRank_iff.1 hs d)
  have hhouse : Housed st2.D st2.own := fun r hr p hp => hown r ((sameGrid_isRank hsame).1 hr) p hp
  have himg : imagesOf st2.D = imagesOf D := by
    funext p; unfold imagesOf image; rw [f1, f2, f4]
  have him : ∀ p k, image st2.D p k = image D p k := by intro p k; unfold image; rw [f1, f2]
  have hr' := (sameGrid_isRank hsame).2 hr
  have hs' := (sameGrid_isRank hsame).2 hs
  have hw := C84_world_partial hex hhouse hr'
  have hhp := C84_halo_partial hex hhouse hr'
  rw [f3, himg] at hw hhp
  have hperm := (List.Perm.append_left (st2.own r) ((hh2 r hr).trans hhp.symm)).trans hw
  have hmem := C84_partners_present_partial hex hhouse hr' hs' ha hb k (by rw [f4]; exact hk) (by rw [him, hre]; exact hd)
  rw [him, hw.mem_iff] at hmem
  refine ⟨hperm.mem_iff.2 hmem, ?_⟩
  rw [hperm.count_eq]
  exact List.count_filter (p := fun q : Particle => decide (InReach st2.D r q.pos)) (List.mem_filter.1 hmem).2

/-! ### Non-vacuity: six ranks, everything drifts along x, load balancing in every step -/

private def exRunD : RGD := RGD.init ⟨0, 0, 0⟩ ⟨12, 6, 6⟩ ⟨3, 2, 1⟩ ⟨.periodic, .periodic, .periodic⟩ 1 (1/5)
private def exRunWr : Wrap := ⟨id, fun d => match d with | .x => 119/10 | _ => 59/10⟩
private def exRunOwn : V3 Nat → List Particle := fun r => if r = ⟨2, 1, 0⟩ then [⟨7, ⟨59/5, 5, 3⟩, .owned⟩] else []
private def exRunInput : MDInput where
  move := fun own r => (own r).map fun p => p.shift .x (1/2)
  balance := some fun r => 1 + r.x

private theorem exRun_setup : GoodSetup exRunD exRunWr (1/2) where
  cutoff := by norm_num [exRunD, RGD.init]
  skin := by norm_num [exRunD, RGD.init]
  near := by intro d; cases d <;> norm_num [exRunD, RGD.init, V3.at, reach, abs_of_pos]
  per := by intro d _; left; cases d <;> rfl
  rounding := Rounding.exact
  inside_lt := by intro d; cases d <;> decide +kernel
  inside_ge := by intro d; cases d <;> norm_num [exRunD, RGD.init, V3.at, reach, exRunWr]
  nonneg := by norm_num
  slow := by intro d; cases d <;> norm_num [exRunD, RGD.init, V3.at, reach, abs_of_pos]

private theorem exRun_input : GoodInput exRunD (1/2) exRunInput where
  small := by
    intro own r
    show List.Forall₂ _ (own r) ((own r).map _)
    generalize own r = l
    induction l with
    | nil => exact List.Forall₂.nil
    | cons p l ih =>
      refine List.Forall₂.cons ⟨rfl, fun d => ?_⟩ ih
      cases d
      · rw [shift_at, add_sub_cancel_left]; norm_num [abs_of_pos]
      · rw [shift_at_ne _ _ (by decide), sub_self]; norm_num
      · rw [shift_at_ne _ _ (by decide), sub_self]; norm_num
  inside := by intro own r _ _ p _ d hb; exact absurd (by cases d <;> rfl) hb
  load := by
    intro work hw r _
    injection hw with hw
    rw [← hw]; positivity

private theorem exRun_start : InPlace exRunD ⟨exRunD, exRunOwn⟩ := by
  refine ⟨rfl, ⟨_, C83_local_boxes_tile _ _ _ _ _ _ _ (by intro d; cases d <;> decide)
    (by intro d; cases d <;> norm_num [V3.at, RGD.init, exRunD, reach])⟩, ?_⟩
  intro r _ p hp
  replace hp : p ∈ exRunOwn r := hp
  unfold exRunOwn at hp
  split at hp
  · next e => subst e; rw [List.mem_singleton] at hp; subst hp; decide +kernel
  · cases hp

example (n : Nat) : ∃ st', mdRun exRunWr ⟨exRunD, exRunOwn⟩ (List.replicate n exRunInput) = .ok st' ∧ InPlace exRunD st' ∧
    (((ranks exRunD.dec).flatMap st'.own).map (·.id)).Perm [7] :=
  C87_run_partial exRun_setup _ (fun i hi => by rw [List.eq_of_mem_replicate hi]; exact exRun_input) _ exRun_start

/-- After one step the particle has crossed the periodic boundary and is with the first rank of its row. -/
example : (match mdStep exRunWr ⟨exRunD, exRunOwn⟩ exRunInput with | .ok x => x.1.own ⟨0, 1, 0⟩ | _ => []) = [⟨7, ⟨3/10, 5, 3⟩, .owned⟩] := by
  decide +kernel

end Verif
