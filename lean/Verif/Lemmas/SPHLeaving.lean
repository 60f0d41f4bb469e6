import Verif.Lemmas.SPHExchangeAll
import Verif.Lemmas.Remainder
/-! Particles that leave a rank, and the example with one rank. -/
namespace Verif
open Spec

section one
variable {gMin gMax c : Rat} {n : Nat}

theorem isDiff_neg {d : Int} (h : IsDiff d) : IsDiff (-d) := by rcases h with rfl | rfl | rfl <;> simp [IsDiff]

/-- The region of `getSendLeaving` is the part of the surroundings on the other side. -/
theorem leaving_region {s : Nat} {d : Int} (hd : IsDiff d) {x : Rat} :
    ((sphSendLeaving (sphCut gMin gMax n s) (sphCut gMin gMax n (s + 1)) d c gMin gMax).lo ≤ x ∧
      x < (sphSendLeaving (sphCut gMin gMax n s) (sphCut gMin gMax n (s + 1)) d c gMin gMax).hi) ↔ HaloPart gMin gMax c n s (-d) x := by
  unfold sphSendLeaving HaloPart
  rcases hd with rfl | rfl | rfl <;> simp

/-- The displacement brings the particle into the global box, and into the part of the partner. -/
theorem leaving_one (hn : 0 < n) (hL : gMin < gMax) (hw : c ≤ (gMax - gMin) / n) {s : Nat} (hs : s < n) {d : Int} (hd : IsDiff d) {x : Rat}
    (hx : HaloPart gMin gMax c n s (-d) x) :
    x + (sphSendLeaving (sphCut gMin gMax n s) (sphCut gMin gMax n (s + 1)) d c gMin gMax).shift = wrapCoord gMin gMax x ∧
      sphCut gMin gMax n (sphSendCoord n s d) ≤ wrapCoord gMin gMax x ∧ wrapCoord gMin gMax x < sphCut gMin gMax n (sphSendCoord n s d + 1) := by
  have hxw := haloPart_within hw (isDiff_neg hd) hx
  rw [Int.sub_neg] at hxw
  obtain ⟨t1, t2⟩ := sendCoord_spec hn hs hd
  have z : ∀ j : Int, sphCut gMin gMax n j = gMin ↔ j = 0 := by
    intro j
    have a := @sphCut_le gMin gMax n hL hn j 0
    have b := @sphCut_le gMin gMax n hL hn 0 j
    rw [sphCut_zero] at a b
    constructor
    · intro h; have := a.1 h.le; have := b.1 h.ge; omega
    · intro h; rw [h, sphCut_zero]
  have t : ∀ j : Int, sphCut gMin gMax n j = gMax ↔ j = n := by
    intro j
    have a := @sphCut_le gMin gMax n hL hn j n
    have b := @sphCut_le gMin gMax n hL hn n j
    rw [sphCut_n hn] at a b
    constructor
    · intro h; have := a.1 h.le; have := b.1 h.ge; omega
    · intro h; rw [h, sphCut_n hn]
  have hlow : 0 ≤ (s : Int) + d → gMin ≤ x := by
    intro h
    have := (@sphCut_le gMin gMax n hL hn 0 (s + d)).2 h
    rw [sphCut_zero] at this; linarith [hxw.1]
  have hupp : (s : Int) + d < n → x < gMax := by
    intro h
    have := (@sphCut_le gMin gMax n hL hn (s + d + 1) n).2 (by omega)
    rw [sphCut_n hn] at this; linarith [hxw.2]
  have hbelow : (s : Int) + d < 0 → x < gMin := by
    intro h
    have := (@sphCut_le gMin gMax n hL hn (s + d + 1) 0).2 (by omega)
    rw [sphCut_zero] at this; linarith [hxw.2]
  have habove : (n : Int) ≤ s + d → gMax ≤ x := by
    intro h
    have := (@sphCut_le gMin gMax n hL hn n (s + d)).2 h
    rw [sphCut_n hn] at this; linarith [hxw.1]
  have hwrap : wrapCoord gMin gMax x = x - sphTurn n (s + d) * (gMax - gMin) := by
    unfold wrapCoord sphTurn
    by_cases h1 : (s : Int) + d < 0
    · rw [if_pos (hbelow h1), if_pos h1]; push_cast; ring
    · rw [if_neg (not_lt.2 (hlow (by omega))), if_neg h1]
      by_cases h2 : (n : Int) ≤ s + d
      · rw [if_pos (habove h2), if_pos h2]; push_cast; ring
      · rw [if_neg (not_le.2 (hupp (by omega))), if_neg h2]; push_cast; ring
  refine ⟨?_, ?_, ?_⟩
  · rw [hwrap]
    unfold sphSendLeaving
    rcases hd with rfl | rfl | rfl
    · rw [if_neg (by decide), if_pos rfl]
      dsimp only
      by_cases h : (s : Int) + -1 < 0
      · have ht : sphTurn n (s + -1) = -1 := by unfold sphTurn; rw [if_pos h]
        rw [ht, if_pos ((z _).2 (by omega))]; push_cast; ring
      · have ht : sphTurn n (s + -1) = 0 := by unfold sphTurn; rw [if_neg h, if_neg (by omega)]
        rw [ht, if_neg (fun e => by have := (z _).1 e; omega)]; push_cast; ring
    · have ht : sphTurn n (s + 0) = 0 := by unfold sphTurn; rw [if_neg (by omega), if_neg (by omega)]
      rw [if_pos rfl, ht]; push_cast; ring
    · rw [if_neg (by decide), if_neg (by decide)]
      dsimp only
      by_cases h : (n : Int) ≤ s + 1
      · have ht : sphTurn n (s + 1) = 1 := by unfold sphTurn; rw [if_neg (by omega), if_pos h]
        rw [ht, if_pos ((t _).2 (by omega))]; push_cast; ring
      · have ht : sphTurn n (s + 1) = 0 := by unfold sphTurn; rw [if_neg (by omega), if_neg h]
        rw [ht, if_neg (fun e => by have := (t _).1 e; omega)]; push_cast; ring
  · rw [hwrap]
    have := hxw.1
    rw [← t2, sphCut_add hn] at this
    linarith
  · rw [hwrap]
    have := hxw.2
    rw [← t2, show (sphSendCoord n s d : Int) + sphTurn n (s + d) * n + 1 = (sphSendCoord n s d + 1) + sphTurn n (s + d) * n by ring, sphCut_add hn] at this
    linarith

end one

variable {G : SPHGrid}

def v3neg (d : V3 Int) : V3 Int := ⟨-d.x, -d.y, -d.z⟩

theorem v3neg_at (d : V3 Int) (a : Axis) : (v3neg d).at a = -d.at a := by cases a <;> rfl

theorem wrapped_at (gMin gMax : V3 Rat) (p : Particle) (a : Axis) : (wrapped gMin gMax p).pos.at a = wrapCoord (gMin.at a) (gMax.at a) (p.pos.at a) := by
  cases a <;> rfl

theorem sendPartner_at (r : V3 Nat) (diff : V3 Int) (a : Axis) : (G.sendPartner r diff).at a = sphSendCoord (G.grid.at a) (r.at a) (diff.at a) := by
  cases a <;> rfl

theorem recvPartner_at (r : V3 Nat) (diff : V3 Int) (a : Axis) : (G.recvPartner r diff).at a = sphRecvCoord (G.grid.at a) (r.at a) (diff.at a) := by
  cases a <;> rfl

theorem sendPartner_onGrid (hg : ∀ d : Axis, 0 < G.grid.at d) {r : V3 Nat} (hr : OnGrid G r) {diff : V3 Int} (hd : ∀ a : Axis, IsDiff (diff.at a)) :
    OnGrid G (G.sendPartner r diff) :=
  onGrid_iff.2 fun a => by rw [sendPartner_at]; exact (sendCoord_spec (hg a) (onGrid_iff.1 hr a) (hd a)).1

theorem recvPartner_onGrid (hg : ∀ d : Axis, 0 < G.grid.at d) {r : V3 Nat} (hr : OnGrid G r) {diff : V3 Int} (hd : ∀ a : Axis, IsDiff (diff.at a)) :
    OnGrid G (G.recvPartner r diff) :=
  onGrid_iff.2 fun a => by rw [recvPartner_at]; exact (recvCoord_spec (hg a) (onGrid_iff.1 hr a) (hd a)).1

theorem recvPartner_sendPartner (hg : ∀ d : Axis, 0 < G.grid.at d) {r : V3 Nat} (hr : OnGrid G r) {diff : V3 Int} (hd : ∀ a : Axis, IsDiff (diff.at a)) :
    G.recvPartner (G.sendPartner r diff) diff = r :=
  sph_v3_ext fun a => by rw [recvPartner_at, sendPartner_at]; exact recv_send (hg a) (onGrid_iff.1 hr a) (hd a)

theorem sendPartner_recvPartner (hg : ∀ d : Axis, 0 < G.grid.at d) {r : V3 Nat} (hr : OnGrid G r) {diff : V3 Int} (hd : ∀ a : Axis, IsDiff (diff.at a)) :
    G.sendPartner (G.recvPartner r diff) diff = r :=
  sph_v3_ext fun a => by rw [sendPartner_at, recvPartner_at]; exact send_recv (hg a) (onGrid_iff.1 hr a) (hd a)

/-- Boxes of different ranks do not overlap. -/
theorem gridBox_unique (h : WideGrid G) {r s : V3 Nat} (hr : OnGrid G r) (hs : OnGrid G s) {p : V3 Rat} (hp : InBox p (G.lo r) (G.hi r))
    (hq : InBox p (G.lo s) (G.hi s)) : r = s := by
  refine sph_v3_ext fun a => ?_
  have h1 := inBox_iff_at.1 hp a
  have h2 := inBox_iff_at.1 hq a
  rw [lo_at h hr, hi_at h hr] at h1
  rw [lo_at h hs, hi_at h hs] at h2
  have := sphCut_unique (h.length a) (h.grid a) h1 h2
  exact_mod_cast this

open Classical in
theorem leavingMessage_eq (h : WideGrid G) {invalid : V3 Nat → List Particle} {s : V3 Nat} (hs : OnGrid G s) {diff : V3 Int}
    (hd : ∀ a : Axis, IsDiff (diff.at a)) :
    G.leavingMessage invalid s diff = ((invalid s).filter fun p => decide (G.Part s (v3neg diff) p.pos)).map (wrapped G.gMin G.gMax) := by
  let S : Axis → SPHSend := fun a =>
    sphSendLeaving (G.bounds s a).1 (G.bounds s a).2 (diff.at a) G.cutoff (G.gMin.at a) (G.gMax.at a)
  have e3 : ∀ a, S a = sphSendLeaving (G.cut a (s.at a)) (G.cut a (s.at a + 1)) (diff.at a) G.cutoff (G.gMin.at a) (G.gMax.at a) := by
    intro a
    show sphSendLeaving _ _ _ _ _ _ = _
    rw [bounds_eq h hs a]
  show sphSelect (S .x) (S .y) (S .z) (invalid s) = _
  unfold sphSelect
  have hiff : ∀ p : Particle, (inBoxB p.pos ⟨(S .x).lo, (S .y).lo, (S .z).lo⟩ ⟨(S .x).hi, (S .y).hi, (S .z).hi⟩) =
      decide (G.Part s (v3neg diff) p.pos) := by
    intro p
    rw [Bool.eq_iff_iff, inBoxB_at, decide_eq_true_eq]
    unfold SPHGrid.Part
    refine forall_congr' fun a => ?_
    have e1 : (⟨(S .x).lo, (S .y).lo, (S .z).lo⟩ : V3 Rat).at a = (S a).lo := by cases a <;> rfl
    have e2 : (⟨(S .x).hi, (S .y).hi, (S .z).hi⟩ : V3 Rat).at a = (S a).hi := by cases a <;> rfl
    rw [e1, e2, e3, v3neg_at]
    exact leaving_region (hd a)
  rw [List.filter_congr (fun p _ => hiff p)]
  refine List.map_congr_left fun p hp => ?_
  have hp' := of_decide_eq_true (List.mem_filter.1 hp).2
  have hsh : ∀ a : Axis, p.pos.at a + (S a).shift = wrapCoord (G.gMin.at a) (G.gMax.at a) (p.pos.at a) := by
    intro a
    rw [e3]
    have := hp' a
    rw [v3neg_at] at this
    exact (leaving_one (h.grid a) (h.length a) (h.part a) (onGrid_iff.1 hs a) (hd a) this).1
  unfold Particle.addR wrapped
  have hx := hsh .x
  have hy := hsh .y
  have hz := hsh .z
  simp only [V3.at] at hx hy hz
  rw [hx, hy, hz]

/-- What leaves for `diff` belongs into the box of that partner. -/
theorem leaving_home (h : WideGrid G) {s : V3 Nat} (hs : OnGrid G s) {diff : V3 Int} (hd : ∀ a : Axis, IsDiff (diff.at a)) {p : Particle}
    (hp : G.Part s (v3neg diff) p.pos) : InBox (wrapped G.gMin G.gMax p).pos (G.lo (G.sendPartner s diff)) (G.hi (G.sendPartner s diff)) := by
  have ht := sendPartner_onGrid h.grid hs hd
  refine inBox_iff_at.2 fun a => ?_
  rw [lo_at h ht, hi_at h ht, wrapped_at, sendPartner_at]
  have := hp a
  rw [v3neg_at] at this
  exact (leaving_one (h.grid a) (h.length a) (h.part a) (onGrid_iff.1 hs a) (hd a) this).2

theorem part_widened (h : WideGrid G) {r : V3 Nat} (hr : OnGrid G r) {q : V3 Rat} :
    (∃ diff ∈ sphDiffs, G.Part r (v3neg diff) q) ↔ InWidened (G.lo r) (G.hi r) G.cutoff q ∧ ¬ InBox q (G.lo r) (G.hi r) := by
  have hwid : InWidened (G.lo r) (G.hi r) G.cutoff q ↔
      ∀ d : Axis, G.cut d (r.at d) - G.cutoff ≤ q.at d ∧ q.at d < G.cut d (r.at d + 1) + G.cutoff := by
    unfold InWidened
    rw [inBox_iff_at]
    refine forall_congr' fun d => ?_
    rw [← lo_at h hr, ← hi_at h hr]
    cases d <;> rfl
  have hin : InBox q (G.lo r) (G.hi r) ↔ ∀ d : Axis, G.cut d (r.at d) ≤ q.at d ∧ q.at d < G.cut d (r.at d + 1) := by
    rw [inBox_iff_at]
    refine forall_congr' fun d => ?_
    rw [lo_at h hr, hi_at h hr]
  rw [hwid, hin]
  constructor
  · rintro ⟨diff, hdiff, hp⟩
    obtain ⟨h1, h2⟩ := mem_sphDiffs.1 hdiff
    refine ⟨fun d => (haloPart_any h.cutoff (h.length d) (h.grid d)).1 ⟨_, by rw [v3neg_at]; exact isDiff_neg (h1 d), hp d⟩, fun hall => h2 fun d => ?_⟩
    have := haloPart_unique (h.length d) (h.grid d) (by rw [v3neg_at]; exact isDiff_neg (h1 d)) (Or.inr (Or.inl rfl)) (hp d) (by
      unfold HaloPart; rw [if_pos rfl]; exact hall d)
    rw [v3neg_at] at this
    omega
  · rintro ⟨hw, hn⟩
    have hex : ∀ d : Axis, ∃ e, IsDiff e ∧ HaloPart (G.gMin.at d) (G.gMax.at d) G.cutoff (G.grid.at d) (r.at d) e (q.at d) :=
      fun d => (haloPart_any h.cutoff (h.length d) (h.grid d)).2 (hw d)
    choose e he1 he2 using hex
    have hat : ∀ d : Axis, (⟨-e .x, -e .y, -e .z⟩ : V3 Int).at d = -e d := by intro d; cases d <;> rfl
    refine ⟨⟨-e .x, -e .y, -e .z⟩, mem_sphDiffs.2 ⟨fun a => by rw [hat]; exact isDiff_neg (he1 a), fun h0 => hn fun d => ?_⟩, fun d => by
      rw [v3neg_at, hat, neg_neg]; exact he2 d⟩
    have h00 := h0 d
    rw [hat] at h00
    have h01 : e d = 0 := by omega
    have := he2 d
    unfold HaloPart at this
    rw [h01, if_pos rfl] at this
    exact this

open Classical in
theorem entering_perm (h : WideGrid G) {invalid : V3 Nat → List Particle} (hinv : NearbyLeavers G invalid) (below : Rat → Rat) {r : V3 Nat}
    (hr : OnGrid G r) :
    (G.entering below invalid r).Perm ((((ranks G.grid).flatMap invalid).map (wrapped G.gMin G.gMax)).filter fun q =>
      decide (InBox q.pos (G.lo r) (G.hi r))) := by
  unfold SPHGrid.entering
  -- the messages
  have e1 : (sphDiffs.flatMap fun diff => G.leavingMessage invalid (G.recvPartner r diff) diff) =
      sphDiffs.flatMap fun diff => (ranks G.grid).flatMap fun s =>
        ((invalid s).filter fun p => decide (G.Part s (v3neg diff) p.pos) && decide (InBox (wrapped G.gMin G.gMax p).pos (G.lo r) (G.hi r))).map
          (wrapped G.gMin G.gMax) := by
    refine List.flatMap_congr fun diff hdiff => ?_
    have hd := (mem_sphDiffs.1 hdiff).1
    have hrec := recvPartner_onGrid h.grid hr hd
    rw [flatMap_only (ranks_nodup _) (mem_ranks.2 hrec) (by
      intro s hs hne
      have hs' : OnGrid G s := mem_ranks.1 hs
      rw [List.map_eq_nil_iff, List.filter_eq_nil_iff]
      intro p hp hc
      rw [Bool.and_eq_true, decide_eq_true_eq, decide_eq_true_eq] at hc
      have := gridBox_unique h (sendPartner_onGrid h.grid hs' hd) hr (leaving_home h hs' hd hc.1) hc.2
      rw [← this, recvPartner_sendPartner h.grid hs' hd] at hne
      exact hne rfl)]
    rw [leavingMessage_eq h hrec hd]
    refine congrArg _ (List.filter_congr fun p _ => ?_)
    rw [Bool.eq_iff_iff, Bool.and_eq_true, decide_eq_true_eq, decide_eq_true_eq]
    refine ⟨fun hp => ⟨hp, ?_⟩, fun hp => hp.1⟩
    have := leaving_home h hrec hd hp
    rwa [sendPartner_recvPartner h.grid hr hd] at this
  have e2 : (sphDiffs.flatMap fun diff => G.leavingMessage invalid (G.recvPartner r diff) diff).Perm
      ((((ranks G.grid).flatMap invalid).map (wrapped G.gMin G.gMax)).filter fun q => decide (InBox q.pos (G.lo r) (G.hi r))) := by
    rw [e1]
    refine (flatMap_swap_perm ..).trans ?_
    rw [List.map_flatMap, List.filter_flatMap]
    refine List.Perm.flatMap_left _ fun s hs => ?_
    have hs' : OnGrid G s := mem_ranks.1 hs
    have hmap : (sphDiffs.flatMap fun diff =>
        ((invalid s).filter fun p => decide (G.Part s (v3neg diff) p.pos) && decide (InBox (wrapped G.gMin G.gMax p).pos (G.lo r) (G.hi r))).map
          (wrapped G.gMin G.gMax)) = (sphDiffs.flatMap fun diff =>
        ((invalid s).filter fun p => decide (G.Part s (v3neg diff) p.pos) && decide (InBox (wrapped G.gMin G.gMax p).pos (G.lo r) (G.hi r)))).map
          (wrapped G.gMin G.gMax) := by rw [List.map_flatMap]
    rw [hmap, List.filter_map]
    refine List.Perm.map _ ((flatMap_filters _ _ _ sphDiffs_nodup ?_).trans (List.Perm.of_eq ?_))
    · intro q _ a ha b hb h1 h2
      rw [Bool.and_eq_true, decide_eq_true_eq] at h1 h2
      refine sph_v3_ext fun d => ?_
      have := haloPart_unique (h.length d) (h.grid d) (by rw [v3neg_at]; exact isDiff_neg ((mem_sphDiffs.1 ha).1 d))
        (by rw [v3neg_at]; exact isDiff_neg ((mem_sphDiffs.1 hb).1 d)) (h1.1 d) (h2.1 d)
      rw [v3neg_at, v3neg_at] at this
      omega
    · refine List.filter_congr fun p hp => ?_
      rw [Bool.eq_iff_iff, List.any_eq_true, Function.comp, decide_eq_true_eq]
      constructor
      · rintro ⟨diff, _, hc⟩
        rw [Bool.and_eq_true, decide_eq_true_eq, decide_eq_true_eq] at hc
        exact hc.2
      · intro hc
        obtain ⟨diff, hdiff, hpart⟩ := (part_widened h hs').2 (hinv s hs' p hp)
        exact ⟨diff, hdiff, by rw [Bool.and_eq_true, decide_eq_true_eq, decide_eq_true_eq]; exact ⟨hpart, hc⟩⟩
  -- nothing is corrected
  have e3 : (sphDiffs.flatMap fun diff => G.leavingMessage invalid (G.recvPartner r diff) diff).map (G.correct below r) =
      sphDiffs.flatMap fun diff => G.leavingMessage invalid (G.recvPartner r diff) diff := by
    refine (List.map_congr_left fun q hq => ?_).trans (List.map_id _)
    have := e2.mem_iff.1 hq
    rw [List.mem_filter, decide_eq_true_eq] at this
    have hb := inBox_iff_at.1 this.2
    have hne : ∀ d : Axis, q.pos.at d ≠ (G.hi r).at d := fun d he => absurd (hb d).2 (by rw [he]; exact lt_irrefl _)
    obtain ⟨i, ⟨x, y, z⟩, o⟩ := q
    unfold SPHGrid.correct
    have hx := hne .x
    have hy := hne .y
    have hz := hne .z
    dsimp only at hx hy hz ⊢
    rw [if_neg hx, if_neg hy, if_neg hz]
    rfl
  rw [e3]
  exact e2

theorem gridBox_exists (h : WideGrid G) {p : V3 Rat} (hp : InBox p G.gMin G.gMax) : ∃ r ∈ ranks G.grid, InBox p (G.lo r) (G.hi r) := by
  have hx : ∀ a : Axis, ∃ i : Nat, i < G.grid.at a ∧ G.cut a i ≤ p.at a ∧ p.at a < G.cut a (i + 1) := by
    intro a
    have hb := inBox_iff_at.1 hp a
    have key : ∀ m : Nat, p.at a < G.cut a m → ∃ i : Nat, i < m ∧ G.cut a i ≤ p.at a ∧ p.at a < G.cut a (i + 1) := by
      intro m
      induction m with
      | zero => intro hm; exfalso; have : G.cut a (0 : Nat) = G.gMin.at a := sphCut_zero; rw [this] at hm; linarith [hb.1]
      | succ m ih =>
        intro hm
        by_cases hlt : p.at a < G.cut a m
        · obtain ⟨i, h1, h2⟩ := ih hlt
          exact ⟨i, by omega, h2⟩
        · exact ⟨m, by omega, not_lt.1 hlt, by push_cast at hm; exact hm⟩
    have hlast : G.cut a (G.grid.at a : Nat) = G.gMax.at a := sphCut_n (h.grid a)
    exact key _ (by rw [hlast]; exact hb.2)
  choose i h1 h2 using hx
  have hat : ∀ a : Axis, (⟨i .x, i .y, i .z⟩ : V3 Nat).at a = i a := by intro a; cases a <;> rfl
  have hr : OnGrid G ⟨i .x, i .y, i .z⟩ := ⟨h1 .x, h1 .y, h1 .z⟩
  refine ⟨_, mem_ranks.2 hr, inBox_iff_at.2 fun a => ?_⟩
  rw [lo_at h hr, hi_at h hr, hat]
  exact h2 a

theorem box_global (h : WideGrid G) {r : V3 Nat} (hr : OnGrid G r) {p : V3 Rat} (hp : InBox p (G.lo r) (G.hi r)) : InBox p G.gMin G.gMax := by
  refine inBox_iff_at.2 fun a => ?_
  have hb := inBox_iff_at.1 hp a
  rw [lo_at h hr, hi_at h hr] at hb
  have h0 := (@sphCut_le (G.gMin.at a) (G.gMax.at a) (G.grid.at a) (h.length a) (h.grid a) 0 (r.at a)).2 (by omega)
  have h1 := (@sphCut_le (G.gMin.at a) (G.gMax.at a) (G.grid.at a) (h.length a) (h.grid a) (r.at a + 1) (G.grid.at a)).2 (by
    have := onGrid_iff.1 hr a; omega)
  rw [sphCut_zero] at h0
  rw [sphCut_n (h.grid a)] at h1
  exact ⟨by linarith [hb.1], by linarith [hb.2]⟩

end Verif
