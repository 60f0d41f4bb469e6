import Verif.Lemmas.SPHExchange
/-! Halo and leaving particles of all ranks in three dimensions. -/
namespace Verif
open Spec

variable {G : SPHGrid}

theorem onGrid_iff {r : V3 Nat} : OnGrid G r ↔ ∀ d : Axis, r.at d < G.grid.at d :=
  ⟨fun h d => by cases d; exacts [h.1, h.2.1, h.2.2], fun h => ⟨h .x, h .y, h .z⟩⟩

theorem Spec.WideGrid.part (h : WideGrid G) (d : Axis) : G.cutoff ≤ (G.gMax.at d - G.gMin.at d) / (G.grid.at d : Nat) := by
  have : (0 : Rat) < (G.grid.at d : Nat) := by exact_mod_cast h.grid d
  exact (le_div_iff₀ this).2 (h.wide d)

theorem Spec.WideGrid.length (h : WideGrid G) (d : Axis) : G.gMin.at d < G.gMax.at d := by
  have h0 : (0 : Rat) < (G.grid.at d : Nat) := by exact_mod_cast h.grid d
  have := h.wide d
  have := h.cutoff
  nlinarith

/-- The boundary `j` in dimension `d`. -/
abbrev SPHGrid.cut (G : SPHGrid) (d : Axis) (j : Int) : Rat := sphCut (G.gMin.at d) (G.gMax.at d) (G.grid.at d) j

theorem bounds_eq (h : WideGrid G) {r : V3 Nat} (hr : OnGrid G r) (d : Axis) : G.bounds r d = (G.cut d (r.at d), G.cut d (r.at d + 1)) :=
  sphBounds_eq (h.grid d) (onGrid_iff.1 hr d)

theorem lo_at (h : WideGrid G) {r : V3 Nat} (hr : OnGrid G r) (d : Axis) : (G.lo r).at d = G.cut d (r.at d) := by
  have := bounds_eq h hr d
  cases d <;> exact congrArg Prod.fst this

theorem hi_at (h : WideGrid G) {r : V3 Nat} (hr : OnGrid G r) (d : Axis) : (G.hi r).at d = G.cut d (r.at d + 1) := by
  have := bounds_eq h hr d
  cases d <;> exact congrArg Prod.snd this

theorem boxImage_at (gMin gMax : V3 Rat) (p : Particle) (k : V3 Int) (d : Axis) :
    (boxImage gMin gMax p k).pos.at d = p.pos.at d + (k.at d : Rat) * (gMax.at d - gMin.at d) := by cases d <;> rfl

theorem sph_v3_ext {α : Type} {a b : V3 α} (h : ∀ d : Axis, a.at d = b.at d) : a = b := by
  obtain ⟨x, y, z⟩ := a
  obtain ⟨x', y', z'⟩ := b
  have h1 := h .x
  have h2 := h .y
  have h3 := h .z
  simp only [V3.at] at h1 h2 h3
  subst h1 h2 h3
  rfl

/-- If only one image can be meant, it is that one. -/
theorem boxImages_filter {gMin gMax : V3 Rat} {p : Particle} {f : Particle → Bool} {kv : V3 Int} (hkv : ∀ d : Axis, kv.at d ∈ ([-1, 0, 1] : List Int))
    (hu : ∀ k : V3 Int, f (boxImage gMin gMax p k) = true → k = kv) :
    (boxImages gMin gMax p).filter f = if f (boxImage gMin gMax p kv) then [boxImage gMin gMax p kv] else [] := by
  have hnd : ([-1, 0, 1] : List Int).Nodup := by decide
  unfold boxImages
  rw [List.filter_flatMap, flatMap_only hnd (hkv .x) (by
    intro i _ hi
    refine List.filter_eq_nil_iff.2 fun q hq hfq => ?_
    simp only [List.mem_flatMap, List.mem_map] at hq
    obtain ⟨j, _, k, _, rfl⟩ := hq
    exact hi (congrArg V3.x (hu _ hfq))), List.filter_flatMap, flatMap_only hnd (hkv .y) (by
    intro j _ hj
    refine List.filter_eq_nil_iff.2 fun q hq hfq => ?_
    simp only [List.mem_map] at hq
    obtain ⟨k, _, rfl⟩ := hq
    exact hj (congrArg V3.y (hu _ hfq))), ← List.flatMap_pure_eq_map, List.filter_flatMap, flatMap_only hnd (hkv .z) (by
    intro k _ hk'
    refine List.filter_eq_nil_iff.2 fun q hq hfq => ?_
    have hq' := List.mem_singleton.1 hq
    subst hq'
    exact hk' (congrArg V3.z (hu _ hfq)))]
  show [boxImage gMin gMax p kv].filter f = _
  rw [List.filter_cons]
  rfl

theorem sphTurn_mem (n : Nat) (j : Int) : sphTurn n j ∈ ([-1, 0, 1] : List Int) := by
  unfold sphTurn; split
  · simp
  · split <;> simp

theorem mem_sphDiffs {d : V3 Int} : d ∈ sphDiffs ↔ (∀ a : Axis, IsDiff (d.at a)) ∧ ¬ ∀ a : Axis, d.at a = 0 := by
  unfold sphDiffs
  rw [List.mem_filter]
  simp only [List.mem_flatMap, List.mem_map]
  have hm : ∀ j : Int, j ∈ ([-1, 0, 1] : List Int) ↔ IsDiff j := by intro j; simp [IsDiff]
  constructor
  · rintro ⟨⟨i, hi, j, hj, k, hk, rfl⟩, h⟩
    refine ⟨fun a => by cases a; exacts [(hm _).1 hi, (hm _).1 hj, (hm _).1 hk], fun h0 => ?_⟩
    have h1 := h0 .x
    have h2 := h0 .y
    have h3 := h0 .z
    simp only [V3.at] at h1 h2 h3
    simp [h1, h2, h3] at h
  · rintro ⟨h1, h2⟩
    obtain ⟨i, j, k⟩ := d
    refine ⟨⟨i, (hm _).2 (h1 .x), j, (hm _).2 (h1 .y), k, (hm _).2 (h1 .z), rfl⟩, ?_⟩
    by_contra hc
    simp at hc
    exact h2 fun a => by cases a; exacts [hc.1.1, hc.1.2, hc.2]

theorem sphDiffs_nodup : sphDiffs.Nodup := by decide

/-- Rank `r`, part `diff` of the surroundings. -/
def SPHGrid.Part (G : SPHGrid) (r : V3 Nat) (diff : V3 Int) (p : V3 Rat) : Prop :=
  ∀ d : Axis, HaloPart (G.gMin.at d) (G.gMax.at d) G.cutoff (G.grid.at d) (r.at d) (diff.at d) (p.at d)

open Classical in
/-- What comes in for `diff` are the images in that part of the surroundings. -/
theorem haloMessage_eq (h : WideGrid G) {own : V3 Nat → List Particle} (hown : AtHome G own) {r : V3 Nat} (hr : OnGrid G r) {diff : V3 Int}
    (hd : ∀ a : Axis, IsDiff (diff.at a)) :
    G.haloMessage own (G.recvPartner r diff) diff =
      (((ranks G.grid).flatMap own).flatMap (boxImages G.gMin G.gMax)).filter fun q => decide (G.Part r diff q.pos) := by
  have hpart : ∀ a : Axis, (G.recvPartner r diff).at a = sphRecvCoord (G.grid.at a) (r.at a) (diff.at a) := by intro a; cases a <;> rfl
  have hrec : OnGrid G (G.recvPartner r diff) := onGrid_iff.2 fun a => by
    rw [hpart]; exact (recvCoord_spec (h.grid a) (onGrid_iff.1 hr a) (hd a)).1
  let kv : V3 Int := ⟨sphTurn G.grid.x (r.x - diff.x), sphTurn G.grid.y (r.y - diff.y), sphTurn G.grid.z (r.z - diff.z)⟩
  have hkv : ∀ a : Axis, kv.at a = sphTurn (G.grid.at a) (r.at a - diff.at a) := by intro a; cases a <;> rfl
  let S : Axis → SPHSend := fun a =>
    sphSendHalo (G.bounds (G.recvPartner r diff) a).1 (G.bounds (G.recvPartner r diff) a).2 (diff.at a) G.cutoff (G.gMin.at a) (G.gMax.at a)
  -- one image
  have one : ∀ s, OnGrid G s → ∀ p ∈ own s, ∀ k : V3 Int, G.Part r diff (boxImage G.gMin G.gMax p k).pos →
      s = G.recvPartner r diff ∧ k = kv := by
    intro s hs p hp k hk
    have hb := inBox_iff_at.1 (hown s hs p hp)
    have hx : ∀ a : Axis, s.at a = (G.recvPartner r diff).at a ∧ k.at a = kv.at a := by
      intro a
      have hka := hk a
      rw [boxImage_at] at hka
      have hba := hb a
      rw [lo_at h hs, hi_at h hs] at hba
      have := (halo_one h.cutoff (h.grid a) (h.part a) (onGrid_iff.1 hr a) (onGrid_iff.1 hs a) (hd a) hba (k.at a)).1 hka
      exact ⟨by rw [hpart]; exact this.1, by rw [hkv]; exact this.2.1⟩
    exact ⟨sph_v3_ext fun a => (hx a).1, sph_v3_ext fun a => (hx a).2⟩
  rw [List.flatMap_assoc, List.filter_flatMap]
  have hmem : G.recvPartner r diff ∈ ranks G.grid := mem_ranks.2 hrec
  rw [flatMap_only (ranks_nodup _) hmem (by
    intro s hs hne
    have hs' : OnGrid G s := mem_ranks.1 hs
    rw [List.filter_eq_nil_iff]
    intro q hq hq'
    obtain ⟨p, hp, hq⟩ := List.mem_flatMap.1 hq
    unfold boxImages at hq
    simp only [List.mem_flatMap, List.mem_map] at hq
    obtain ⟨i, _, j, _, k, _, rfl⟩ := hq
    exact hne (one s hs' p hp _ (of_decide_eq_true hq')).1)]
  rw [List.filter_flatMap]
  show sphSelect (S .x) (S .y) (S .z) (own (G.recvPartner r diff)) = _
  unfold sphSelect
  have sub : ∀ l : List Particle, (∀ p ∈ l, p ∈ own (G.recvPartner r diff)) →
      ((l.filter fun p => inBoxB p.pos ⟨(S .x).lo, (S .y).lo, (S .z).lo⟩ ⟨(S .x).hi, (S .y).hi, (S .z).hi⟩).map fun p =>
        p.addR ⟨(S .x).shift, (S .y).shift, (S .z).shift⟩) =
      l.flatMap fun p => (boxImages G.gMin G.gMax p).filter fun q => decide (G.Part r diff q.pos) := by
    intro l
    induction l with
    | nil => intro _; rfl
    | cons p l ih =>
      intro hl
      have hp := hl p List.mem_cons_self
      rw [List.flatMap_cons, ← ih (fun q hq => hl q (List.mem_cons_of_mem _ hq)), List.filter_cons]
      rw [boxImages_filter (kv := kv) (fun a => by rw [hkv]; exact sphTurn_mem _ _)
        (fun k hk => (one _ hrec p hp k (of_decide_eq_true hk)).2)]
      have hb := inBox_iff_at.1 (hown _ hrec p hp)
      have himg : p.addR ⟨(S .x).shift, (S .y).shift, (S .z).shift⟩ = boxImage G.gMin G.gMax p kv := by
        have hsh : ∀ a : Axis, (S a).shift = kv.at a * (G.gMax.at a - G.gMin.at a) := by
          intro a
          have := halo_shift (c := G.cutoff) (h.length a) (h.grid a) (onGrid_iff.1 hr a) (hd a)
          rw [hkv, ← this]
          show (sphSendHalo _ _ _ _ _ _).shift = _
          rw [bounds_eq h hrec a, hpart]
        unfold Particle.addR boxImage
        rw [hsh .x, hsh .y, hsh .z]
        rfl
      have hiff : (inBoxB p.pos ⟨(S .x).lo, (S .y).lo, (S .z).lo⟩ ⟨(S .x).hi, (S .y).hi, (S .z).hi⟩ = true) ↔
          G.Part r diff (boxImage G.gMin G.gMax p kv).pos := by
        rw [inBoxB_at]
        unfold SPHGrid.Part
        refine forall_congr' fun a => ?_
        rw [boxImage_at]
        have hba := hb a
        rw [lo_at h hrec, hi_at h hrec] at hba
        have := halo_one h.cutoff (h.grid a) (h.part a) (onGrid_iff.1 hr a) (onGrid_iff.1 hrec a) (hd a) hba (kv.at a)
        rw [this]
        have e1 : (⟨(S .x).lo, (S .y).lo, (S .z).lo⟩ : V3 Rat).at a = (S a).lo := by cases a <;> rfl
        have e2 : (⟨(S .x).hi, (S .y).hi, (S .z).hi⟩ : V3 Rat).at a = (S a).hi := by cases a <;> rfl
        rw [e1, e2]
        have e3 : S a = sphSendHalo (G.cut a ((G.recvPartner r diff).at a)) (G.cut a ((G.recvPartner r diff).at a + 1)) (diff.at a) G.cutoff
            (G.gMin.at a) (G.gMax.at a) := by
          show sphSendHalo _ _ _ _ _ _ = _
          rw [bounds_eq h hrec a]
        rw [e3]
        exact ⟨fun hh => ⟨hpart a, hkv a, hh⟩, fun hh => hh.2.2⟩
      by_cases hin : inBoxB p.pos ⟨(S .x).lo, (S .y).lo, (S .z).lo⟩ ⟨(S .x).hi, (S .y).hi, (S .z).hi⟩ = true
      · rw [if_pos hin, if_pos (decide_eq_true (hiff.1 hin)), List.map_cons, himg]; rfl
      · rw [if_neg hin, if_neg (fun hc => hin (hiff.2 (of_decide_eq_true hc)))]; rfl
  exact sub _ fun p hp => hp

/-- Filters that exclude each other. -/
theorem flatMap_filters {α β : Type} (X : List β) (ds : List α) (f : α → β → Bool) (hnd : ds.Nodup)
    (hex : ∀ q ∈ X, ∀ a ∈ ds, ∀ b ∈ ds, f a q = true → f b q = true → a = b) :
    (ds.flatMap fun a => X.filter (f a)).Perm (X.filter fun q => ds.any fun a => f a q) := by
  induction ds with
  | nil => simp
  | cons a ds ih =>
    rw [List.nodup_cons] at hnd
    rw [List.flatMap_cons]
    have ih' := ih hnd.2 fun q hq b hb c hc => hex q hq b (List.mem_cons_of_mem _ hb) c (List.mem_cons_of_mem _ hc)
    refine (ih'.append_left _).trans ?_
    have hsplit := List.filter_append_perm (f a) (X.filter fun q => (a :: ds).any fun b => f b q)
    refine List.Perm.trans (List.Perm.of_eq ?_) hsplit
    rw [List.filter_filter, List.filter_filter]
    congr 1
    · refine List.filter_congr fun q _ => ?_
      simp only [List.any_cons]
      cases f a q <;> simp
    · refine List.filter_congr fun q hq => ?_
      simp only [List.any_cons]
      cases hfa : f a q with
      | false => simp
      | true =>
        simp only [Bool.not_true, Bool.false_and]
        rw [Bool.eq_false_iff]
        intro hc
        rw [List.any_eq_true] at hc
        obtain ⟨b, hb, hfb⟩ := hc
        have := hex q hq a List.mem_cons_self b (List.mem_cons_of_mem _ hb) hfa hfb
        exact hnd.1 (this ▸ hb)

open Classical in
theorem halo_perm (h : WideGrid G) {own : V3 Nat → List Particle} (hown : AtHome G own) {r : V3 Nat} (hr : OnGrid G r) :
    (G.halo own r).Perm ((((ranks G.grid).flatMap own).flatMap (boxImages G.gMin G.gMax)).filter fun q =>
      decide (InWidened (G.lo r) (G.hi r) G.cutoff q.pos ∧ ¬ InBox q.pos (G.lo r) (G.hi r))) := by
  unfold SPHGrid.halo
  have e : (sphDiffs.flatMap fun diff => G.haloMessage own (G.recvPartner r diff) diff) =
      sphDiffs.flatMap fun diff => (((ranks G.grid).flatMap own).flatMap (boxImages G.gMin G.gMax)).filter fun q => decide (G.Part r diff q.pos) := by
    refine List.flatMap_congr fun diff hdiff => ?_
    exact haloMessage_eq h hown hr (mem_sphDiffs.1 hdiff).1
  rw [e]
  refine (flatMap_filters _ _ _ sphDiffs_nodup ?_).trans (List.Perm.of_eq ?_)
  · intro q _ a ha b hb h1 h2
    have h1' := of_decide_eq_true h1
    have h2' := of_decide_eq_true h2
    exact sph_v3_ext fun d => haloPart_unique (h.length d) (h.grid d) ((mem_sphDiffs.1 ha).1 d) ((mem_sphDiffs.1 hb).1 d) (h1' d) (h2' d)
  · refine List.filter_congr fun q _ => ?_
    rw [Bool.eq_iff_iff, List.any_eq_true, decide_eq_true_eq]
    have hwid : InWidened (G.lo r) (G.hi r) G.cutoff q.pos ↔
        ∀ d : Axis, G.cut d (r.at d) - G.cutoff ≤ q.pos.at d ∧ q.pos.at d < G.cut d (r.at d + 1) + G.cutoff := by
      unfold InWidened
      rw [inBox_iff_at]
      refine forall_congr' fun d => ?_
      rw [← lo_at h hr, ← hi_at h hr]
      cases d <;> rfl
    have hin : InBox q.pos (G.lo r) (G.hi r) ↔ ∀ d : Axis, G.cut d (r.at d) ≤ q.pos.at d ∧ q.pos.at d < G.cut d (r.at d + 1) := by
      rw [inBox_iff_at]
      refine forall_congr' fun d => ?_
      rw [lo_at h hr, hi_at h hr]
    rw [hwid, hin]
    constructor
    · rintro ⟨diff, hdiff, hp⟩
      have hp' := of_decide_eq_true hp
      obtain ⟨h1, h2⟩ := mem_sphDiffs.1 hdiff
      refine ⟨fun d => (haloPart_any h.cutoff (h.length d) (h.grid d)).1 ⟨_, h1 d, hp' d⟩, fun hall => h2 fun d => ?_⟩
      refine haloPart_unique (h.length d) (h.grid d) (h1 d) (Or.inr (Or.inl rfl)) (hp' d) ?_
      unfold HaloPart; rw [if_pos rfl]; exact hall d
    · rintro ⟨hw, hn⟩
      have hex : ∀ d : Axis, ∃ e, IsDiff e ∧ HaloPart (G.gMin.at d) (G.gMax.at d) G.cutoff (G.grid.at d) (r.at d) e (q.pos.at d) :=
        fun d => (haloPart_any h.cutoff (h.length d) (h.grid d)).2 (hw d)
      choose e he1 he2 using hex
      have hat : ∀ d : Axis, (⟨e .x, e .y, e .z⟩ : V3 Int).at d = e d := by intro d; cases d <;> rfl
      refine ⟨⟨e .x, e .y, e .z⟩, mem_sphDiffs.2 ⟨fun a => by rw [hat]; exact he1 a, fun h0 => hn fun d => ?_⟩, decide_eq_true fun d => by
        rw [hat]; exact he2 d⟩
      have h00 := h0 d
      rw [hat] at h00
      have := he2 d
      unfold HaloPart at this
      rw [h00, if_pos rfl] at this
      exact this

end Verif
