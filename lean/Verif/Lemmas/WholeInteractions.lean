import Verif.Model.WholeInteractions
import Verif.Lemmas.LCClose
import Verif.Lemmas.WithRemainder
import Verif.Props.C51
/-! The whole of computeInteractions. -/
namespace Verif
open Spec

theorem getD_slots (a : Nat) (ls : List (List Particle)) (k : Nat) :
    (slotsOf a ls).getD k [] = (ls.getD k []).mapIdx fun i p => ⟨a, k, i, p⟩ := by
  unfold slotsOf
  rw [List.getD_eq_getElem?_getD, List.getElem?_mapIdx, List.getD_eq_getElem?_getD]
  cases ls[k]? <;> simp

theorem mem_slots {a : Nat} {ls : List (List Particle)} {k : Nat} {x : Slot} :
    x ∈ (slotsOf a ls).getD k [] ↔ x.area = a ∧ x.vector = k ∧ (ls.getD k [])[x.index]? = some x.particle := by
  rw [getD_slots, List.mem_mapIdx]
  constructor
  · rintro ⟨i, hi, rfl⟩
    exact ⟨rfl, rfl, List.getElem?_eq_getElem hi⟩
  · rintro ⟨h1, h2, h3⟩
    obtain ⟨hi, e⟩ := List.getElem?_eq_some_iff.1 h3
    refine ⟨x.index, hi, ?_⟩
    cases x
    simp only at h1 h2 e ⊢
    rw [h1, h2, e]

theorem mem_slots_flatten {a : Nat} {ls : List (List Particle)} {x : Slot} :
    x ∈ (slotsOf a ls).flatten ↔ x.area = a ∧ (ls.getD x.vector [])[x.index]? = some x.particle := by
  rw [mem_flatten_getD']
  constructor
  · rintro ⟨k, hk⟩
    obtain ⟨h1, h2, h3⟩ := mem_slots.1 hk
    exact ⟨h1, by rw [h2]; exact h3⟩
  · rintro ⟨h1, h3⟩
    exact ⟨x.vector, mem_slots.2 ⟨h1, rfl, h3⟩⟩

theorem slot_particle {a : Nat} {ls : List (List Particle)} {k : Nat} {x : Slot} (h : x ∈ (slotsOf a ls).getD k []) :
    x.particle ∈ ls.getD k [] := List.mem_of_getElem? (mem_slots.1 h).2.2

theorem slot_particle_flatten {a : Nat} {ls : List (List Particle)} {x : Slot} (h : x ∈ (slotsOf a ls).flatten) :
    x.particle ∈ ls.flatten := by
  obtain ⟨k, hk⟩ := mem_flatten_getD'.1 h
  exact mem_flatten_getD'.2 ⟨k, slot_particle hk⟩

theorem slots_length (a : Nat) (ls : List (List Particle)) : (slotsOf a ls).length = ls.length := by
  unfold slotsOf; rw [List.length_mapIdx]

theorem slots_nodup (a : Nat) (ls : List (List Particle)) : (slotsOf a ls).flatten.Nodup := by
  rw [List.nodup_flatten]
  constructor
  · intro l hl
    obtain ⟨k, hk, rfl⟩ := List.mem_mapIdx.1 hl
    rw [List.nodup_iff_pairwise_ne, List.pairwise_iff_getElem]
    intro i j hi hj hij
    rw [List.getElem_mapIdx, List.getElem_mapIdx]
    intro h
    have := (Slot.mk.inj h).2.2.1
    omega
  · rw [List.pairwise_iff_getElem]
    intro i j hi hj hij x hx hy
    have e : ∀ k (hk : k < (slotsOf a ls).length), x ∈ (slotsOf a ls)[k] → x.vector = k := by
      intro k hk hx
      exact (mem_slots.1 (show x ∈ (slotsOf a ls).getD k [] by
        rw [List.getD_eq_getElem?_getD, List.getElem?_eq_getElem hk]; exact hx)).2.1
    have h1 := e i hi hx
    have h2 := e j hj hy
    omega

theorem slots_input (s : LHState) (h : s.haloBufs.length = s.bufs.length) :
    RemInput (slotsOf 0 s.cells).flatten (slotsOf 1 s.bufs) (slotsOf 2 s.haloBufs) := by
  refine ⟨?_, by rw [slots_length, slots_length]; exact h⟩
  rw [List.nodup_append, List.nodup_append]
  refine ⟨slots_nodup _ _, ⟨slots_nodup _ _, slots_nodup _ _, ?_⟩, ?_⟩
  · rintro x hx y hy rfl
    have h1 := (mem_slots_flatten.1 hx).1
    have h2 := (mem_slots_flatten.1 hy).1
    omega
  · rintro x hx y hy rfl
    have h1 := (mem_slots_flatten.1 hx).1
    rcases List.mem_append.1 hy with hy | hy
    · have h2 := (mem_slots_flatten.1 hy).1
      omega
    · have h2 := (mem_slots_flatten.1 hy).1
      omega

/-- The state of the storage in which interactions are computed. -/
structure Ready (c : LHParams) (s : LHState) : Prop where
  params : LHParamsOk c
  cells : s.cells.length = c.block.numCells
  near : ∀ k, ∀ p ∈ s.cells.getD k [], ∃ old, c.block.flatIndexOfPosition old = k ∧ HalfApart c.skin p.pos old
  ownedIn : ∀ k, ∀ p ∈ s.cells.getD k [], p.own = .owned → c.block.cellCanContainHalo k = false
  bl : s.haloBufs.length = s.bufs.length
  hown : ∀ p ∈ s.haloBufs.flatten, p.own = .halo

theorem ready_of_history {c : LHParams} {mv : Moves} {n : Nat} {s : LHState} (hc : LHParamsOk c) (hf : 0 < c.rebuildFrequency)
    (h : HInv c mv n s) (he : CloseInv c mv s) (hu : mv.sinceUpdate = false) : Ready c s := by
  refine ⟨hc, h.len, fun k p hp => ?_, fun k p hp => (h.place k p hp).ownedIn, by rw [h.bl, h.hl], h.hown⟩
  obtain ⟨old, o1, o2⟩ := he.near k p hp
  refine ⟨old, o1, halfApart_mono ?_ ?_ o2⟩
  · have := hc.skinPos; positivity
  · have h1 := h.moves
    have h2 := he.steps
    rw [hu] at h1
    have : mv.sinceRebuild ≤ c.rebuildFrequency := by
      simp only [Bool.false_eq_true, if_false] at h1
      omega
    unfold LHParams.skin
    exact spt_mono hc this

open Classical in
/-- A position by which the particle may have been sorted in. -/
noncomputable def Ready.home {c : LHParams} {s : LHState} (_ : Ready c s) (x : Slot) : V3 Rat :=
  if h : ∃ old, c.block.flatIndexOfPosition old = x.vector ∧ HalfApart c.skin x.pos old then h.choose else x.pos

theorem Ready.home_spec {c : LHParams} {s : LHState} (h : Ready c s) {k : Nat} {x : Slot} (hx : x ∈ (slotsOf 0 s.cells).getD k []) :
    c.block.flatIndexOfPosition (h.home x) = k ∧ HalfApart c.skin x.pos (h.home x) := by
  have hv := (mem_slots.1 hx).2.1
  have he : ∃ old, c.block.flatIndexOfPosition old = x.vector ∧ HalfApart c.skin x.pos old := by
    rw [hv]; exact h.near k _ (slot_particle hx)
  unfold Ready.home
  rw [dif_pos he, ← hv]
  exact he.choose_spec

theorem Ready.sorted {c : LHParams} {s : LHState} (h : Ready c s) : SortedIn c.block h.home (slotsOf 0 s.cells) := by
  refine ⟨?_, slots_nodup _ _, fun k p hp => (h.home_spec hp).1⟩
  rw [slots_length, h.cells, block_numCells]

end Verif
