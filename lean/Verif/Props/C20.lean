import Verif.Lemmas.Remainder
import Mathlib.Tactic.NormNum
/-!
# C20 — Freshly added particles interact completely

`cont` are the particles in the container, `pb` the buffers of owned particles, `hb` the buffers of halo particles (one of
each per thread). `RemInput`: all these particles are different objects, and there are as many halo buffers as particle
buffers.
-/
namespace Verif
open Spec

variable {P : Type} [DecidableEq P] {pos : P → V3 Rat} {own : P → Ownership} {newton3 : Bool} {cutoff : Rat}
  {cont : List P} {pb hb : List (List P)}

/-- An owned particle that is still in a buffer receives exactly one contribution from every other buffered particle, owned
or halo, and from every container particle closer than the cutoff. -/
theorem C20_buffered_particle_receives_each_once (h : RemInput cont pb hb) (hc : 0 ≤ cutoff) (a b : P)
    (ha : a ∈ pb.flatten) (hab : b ≠ a)
    (hb' : b ∈ pb.flatten ∨ b ∈ hb.flatten ∨ (b ∈ cont ∧ own b ≠ .dummy ∧ distSq (pos a) (pos b) < cutoff * cutoff)) :
    timesReceived (remainder2B pos own newton3 cutoff cont pb hb) a b = 1 := by
  obtain ⟨hn, hm⟩ := remainder2B_spec (pos := pos) (own := own) (newton3 := newton3) (cutoff := cutoff) h
  refine List.count_eq_one_of_mem hn ((hm a b).2 ?_)
  rcases hb' with hb' | hb' | ⟨h1, h2, h3⟩
  · exact Or.inr (Or.inr (Or.inr (Or.inr (Or.inl ⟨ha, hb', Ne.symm hab⟩))))
  · exact Or.inr (Or.inr (Or.inr (Or.inr (Or.inr ⟨ha, hb'⟩))))
  · exact Or.inl ⟨ha, (mem_regionAround pos own).2 ⟨h1, (fulfills_ownedOrHalo _).2 h2, inBox_of_dist hc h3⟩⟩

/-- An owned particle in the container receives exactly one contribution from every buffered particle, owned or halo, that is
closer than the cutoff. -/
theorem C20_container_particle_receives_each_once (h : RemInput cont pb hb) (hc : 0 ≤ cutoff) (a b : P)
    (ha : a ∈ cont) (hao : own a = .owned) (hb' : b ∈ pb.flatten ∨ b ∈ hb.flatten)
    (hd : distSq (pos b) (pos a) < cutoff * cutoff) :
    timesReceived (remainder2B pos own newton3 cutoff cont pb hb) a b = 1 := by
  obtain ⟨hn, hm⟩ := remainder2B_spec (pos := pos) (own := own) (newton3 := newton3) (cutoff := cutoff) h
  refine List.count_eq_one_of_mem hn ((hm a b).2 ?_)
  rcases hb' with hb' | hb'
  · exact Or.inr (Or.inl ⟨hb', (mem_regionAround pos own).2 ⟨ha, (fulfills_ownedOrHalo _).2 (by simp [hao]),
      inBox_of_dist hc hd⟩, Or.inr (by simp [hao])⟩)
  · exact Or.inr (Or.inr (Or.inl ⟨hb', (mem_regionAround pos own).2 ⟨ha, (fulfills_owned _).2 hao, inBox_of_dist hc hd⟩⟩))

/-- No contribution at all is made twice. -/
theorem C20_no_contribution_twice (h : RemInput cont pb hb) (a b : P) :
    timesReceived (remainder2B pos own newton3 cutoff cont pb hb) a b ≤ 1 :=
  List.nodup_iff_count_le_one.1
    (remainder2B_spec (pos := pos) (own := own) (newton3 := newton3) (cutoff := cutoff) h).1 _

/-- Pairs of container particles are left to the container traversal; no particle interacts with itself. -/
theorem C20_container_pairs_untouched (h : RemInput cont pb hb) (a b : P) (hab : (a ∈ cont ∧ b ∈ cont) ∨ a = b) :
    timesReceived (remainder2B pos own newton3 cutoff cont pb hb) a b = 0 := by
  obtain ⟨hn, hm⟩ := remainder2B_spec (pos := pos) (own := own) (newton3 := newton3) (cutoff := cutoff) h
  refine List.count_eq_zero.2 (fun hc => ?_)
  have hnd := h.nodup
  rw [List.nodup_append, List.nodup_append] at hnd
  obtain ⟨nc, ⟨np, nh, dph⟩, dc⟩ := hnd
  have hsub : ∀ b p, (regionAround pos own cutoff cont b p).Sublist cont := fun _ _ => List.filter_sublist
  have dp : ∀ x ∈ cont, x ∉ pb.flatten := fun x hx hp => dc x hx x (List.mem_append.2 (Or.inl hp)) rfl
  have dh : ∀ x ∈ cont, x ∉ hb.flatten := fun x hx hp => dc x hx x (List.mem_append.2 (Or.inr hp)) rfl
  rcases hab with ⟨ha, hb'⟩ | rfl
  · rcases (hm a b).1 hc with h1 | h1 | h1 | h1 | h1 | h1
    · exact dp a ha h1.1
    · exact dp b hb' h1.1
    · exact dh b hb' h1.1
    · exact dh a ha h1.2.1
    · exact dp a ha h1.1
    · exact dp a ha h1.1
  · rcases (hm a a).1 hc with h1 | h1 | h1 | h1 | h1 | h1
    · exact dp a ((hsub _ _).subset h1.2) h1.1
    · exact dp a ((hsub _ _).subset h1.2.1) h1.1
    · exact dh a ((hsub _ _).subset h1.2) h1.1
    · exact dh a ((hsub _ _).subset h1.2.2) h1.2.1
    · exact h1.2.2 rfl
    · exact dph a h1.1 a h1.2 rfl

/-- Buffer/container step, parallel over buffers: a task changes only particles of its own two buffers, or a container
particle while holding the lock of that particle's position. -/
theorem C20_container_step_writes_protected (i : Nat) (lock : Option P) (call : PairCall P)
    (hcall : (lock, call) ∈ remBufferContainerTask pos own newton3 cutoff cont pb hb i) (t : P × P)
    (ht : t ∈ contributions [call]) : t.1 ∈ pb.getD i [] ∨ t.1 ∈ hb.getD i [] ∨ lock = some t.1 := by
  unfold remBufferContainerTask at hcall
  simp only [List.mem_append, List.mem_flatMap, List.mem_map, Prod.mk.injEq] at hcall
  rcases hcall with ⟨p1, h1, p2, -, hc⟩ | ⟨p1, h1, p2, -, rfl, rfl⟩
  · unfold remStep1 at hc
    split_ifs at hc with hn ho
    · simp only [List.mem_cons, Prod.mk.injEq, List.not_mem_nil, or_false] at hc
      obtain ⟨rfl, rfl⟩ := hc
      simp [contributions] at ht
      rcases ht with rfl | rfl
      · exact Or.inl h1
      · exact Or.inr (Or.inr rfl)
    · simp only [List.mem_cons, Prod.mk.injEq, List.not_mem_nil, or_false] at hc
      rcases hc with ⟨rfl, rfl⟩ | ⟨rfl, rfl⟩
      · simp [contributions] at ht; subst ht; exact Or.inl h1
      · simp [contributions] at ht; subst ht; exact Or.inr (Or.inr rfl)
    · simp only [List.mem_cons, Prod.mk.injEq, List.not_mem_nil, or_false] at hc
      obtain ⟨rfl, rfl⟩ := hc
      simp [contributions] at ht; subst ht; exact Or.inl h1
  · cases newton3
    · simp [contributions] at ht; subst ht; exact Or.inr (Or.inr rfl)
    · simp [contributions] at ht
      rcases ht with rfl | rfl
      · exact Or.inr (Or.inr rfl)
      · exact Or.inr (Or.inl h1)

/-- Buffer/buffer and buffer/halo buffer steps, parallel over buffers: a task changes only particles of its own buffer. -/
theorem C20_buffer_steps_write_own_buffer (i off : Nat) (t : P × P)
    (ht : t ∈ contributions (remBufferBufferTask pb i) ∨ t ∈ contributions (remBufferHaloBufferTask pb hb off i)) :
    t.1 ∈ pb.getD i [] := by
  rcases ht with ht | ht
  · unfold remBufferBufferTask at ht
    rw [contributions_flatMap] at ht
    obtain ⟨jj, _, ht⟩ := List.mem_flatMap.1 ht
    simp only at ht
    split_ifs at ht
    · simp only [contributions, soaSingleN3, List.mem_flatMap, List.mem_map] at ht
      obtain ⟨c, ⟨u, hu, rfl⟩, hc⟩ := ht
      have := mem_pairLoop hu
      simp only [if_true, List.mem_cons, List.not_mem_nil, or_false] at hc
      rcases hc with rfl | rfl
      · exact this.1
      · exact this.2
    · rw [contributions_pair] at ht
      simp only [List.mem_flatMap, List.mem_map] at ht
      obtain ⟨x, hx, y, _, rfl⟩ := ht
      exact hx
  · unfold remBufferHaloBufferTask at ht
    rw [contributions_pair] at ht
    simp only [List.mem_flatMap, List.mem_map] at ht
    obtain ⟨x, hx, y, _, rfl⟩ := ht
    exact hx

/-- The search box is half open: a container particle at exactly the cutoff distance in positive direction is missed, although
functors evaluate pairs at exactly the cutoff. Hence "closer than the cutoff" above. -/
theorem C20_pair_at_exactly_cutoff_is_missed :
    timesReceived (remainder2B (P := Nat) (fun n => ⟨n, 0, 0⟩) (fun _ => .owned) true 1 [1] [[0]] [[]]) 0 1 = 0 := by
  decide +kernel

-- two threads, both kinds of buffers filled: 0..3 in the container, 4..6 buffered, 7, 8 buffered halo particles
example : RemInput [0, 1, 2, 3] [[4, 5, 6], []] [[7], [8]] := ⟨by decide, rfl⟩
example : timesReceived (remainder2B (P := Nat) (fun n => ⟨n, 0, 0⟩) (fun n => if n < 7 then .owned else .halo) false 3
    [0, 1, 2, 3] [[4, 5, 6], []] [[7], [8]]) 2 4 = 1 := by decide +kernel
example : timesReceived (remainder2B (P := Nat) (fun n => ⟨n, 0, 0⟩) (fun n => if n < 7 then .owned else .halo) true 3
    [0, 1, 2, 3] [[4, 5, 6], []] [[7], [8]]) 5 8 = 1 := by decide +kernel

end Verif
