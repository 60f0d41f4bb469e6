import Verif.Spec.SPHExchange
import Verif.Lemmas.MDHalo
import Mathlib.Tactic.Linarith
import Mathlib.Tactic.FieldSimp
import Mathlib.Tactic.Ring
/-! The messages of the ranks, one dimension at a time and then all three. -/
namespace Verif
open Spec

/-- The boundaries between the ranks, continued periodically. -/
def sphCut (gMin gMax : Rat) (n : Nat) (j : Int) : Rat := j * ((gMax - gMin) / n) + gMin

section one
variable {gMin gMax c : Rat} {n : Nat}

theorem sphBounds_eq (hn : 0 < n) {i : Nat} (hi : i < n) : sphBounds gMin gMax n i = (sphCut gMin gMax n i, sphCut gMin gMax n (i + 1)) := by
  have hn' : (n : Rat) ≠ 0 := by exact_mod_cast hn.ne'
  unfold sphBounds sphCut
  dsimp only
  by_cases h0 : i = 0
  · subst h0; rw [if_pos rfl]; refine Prod.ext ?_ ?_ <;> push_cast <;> ring
  · rw [if_neg h0]
    by_cases h1 : i = n - 1
    · rw [if_pos h1]
      have e : (i : Rat) = n - 1 := by rw [h1]; push_cast [Nat.cast_sub (show 1 ≤ n from hn)]; ring
      refine Prod.ext ?_ ?_
      · push_cast; ring
      · push_cast; rw [e]; field_simp; ring
    · rw [if_neg h1]; refine Prod.ext ?_ ?_ <;> push_cast <;> ring

theorem sphCut_lt (hL : gMin < gMax) (hn : 0 < n) {a b : Int} : sphCut gMin gMax n a < sphCut gMin gMax n b ↔ a < b := by
  have hn' : (0 : Rat) < n := by exact_mod_cast hn
  have hw : 0 < (gMax - gMin) / n := div_pos (by linarith) hn'
  unfold sphCut
  rw [add_lt_add_iff_right, mul_lt_mul_iff_left₀ hw]
  exact_mod_cast Iff.rfl

theorem sphCut_le (hL : gMin < gMax) (hn : 0 < n) {a b : Int} : sphCut gMin gMax n a ≤ sphCut gMin gMax n b ↔ a ≤ b := by
  rw [← not_lt, ← not_lt, sphCut_lt hL hn]

theorem sphCut_add (hn : 0 < n) (j k : Int) : sphCut gMin gMax n (j + k * n) = sphCut gMin gMax n j + k * (gMax - gMin) := by
  have hn' : (n : Rat) ≠ 0 := by exact_mod_cast hn.ne'
  unfold sphCut
  push_cast
  field_simp
  ring

theorem sphCut_succ (j : Int) : sphCut gMin gMax n (j + 1) = sphCut gMin gMax n j + (gMax - gMin) / n := by
  unfold sphCut; push_cast; ring

theorem sphCut_zero : sphCut gMin gMax n 0 = gMin := by unfold sphCut; simp

theorem sphCut_n (hn : 0 < n) : sphCut gMin gMax n n = gMax := by
  have hn' : (n : Rat) ≠ 0 := by exact_mod_cast hn.ne'
  unfold sphCut; push_cast; field_simp; ring

/-- A coordinate lies between two neighbouring boundaries only. -/
theorem sphCut_unique (hL : gMin < gMax) (hn : 0 < n) {a b : Int} {x : Rat} (ha : sphCut gMin gMax n a ≤ x ∧ x < sphCut gMin gMax n (a + 1))
    (hb : sphCut gMin gMax n b ≤ x ∧ x < sphCut gMin gMax n (b + 1)) : a = b := by
  have h1 := (sphCut_lt hL hn).1 (lt_of_le_of_lt ha.1 hb.2)
  have h2 := (sphCut_lt hL hn).1 (lt_of_le_of_lt hb.1 ha.2)
  omega

/-- By how many lengths of the box the partner that is `diff` away is displaced. -/
def sphTurn (n : Nat) (j : Int) : Int := if j < 0 then -1 else if (n : Int) ≤ j then 1 else 0

/-- A value of `diff` in one dimension. -/
def IsDiff (d : Int) : Prop := d = -1 ∨ d = 0 ∨ d = 1

theorem recvCoord_spec (hn : 0 < n) {i : Nat} (hi : i < n) {d : Int} (hd : IsDiff d) :
    sphRecvCoord n i d < n ∧ (sphRecvCoord n i d : Int) + sphTurn n (i - d) * n = i - d := by
  unfold sphRecvCoord sphTurn
  rcases hd with rfl | rfl | rfl
  · by_cases h : i + 1 = n
    · have e : ((i : Int) + n - -1) % n = 0 := by
        have : ((i : Int) + n - -1) = n * 2 := by omega
        rw [this, Int.mul_emod_right]
      rw [e, if_neg (by omega), if_pos (by omega)]; constructor <;> simp <;> omega
    · have e : ((i : Int) + n - -1) % n = i + 1 := by
        have : ((i : Int) + n - -1) = (i + 1) + n := by omega
        rw [this, Int.add_emod_right, Int.emod_eq_of_lt (by omega) (by omega)]
      rw [e, if_neg (by omega), if_neg (by omega)]; constructor <;> omega
  · have e : ((i : Int) + n - 0) % n = i := by
      rw [Int.sub_zero, Int.add_emod_right, Int.emod_eq_of_lt (by omega) (by omega)]
    rw [e, if_neg (by omega), if_neg (by omega)]; constructor <;> omega
  · by_cases h : i = 0
    · subst h
      have e : (((0 : Nat) : Int) + n - 1) % n = n - 1 := by
        have : (((0 : Nat) : Int) + n - 1) = n - 1 := by omega
        rw [this, Int.emod_eq_of_lt (by omega) (by omega)]
      rw [e, if_pos (by omega)]; constructor <;> omega
    · have e : ((i : Int) + n - 1) % n = i - 1 := by
        have : ((i : Int) + n - 1) = (i - 1) + n := by omega
        rw [this, Int.add_emod_right, Int.emod_eq_of_lt (by omega) (by omega)]
      rw [e, if_neg (by omega), if_neg (by omega)]; constructor <;> omega

theorem sendCoord_spec (hn : 0 < n) {i : Nat} (hi : i < n) {d : Int} (hd : IsDiff d) :
    sphSendCoord n i d < n ∧ (sphSendCoord n i d : Int) + sphTurn n (i + d) * n = i + d := by
  have e : sphSendCoord n i d = sphRecvCoord n i (-d) := by
    unfold sphSendCoord sphRecvCoord
    have : (i : Int) + n - -d = (i + d) + n := by omega
    rw [this, Int.add_emod_right]
  have hd' : IsDiff (-d) := by rcases hd with rfl | rfl | rfl <;> simp [IsDiff]
  have := recvCoord_spec hn hi hd'
  rw [e]
  rw [Int.sub_neg] at this
  exact this

/-- The other way round one comes back. -/
theorem recv_send (hn : 0 < n) {i : Nat} (hi : i < n) {d : Int} (hd : IsDiff d) : sphRecvCoord n (sphSendCoord n i d) d = i := by
  obtain ⟨h1, h2⟩ := sendCoord_spec hn hi hd
  obtain ⟨h3, h4⟩ := recvCoord_spec hn h1 hd
  have e : (sphRecvCoord n (sphSendCoord n i d) d : Int) = i + (-(sphTurn n (sphSendCoord n i d - d) + sphTurn n (i + d))) * n := by
    have : (-(sphTurn n (sphSendCoord n i d - d) + sphTurn n (i + d))) * (n : Int) =
      -(sphTurn n (sphSendCoord n i d - d) * n) - sphTurn n (i + d) * n := by ring
    rw [this]; omega
  have e2 := congrArg (· % (n : Int)) e
  simp only [Int.add_mul_emod_self_right] at e2
  rw [Int.emod_eq_of_lt (by omega) (by omega), Int.emod_eq_of_lt (by omega) (by omega)] at e2
  exact_mod_cast e2

theorem send_recv (hn : 0 < n) {i : Nat} (hi : i < n) {d : Int} (hd : IsDiff d) : sphSendCoord n (sphRecvCoord n i d) d = i := by
  obtain ⟨h1, h2⟩ := recvCoord_spec hn hi hd
  obtain ⟨h3, h4⟩ := sendCoord_spec hn h1 hd
  have e : (sphSendCoord n (sphRecvCoord n i d) d : Int) = i + (-(sphTurn n (sphRecvCoord n i d + d) + sphTurn n (i - d))) * n := by
    have : (-(sphTurn n (sphRecvCoord n i d + d) + sphTurn n (i - d))) * (n : Int) =
      -(sphTurn n (sphRecvCoord n i d + d) * n) - sphTurn n (i - d) * n := by ring
    rw [this]; omega
  have e2 := congrArg (· % (n : Int)) e
  simp only [Int.add_mul_emod_self_right] at e2
  rw [Int.emod_eq_of_lt (by omega) (by omega), Int.emod_eq_of_lt (by omega) (by omega)] at e2
  exact_mod_cast e2

/-- The part of the surroundings of rank coordinate `i` that comes in with `diff`. -/
def HaloPart (gMin gMax c : Rat) (n i : Nat) (d : Int) (x : Rat) : Prop :=
  if d = 0 then sphCut gMin gMax n i ≤ x ∧ x < sphCut gMin gMax n (i + 1)
  else if d = -1 then sphCut gMin gMax n (i + 1) ≤ x ∧ x < sphCut gMin gMax n (i + 1) + c
  else sphCut gMin gMax n i - c ≤ x ∧ x < sphCut gMin gMax n i

instance (gMin gMax c : Rat) (n i : Nat) (d : Int) (x : Rat) : Decidable (HaloPart gMin gMax c n i d x) := by unfold HaloPart; infer_instance

theorem haloPart_within (hw : c ≤ (gMax - gMin) / n) {i : Nat} {d : Int} (hd : IsDiff d) {x : Rat} (h : HaloPart gMin gMax c n i d x) :
    sphCut gMin gMax n (i - d) ≤ x ∧ x < sphCut gMin gMax n (i - d + 1) := by
  unfold HaloPart at h
  rcases hd with rfl | rfl | rfl
  · rw [if_neg (by decide), if_pos rfl] at h
    rw [Int.sub_neg, sphCut_succ ((i : Int) + 1)]
    exact ⟨h.1, by linarith [h.2]⟩
  · rw [if_pos rfl] at h
    rw [Int.sub_zero]; exact h
  · rw [if_neg (by decide), if_neg (by decide)] at h
    have e : sphCut gMin gMax n i = sphCut gMin gMax n (i - 1) + (gMax - gMin) / n := by rw [← sphCut_succ, Int.sub_add_cancel]
    rw [Int.sub_add_cancel]
    exact ⟨by linarith [h.1], h.2⟩

/-- One dimension: an image lies in the part `diff` of the surroundings exactly if the particle is at the partner, which sends it for `diff`, displaced to this
image. -/
theorem halo_one (hc : 0 < c) (hn : 0 < n) (hw : c ≤ (gMax - gMin) / n) {i s : Nat} (hi : i < n) (hs : s < n) {d : Int} (hd : IsDiff d) {x : Rat}
    (hx : sphCut gMin gMax n s ≤ x ∧ x < sphCut gMin gMax n (s + 1)) (k : Int) :
    HaloPart gMin gMax c n i d (x + k * (gMax - gMin)) ↔
      s = sphRecvCoord n i d ∧ k = sphTurn n (i - d) ∧
      (sphSendHalo (sphCut gMin gMax n s) (sphCut gMin gMax n (s + 1)) d c gMin gMax).lo ≤ x ∧
      x < (sphSendHalo (sphCut gMin gMax n s) (sphCut gMin gMax n (s + 1)) d c gMin gMax).hi := by
  have hn' : (0 : Rat) < n := by exact_mod_cast hn
  have hL : gMin < gMax := by
    have := (le_div_iff₀ hn').1 hw
    nlinarith
  obtain ⟨r1, r2⟩ := recvCoord_spec hn hi hd
  have key : s = sphRecvCoord n i d → k = sphTurn n (i - d) → (s : Int) + k * n = i - d := by
    intro h1 h2; rw [h1, h2]; exact r2
  have hx' : sphCut gMin gMax n (s + k * n) ≤ x + k * (gMax - gMin) ∧ x + k * (gMax - gMin) < sphCut gMin gMax n (s + k * n + 1) := by
    rw [sphCut_add hn, show (s : Int) + k * n + 1 = (s + 1) + k * n by ring, sphCut_add hn]
    constructor <;> linarith [hx.1, hx.2]
  have conv : (s : Int) + k * n = i - d → (HaloPart gMin gMax c n i d (x + k * (gMax - gMin)) ↔
      (sphSendHalo (sphCut gMin gMax n s) (sphCut gMin gMax n (s + 1)) d c gMin gMax).lo ≤ x ∧
      x < (sphSendHalo (sphCut gMin gMax n s) (sphCut gMin gMax n (s + 1)) d c gMin gMax).hi) := by
    intro he
    have e1 : sphCut gMin gMax n (i - d) = sphCut gMin gMax n s + k * (gMax - gMin) := by rw [← he, sphCut_add hn]
    have e2 : sphCut gMin gMax n (i - d + 1) = sphCut gMin gMax n (s + 1) + k * (gMax - gMin) := by
      rw [← he, show (s : Int) + k * n + 1 = (s + 1) + k * n by ring, sphCut_add hn]
    unfold HaloPart sphSendHalo
    rcases hd with rfl | rfl | rfl
    · rw [if_neg (by decide), if_pos rfl, if_neg (by decide), if_pos rfl]
      dsimp only
      rw [Int.sub_neg] at e1
      rw [e1]
      constructor
      · intro h; exact ⟨by linarith [h.1], by linarith [h.2]⟩
      · intro h; exact ⟨by linarith [h.1], by linarith [h.2]⟩
    · rw [if_pos rfl, if_pos rfl]
      dsimp only
      rw [Int.sub_zero] at e1 e2
      rw [e1, e2]
      constructor
      · intro h; exact ⟨by linarith [h.1], by linarith [h.2]⟩
      · intro h; exact ⟨by linarith [h.1], by linarith [h.2]⟩
    · rw [if_neg (by decide), if_neg (by decide), if_neg (by decide), if_neg (by decide)]
      dsimp only
      rw [Int.sub_add_cancel] at e2
      rw [e2]
      constructor
      · intro h; exact ⟨by linarith [h.1], by linarith [h.2]⟩
      · intro h; exact ⟨by linarith [h.1], by linarith [h.2]⟩
  constructor
  · intro h
    have h1 := haloPart_within hw hd h
    have he := sphCut_unique hL hn hx' h1
    have h2 : (s : Int) + (k - sphTurn n (i - d)) * n = sphRecvCoord n i d := by
      have : (k - sphTurn n (i - d)) * (n : Int) = k * n - sphTurn n (i - d) * n := by ring
      rw [this]; omega
    have h3 := congrArg (· % (n : Int)) h2
    simp only [Int.add_mul_emod_self_right] at h3
    rw [Int.emod_eq_of_lt (by omega) (by omega), Int.emod_eq_of_lt (by omega) (by omega)] at h3
    have h4 : s = sphRecvCoord n i d := by exact_mod_cast h3
    refine ⟨h4, ?_, (conv he).1 h⟩
    have h5 : (k - sphTurn n (i - d)) * (n : Int) = 0 := by omega
    rcases mul_eq_zero.1 h5 with h6 | h6
    · omega
    · omega
  · rintro ⟨h1, h2, h3⟩
    exact (conv (key h1 h2)).2 h3

/-- The displacement of what comes in. -/
theorem halo_shift (hL : gMin < gMax) (hn : 0 < n) {i : Nat} (hi : i < n) {d : Int} (hd : IsDiff d) :
    (sphSendHalo (sphCut gMin gMax n (sphRecvCoord n i d)) (sphCut gMin gMax n (sphRecvCoord n i d + 1)) d c gMin gMax).shift =
      sphTurn n (i - d) * (gMax - gMin) := by
  obtain ⟨r1, r2⟩ := recvCoord_spec hn hi hd
  have z : ∀ j : Int, sphCut gMin gMax n j = gMin ↔ j = 0 := by
    intro j
    have a := @sphCut_le gMin gMax n hL hn j 0
    have b := @sphCut_le gMin gMax n hL hn 0 j
    rw [sphCut_zero] at a b
    constructor
    · intro h; have := a.1 h.le; have := b.1 h.ge; omega
    · intro h; rw [h, sphCut_zero]
  have t : ∀ j : Int, sphCut gMin gMax n j = gMax ↔ j = n := by
    intro j
    have a := @sphCut_le gMin gMax n hL hn j n
    have b := @sphCut_le gMin gMax n hL hn n j
    rw [sphCut_n hn] at a b
    constructor
    · intro h; have := a.1 h.le; have := b.1 h.ge; omega
    · intro h; rw [h, sphCut_n hn]
  unfold sphSendHalo
  rcases hd with rfl | rfl | rfl
  · rw [if_neg (by decide), if_pos rfl]
    dsimp only
    by_cases h : (n : Int) ≤ i - -1
    · have ht : sphTurn n (i - -1) = 1 := by unfold sphTurn; rw [if_neg (by omega), if_pos h]
      rw [ht] at r2 ⊢
      rw [if_pos ((z _).2 (by omega))]; push_cast; ring
    · have ht : sphTurn n (i - -1) = 0 := by unfold sphTurn; rw [if_neg (by omega), if_neg h]
      rw [ht] at r2 ⊢
      rw [if_neg (fun e => by have := (z _).1 e; omega)]; push_cast; ring
  · have ht : sphTurn n (i - 0) = 0 := by unfold sphTurn; rw [if_neg (by omega), if_neg (by omega)]
    rw [if_pos rfl, ht]; push_cast; ring
  · rw [if_neg (by decide), if_neg (by decide)]
    dsimp only
    by_cases h : (i : Int) - 1 < 0
    · have ht : sphTurn n (i - 1) = -1 := by unfold sphTurn; rw [if_pos h]
      rw [ht] at r2 ⊢
      rw [if_pos ((t _).2 (by omega))]; push_cast; ring
    · have ht : sphTurn n (i - 1) = 0 := by unfold sphTurn; rw [if_neg h, if_neg (by omega)]
      rw [ht] at r2 ⊢
      rw [if_neg (fun e => by have := (t _).1 e; omega)]; push_cast; ring

/-- The parts of the surroundings do not overlap and are together the widened box. -/
theorem haloPart_unique {i : Nat} {d e : Int} (hL : gMin < gMax) (hn : 0 < n) (hd : IsDiff d) (he : IsDiff e) {x : Rat} (h : HaloPart gMin gMax c n i d x) (h' : HaloPart gMin gMax c n i e x) :
    d = e := by
  have := (sphCut_lt (gMin := gMin) (gMax := gMax) hL hn (a := i) (b := i + 1)).2 (by omega)
  unfold HaloPart at h h'
  rcases hd with rfl | rfl | rfl <;> rcases he with rfl | rfl | rfl <;> first | rfl | (exfalso; simp at h h'; linarith [h.1, h.2, h'.1, h'.2])

theorem haloPart_any (hc : 0 < c) {i : Nat} (hL : gMin < gMax) (hn : 0 < n) {x : Rat} : (∃ d, IsDiff d ∧ HaloPart gMin gMax c n i d x) ↔
    sphCut gMin gMax n i - c ≤ x ∧ x < sphCut gMin gMax n (i + 1) + c := by
  have := (sphCut_lt (gMin := gMin) (gMax := gMax) hL hn (a := i) (b := i + 1)).2 (by omega)
  constructor
  · rintro ⟨d, hd, h⟩
    unfold HaloPart at h
    rcases hd with rfl | rfl | rfl <;> simp at h <;> constructor <;> linarith [h.1, h.2]
  · rintro ⟨h1, h2⟩
    by_cases h3 : x < sphCut gMin gMax n i
    · exact ⟨1, Or.inr (Or.inr rfl), by unfold HaloPart; simp; exact ⟨by linarith, h3⟩⟩
    · by_cases h4 : x < sphCut gMin gMax n (i + 1)
      · exact ⟨0, Or.inr (Or.inl rfl), by unfold HaloPart; simp; exact ⟨not_lt.1 h3, h4⟩⟩
      · exact ⟨-1, Or.inl rfl, by unfold HaloPart; simp; exact ⟨not_lt.1 h4, h2⟩⟩

end one

end Verif
