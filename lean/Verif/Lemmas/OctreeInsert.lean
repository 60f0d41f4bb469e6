import Verif.Lemmas.OctreeGeometry
import Verif.Props.C55
/-! Insertion into an octree. -/
namespace Verif.Octree
open Spec

section
variable {P : Type}

theorem exists_child {b : Box} {p : V3 Rat} (h : InBox p b.lo b.hi) : ∃ o, InBox p (childBox b o).lo (childBox b o).hi := by
  have key : ∀ i j k : Bool, ∃ o : Vertex, bit .x o = (if i then 1 else 0) ∧ bit .y o = (if j then 1 else 0) ∧ bit .z o = (if k then 1 else 0) := by
    intro i j k
    cases i <;> cases j <;> cases k
    · exact ⟨.LDB, by decide⟩
    · exact ⟨.LDF, by decide⟩
    · exact ⟨.LUB, by decide⟩
    · exact ⟨.LUF, by decide⟩
    · exact ⟨.RDB, by decide⟩
    · exact ⟨.RDF, by decide⟩
    · exact ⟨.RUB, by decide⟩
    · exact ⟨.RUF, by decide⟩
  let up (d : Ax) : Bool := decide (comp b.lo d + b.width d / 2 ≤ comp p d)
  obtain ⟨o, h1, h2, h3⟩ := key (up .x) (up .y) (up .z)
  have hb : ∀ d, bit d o = if up d then 1 else 0 := by intro d; cases d <;> assumption
  refine ⟨o, inBox_iff.2 fun d => ?_⟩
  have hp := inBox_iff.1 h d
  rw [childBox_hi, childBox_lo, hb d]
  have hw : comp b.hi d = comp b.lo d + b.width d := by unfold Box.width; ring
  by_cases hu : up d = true
  · have hu' := of_decide_eq_true hu
    rw [if_pos hu]
    push_cast
    constructor <;> linarith [hp.1, hp.2]
  · have hu' : ¬ _ := fun hx => hu (decide_eq_true hx)
    rw [if_neg hu]
    push_cast
    constructor <;> linarith [hp.1, hp.2]

theorem flatMap_update {l : List Vertex} (hl : l.Nodup) {o : Vertex} (ho : o ∈ l) (c : Vertex → OTree P) (t : OTree P) {p : P}
    (h : (collectAll t).Perm (p :: collectAll (c o))) :
    (l.flatMap fun v => collectAll (Function.update c o t v)).Perm (p :: l.flatMap fun v => collectAll (c v)) := by
  induction l with
  | nil => cases ho
  | cons v l ih =>
    rw [List.flatMap_cons, List.flatMap_cons]
    rw [List.nodup_cons] at hl
    by_cases hv : v = o
    · subst hv
      rw [Function.update_self]
      have e : (l.flatMap fun w => collectAll (Function.update c v t w)) = l.flatMap fun w => collectAll (c w) :=
        List.flatMap_congr fun w hw => by
          rw [Function.update_of_ne]
          rintro rfl; exact hl.1 hw
      rw [e]
      exact h.append_right _
    · rw [Function.update_of_ne hv]
      have := ih hl.2 ((List.mem_cons.1 ho).resolve_left fun e => hv e.symm)
      exact (this.append_left _).trans List.perm_middle

variable {pos : P → V3 Rat} {il : Rat}

/-- What is required of the insertion into a leaf. -/
def LeafOk (il : Rat) (pos : P → V3 Rat) (li : Box → List P → P → OTree P) : Prop :=
  ∀ b ps p, (∀ q ∈ ps, InBox (pos q) b.lo b.hi) → InBox (pos p) b.lo b.hi → Good il pos (li b ps p) b ∧ (collectAll (li b ps p)).Perm (p :: ps)

theorem insertWith_spec {li : Box → List P → P → OTree P} (hli : LeafOk il pos li) (t : OTree P) (b : Box) (p : P) (hg : Good il pos t b)
    (hp : InBox (pos p) b.lo b.hi) :
    Good il pos (insertWith pos li t b p) b ∧ (collectAll (insertWith pos li t b p)).Perm (p :: collectAll t) := by
  induction t generalizing b with
  | leaf ps => exact hli b ps p hg hp
  | inner c ih =>
    rw [insertWith]
    obtain ⟨o', ho'⟩ := exists_child hp
    cases hf : vertices.find? fun o => inBoxB (pos p) (childBox b o).lo (childBox b o).hi with
    | none =>
      rw [List.find?_eq_none] at hf
      exact absurd (inBoxB_spec.2 ho') (hf o' (by cases o' <;> decide))
    | some o =>
      have ho := List.find?_some hf
      have ho := inBoxB_spec.1 ho
      obtain ⟨g1, g2⟩ := ih o (childBox b o) (hg.2 o) ho
      simp only
      refine ⟨⟨hg.1, fun v => ?_⟩, ?_⟩
      · by_cases hv : v = o
        · subst hv; rw [Function.update_self]; exact g1
        · rw [Function.update_of_ne hv]; exact hg.2 v
      · exact flatMap_update nodup_vertices (by cases o <;> decide) c _ g2

theorem leafInsert_spec (thr : Nat) (fuel : Nat) : LeafOk il pos (leafInsert pos thr il fuel) := by
  induction fuel with
  | zero =>
    intro b ps p hps hp
    rw [leafInsert]
    refine ⟨?_, ?_⟩
    · intro q hq
      rcases List.mem_append.1 hq with hq | hq
      · exact hps q hq
      · rw [List.mem_singleton] at hq; subst hq; exact hp
    · exact List.perm_append_singleton _ _
  | succ fuel ih =>
    intro b ps p hps hp
    rw [leafInsert]
    by_cases hc : ps.length < thr ∨ tooSmall il b = true
    · rw [if_pos hc]
      refine ⟨?_, ?_⟩
      · intro q hq
        rcases List.mem_append.1 hq with hq | hq
        · exact hps q hq
        · rw [List.mem_singleton] at hq; subst hq; exact hp
      · exact List.perm_append_singleton _ _
    · rw [if_neg hc]
      have hts : tooSmall il b = false := by
        push Not at hc
        simpa using hc.2
      have key : ∀ (l : List P) (t : OTree P), (∀ q ∈ l, InBox (pos q) b.lo b.hi) → Good il pos t b →
          Good il pos (l.foldl (fun t q => insertWith pos (leafInsert pos thr il fuel) t b q) t) b ∧
          (collectAll (l.foldl (fun t q => insertWith pos (leafInsert pos thr il fuel) t b q) t)).Perm (l ++ collectAll t) := by
        intro l
        induction l with
        | nil => intro t _ hg; exact ⟨hg, List.Perm.refl _⟩
        | cons q l ihl =>
          intro t hl hg
          obtain ⟨g1, g2⟩ := insertWith_spec ih t b q hg (hl q (by simp))
          obtain ⟨g3, g4⟩ := ihl _ (fun x hx => hl x (by simp [hx])) g1
          refine ⟨g3, g4.trans ?_⟩
          exact (g2.append_left l).trans List.perm_middle
      obtain ⟨g1, g2⟩ := key (p :: ps) (.inner fun _ => .leaf []) (by
        intro q hq
        rcases List.mem_cons.1 hq with rfl | hq
        · exact hp
        · exact hps q hq) ⟨hts, fun o q hq => by cases hq⟩
      refine ⟨g1, g2.trans ?_⟩
      have : collectAll (.inner fun _ => (.leaf [] : OTree P)) = [] := by simp [collectAll]
      rw [this, List.append_nil]

/-- A particle in the box is stored, in a leaf whose box contains it; no other particle is touched. -/
theorem insert_spec {thr : Nat} {b : Box} {t : OTree P} {p : P} (hg : Good il pos t b) (hp : InBox (pos p) b.lo b.hi) :
    Good il pos (insert pos thr il b t p) b ∧ (collectAll (insert pos thr il b t p)).Perm (p :: collectAll t) :=
  insertWith_spec (leafInsert_spec thr _) t b p hg hp

/-! ### The bound of the number of splits is large enough -/

theorem insertWith_congr {li li' : Box → List P → P → OTree P} (t : OTree P) (b : Box) (p : P)
    (h : ∀ b', b'.width .x ≤ b.width .x → li b' = li' b') (h0 : 0 ≤ b.width .x) :
    insertWith pos li t b p = insertWith pos li' t b p := by
  induction t generalizing b with
  | leaf ps => rw [insertWith, insertWith, h b le_rfl]
  | inner c ih =>
    rw [insertWith, insertWith]
    cases vertices.find? fun o => inBoxB (pos p) (childBox b o).lo (childBox b o).hi with
    | none => rfl
    | some o =>
      simp only
      have hw := childBox_width b o .x
      rw [ih o (childBox b o) (fun b' hb' => h b' (by linarith)) (by linarith)]

theorem splitFuel_eq (il : Rat) (b : Box) : splitFuel il b = ⌊b.width .x / il⌋.toNat := rfl

theorem splitFuel_mono (hil : 0 < il) {b b' : Box} (h : b'.width .x ≤ b.width .x) : splitFuel il b' ≤ splitFuel il b := by
  rw [splitFuel_eq, splitFuel_eq]
  exact Int.toNat_le_toNat (Int.floor_mono ((div_le_div_iff_of_pos_right hil).2 h))

/-- Splits stop by themselves: any larger bound gives the same tree. -/
theorem leafInsert_fuel (hil : 0 < il) (thr : Nat) {fuel fuel' : Nat} {b : Box} (h1 : splitFuel il b ≤ fuel) (h2 : splitFuel il b ≤ fuel') :
    leafInsert pos thr il fuel b = leafInsert pos thr il fuel' b := by
  induction fuel generalizing fuel' b with
  | zero =>
    cases fuel' with
    | zero => rfl
    | succ k =>
      funext ps p
      have h0 : splitFuel il b = 0 := by omega
      have hts : tooSmall il b = true := by
        by_contra hx
        have := tooSmall_false.1 (by simpa using hx : tooSmall il b = false) .x
        rw [splitFuel_eq, Int.toNat_eq_zero] at h0
        have h3 : b.width .x / il < 1 := by
          have := Int.lt_floor_add_one (b.width .x / il)
          have h0' : ((⌊b.width .x / il⌋ : Int) : Rat) ≤ 0 := by exact_mod_cast h0
          linarith
        rw [div_lt_one hil] at h3
        linarith
      rw [leafInsert, leafInsert, if_pos (.inr hts)]
  | succ k ih =>
    cases fuel' with
    | zero =>
      funext ps p
      have h0 : splitFuel il b = 0 := by omega
      have hts : tooSmall il b = true := by
        by_contra hx
        have := tooSmall_false.1 (by simpa using hx : tooSmall il b = false) .x
        rw [splitFuel_eq, Int.toNat_eq_zero] at h0
        have h3 : b.width .x / il < 1 := by
          have := Int.lt_floor_add_one (b.width .x / il)
          have h0' : ((⌊b.width .x / il⌋ : Int) : Rat) ≤ 0 := by exact_mod_cast h0
          linarith
        rw [div_lt_one hil] at h3
        linarith
      rw [leafInsert, leafInsert, if_pos (.inr hts)]
    | succ k' =>
      funext ps p
      rw [leafInsert, leafInsert]
      by_cases hc : ps.length < thr ∨ tooSmall il b = true
      · rw [if_pos hc, if_pos hc]
      · rw [if_neg hc, if_neg hc]
        have hts : tooSmall il b = false := by
          push Not at hc
          simpa using hc.2
        have hw := tooSmall_false.1 hts .x
        have hb0 : 0 ≤ b.width .x := by linarith
        -- the insertions start at the children
        have step : ∀ (t : OTree P) (q : P), (∃ c, t = .inner c) →
            insertWith pos (leafInsert pos thr il k) t b q = insertWith pos (leafInsert pos thr il k') t b q ∧
            ∃ c, insertWith pos (leafInsert pos thr il k') t b q = .inner c := by
          rintro t q ⟨c, rfl⟩
          rw [insertWith, insertWith]
          cases vertices.find? fun o => inBoxB (pos q) (childBox b o).lo (childBox b o).hi with
          | none => exact ⟨rfl, _, rfl⟩
          | some o =>
            simp only
            refine ⟨?_, _, rfl⟩
            congr 2
            refine insertWith_congr _ _ _ ?_ (by rw [childBox_width]; linarith)
            intro b' hb'
            rw [childBox_width] at hb'
            have hs : splitFuel il b' + 1 ≤ splitFuel il b := by
              have hx : ⌊b'.width .x / il⌋ + 1 ≤ ⌊b.width .x / il⌋ := by
                rw [Int.le_floor]
                have f1 := Int.floor_le (b'.width .x / il)
                have f2 : b'.width .x / il + 1 ≤ b.width .x / il := by
                  rw [le_div_iff₀ hil, add_mul, div_mul_cancel₀ _ hil.ne']
                  linarith
                push_cast
                linarith
              have hy : 0 < ⌊b.width .x / il⌋ := by
                rw [Int.floor_pos, le_div_iff₀ hil]
                linarith
              rw [splitFuel_eq, splitFuel_eq]
              omega
            exact ih (by omega) (by omega)
        have : ∀ (l : List P) (t : OTree P), (∃ c, t = .inner c) →
            l.foldl (fun t q => insertWith pos (leafInsert pos thr il k) t b q) t = l.foldl (fun t q => insertWith pos (leafInsert pos thr il k') t b q) t := by
          intro l
          induction l with
          | nil => intro t _; rfl
          | cons q l ihl =>
            intro t ht
            obtain ⟨e, hc'⟩ := step t q ht
            rw [List.foldl_cons, List.foldl_cons, e]
            exact ihl _ hc'
        exact this _ _ ⟨_, rfl⟩

/-- `insert` with any larger bound. -/
theorem insert_fuel (hil : 0 < il) (thr : Nat) {b : Box} (hb : 0 ≤ b.width .x) (t : OTree P) (p : P) {fuel : Nat} (h : splitFuel il b ≤ fuel) :
    insertWith pos (leafInsert pos thr il fuel) t b p = insert pos thr il b t p :=
  insertWith_congr t b p (fun b' hb' => leafInsert_fuel hil thr (le_trans (splitFuel_mono hil hb') h) (splitFuel_mono hil hb')) hb

end
end Verif.Octree
