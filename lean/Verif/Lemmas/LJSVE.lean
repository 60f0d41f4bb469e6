import Verif.Model.LJFunctorSVE
import Verif.Lemmas.LJAVX
/-! The kernels of the SVE functor as additions. -/
namespace Verif
open Spec

section
variable {K : Type} [Field K] [LinearOrder K] [IsStrictOrderedRing K]
variable {c : LJCfg K} {par : LJParams K} {w : Nat}

theorem sveReciprocal_error (a x : K) : 1 - a * sveReciprocal a x = (1 - a * x) ^ 16 := by
  have step : ∀ y : K, 1 - a * (y * sveRecps a y) = (1 - a * y) ^ 2 := fun y => by unfold sveRecps; ring
  unfold sveReciprocal
  simp only [step]
  ring

theorem sveAddv_eq (a : SReg w (Num K)) : sveAddv a = ((List.finRange w).map a).sum := by
  unfold sveAddv
  rw [List.sum_eq_foldl, List.foldl_map]

theorem sumV (l : List (Fin w)) (a : SReg w (V3 (Num K))) :
    (l.map a).sum = ⟨(l.map fun i => (a i).x).sum, (l.map fun i => (a i).y).sum, (l.map fun i => (a i).z).sum⟩ := by
  induction l with
  | nil => rfl
  | cons i l ih => rw [List.map_cons, List.sum_cons, ih]; simp only [List.map_cons, List.sum_cons]; rfl

theorem sveAddvV_eq (a : SReg w (V3 (Num K))) : sveAddvV a = ((List.finRange w).map a).sum := by
  unfold sveAddvV
  rw [sumV]
  simp only [sveAddv_eq]

theorem sumG (l : List (Fin w)) (a : SReg w (V3 (Num K))) (b : SReg w (Num K)) :
    (⟨(l.map a).sum, (l.map b).sum⟩ : LJGlobals K) = (l.map fun i => (⟨a i, b i⟩ : LJGlobals K)).sum := by
  induction l with
  | nil => rfl
  | cons i l ih => rw [List.map_cons, List.sum_cons, List.map_cons, List.sum_cons, List.map_cons, List.sum_cons, ← ih]; rfl

/-- The entries of the lanes that are switched on. -/
def sveEntries (idx : SReg w Nat) (pg : SReg w Bool) : List Nat := ((List.finRange w).filter fun l => pg l).map idx

theorem entries_sum {M : Type} [AddCommMonoid M] (g : Nat → M) (idx : SReg w Nat) (pg : SReg w Bool) (a b : SReg w M)
    (h : ∀ l, b l = a l + if pg l then g (idx l) else 0) :
    ((List.finRange w).map b).sum = ((List.finRange w).map a).sum + ((sveEntries idx pg).map g).sum := by
  unfold sveEntries
  generalize List.finRange w = ls
  induction ls with
  | nil => simp
  | cons l ls ih =>
    rw [List.map_cons, List.sum_cons, ih, h, List.map_cons, List.sum_cons, List.filter_cons]
    cases pg l
    · simp only [Bool.false_eq_true, if_false, add_zero]; abel
    · simp only [if_true, List.map_cons, List.sum_cons]; abel

/-- A lane, if the parameters are those of the two particles. -/
theorem sveLane_eq (h : SetUp c par) (hs : par.Symmetric) (newton3 : Bool) {i q : Mol K} {t1 t2 : Nat} (hi : i.own ≠ .dummy) {pg : Bool}
    (hp : c.eps t1 t2 = c.eps i.type q.type ∧ c.sig t1 t2 = c.sig i.type q.type ∧ c.shift t1 t2 = c.shift i.type q.type)
    (hd : Interact c.cutoffSquared i q → i.pos ≠ q.pos) :
    let r := sveLane c newton3 i t1 pg q t2
    (r.pgC = true ↔ pg = true ∧ Interact c.cutoffSquared i q) ∧ (r.pgC = true → r.f = (ljForceOn par c.cutoffSquared i q).fin ∧
    (⟨r.virial, r.upot⟩ : LJGlobals K) = ljShare par c.cutoffSquared i q + if newton3 then ljShare par c.cutoffSquared q i else 0) := by
  intro r
  have e1 : r.pgC = true ↔ pg = true ∧ Interact c.cutoffSquared i q := by
    simp only [r, sveLane, sveDistCalc]
    cases pg
    · simp
    · simp only [if_true, prod_normSq, Bool.true_and, Bool.and_eq_true, decide_eq_true_eq, true_and]
      exact ⟨fun h' => ⟨hi, h'.2, h'.1⟩, fun h' => ⟨h'.2.2, h'.2.1⟩⟩
  refine ⟨e1, fun hC => ?_⟩
  obtain ⟨rfl, hI⟩ := e1.1 hC
  have share := energyFactor_share (c := c) hs newton3 i q
  unfold ljEnergyFactor at share
  have fac : ∃ y, ((if i.own = .owned then .fin 1 else .fin 0) +
      (if newton3 = true then (if q.own = Ownership.owned then .fin 1 else .fin 0) else .fin 0) : Num K) = .fin y := by
    cases newton3 <;> by_cases h1 : i.own = .owned <;> by_cases h2 : q.own = .owned <;> simp [h1, h2]
  have h0 : normSq (i.pos - q.pos) ≠ 0 := fun h' => hd hI (normSq_eq_zero h')
  obtain ⟨l1, l2⟩ := avx_lane h hI (hd hI)
  have hf : r.f = (ljForceOn par c.cutoffSquared i q).fin := by
    rw [← l1]
    simp only [r, sveLane, sveDistCalc, sveLennardJones, if_true, prod_normSq, hp.1, hp.2.1, Num.fin_div h0, Num.fin_mul, Num.fin_sub, Num.fin_add]
    congr 2
    ring
  have hv : r.virial = (r.f * (i.pos - q.pos).fin).scale ((if i.own = .owned then .fin 1 else .fin 0) +
      (if newton3 = true then (if q.own = Ownership.owned then .fin 1 else .fin 0) else .fin 0)) := by
    simp only [r, sveLane, sveDistCalc, if_true]
  have hu : r.upot = ((if i.own = .owned then .fin 1 else .fin 0) +
      (if newton3 = true then (if q.own = Ownership.owned then .fin 1 else .fin 0) else .fin 0)) * .fin (6 * ljEnergyOf par c.cutoffSquared i q) := by
    rw [← l2]
    simp only [r, sveLane, sveDistCalc, sveLennardJones, if_true, prod_normSq, hp.1, hp.2.1, hp.2.2]
  refine ⟨hf, ?_⟩
  rw [hv, hu, hf, ← share]
  obtain ⟨y, hy⟩ := fac
  rw [hy]
  unfold ljVirialOf
  refine LJGlobals.ext' ?_ ?_
  · refine V3.ext' ?_ ?_ ?_ <;> simp [mul_comm]
  · simp [mul_comm]

/-- The forces and accumulators `t` are those of `s` and what the first particle and those of `js` add. -/
structure SveAdds (par : LJParams K) (rc2 : K) (newton3 : Bool) (i : Mol K) (mol : Nat → Mol K) (js : List Nat) (s t : ForceArr K × SveAcc w K) : Prop where
  force : t.1 = s.1 + (js.map fun k => if newton3 then (Pi.single k (ljForceOn par rc2 (mol k) i).fin : Nat → V3 (Num K)) else 0).sum
  acc : sveAddvV t.2.acc = sveAddvV s.2.acc + (js.map fun k => (ljForceOn par rc2 i (mol k)).fin).sum
  sums : (⟨sveAddvV t.2.virial, sveAddv t.2.upot⟩ : LJGlobals K) = ⟨sveAddvV s.2.virial, sveAddv s.2.upot⟩ +
    (js.map fun k => ljShare par rc2 i (mol k) + if newton3 then ljShare par rc2 (mol k) i else 0).sum

theorem SveAdds.nil {rc2 : K} {newton3 : Bool} {i : Mol K} {mol : Nat → Mol K} (s : ForceArr K × SveAcc w K) : SveAdds par rc2 newton3 i mol [] s s :=
  ⟨by simp, by simp, by simp⟩

theorem SveAdds.trans {rc2 : K} {newton3 : Bool} {i : Mol K} {mol : Nat → Mol K} {l₁ l₂ : List Nat} {s t u : ForceArr K × SveAcc w K}
    (h₁ : SveAdds par rc2 newton3 i mol l₁ s t) (h₂ : SveAdds par rc2 newton3 i mol l₂ t u) : SveAdds par rc2 newton3 i mol (l₁ ++ l₂) s u := by
  refine ⟨?_, ?_, ?_⟩
  · rw [h₂.force, h₁.force, List.map_append, List.sum_append, add_assoc]
  · rw [h₂.acc, h₁.acc, List.map_append, List.sum_append, add_assoc]
  · rw [h₂.sums, h₁.sums, List.map_append, List.sum_append, add_assoc]

theorem scatter_fold {M : Type} (idx : SReg w Nat) (on : SReg w Bool) (v : SReg w M) (ls : List (Fin w)) :
    ∀ (F : Nat → M) (x : Nat), (∀ l ∈ ls, ∀ l' ∈ ls, on l = true → on l' = true → idx l = idx l' → l = l') →
    ((∀ l ∈ ls, on l = true → idx l ≠ x) → ls.foldl (fun F l => if on l then Function.update F (idx l) (v l) else F) F x = F x) ∧
    (∀ l ∈ ls, on l = true → idx l = x → ls.foldl (fun F l => if on l then Function.update F (idx l) (v l) else F) F x = v l) := by
  induction ls with
  | nil => intro F x _; exact ⟨fun _ => rfl, fun l hl => absurd hl (by simp)⟩
  | cons k ls ih =>
    intro F x hinj
    have hinj' : ∀ l ∈ ls, ∀ l' ∈ ls, on l = true → on l' = true → idx l = idx l' → l = l' :=
      fun l hl l' hl' => hinj l (List.mem_cons_of_mem _ hl) l' (List.mem_cons_of_mem _ hl')
    rw [List.foldl_cons]
    obtain ⟨i1, i2⟩ := ih (if on k then Function.update F (idx k) (v k) else F) x hinj'
    refine ⟨fun hno => ?_, fun l hl hon hx => ?_⟩
    · rw [i1 (fun l hl => hno l (List.mem_cons_of_mem _ hl))]
      by_cases hk : on k = true
      · rw [if_pos hk, Function.update_of_ne (fun h' => hno k List.mem_cons_self hk h'.symm)]
      · rw [if_neg hk]
    · by_cases hex : ∃ l' ∈ ls, on l' = true ∧ idx l' = x
      · obtain ⟨l', hl', hon', hx'⟩ := hex
        have : l = l' := hinj l hl l' (List.mem_cons_of_mem _ hl') hon hon' (hx.trans hx'.symm)
        rw [this]
        exact i2 l' hl' hon' hx'
      · have hno : ∀ l' ∈ ls, on l' = true → idx l' ≠ x := fun l' hl' h1 h2 => hex ⟨l', hl', h1, h2⟩
        rcases List.mem_cons.1 hl with rfl | hl
        · rw [i1 hno, if_pos hon, hx, Function.update_self]
        · exact absurd hx (hno l hl hon)

theorem sveRegister_eq (h : SetUp c par) (hs : par.Symmetric) (newton3 : Bool) {i : Mol K} (hi : i.own ≠ .dummy) {t1 n : Nat} {mol : Nat → Mol K}
    {idx t2 : SReg w Nat} {pg : SReg w Bool} (hn : (sveEntries idx pg).Nodup) (hb : ∀ k ∈ sveEntries idx pg, k < n)
    (hp : ∀ l, pg l = true → c.eps t1 (t2 l) = c.eps i.type (mol (idx l)).type ∧ c.sig t1 (t2 l) = c.sig i.type (mol (idx l)).type ∧
      c.shift t1 (t2 l) = c.shift i.type (mol (idx l)).type)
    (hd : ∀ k ∈ sveEntries idx pg, Interact c.cutoffSquared i (mol k) → i.pos ≠ (mol k).pos) (s : ForceArr K × SveAcc w K) :
    ∃ t, sveRegister c newton3 i t1 n mol idx t2 pg s = some t ∧ SveAdds par c.cutoffSquared newton3 i mol (sveEntries idx pg) s t := by
  have mem : ∀ l, pg l = true → idx l ∈ sveEntries idx pg := fun l hl =>
    List.mem_map.2 ⟨l, List.mem_filter.2 ⟨List.mem_finRange l, hl⟩, rfl⟩
  have off : ∀ l, pg l = false → (sveLane c newton3 i t1 (pg l) (mol (idx l)) (t2 l)).pgC = false := by
    intro l hl
    rw [hl]
    rfl
  have on : ∀ l, pg l = true → _ := fun l hl => sveLane_eq h hs newton3 hi (pg := pg l) (hp l hl) (hd _ (mem l hl))
  have inj : ∀ l l', pg l = true → pg l' = true → idx l = idx l' → l = l' := by
    intro l l' h1 h2 h3
    unfold sveEntries at hn
    exact List.inj_on_of_nodup_map hn (List.mem_filter.2 ⟨List.mem_finRange l, h1⟩) (List.mem_filter.2 ⟨List.mem_finRange l', h2⟩) h3
  unfold sveRegister
  rw [if_pos (fun l hl => hb _ (mem l hl))]
  generalize hlane : (fun l => sveLane c newton3 i t1 (pg l) (mol (idx l)) (t2 l)) = lane
  have elane : ∀ l, sveLane c newton3 i t1 (pg l) (mol (idx l)) (t2 l) = lane l := fun l => congrFun hlane l
  simp only [elane] at off on
  have no : ∀ l, pg l = true → (lane l).pgC = false → ¬ Interact c.cutoffSquared i (mol (idx l)) := by
    intro l h1 h2 h3
    have := (on l h1).1.2 ⟨h1, h3⟩
    rw [h2] at this
    cases this
  have hF : ∀ l (a : V3 (Num K)), (if (lane l).pgC then a + (lane l).f else a) =
      a + if pg l then (ljForceOn par c.cutoffSquared i (mol (idx l))).fin else 0 := by
    intro l a
    cases hpg : pg l
    · rw [off l hpg]; simp
    · cases hC : (lane l).pgC
      · unfold ljForceOn
        rw [if_neg (no l hpg hC), V3.fin_zero]; simp
      · rw [if_pos rfl, if_pos rfl, ((on l hpg).2 hC).1]
  have hG : ∀ l (a : V3 (Num K)) (b : Num K), (⟨if (lane l).pgC then a + (lane l).virial else a, if (lane l).pgC then b + (lane l).upot else b⟩ : LJGlobals K) =
      ⟨a, b⟩ + if pg l then (fun k => ljShare par c.cutoffSquared i (mol k) + if newton3 then ljShare par c.cutoffSquared (mol k) i else 0) (idx l) else 0 := by
    intro l a b
    cases hpg : pg l
    · rw [off l hpg]; simp
    · cases hC : (lane l).pgC
      · have := no l hpg hC
        simp only [Bool.false_eq_true, if_false, if_true]
        rw [ljShare_zero this, ljShare_zero (fun h' => this (interact_comm.1 h'))]
        simp
      · simp only [if_true]
        rw [← ((on l hpg).2 hC).2]
        rfl
  by_cases hall : ∀ l, (lane l).pgC = false
  · rw [if_pos hall]
    have none' : ∀ k ∈ sveEntries idx pg, ¬ Interact c.cutoffSquared i (mol k) := by
      intro k hk
      obtain ⟨l, hl, rfl⟩ := List.mem_map.1 hk
      exact no l (List.mem_filter.1 hl).2 (hall l)
    refine ⟨s, rfl, ?_, ?_, ?_⟩
    · rw [List.sum_eq_zero, add_zero]
      intro x hx
      obtain ⟨k, hk, rfl⟩ := List.mem_map.1 hx
      cases newton3
      · rfl
      · simp only [if_true]
        unfold ljForceOn
        rw [if_neg (fun h' => none' k hk (interact_comm.1 h')), V3.fin_zero, Pi.single_zero]
    · rw [List.sum_eq_zero, add_zero]
      intro x hx
      obtain ⟨k, hk, rfl⟩ := List.mem_map.1 hx
      unfold ljForceOn
      rw [if_neg (none' k hk), V3.fin_zero]
    · rw [List.sum_eq_zero, add_zero]
      intro x hx
      obtain ⟨k, hk, rfl⟩ := List.mem_map.1 hx
      rw [ljShare_zero (none' k hk), ljShare_zero (fun h' => none' k hk (interact_comm.1 h'))]
      simp
  · rw [if_neg hall]
    refine ⟨_, rfl, ?_, ?_, ?_⟩
    · dsimp only
      cases newton3
      · simp
      · simp only [if_true]
        funext x
        rw [Pi.add_apply, sum_single_apply hn]
        unfold sveScatter
        have onpg : ∀ l, (lane l).pgC = true → pg l = true := fun l hl => by
          by_contra h'
          rw [off l (by simpa using h')] at hl
          cases hl
        obtain ⟨s1, s2⟩ := scatter_fold idx (fun l => (lane l).pgC) (fun l => s.1 (idx l) - (lane l).f) (List.finRange w) s.1 x
          (fun l _ l' _ h1 h2 h3 => inj l l' (onpg l h1) (onpg l' h2) h3)
        by_cases hx : x ∈ sveEntries idx pg
        · rw [if_pos hx]
          obtain ⟨l, hl, rfl⟩ := List.mem_map.1 hx
          have hpg := (List.mem_filter.1 hl).2
          by_cases hC : (lane l).pgC = true
          · rw [s2 l (List.mem_finRange l) hC rfl, ((on l hpg).2 hC).1, forceOn_swap hs _ i (mol (idx l)), V3.fin_neg]
            rfl
          · rw [s1]
            · have := no l hpg (by simpa using hC)
              unfold ljForceOn
              rw [if_neg (fun h' => this (interact_comm.1 h')), V3.fin_zero, add_zero]
            · intro l' _ h1 h2
              rw [inj l' l (onpg l' h1) hpg h2] at h1
              exact hC h1
        · rw [if_neg hx, add_zero, s1]
          intro l _ h1 h2
          exact hx (h2 ▸ mem l (onpg l h1))
    · dsimp only
      rw [sveAddvV_eq, sveAddvV_eq]
      exact entries_sum (fun k => (ljForceOn par c.cutoffSquared i (mol k)).fin) idx pg _ _ (fun l => hF l _)
    · dsimp only
      rw [sveAddvV_eq, sveAddvV_eq, sveAddv_eq, sveAddv_eq, sumG, sumG]
      exact entries_sum _ idx pg _ _ (fun l => hG l _ _)

/-- The entries below `m` of those from `j` on. -/
def belowOf (h : Nat → Nat) (m : Nat) (l : List Nat) : List Nat := (l.filter fun k => decide (k < m)).map h

theorem belowOf_append (h : Nat → Nat) (m : Nat) (l₁ l₂ : List Nat) : belowOf h m (l₁ ++ l₂) = belowOf h m l₁ ++ belowOf h m l₂ := by
  unfold belowOf
  rw [List.filter_append, List.map_append]

theorem sveEntries_range (h : Nat → Nat) (m j : Nat) :
    sveEntries (fun l : Fin w => h (j + l.val)) (fun l => decide (j + l.val < m)) = belowOf h m (List.range' j w) := by
  unfold sveEntries belowOf
  have e : List.range' j w = (List.finRange w).map fun l => j + l.val := by
    rw [List.range'_eq_map_range, ← List.map_coe_finRange_eq_range, List.map_map]
    rfl
  rw [e, List.filter_map, List.map_map]
  rfl

theorem belowOf_all (h : Nat → Nat) {m N : Nat} (hm : m ≤ N) : belowOf h m (List.range' 0 N) = (List.range m).map h := by
  unfold belowOf
  have e : List.range' 0 N = List.range' 0 m ++ List.range' m (N - m) := by
    rw [show List.range' m (N - m) = List.range' (0 + m) (N - m) by rw [Nat.zero_add], List.range'_append_1]
    congr 1; omega
  rw [e, List.filter_append, List.filter_eq_self.2, List.filter_eq_nil_iff.2, List.append_nil, List.range_eq_range']
  · intro k hk
    rw [List.mem_range'_1] at hk
    simp only [decide_eq_true_eq]
    omega
  · intro k hk
    rw [List.mem_range'_1] at hk
    simp only [decide_eq_true_eq]
    omega

/-- A loop in steps. -/
theorem sveBlocks {rc2 : K} {newton3 : Bool} {i : Mol K} {mol : Nat → Mol K} (h : Nat → Nat) (m W : Nat)
    (g : Nat → ForceArr K × SveAcc w K → Option (ForceArr K × SveAcc w K))
    (hg : ∀ j s, ∃ t, g j s = some t ∧ SveAdds par rc2 newton3 i mol (belowOf h m (List.range' j W)) s t) (q : Nat) :
    ∀ (j : Nat) (s : ForceArr K × SveAcc w K), ∃ t, (List.range' j q W).foldlM (fun s j => g j s) s = some t ∧
      SveAdds par rc2 newton3 i mol (belowOf h m (List.range' j (W * q))) s t := by
  induction q with
  | zero => intro j s; exact ⟨s, rfl, SveAdds.nil s⟩
  | succ q ih =>
    intro j s
    have e : List.range' j (W * (q + 1)) = List.range' j W ++ List.range' (j + W) (W * q) := by
      rw [List.range'_append_1]; congr 1; ring
    rw [e, belowOf_append]
    obtain ⟨t, ht, h1⟩ := hg j s
    obtain ⟨u, hu, h2⟩ := ih (j + W) t
    refine ⟨u, ?_, h1.trans h2⟩
    rw [List.range'_succ, List.foldlM_cons, ht]
    exact hu

theorem sveLoop {rc2 : K} {newton3 : Bool} {i : Mol K} {mol : Nat → Mol K} (h : Nat → Nat) (m : Nat) {W : Nat} (hW : 0 < W)
    (g : Nat → ForceArr K × SveAcc w K → Option (ForceArr K × SveAcc w K))
    (hg : ∀ j s, ∃ t, g j s = some t ∧ SveAdds par rc2 newton3 i mol (belowOf h m (List.range' j W)) s t) (s : ForceArr K × SveAcc w K) :
    ∃ t, (sveStarts m W).foldlM (fun s j => g j s) s = some t ∧ SveAdds par rc2 newton3 i mol ((List.range m).map h) s t := by
  obtain ⟨t, ht, h1⟩ := sveBlocks h m W g hg ((m + W - 1) / W) 0 s
  rw [belowOf_all] at h1
  · exact ⟨t, ht, h1⟩
  · have := Nat.div_add_mod (m + W - 1) W
    have := Nat.mod_lt (m + W - 1) hW
    omega

/-- All types of the particles have the same parameters. -/
def SameParams (c : LJCfg K) (T : Nat → Prop) : Prop :=
  ∀ a b a' b', T a → T b → T a' → T b' → c.eps a b = c.eps a' b' ∧ c.sig a b = c.sig a' b' ∧ c.shift a b = c.shift a' b'

theorem sveInner_eq (hw : 0 < w) (h : SetUp c par) (hs : par.Symmetric) (newton3 : Bool) {T : Nat → Prop} (hT : SameParams c T) {i : Mol K}
    (hi : i.own ≠ .dummy) (hiT : T i.type) {t1 : Nat} (h1T : T t1) {n : Nat} {mol : Nat → Mol K} (hmT : ∀ k, k < n → T (mol k).type) {m : Nat} (hm : m ≤ n)
    (hd : ∀ k, k < m → Interact c.cutoffSquared i (mol k) → i.pos ≠ (mol k).pos) (s : ForceArr K × SveAcc w K) :
    ∃ t, sveInner c newton3 w i t1 n mol m s = some t ∧ SveAdds par c.cutoffSquared newton3 i mol (List.range m) s t := by
  have reg : ∀ j (s : ForceArr K × SveAcc w K), ∃ t, sveRegister c newton3 i t1 n mol (fun l : Fin w => j + l.val) (fun l => (mol l.val).type)
      (fun l => decide (j + l.val < m)) s = some t ∧ SveAdds par c.cutoffSquared newton3 i mol (belowOf id m (List.range' j w)) s t := by
    intro j s
    have e := sveEntries_range (w := w) id m j
    simp only [id] at e
    have mem : ∀ k ∈ belowOf id m (List.range' j w), k < m := by
      intro k hk
      obtain ⟨k', hk', rfl⟩ := List.mem_map.1 hk
      exact of_decide_eq_true (List.mem_filter.1 hk').2
    have := sveRegister_eq (w := w) h hs newton3 hi (t1 := t1) (n := n) (mol := mol) (idx := fun l : Fin w => j + l.val) (t2 := fun l => (mol l.val).type)
      (pg := fun l => decide (j + l.val < m)) (by
        rw [e]; unfold belowOf; rw [List.map_id]; exact List.Nodup.filter _ List.nodup_range') (by
        rw [e]; exact fun k hk => lt_of_lt_of_le (mem k hk) hm) (by
        intro l hl
        have hl := of_decide_eq_true hl
        exact hT _ _ _ _ h1T (hmT _ (by omega)) hiT (hmT _ (by omega))) (by
        rw [e]; exact fun k hk => hd k (mem k hk)) s
    rw [e] at this
    exact this
  have ker : ∀ j (s : ForceArr K × SveAcc w K), ∃ t, sveKernel c newton3 w i t1 n mol m j s = some t ∧
      SveAdds par c.cutoffSquared newton3 i mol (belowOf id m (List.range' j (w * 4))) s t := by
    intro j s
    obtain ⟨t, ht, h1⟩ := sveBlocks id m w _ reg 4 j s
    exact ⟨t, ht, h1⟩
  obtain ⟨t, ht, h1⟩ := sveLoop id m (by omega) _ ker s
  rw [List.map_id] at h1
  exact ⟨t, ht, h1⟩

theorem sveZeroV : sveAddvV (fun _ => 0 : SReg w (V3 (Num K))) = 0 := by
  rw [sveAddvV_eq]; simp

theorem sveZero : sveAddv (fun _ => 0 : SReg w (Num K)) = 0 := by
  rw [sveAddv_eq]; simp

theorem sveZero_sums : (⟨sveAddvV (SveAcc.zero : SveAcc w K).virial, sveAddv (SveAcc.zero : SveAcc w K).upot⟩ : LJGlobals K) = 0 := by
  unfold SveAcc.zero
  simp only [sveZeroV, sveZero]
  rfl

theorem sveSingleOuter_eq (hw : 0 < w) (h : SetUp c par) (hs : par.Symmetric) {T : Nat → Prop} (hT : SameParams c T) {mol : Nat → Mol K} {n i : Nat}
    (hmT : ∀ k, k < n → T (mol k).type) (hi : i < n) (s : ForceArr K × SveAcc w K)
    (hd : ∀ j, j < i → Interact c.cutoffSquared (mol i) (mol j) → (mol i).pos ≠ (mol j).pos) :
    ∃ t, sveSingleOuter c w mol n s i = some t ∧ (⟨t.1, ⟨sveAddvV t.2.virial, sveAddv t.2.upot⟩⟩ : LJState Nat K) =
      ⟨s.1, ⟨sveAddvV s.2.virial, sveAddv s.2.upot⟩⟩ + ((bothWays i (List.range i)).map (ljEvent par c.cutoffSquared mol)).sum := by
  unfold sveSingleOuter
  by_cases hdum : (mol i).own = .dummy
  · rw [if_pos hdum]
    refine ⟨s, rfl, ?_⟩
    rw [List.sum_eq_zero, add_zero]
    intro x hx
    obtain ⟨t, ht, rfl⟩ := List.mem_map.1 hx
    unfold bothWays at ht
    obtain ⟨j, -, ht⟩ := List.mem_flatMap.1 ht
    simp only [List.mem_cons, List.not_mem_nil, or_false] at ht
    rcases ht with rfl | rfl
    · exact ljEvent_zero (fun h' => h'.1 hdum)
    · exact ljEvent_zero (fun h' => h'.2.1 hdum)
  · rw [if_neg hdum]
    obtain ⟨r, hr, h1⟩ := sveInner_eq hw h hs true hT hdum (hmT i hi) (hmT i hi) hmT (m := i) (by omega) hd (s.1, { s.2 with acc := fun _ => 0 })
    rw [hr]
    refine ⟨_, rfl, ?_⟩
    rw [pairEvents_sum]
    have hf := h1.force
    have ha := h1.acc
    have hg := h1.sums
    simp only [if_true, sveZeroV, zero_add] at hf ha hg
    refine LJState.ext' ?_ ?_
    · simp only [LJState.add_force]
      rw [update_add, hf, ha, add_assoc]
    · simp only [LJState.add_globals]
      exact hg

theorem sveSingle_fold (hw : 0 < w) (h : SetUp c par) (hs : par.Symmetric) {T : Nat → Prop} (hT : SameParams c T) {mol : Nat → Mol K} {n : Nat}
    (hmT : ∀ k, k < n → T (mol k).type) (is : List Nat) :
    ∀ s : ForceArr K × SveAcc w K, (∀ i ∈ is, i < n ∧ ∀ j, j < i → Interact c.cutoffSquared (mol i) (mol j) → (mol i).pos ≠ (mol j).pos) →
    ∃ t, is.foldlM (sveSingleOuter c w mol n) s = some t ∧ (⟨t.1, ⟨sveAddvV t.2.virial, sveAddv t.2.upot⟩⟩ : LJState Nat K) =
      ⟨s.1, ⟨sveAddvV s.2.virial, sveAddv s.2.upot⟩⟩ + ((avxBothWays is).map (ljEvent par c.cutoffSquared mol)).sum := by
  induction is with
  | nil => intro s _; exact ⟨s, rfl, by simp [avxBothWays]⟩
  | cons i is ih =>
    intro s hd
    obtain ⟨t, ht, h1⟩ := sveSingleOuter_eq hw h hs hT hmT (hd i List.mem_cons_self).1 s (hd i List.mem_cons_self).2
    obtain ⟨u, hu, h2⟩ := ih t (fun x hx => hd x (List.mem_cons_of_mem _ hx))
    refine ⟨u, ?_, ?_⟩
    · rw [List.foldlM_cons, ht]; exact hu
    · have e : avxBothWays (i :: is) = bothWays i (List.range i) ++ avxBothWays is := rfl
      rw [h2, h1, e, List.map_append, List.sum_append, add_assoc]

/-- `SoAFunctorSingle` of the SVE functor. -/
theorem sveSoASingle_eq (hw : 0 < w) (h : SetUp c par) (hs : par.Symmetric) {T : Nat → Prop} (hT : SameParams c T) {mol : Nat → Mol K} {n : Nat}
    (hmT : ∀ k, k < n → T (mol k).type) (F : ForceArr K) (g : LJGlobals K)
    (hd : ∀ i j, i < n → j < i → Interact c.cutoffSquared (mol i) (mol j) → (mol i).pos ≠ (mol j).pos) :
    ∃ t, sveSoASingle c w mol n F g = some t ∧
      (⟨t.1, t.2⟩ : LJState Nat K) = ⟨F, g⟩ + ((allBothWays n).map (ljEvent par c.cutoffSquared mol)).sum := by
  unfold sveSoASingle
  by_cases h0 : n = 0
  · subst h0
    exact ⟨(F, g), rfl, by simp [allBothWays]⟩
  · rw [if_neg h0]
    obtain ⟨t, ht, h1⟩ := sveSingle_fold hw h hs hT hmT (List.range n).reverse (F, (.zero : SveAcc w K)) (by
      intro i hi
      rw [List.mem_reverse, List.mem_range] at hi
      exact ⟨hi, fun j hj => hd i j hi hj⟩)
    rw [ht]
    refine ⟨_, rfl, ?_⟩
    rw [avxBothWays_sum] at h1
    have e1 := congrArg LJState.force h1
    have e2 := congrArg LJState.globals h1
    simp only [LJState.add_force, LJState.add_globals, sveZero_sums, zero_add] at e1 e2
    refine LJState.ext' e1 ?_
    simp only [LJState.add_globals]
    unfold SveAcc.addTo
    rw [LJGlobals.plus_eq, e2]

/-- `SoAFunctorVerlet` of the SVE functor. -/
theorem sveSoAVerlet_eq (hw : 0 < w) (h : SetUp c par) (hs : par.Symmetric) {T : Nat → Prop} (hT : SameParams c T) (newton3 : Bool) {mol : Nat → Mol K}
    {n first : Nat} (hmT : ∀ k, k < n → T (mol k).type) (hn : first < n) {list : List Nat} (hb : list.Nodup) (hl : ∀ k ∈ list, k < n) (F : ForceArr K)
    (g : LJGlobals K) (hd : ∀ j ∈ list, Interact c.cutoffSquared (mol first) (mol j) → (mol first).pos ≠ (mol j).pos) :
    ∃ t, sveSoAVerlet c newton3 w mol n first list F g = some t ∧ (⟨t.1, t.2⟩ : LJState Nat K) =
      ⟨F, g⟩ + ((contributions (list.map fun j => (⟨first, j, newton3⟩ : PairCall Nat))).map (ljEvent par c.cutoffSquared mol)).sum := by
  rw [listEvents_sum]
  unfold sveSoAVerlet
  by_cases h0 : n = 0 ∨ list = []
  · rcases h0 with h0 | h0
    · omega
    · subst h0
      rw [if_pos (.inr rfl)]
      refine ⟨_, rfl, ?_⟩
      simp only [List.map_nil, List.sum_nil, Pi.single_zero, add_zero]
      exact (add_zero _).symm
  · rw [if_neg h0]
    by_cases hi : (mol first).own = .dummy
    · rw [if_pos hi]
      refine ⟨_, rfl, ?_⟩
      have z1 : ∀ j, ljForceOn par c.cutoffSquared (mol first) (mol j) = 0 := fun j => if_neg (fun h' => h'.1 hi)
      have z2 : ∀ j, ljForceOn par c.cutoffSquared (mol j) (mol first) = 0 := fun j => if_neg (fun h' => h'.2.1 hi)
      have z3 : ∀ j, ljShare par c.cutoffSquared (mol first) (mol j) = 0 := fun j => ljShare_zero (fun h' => h'.1 hi)
      have z4 : ∀ j, ljShare par c.cutoffSquared (mol j) (mol first) = 0 := fun j => ljShare_zero (fun h' => h'.2.1 hi)
      simp only [z1, z2, z3, z4, V3.fin_zero]
      refine LJState.ext' ?_ ?_ <;> simp
    · rw [if_neg hi]
      have pass : ∀ j (s : ForceArr K × SveAcc w K), ∃ t, sveVerletPass c newton3 w mol n first list j s = some t ∧
          SveAdds par c.cutoffSquared newton3 (mol first) mol (belowOf (fun k => list.getD k 0) list.length (List.range' j w)) s t := by
        intro j s
        have e := sveEntries_range (w := w) (fun k => list.getD k 0) list.length j
        have mem : ∀ k ∈ belowOf (fun k => list.getD k 0) list.length (List.range' j w), k ∈ list := by
          intro k hk
          obtain ⟨k', hk', rfl⟩ := List.mem_map.1 hk
          have := of_decide_eq_true (List.mem_filter.1 hk').2
          rw [List.getD_eq_getElem _ _ this]
          exact List.getElem_mem _
        have := sveRegister_eq (w := w) h hs newton3 hi (t1 := (mol 0).type) (n := n) (mol := mol) (idx := fun l : Fin w => list.getD (j + l.val) 0)
          (t2 := fun l => (mol (list.getD (j + l.val) 0)).type) (pg := fun l => decide (j + l.val < list.length)) (by
            rw [e]
            unfold belowOf
            refine List.Nodup.map_on ?_ (List.Nodup.filter _ List.nodup_range')
            intro x hx y hy hxy
            have hx := of_decide_eq_true (List.mem_filter.1 hx).2
            have hy := of_decide_eq_true (List.mem_filter.1 hy).2
            rw [List.getD_eq_getElem _ _ hx, List.getD_eq_getElem _ _ hy] at hxy
            exact (List.Nodup.getElem_inj_iff hb).1 hxy) (by
            rw [e]; exact fun k hk => hl k (mem k hk)) (by
            intro l hl'
            have hl' := of_decide_eq_true hl'
            have hk : list.getD (j + l.val) 0 < n := by
              rw [List.getD_eq_getElem _ _ hl']
              exact hl _ (List.getElem_mem _)
            exact hT _ _ _ _ (hmT _ (by omega)) (hmT _ hk) (hmT _ hn) (hmT _ hk)) (by
            rw [e]; exact fun k hk => hd k (mem k hk)) s
        rw [e] at this
        exact this
      obtain ⟨u, hu, h2⟩ := sveLoop (fun k => list.getD k 0) list.length hw _ pass (F, (.zero : SveAcc w K))
      rw [← list_range_getD list 0] at h2
      rw [hu]
      refine ⟨_, rfl, ?_⟩
      have hf := h2.force
      have ha := h2.acc
      have hg := h2.sums
      have za : sveAddvV (SveAcc.zero : SveAcc w K).acc = 0 := sveZeroV
      simp only [sveZero_sums, za, zero_add] at hf ha hg
      refine LJState.ext' ?_ ?_
      · simp only [LJState.add_force]
        rw [update_add, hf, ha, add_assoc]
      · simp only [LJState.add_globals]
        unfold SveAcc.addTo
        rw [LJGlobals.plus_eq, hg]

end
end Verif
