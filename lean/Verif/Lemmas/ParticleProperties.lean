import Verif.Spec.ParticleProperties
import Verif.Lemmas.Num
import Mathlib.Data.List.GetD
/-! The library stores what is registered. -/
namespace Verif
open Spec
variable {K : Type} [Field K] [LinearOrder K]

/-- The state of the library agrees with the registry. -/
structure PPLInv (s : PPL K) (r : Registry K) : Prop where
  n : s.numSites = r.sites
  m : s.mols.length = r.molecules
  masses : s.masses = (List.range r.sites).map r.mass
  lj : s.storeLJ = r.anyLJ
  at' : s.storeAT = r.anyAT
  eps : s.epsilons = if r.anyLJ then (List.range r.sites).map r.epsilon else []
  sig : s.sigmas = if r.anyLJ then (List.range r.sites).map r.sigma else []
  nus : s.nus = if r.anyAT then (List.range r.sites).map r.nu else []
  eps0 : ∀ i, (r.anyLJ = false ∨ r.sites ≤ i) → r.epsilon i = 0 ∧ r.sigma i = 0
  nu0 : ∀ i, (r.anyAT = false ∨ r.sites ≤ i) → r.nu i = 0

theorem pplInv_new (c : K) : PPLInv (PPL.new c) (Registry.empty : Registry K) := by
  constructor <;> simp [PPL.new, Registry.empty]

private theorem map_range_set (f : Nat → K) (n id : Nat) (v : K) :
    ((List.range n).map f).set id v = (List.range n).map fun i => if i = id then v else f i := by
  apply List.ext_getElem
  · simp
  · intro i h1 h2
    simp only [List.getElem_set, List.getElem_map, List.getElem_range]
    by_cases e : id = i
    · simp [e]
    · rw [if_neg e, if_neg (fun h' : i = id => e h'.symm)]

private theorem map_range_succ (f : Nat → K) (n : Nat) : (List.range (n + 1)).map f = (List.range n).map f ++ [f n] := by
  rw [List.range_succ, List.map_append]; rfl

private theorem map_range_zero (f : Nat → K) (n : Nat) (h : ∀ i, f i = 0) : (List.range n).map f = List.replicate n 0 := by
  rw [List.eq_replicate_iff]; simp [h]

private theorem resize_nil (n : Nat) : vectorResize ([] : List K) n 0 = List.replicate n 0 := by
  simp [vectorResize]

private theorem map_congr_lt (f g : Nat → K) (n : Nat) (h : ∀ i, i < n → f i = g i) : (List.range n).map f = (List.range n).map g := by
  apply List.map_congr_left; intro i hi; exact h i (List.mem_range.1 hi)

/-- The list after the possible `resize`. -/
private theorem resized (b : Bool) (f : Nat → K) (l : List K) (n : Nat) (hl : l = if b then (List.range n).map f else [])
    (h0 : b = false → ∀ i, f i = 0) :
    (if l.length ≠ n then vectorResize l n 0 else l) = (List.range n).map f := by
  cases b with
  | true =>
    simp only [if_true] at hl
    subst hl; simp
  | false =>
    simp only [Bool.false_eq_true, if_false] at hl
    subst hl
    rw [map_range_zero f n (h0 rfl)]
    by_cases e : n = 0
    · simp [e]
    · rw [if_pos (by simpa using fun h' : 0 = n => e h'.symm), resize_nil]

theorem pplInv_site {s : PPL K} {r : Registry K} (H : PPLInv s r) (id : Nat) (mass : K) :
    if r.Accepts (.site id mass) then ∃ s', s.addSiteType id mass = .ok s' ∧ PPLInv s' (r.after (.site id mass)) ∧ s'.mols = s.mols ∧
        s'.ljMix = s.ljMix ∧ s'.atMix = s.atMix ∧ s'.cutoff = s.cutoff
    else s.addSiteType id mass = .throws := by
  unfold PPL.addSiteType
  by_cases e : id = r.sites
  · rw [if_pos (show r.Accepts (.site id mass) from e), if_neg (by rw [H.n]; exact fun h' => h' e.symm)]
    refine ⟨_, rfl, ?_, rfl, rfl, rfl, rfl⟩
    subst e
    constructor
    · simp [Registry.after, H.n]
    · simp [Registry.after, H.m]
    · simp only [Registry.after]
      rw [map_range_succ, H.masses]
      congr 1
      · apply map_congr_lt; intro i hi; rw [if_neg (by omega)]
      · simp
    · exact H.lj
    · exact H.at'
    · simp only [Registry.after, H.lj, H.eps]
      by_cases h : r.anyLJ = true <;> simp [h, map_range_succ, (H.eps0 r.sites (Or.inr (Nat.le_refl _))).1]
    · simp only [Registry.after, H.lj, H.sig]
      by_cases h : r.anyLJ = true <;> simp [h, map_range_succ, (H.eps0 r.sites (Or.inr (Nat.le_refl _))).2]
    · simp only [Registry.after, H.at', H.nus]
      by_cases h : r.anyAT = true <;> simp [h, map_range_succ, H.nu0 r.sites (Or.inr (Nat.le_refl _))]
    · intro i hi
      refine H.eps0 i (hi.imp id fun h' => ?_)
      simp only [Registry.after] at h'; omega
    · intro i hi
      refine H.nu0 i (hi.imp id fun h' => ?_)
      simp only [Registry.after] at h'; omega
  · rw [if_neg (show ¬ r.Accepts (.site id mass) from e), if_pos (by rw [H.n]; exact fun h' => e h'.symm)]

theorem pplInv_lj {s : PPL K} {r : Registry K} (H : PPLInv s r) (id : Nat) (ε σ : K) :
    if r.Accepts (.lj id ε σ) then ∃ s', s.addLJ id ε σ = .ok s' ∧ PPLInv s' (r.after (.lj id ε σ)) ∧ s'.mols = s.mols ∧
        s'.ljMix = s.ljMix ∧ s'.atMix = s.atMix ∧ s'.cutoff = s.cutoff
    else s.addLJ id ε σ = .throws := by
  unfold PPL.addLJ
  by_cases e : id < r.sites
  · rw [if_pos (show r.Accepts (.lj id ε σ) from e), if_neg (by rw [H.n]; omega)]
    have he := resized r.anyLJ r.epsilon s.epsilons r.sites H.eps fun h i => (H.eps0 i (Or.inl h)).1
    have hs : (if s.epsilons.length ≠ r.sites then vectorResize s.sigmas r.sites 0 else s.sigmas) = (List.range r.sites).map r.sigma := by
      have : s.epsilons.length = s.sigmas.length := by rw [H.eps, H.sig]; cases r.anyLJ <;> simp
      rw [this]
      exact resized r.anyLJ r.sigma s.sigmas r.sites H.sig fun h i => (H.eps0 i (Or.inl h)).2
    rw [H.n]
    simp only [he, hs]
    rw [if_neg (by simp only [List.length_map, List.length_range]; omega)]
    refine ⟨_, rfl, ?_, rfl, rfl, rfl, rfl⟩
    constructor
    · rfl
    · exact H.m
    · exact H.masses
    · rfl
    · exact H.at'
    · simp only [Registry.after, if_true]; exact map_range_set _ _ _ _
    · simp only [Registry.after, if_true]; exact map_range_set _ _ _ _
    · exact H.nus
    · intro i hi
      simp only [Registry.after, Bool.true_eq_false, false_or] at hi ⊢
      rw [if_neg (by omega), if_neg (by omega)]
      exact H.eps0 i (Or.inr hi)
    · exact H.nu0
  · rw [if_neg (show ¬ r.Accepts (.lj id ε σ) from e), if_pos (by rw [H.n]; omega)]

theorem pplInv_at {s : PPL K} {r : Registry K} (H : PPLInv s r) (id : Nat) (ν : K) :
    if r.Accepts (.at id ν) then ∃ s', s.addAT id ν = .ok s' ∧ PPLInv s' (r.after (.at id ν)) ∧ s'.mols = s.mols ∧
        s'.ljMix = s.ljMix ∧ s'.atMix = s.atMix ∧ s'.cutoff = s.cutoff
    else s.addAT id ν = .throws := by
  unfold PPL.addAT
  by_cases e : id < r.sites
  · rw [if_pos (show r.Accepts (.at id ν) from e), if_neg (by rw [H.n]; omega)]
    have he := resized r.anyAT r.nu s.nus r.sites H.nus fun h i => H.nu0 i (Or.inl h)
    rw [H.n]
    simp only [he]
    rw [if_neg (by simp only [List.length_map, List.length_range]; omega)]
    refine ⟨_, rfl, ?_, rfl, rfl, rfl, rfl⟩
    constructor
    · rfl
    · exact H.m
    · exact H.masses
    · exact H.lj
    · rfl
    · exact H.eps
    · exact H.sig
    · simp only [Registry.after, if_true]; exact map_range_set _ _ _ _
    · exact H.eps0
    · intro i hi
      simp only [Registry.after, Bool.true_eq_false, false_or] at hi ⊢
      rw [if_neg (by omega)]
      exact H.nu0 i (Or.inr hi)
  · rw [if_neg (show ¬ r.Accepts (.at id ν) from e), if_pos (by rw [H.n]; omega)]

/-- The largest sigma. -/
def maxSigma (r : Registry K) (l : List Nat) : K := l.foldl (fun m i => max m (r.sigma i)) 0

private theorem foldl_getD {β : Type} (op : β → K → β) (f : Nat → K) (n : Nat) (l : List Nat) (hl : ∀ i ∈ l, i < n) (b : β) :
    l.foldl (fun m i => op m (((List.range n).map f).getD i 0)) b = l.foldl (fun m i => op m (f i)) b := by
  induction l generalizing b with
  | nil => rfl
  | cons a as ih =>
    simp only [List.foldl_cons]
    have : ((List.range n).map f).getD a 0 = f a := by
      rw [List.getD_eq_getElem _ _ (by simpa using hl a (by simp))]; simp
    rw [this]
    exact ih (fun i hi => hl i (by simp [hi])) _

private theorem foldl_add (f : Nat → K) (l : List Nat) (b : K) : l.foldl (fun m i => m + f i) b = b + (l.map f).sum := by
  induction l generalizing b with
  | nil => simp
  | cons a as ih => simp only [List.foldl_cons, ih, List.map_cons, List.sum_cons]; ring

theorem pplInv_mol {s : PPL K} {r : Registry K} (H : PPLInv s r) (id : Nat) (l : List Nat) (ps : List (V3 K)) (I : V3 K)
    (hlj : l ≠ [] → r.anyLJ = true) :
    if r.Accepts (.mol id l ps I) then ∃ s', s.addMolType id l ps I = .ok s' ∧ PPLInv s' (r.after (.mol id l ps I)) ∧
        s'.mols = s.mols ++ [⟨l, ps, (l.map r.mass).sum, I, l.length, maxSigma r l⟩] ∧
        s'.ljMix = s.ljMix ∧ s'.atMix = s.atMix ∧ s'.cutoff = s.cutoff
    else s.addMolType id l ps I = .throws := by
  unfold PPL.addMolType
  rw [H.m, H.n]
  by_cases h1 : id = r.molecules
  · by_cases h2 : ∀ i ∈ l, i < r.sites
    · by_cases h3 : l.length = ps.length
      · rw [if_pos (show r.Accepts (.mol id l ps I) from ⟨h1, h2, h3⟩), if_neg (fun h' => h' h1.symm)]
        have hany : (l.any fun i => decide (r.sites ≤ i)) = false := by
          rw [List.any_eq_false]; intro i hi; have := h2 i hi; simp; omega
        rw [hany, if_neg (by simp), if_neg (fun h' => h' h3), H.masses]
        simp only [List.length_map, List.length_range]
        rw [hany, if_neg (by simp)]
        have hsig : (l.any fun i => decide (s.sigmas.length ≤ i)) = false := by
          cases l with
          | nil => rfl
          | cons a as =>
            rw [H.sig, hlj (by simp)]; simpa using hany
        rw [hsig, if_neg (by simp)]
        refine ⟨_, rfl, ?_, ?_, rfl, rfl, rfl⟩
        · constructor
          · rfl
          · simp [Registry.after, H.m]
          · rfl
          · exact H.lj
          · exact H.at'
          · exact H.eps
          · exact H.sig
          · exact H.nus
          · exact H.eps0
          · exact H.nu0
        · simp only
          congr 3
          · rw [foldl_getD (fun m x => m + x) r.mass r.sites l h2, foldl_add, zero_add]
          · unfold maxSigma
            cases l with
            | nil => rfl
            | cons a as =>
              have hb := hlj (by simp)
              rw [H.sig, hb]
              exact foldl_getD (fun m x => max m x) r.sigma r.sites _ h2 0
      · rw [if_neg (fun h' : r.Accepts (.mol id l ps I) => h3 h'.2.2), if_neg (fun h' => h' h1.symm)]
        have hany : (l.any fun i => decide (r.sites ≤ i)) = false := by
          rw [List.any_eq_false]; intro i hi; have := h2 i hi; simp; omega
        rw [hany, if_neg (by simp), if_pos h3]
    · rw [if_neg (fun h' : r.Accepts (.mol id l ps I) => h2 h'.2.1), if_neg (fun h' => h' h1.symm)]
      have hany : (l.any fun i => decide (r.sites ≤ i)) = true := by
        rw [List.any_eq_true]
        push Not at h2
        obtain ⟨i, hi, hle⟩ := h2
        exact ⟨i, hi, by simpa using hle⟩
      rw [hany, if_pos rfl]
  · rw [if_neg (fun h' : r.Accepts (.mol id l ps I) => h1 h'.1), if_pos (fun h' => h1 h'.symm)]

theorem pplInv_mix {s : PPL K} {r : Registry K} (R : RootFns K) (H : PPLInv s r) :
    ∃ s', s.calculateMixing R = .ok s' ∧ PPLInv s' r ∧ s'.mols = s.mols ∧ s'.cutoff = s.cutoff ∧
      (r.anyLJ = true → s'.ljMix = (List.range r.sites).flatMap fun i => (List.range r.sites).map fun j => s.ljEntry R i j) ∧
      (r.anyAT = true → s'.atMix = (List.range r.sites).flatMap fun i => (List.range r.sites).flatMap fun j =>
        (List.range r.sites).map fun k => R.cbrt (s.nus.getD i 0 * s.nus.getD j 0 * s.nus.getD k 0)) := by
  unfold PPL.calculateMixing
  rw [if_neg, if_neg]
  · refine ⟨_, rfl, ⟨H.n, H.m, H.masses, H.lj, H.at', H.eps, H.sig, H.nus, H.eps0, H.nu0⟩, rfl, rfl, ?_, ?_⟩
    · intro h; simp [H.lj, h, H.n]
    · intro h; simp [H.at', h, H.n]
  · rintro ⟨h1, h2⟩
    rw [H.nus, ← H.at', h1, H.n] at h2; simp at h2
  · rintro ⟨h1, h2⟩
    rw [H.eps, H.sig, ← H.lj, h1, H.n] at h2; simp at h2

theorem PPL.run_append (R : RootFns K) (s : PPL K) (p q : List (PPLAction K)) {s' : PPL K} (h : s.run R p = .ok s') :
    s.run R (p ++ q) = s'.run R q := by
  induction p generalizing s with
  | nil => simp only [PPL.run, Outcome.ok.injEq] at h; subst h; rfl
  | cons a as ih =>
    simp only [List.cons_append, PPL.run] at h ⊢
    cases e : s.step R a with
    | ok s1 => rw [e] at h; exact ih s1 h
    | throws => rw [e] at h; exact ih s h
    | ub => rw [e] at h; simp at h
    | diverges => rw [e] at h; simp at h

theorem registered_append (p q : List (PPLAction K)) :
    registered (p ++ q) = q.foldl (fun r a => if r.Accepts a then r.after a else r) (registered p) := by
  unfold registered; rw [List.foldl_append]

theorem registered_snoc (p : List (PPLAction K)) (a : PPLAction K) :
    registered (p ++ [a]) = if (registered p).Accepts a then (registered p).after a else registered p := by
  rw [registered_append]; rfl

/-- One call, in general. -/
theorem pplInv_step {s : PPL K} {r : Registry K} (R : RootFns K) (H : PPLInv s r) (a : PPLAction K)
    (hlj : ∀ id l ps I, a = .mol id l ps I → l ≠ [] → r.anyLJ = true) :
    if r.Accepts a then ∃ s', s.step R a = .ok s' ∧ PPLInv s' (r.after a) ∧ (∃ t, s'.mols = s.mols ++ t) ∧ s'.cutoff = s.cutoff ∧
        (a ≠ .mix → s'.ljMix = s.ljMix ∧ s'.atMix = s.atMix)
    else s.step R a = .throws := by
  cases a with
  | site id m =>
    have := pplInv_site H id m
    split at this
    next h =>
      obtain ⟨s', e, h1, h2, h3, h4, h5⟩ := this
      rw [if_pos h]; exact ⟨s', e, h1, ⟨[], by rw [h2]; simp⟩, h5, fun _ => ⟨h3, h4⟩⟩
    next h => rw [if_neg h]; exact this
  | lj id m σ =>
    have := pplInv_lj H id m σ
    split at this
    next h =>
      obtain ⟨s', e, h1, h2, h3, h4, h5⟩ := this
      rw [if_pos h]; exact ⟨s', e, h1, ⟨[], by rw [h2]; simp⟩, h5, fun _ => ⟨h3, h4⟩⟩
    next h => rw [if_neg h]; exact this
  | «at» id m =>
    have := pplInv_at H id m
    split at this
    next h =>
      obtain ⟨s', e, h1, h2, h3, h4, h5⟩ := this
      rw [if_pos h]; exact ⟨s', e, h1, ⟨[], by rw [h2]; simp⟩, h5, fun _ => ⟨h3, h4⟩⟩
    next h => rw [if_neg h]; exact this
  | mol id l ps I =>
    have := pplInv_mol H id l ps I (hlj id l ps I rfl)
    split at this
    next h =>
      obtain ⟨s', e, h1, h2, h3, h4, h5⟩ := this
      rw [if_pos h]; exact ⟨s', e, h1, ⟨_, h2⟩, h5, fun _ => ⟨h3, h4⟩⟩
    next h => rw [if_neg h]; exact this
  | mix =>
    obtain ⟨s', e, h1, h2, h3, h4⟩ := pplInv_mix R H
    have hacc : r.Accepts .mix := trivial
    rw [if_pos hacc]
    exact ⟨s', e, h1, ⟨[], by rw [h2]; simp⟩, h3, fun h => absurd rfl h⟩

/-- A continuation of a history. -/
theorem ppl_run {R : RootFns K} (p q : List (PPLAction K)) (s : PPL K) (H : PPLInv s (registered p)) (hm : MoleculesAfterLJ (p ++ q)) :
    ∃ s', s.run R q = .ok s' ∧ PPLInv s' (registered (p ++ q)) ∧ (∃ t, s'.mols = s.mols ++ t) ∧ s'.cutoff = s.cutoff ∧
      (PPLAction.mix ∉ q → s'.ljMix = s.ljMix ∧ s'.atMix = s.atMix) := by
  induction q generalizing p s with
  | nil => exact ⟨s, rfl, by simpa using H, ⟨[], by simp⟩, rfl, fun _ => ⟨rfl, rfl⟩⟩
  | cons a as ih =>
    have hstep := pplInv_step R H a (fun id l ps I e hl => hm p id l ps I as (by rw [e]) hl)
    have e1 : p ++ a :: as = (p ++ [a]) ++ as := by simp
    by_cases hacc : (registered p).Accepts a
    · rw [if_pos hacc] at hstep
      obtain ⟨s1, e, h1, ⟨t1, h2⟩, h3, h4⟩ := hstep
      have h1' : PPLInv s1 (registered (p ++ [a])) := by rw [registered_snoc, if_pos hacc]; exact h1
      obtain ⟨s2, k1, k2, ⟨t2, k3⟩, k4, k5⟩ := ih (p ++ [a]) s1 h1' (by rw [← e1]; exact hm)
      refine ⟨s2, ?_, by rw [e1]; exact k2, ⟨t1 ++ t2, by rw [k3, h2]; simp⟩, by rw [k4, h3], fun hn => ?_⟩
      · simp only [PPL.run, e]; exact k1
      · simp only [List.mem_cons, not_or] at hn
        have e2 := k5 hn.2
        have e3 := h4 (fun h' => hn.1 h'.symm)
        exact ⟨e2.1.trans e3.1, e2.2.trans e3.2⟩
    · rw [if_neg hacc] at hstep
      have h1' : PPLInv s (registered (p ++ [a])) := by rw [registered_snoc, if_neg hacc]; exact H
      obtain ⟨s2, k1, k2, k3, k4, k5⟩ := ih (p ++ [a]) s h1' (by rw [← e1]; exact hm)
      refine ⟨s2, ?_, by rw [e1]; exact k2, k3, k4, fun hn => k5 fun h' => hn (by simp [h'])⟩
      simp only [PPL.run, hstep]; exact k1

theorem ppl_history (R : RootFns K) (cutoff : K) (h : List (PPLAction K)) (hm : MoleculesAfterLJ h) :
    ∃ s, (PPL.new cutoff).run R h = .ok s ∧ PPLInv s (registered h) ∧ s.cutoff = cutoff := by
  obtain ⟨s, h1, h2, _, h4, _⟩ := ppl_run (R := R) [] h (PPL.new cutoff) (pplInv_new cutoff) (by simpa using hm)
  exact ⟨s, h1, by simpa using h2, by rw [h4]; rfl⟩

theorem grid_get {α : Type} (n : Nat) (f : Nat → Nat → α) (i j : Nat) (hi : i < n) (hj : j < n) :
    ((List.range n).flatMap fun i => (List.range n).map fun j => f i j)[i * n + j]? = some (f i j) := by
  have key : ∀ m, i < m → ((List.range m).flatMap fun i => (List.range n).map fun j => f i j)[i * n + j]? = some (f i j) := by
    intro m
    induction m with
    | zero => intro h; omega
    | succ m ih =>
      intro h
      have hlen : ((List.range m).flatMap fun i => (List.range n).map fun j => f i j).length = m * n := by
        rw [List.length_flatMap]; simp
      rw [List.range_succ, List.flatMap_append]
      by_cases e : i = m
      · subst e
        rw [List.getElem?_append_right (by rw [hlen]; omega), hlen]
        simp [hj]
      · have hlt : i * n + j < m * n := by
          have : (i + 1) * n ≤ m * n := Nat.mul_le_mul_right _ (by omega)
          rw [Nat.add_mul] at this; omega
        rw [List.getElem?_append_left (by rw [hlen]; exact hlt)]
        exact ih (by omega)
  exact key n hi

theorem cube_get {α : Type} (n : Nat) (f : Nat → Nat → Nat → α) (i j k : Nat) (hi : i < n) (hj : j < n) (hk : k < n) :
    ((List.range n).flatMap fun i => (List.range n).flatMap fun j => (List.range n).map fun k => f i j k)[i * n * n + j * n + k]? =
      some (f i j k) := by
  have key : ∀ m, i < m → ((List.range m).flatMap fun i => (List.range n).flatMap fun j => (List.range n).map fun k => f i j k)[
      i * n * n + j * n + k]? = some (f i j k) := by
    intro m
    have hin : ∀ i, ((List.range n).flatMap fun j => (List.range n).map fun k => f i j k).length = n * n := by
      intro i; rw [List.length_flatMap]; simp
    induction m with
    | zero => intro h; omega
    | succ m ih =>
      intro h
      have hlen : ((List.range m).flatMap fun i => (List.range n).flatMap fun j => (List.range n).map fun k => f i j k).length =
          m * n * n := by
        rw [List.length_flatMap]; simp only [hin]; simp [Nat.mul_assoc]
      have hjk : j * n + k < n * n := by
        have : (j + 1) * n ≤ n * n := Nat.mul_le_mul_right _ (by omega)
        rw [Nat.add_mul] at this; omega
      rw [List.range_succ, List.flatMap_append]
      by_cases e : i = m
      · subst e
        rw [List.getElem?_append_right (by rw [hlen]; omega), hlen]
        have : i * n * n + j * n + k - i * n * n = j * n + k := by omega
        rw [this]
        simp only [List.flatMap_singleton]
        exact grid_get n (fun j k => f i j k) j k hj hk
      · have hlt : i * n * n + j * n + k < m * n * n := by
          have : (i + 1) * (n * n) ≤ m * (n * n) := Nat.mul_le_mul_right _ (by omega)
          rw [Nat.add_mul, Nat.one_mul, ← Nat.mul_assoc, ← Nat.mul_assoc] at this; omega
        rw [List.getElem?_append_left (by rw [hlen]; exact hlt)]
        exact ih (by omega)
  exact key n hi

end Verif
