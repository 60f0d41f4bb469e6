import Verif.Model.EnergyMeter
import Verif.Lemmas.LogicControl
import Mathlib.Data.List.Perm.Basic
import Mathlib.Data.List.Range
import Mathlib.Algebra.BigOperators.Group.List.Basic
import Mathlib.Tactic.Linarith
import Mathlib.Tactic.Ring
/-!
# C129 — energy measurements

After a reset, a sample is the energy that was counted since then, summed over the measured CPUs; descriptors are neither lost nor closed twice in any
history; one CPU of every package is measured if packages appear in increasing order.

Violated: packages that appear in another order are left out (`C129_violated_packages`, `C129_packages`), initialising twice counts packages twice
(`C129_violated_twice`). Whoever does not have energy measurements reads uninitialised variables in every iteration (`C129_violated_disabled`,
`C129_violated_no_support`), and so does whoever has a machine without the counter of the whole system (`C129_violated_no_psys`). If a counter cannot be read
any more, the energy of that iteration is wrong, but declared valid (`C129_violated_stale`). Files stay open (`C129_violated_files`).
-/
namespace Verif

/-! ### What is opened and what is counted -/

def sumOver (cpus : List Nat) (f : Nat → Int) : Int := (cpus.map f).sum

/-- The energy of the kind `d` between the times `t0` and `t1`, on the given CPUs, if there is such a counter. -/
def consumed (os : EnergyOS) (available : Bool) (cpus : List Nat) (d : EDomain) (t0 t1 : Nat) : Int :=
  if available then sumOver cpus fun c => os.counter d c t1 - os.counter d c t0 else 0

theorem openLoop_spec (os : EnergyOS) : ∀ (l : List (Nat × EDomain)) (m : Rapl) (s : ESys) {m' : Rapl} {s' : ESys} {b : Bool}, Rapl.openLoop os l m s = ((m', s'), b) →
    s'.now = s.now ∧ s'.files = s.files ∧ m'.cpus = m.cpus ∧ m'.config = m.config ∧ m'.unit = m.unit ∧ m'.raw = m.raw ∧
    (b = true → ∀ d, (m'.fds d).map (fun f => (f.cpu, f.since)) = (m.fds d).map (fun f => (f.cpu, f.since)) ++
      if m.config d = 0 then [] else (l.filter fun t => decide (t.2 = d)).map fun t => (t.1, s.now))
  | [], m, s, m', s', b, h => by
    simp only [Rapl.openLoop, Prod.mk.injEq] at h
    obtain ⟨⟨rfl, rfl⟩, rfl⟩ := h
    simp
  | (c, e) :: r, m, s, m', s', b, h => by
    unfold Rapl.openLoop at h
    by_cases hc : m.config e = 0
    · rw [if_pos hc] at h
      obtain ⟨h1, h2, h3, h4, h5, h6, h7⟩ := openLoop_spec os r m s h
      refine ⟨h1, h2, h3, h4, h5, h6, fun hb d => ?_⟩
      rw [h7 hb d]
      by_cases hd : m.config d = 0
      · simp [hd]
      · have : e ≠ d := by rintro rfl; exact hd hc
        simp [hd, this]
    · rw [if_neg hc] at h
      unfold Rapl.openOne at h
      by_cases ho : os.opens s.now e c = true
      · rw [if_pos ho] at h
        obtain ⟨h1, h2, h3, h4, h5, h6, h7⟩ := openLoop_spec os r _ _ h
        refine ⟨h1, h2, h3, h4, h5, h6, fun hb d => ?_⟩
        rw [h7 hb d]
        by_cases hd : e = d
        · subst hd; simp [hc]
        · have hd' : ¬ d = e := fun h => hd h.symm
          simp [hd, hd']
      · rw [if_neg ho] at h
        simp only [Prod.mk.injEq] at h
        obtain ⟨⟨rfl, rfl⟩, rfl⟩ := h
        simp

theorem tasks_filter (cpus : List Nat) (d : EDomain) (now : Nat) :
    (((cpus.flatMap fun c => EDomain.all.map fun e => (c, e)).filter fun t => decide (t.2 = d)).map fun t => (t.1, now)) = cpus.map fun c => (c, now) := by
  induction cpus with
  | nil => rfl
  | cons c cs ih =>
    rw [List.flatMap_cons, List.filter_append, List.map_append, ih, List.map_cons]
    cases d <;> rfl

theorem reset_spec {os : EnergyOS} {m m' : Rapl} {s s' : ESys} {b : Bool} (h : m.reset os s = ((m', s'), b)) :
    s'.now = s.now ∧ s'.files = s.files ∧ m'.cpus = m.cpus ∧ m'.config = m.config ∧ m'.unit = m.unit ∧ m'.raw = m.raw ∧
    (b = true → ∀ d, (m'.fds d).map (fun f => (f.cpu, f.since)) = if m.config d = 0 then [] else m.cpus.map fun c => (c, s.now)) := by
  obtain ⟨h1, h2, h3, h4, h5, h6, h7⟩ := openLoop_spec os _ _ _ h
  refine ⟨h1, h2, h3, h4, h5, h6, fun hb d => ?_⟩
  have := h7 hb d
  rw [tasks_filter] at this
  exact this

theorem readLoop_spec (os : EnergyOS) (now : Nat) (d : EDomain) : ∀ (l : List EFd) (v w : Int), readLoop os now d l v = (w, true) →
    w = v + ((l.map fun f => (f.cpu, f.since)).map fun p => os.counter d p.1 now - os.counter d p.1 p.2).sum
  | [], v, w, h => by simp only [readLoop, Prod.mk.injEq] at h; simp [h.1]
  | f :: r, v, w, h => by
    unfold readLoop at h
    split at h
    · rw [readLoop_spec os now d r _ w h]; simp only [List.map_cons, List.sum_cons]; ring
    · simp at h

theorem sampleLoop_spec (os : EnergyOS) (now : Nat) : ∀ (l : List EDomain) (m m' : Rapl) (b : Bool), m.sampleLoop os now l = (m', b) →
    m'.cpus = m.cpus ∧ m'.config = m.config ∧ m'.unit = m.unit ∧ m'.fds = m.fds ∧ (∀ d, m.raw d ≠ none → m'.raw d ≠ none) ∧
    (b = true → ∀ d, m'.raw d = if d ∈ l then some (((m.fds d).map fun f => (f.cpu, f.since)).map fun p => os.counter d p.1 now - os.counter d p.1 p.2).sum else m.raw d)
  | [], m, m', b, h => by simp only [Rapl.sampleLoop, Prod.mk.injEq] at h; obtain ⟨rfl, rfl⟩ := h; simp
  | e :: r, m, m', b, h => by
    unfold Rapl.sampleLoop at h
    simp only at h
    split at h
    · rename_i hok
      obtain ⟨h1, h2, h3, h4, h5, h6⟩ := sampleLoop_spec os now r _ m' b h
      refine ⟨h1, h2, h3, h4, fun d hd => h5 d (by simp only; split <;> simp [hd]), fun hb d => ?_⟩
      rw [h6 hb d]
      by_cases hr : d ∈ r
      · simp [hr]
      · by_cases he : d = e
        · subst he
          have := readLoop_spec os now d (m.fds d) 0 _ (Prod.ext rfl hok)
          simp only [hr, if_false, List.mem_cons, true_or, if_true]
          exact congrArg some (this.trans (Int.zero_add _))
        · simp [hr, he]
    · simp only [Prod.mk.injEq] at h
      obtain ⟨rfl, rfl⟩ := h
      refine ⟨rfl, rfl, rfl, rfl, fun d hd => by simp only; split <;> simp [hd], fun hb => by cases hb⟩

/-- A sample is the energy since the last reset, whatever happened before that. -/
theorem C129_sample {os : EnergyOS} {m m1 m2 : Rapl} {s s1 : ESys} {n : Nat} (h1 : m.reset os s = ((m1, s1), true)) (h2 : m1.sample os (s1.pass n) = (m2, true)) (d : EDomain) :
    m2.raw d = some (consumed os (decide (m.config d ≠ 0)) m.cpus d s.now (s.now + n)) := by
  obtain ⟨a1, -, a3, a4, -, -, a7⟩ := reset_spec h1
  obtain ⟨-, -, -, -, -, b6⟩ := sampleLoop_spec os _ _ _ _ _ h2
  have hd : d ∈ EDomain.all := by cases d <;> decide
  rw [b6 rfl d, if_pos hd, a7 rfl d]
  unfold consumed sumOver ESys.pass
  rw [a1]
  by_cases hc : m.config d = 0
  · simp [hc]
  · simp [hc, Function.comp_def]

/-- The value for tuning: the whole system if it is counted, else packages and memory; in joules each counter is scaled. -/
theorem C129_total {m : Rapl} {a b c : Int} (h1 : m.raw .psys = some a) (h2 : m.raw .pkg = some b) (h3 : m.raw .ram = some c) :
    m.total = .ok (if 0 < a then a else b + c) ∧ ∀ d u v, m.unit d = some u → m.raw d = some v → m.energy d = .ok (u * v) := by
  refine ⟨?_, fun d u v hu hv => by unfold Rapl.energy; rw [hu, hv]⟩
  unfold Rapl.total
  rw [h1, h2, h3]
  by_cases h : 0 < a <;> simp [h]

/-! ### Descriptors -/

def Rapl.ids (m : Rapl) : List Nat := EDomain.all.flatMap fun d => (m.fds d).map EFd.id

/-- The open descriptors are those that the meter knows, and those that were open before. -/
def FdInv (others : List Nat) (m : Rapl) (s : ESys) : Prop := s.opened.Perm (others ++ m.ids) ∧ s.opened.Nodup ∧ ∀ i ∈ s.opened, i < s.nextFd

theorem erase_all : ∀ (ids : List Nat) {l o : List Nat}, l.Perm (o ++ ids) → (ids.foldl (fun l i => l.erase i) l).Perm o
  | [], l, o, h => by simpa using h
  | i :: r, l, o, h => by
    refine erase_all r (l := l.erase i) ?_
    have h2 : (o ++ i :: r).Perm (i :: (o ++ r)) := List.perm_middle
    simpa using (h.trans h2).erase i

theorem nodup_foldl_erase : ∀ (ids : List Nat) {l : List Nat}, l.Nodup → (ids.foldl (fun l i => l.erase i) l).Nodup ∧ ids.foldl (fun l i => l.erase i) l ⊆ l
  | [], l, h => ⟨h, List.Subset.refl _⟩
  | i :: r, l, h => by
    obtain ⟨h1, h2⟩ := nodup_foldl_erase r (h.erase i)
    exact ⟨h1, fun x hx => List.erase_subset (h2 hx)⟩

theorem closeAll_inv {others : List Nat} {m : Rapl} {s : ESys} (h : FdInv others m s) :
    (m.closeAll s).opened.Perm others ∧ (m.closeAll s).opened.Nodup ∧ ∀ i ∈ (m.closeAll s).opened, i < (m.closeAll s).nextFd := by
  obtain ⟨h1, h2, h3⟩ := h
  obtain ⟨h4, h5⟩ := nodup_foldl_erase m.ids h2
  exact ⟨erase_all _ h1, h4, fun i hi => h3 i (h5 hi)⟩

theorem openLoop_inv {others : List Nat} (os : EnergyOS) : ∀ (l : List (Nat × EDomain)) (m : Rapl) (s : ESys), FdInv others m s →
    FdInv others (Rapl.openLoop os l m s).1.1 (Rapl.openLoop os l m s).1.2
  | [], m, s, h => h
  | (c, e) :: r, m, s, h => by
    unfold Rapl.openLoop
    split
    · exact openLoop_inv os r m s h
    · unfold Rapl.openOne
      split
      · rename_i m' s' hm
        split at hm
        · simp only [Prod.mk.injEq, and_true] at hm
          obtain ⟨rfl, rfl⟩ := hm
          refine openLoop_inv os r _ _ ?_
          obtain ⟨h1, h2, h3⟩ := h
          refine ⟨?_, ?_, ?_⟩
          · rw [List.perm_iff_count] at h1 ⊢
            intro x
            have := h1 x
            cases e <;> simp only [Rapl.ids, EDomain.all, List.flatMap_cons, List.flatMap_nil, List.append_nil, List.count_append, reduceCtorEq, if_true, if_false,
              List.map_append, List.map_cons, List.map_nil] at this ⊢ <;> omega
          · simp only
            rw [List.nodup_append]
            refine ⟨h2, by simp, fun a ha b hb => ?_⟩
            have := h3 a ha
            simp only [List.mem_singleton] at hb
            omega
          · intro i hi
            simp only [List.mem_append, List.mem_singleton] at hi ⊢
            rcases hi with hi | rfl
            · exact Nat.lt_succ_of_lt (h3 i hi)
            · exact Nat.lt_succ_self _
        · simp at hm
      · rename_i m' s' hm
        split at hm
        · simp at hm
        · simp only [Prod.mk.injEq, and_true] at hm
          obtain ⟨rfl, rfl⟩ := hm
          exact h

theorem reset_inv {others : List Nat} (os : EnergyOS) {m : Rapl} {s : ESys} (h : FdInv others m s) : FdInv others (m.reset os s).1.1 (m.reset os s).1.2 := by
  obtain ⟨h1, h2, h3⟩ := closeAll_inv h
  exact openLoop_inv os _ _ _ ⟨by simpa [Rapl.ids, EDomain.all] using h1, h2, h3⟩

theorem sample_fds (os : EnergyOS) (m : Rapl) (s : ESys) : (m.sample os s).1.fds = m.fds :=
  (sampleLoop_spec os _ _ _ _ _ (Prod.ext rfl rfl : m.sampleLoop os s.now EDomain.all = (_, _))).2.2.2.1

/-- What can be done with a meter. -/
inductive EAction
  | init (mustSucceed : Bool)
  | reset
  | sample
  | pass (n : Nat)

/-- Whether the operations succeed does not matter here; undefined behaviour of `init` ends the history. -/
def eStep (os : EnergyOS) (a : EAction) (m : Rapl) (s : ESys) : Outcome (Rapl × ESys) :=
  match a with
  | .init b => (m.init os b s).bind fun r => .ok r.1
  | .reset => .ok (m.reset os s).1
  | .sample => .ok ((m.sample os s).1, s)
  | .pass n => .ok (m, s.pass n)

def eRun (os : EnergyOS) : List EAction → Rapl → ESys → Outcome (Rapl × ESys)
  | [], m, s => .ok (m, s)
  | a :: r, m, s => (eStep os a m s).bind fun x => eRun os r x.1 x.2

theorem eStep_inv {others : List Nat} {os : EnergyOS} {a : EAction} {m m' : Rapl} {s s' : ESys} (h : FdInv others m s) (hs : eStep os a m s = .ok (m', s')) :
    FdInv others m' s' := by
  cases a with
  | reset =>
    have := reset_inv os h
    simp only [eStep, Outcome.ok.injEq] at hs
    rw [hs] at this; exact this
  | sample =>
    simp only [eStep, Outcome.ok.injEq, Prod.mk.injEq] at hs
    obtain ⟨rfl, rfl⟩ := hs
    obtain ⟨h1, h2, h3⟩ := h
    refine ⟨?_, h2, h3⟩
    unfold Rapl.ids at h1 ⊢
    rw [sample_fds]; exact h1
  | pass n =>
    simp only [eStep, Outcome.ok.injEq, Prod.mk.injEq] at hs
    obtain ⟨rfl, rfl⟩ := hs
    exact h
  | init b =>
    unfold eStep at hs
    obtain ⟨⟨⟨m5, s5⟩, e5⟩, hr, hs⟩ := Outcome.bind_ok.1 hs
    simp only [Outcome.ok.injEq, Prod.mk.injEq] at hs
    obtain ⟨rfl, rfl⟩ := hs
    unfold Rapl.init at hr
    obtain ⟨q, -, hr⟩ := Outcome.bind_ok.1 hr
    simp only at hr
    split at hr
    · cases hr; exact h
    · split at hr
      · cases hr; exact h
      · cases hr; exact h
      · split at hr
        · cases hr; exact h
        · have key := reset_inv (others := others) os (m := { m with cpus := q.2, config := os.config, unit := fun d => (os.scale d).or (m.unit d) }) (s := s) h
          split at hr
          · rename_i m3 s3 h3
            cases hr
            rw [h3] at key; exact key
          · rename_i m3 s3 h3
            rw [h3] at key
            have : ∀ m4 b4, m3.sample os s3 = (m4, b4) → FdInv others m4 s3 := by
              intro m4 b4 h4
              have hf := sample_fds os m3 s3
              rw [h4] at hf
              obtain ⟨k1, k2, k3⟩ := key
              refine ⟨?_, k2, k3⟩
              unfold Rapl.ids at k1 ⊢
              rw [show m4.fds = m3.fds from hf]; exact k1
            split at hr
            · rename_i m4 h4; cases hr; exact this _ _ h4
            · rename_i m4 h4; cases hr; exact this _ _ h4

/-- In every history, with whatever failures, the meter knows exactly the descriptors that it opened and has not closed, each once; in the end all are closed, and
nothing else is. -/
theorem C129_descriptors (os : EnergyOS) (as : List EAction) {s0 : ESys} (h0 : s0.opened.Nodup) (hfresh : ∀ i ∈ s0.opened, i < s0.nextFd) {m : Rapl} {s : ESys}
    (h : eRun os as Rapl.new s0 = .ok (m, s)) :
    s.opened.Perm (s0.opened ++ m.ids) ∧ s.opened.Nodup ∧ (m.closeAll s).opened.Perm s0.opened := by
  have key : ∀ (as : List EAction) (m0 : Rapl) (t0 : ESys), FdInv s0.opened m0 t0 → eRun os as m0 t0 = .ok (m, s) → FdInv s0.opened m s := by
    intro as
    induction as with
    | nil => intro m0 t0 hi h; cases h; exact hi
    | cons a r ih =>
      intro m0 t0 hi h
      unfold eRun at h
      obtain ⟨x, hx, h⟩ := Outcome.bind_ok.1 h
      exact ih _ _ (eStep_inv hi hx) h
  have hi := key as _ _ ⟨by simp [Rapl.ids, Rapl.new, EDomain.all], h0, hfresh⟩ h
  exact ⟨hi.1, hi.2.1, (closeAll_inv hi).1⟩

/-! ### Packages -/

/-- CPUs that are the first of a package greater than all before. -/
def recordsOf (ps : List Int) : List Nat := (List.range ps.length).filter fun i => (List.range i).all fun j => decide (ps.getD j 0 < ps.getD i 0)

theorem getD_append_of_lt {ps qs : List Int} {i : Nat} (h : i < ps.length) : (ps ++ qs).getD i 0 = ps.getD i 0 := by
  simp [List.getD_eq_getElem?_getD, List.getElem?_append_left h]

theorem recordsOf_snoc (ps : List Int) (n : Int) : recordsOf (ps ++ [n]) = recordsOf ps ++ if ∀ x ∈ ps, x < n then [ps.length] else [] := by
  unfold recordsOf
  rw [List.length_append, List.length_singleton, List.range_succ, List.filter_append]
  congr 1
  · refine List.filter_congr fun i hi => ?_
    have hi := List.mem_range.1 hi
    rw [Bool.eq_iff_iff, List.all_eq_true, List.all_eq_true]
    refine forall₂_congr fun j hj => ?_
    have hj := List.mem_range.1 hj
    rw [getD_append_of_lt hi, getD_append_of_lt (by omega)]
  · have : ((List.range ps.length).all fun j => decide ((ps ++ [n]).getD j 0 < (ps ++ [n]).getD ps.length 0)) = true ↔ ∀ x ∈ ps, x < n := by
      rw [List.all_eq_true]
      have hn : (ps ++ [n]).getD ps.length 0 = n := by simp [List.getD_eq_getElem?_getD]
      rw [hn]
      constructor
      · intro h x hx
        obtain ⟨j, hj, rfl⟩ := List.mem_iff_getElem.1 hx
        have := h j (List.mem_range.2 hj)
        rw [getD_append_of_lt hj] at this
        simpa [List.getD_eq_getElem?_getD, hj] using this
      · intro h j hj
        have hj := List.mem_range.1 hj
        rw [getD_append_of_lt hj]
        simpa [List.getD_eq_getElem?_getD, hj] using h _ (List.getElem_mem hj)
    by_cases hx : ∀ x ∈ ps, x < n
    · rw [if_pos hx, List.filter_cons_of_pos (by exact this.2 hx), List.filter_nil]
    · rw [if_neg hx, List.filter_cons_of_neg (by exact fun h => hx (this.1 h)), List.filter_nil]

theorem scan_spec : ∀ (suf pre : List Int) (last : Int) (pkg : Option Int), (pre ≠ [] → last ∈ pre ∧ ∀ x ∈ pre, x ≤ last) →
    scanTopology (suf.map .number) pre.length last pkg (recordsOf pre) = .ok (true, recordsOf (pre ++ suf))
  | [], pre, last, pkg, _ => by simp [scanTopology]
  | n :: suf, pre, last, pkg, h => by
    have hne : pre ≠ [] → recordsOf pre ≠ [] := by
      intro hp h0
      have : 0 ∈ recordsOf pre := by
        unfold recordsOf
        rw [List.mem_filter]
        exact ⟨List.mem_range.2 (List.length_pos_iff.2 hp), by simp⟩
      rw [h0] at this; cases this
    have hiff : (recordsOf pre = [] ∨ last < n) ↔ ∀ x ∈ pre, x < n := by
      constructor
      · rintro (h0 | hl) x hx
        · exact absurd h0 (hne (List.ne_nil_of_mem hx))
        · exact lt_of_le_of_lt ((h (List.ne_nil_of_mem hx)).2 x hx) hl
      · intro hx
        by_cases hp : pre = []
        · left; subst hp; rfl
        · right; exact hx _ (h hp).1
    rw [List.map_cons]
    unfold scanTopology
    simp only
    have hr := recordsOf_snoc pre n
    have hl : (pre ++ [n]).length = pre.length + 1 := by simp
    by_cases hx : ∀ x ∈ pre, x < n
    · rw [if_pos (hiff.2 hx)]
      rw [if_pos hx] at hr
      rw [← hr, ← hl, scan_spec suf (pre ++ [n]) n (some n) (fun _ => ⟨by simp, fun x hm => ?_⟩)]
      · simp
      · rcases List.mem_append.1 hm with hm | hm
        · exact (hx x hm).le
        · rw [List.mem_singleton.1 hm]
    · rw [if_neg (fun h' => hx (hiff.1 h'))]
      rw [if_neg hx, List.append_nil] at hr
      have hp : pre ≠ [] := by rintro rfl; exact hx (by simp)
      obtain ⟨h1, h2⟩ := h hp
      have hnl : n ≤ last := by
        by_contra hc
        exact hx fun x hm => lt_of_le_of_lt (h2 x hm) (not_le.1 hc)
      rw [← hr, ← hl, scan_spec suf (pre ++ [n]) last (some n) (fun _ => ⟨by simp [h1], fun x hm => ?_⟩)]
      · simp
      · rcases List.mem_append.1 hm with hm | hm
        · exact h2 x hm
        · rw [List.mem_singleton.1 hm]; exact hnl

/-- Every package has a number greater than those that appear before it. -/
def FirstSeenInOrder (ps : List Int) : Prop := ∀ j < ps.length, (∀ i < j, ps.getD i 0 ≠ ps.getD j 0) → ∀ i < j, ps.getD i 0 < ps.getD j 0

/-- The meter of a machine whose CPUs are in the packages `ps`: no package is measured twice, and all packages are measured exactly if they appear in order. -/
theorem C129_packages {os : EnergyOS} {ps : List Int} (hps : os.topology = ps.map .number) {b : Bool} {s s' : ESys} {m : Rapl}
    (h : Rapl.new.init os b s = .ok ((m, s'), .ready)) :
    (∀ c ∈ m.cpus, c < ps.length) ∧ m.cpus.Nodup ∧ (∀ c ∈ m.cpus, ∀ c' ∈ m.cpus, ps.getD c 0 = ps.getD c' 0 → c = c') ∧
    ((∀ j < ps.length, ∃ c ∈ m.cpus, ps.getD c 0 = ps.getD j 0) ↔ FirstSeenInOrder ps) := by
  have hc : m.cpus = recordsOf ps := by
    unfold Rapl.init at h
    obtain ⟨q, hq, h⟩ := Outcome.bind_ok.1 h
    have hscan := scan_spec ps [] 0 none (by simp)
    rw [hps] at hq
    have hq' : Outcome.ok (true, recordsOf ps) = .ok q := hscan.symm.trans hq
    cases hq'
    have hfail : ∀ b, EInit.fail b ≠ .ready := by decide
    simp only [Bool.not_true, Bool.false_eq_true, if_false] at h
    split at h
    · simp only [Outcome.ok.injEq, Prod.mk.injEq] at h; exact absurd h.2 (hfail _)
    · simp only [Outcome.ok.injEq, Prod.mk.injEq] at h; exact absurd h.2 (hfail _)
    · split at h
      · simp only [Outcome.ok.injEq, Prod.mk.injEq] at h; exact absurd h.2 (hfail _)
      · split at h
        · simp only [Outcome.ok.injEq, Prod.mk.injEq] at h; exact absurd h.2 (hfail _)
        · rename_i m3 s3 h3
          obtain ⟨-, -, a3, -⟩ := reset_spec h3
          split at h
          · simp only [Outcome.ok.injEq, Prod.mk.injEq] at h; exact absurd h.2 (hfail _)
          · rename_i m4 h4
            obtain ⟨b1, -⟩ := sampleLoop_spec os _ _ _ _ _ h4
            cases h
            rw [b1, a3]
  have hmem : ∀ c, c ∈ m.cpus ↔ c < ps.length ∧ ∀ j < c, ps.getD j 0 < ps.getD c 0 := by
    intro c
    rw [hc]; unfold recordsOf
    rw [List.mem_filter, List.mem_range, List.all_eq_true]
    simp
  refine ⟨fun c h => ((hmem c).1 h).1, by rw [hc]; exact List.nodup_range.filter _, ?_, ?_⟩
  · intro c h1 c' h2 he
    rcases Nat.lt_trichotomy c c' with hlt | heq | hgt
    · exact absurd he (((hmem c').1 h2).2 c hlt).ne
    · exact heq
    · exact absurd he.symm (((hmem c).1 h1).2 c' hgt).ne
  · constructor
    · intro hall j hj hfirst i hi
      obtain ⟨c, hcm, hce⟩ := hall j hj
      obtain ⟨h1, h2⟩ := (hmem c).1 hcm
      rcases Nat.lt_trichotomy c j with hlt | heq | hgt
      · exact absurd hce (hfirst c hlt)
      · subst heq; exact h2 i hi
      · exact absurd hce.symm (h2 j hgt).ne
    · intro hord j hj
      classical
      have hex : ∃ c, ps.getD c 0 = ps.getD j 0 ∧ c < ps.length := ⟨j, rfl, hj⟩
      obtain ⟨hf1, hf2⟩ := Nat.find_spec hex
      refine ⟨Nat.find hex, (hmem _).2 ⟨hf2, hord _ hf2 fun i hi he => Nat.find_min hex hi ⟨he.trans hf1, by omega⟩⟩, hf1⟩

/-! ### Tuning -/

theorem reset_ok {os : EnergyOS} {m : Rapl} {s : ESys} (h : ∀ d, m.config d ≠ 0 → ∀ c ∈ m.cpus, os.opens s.now d c = true) : ∃ m1 s1, m.reset os s = ((m1, s1), true) := by
  have key : ∀ (l : List (Nat × EDomain)) (n : Rapl) (t : ESys), (∀ x ∈ l, n.config x.2 ≠ 0 → os.opens t.now x.2 x.1 = true) → ∃ m1 s1, Rapl.openLoop os l n t = ((m1, s1), true) := by
    intro l
    induction l with
    | nil => intro n t _; exact ⟨n, t, rfl⟩
    | cons x r ih =>
      intro n t hx
      obtain ⟨c, d⟩ := x
      unfold Rapl.openLoop
      by_cases hc : n.config d = 0
      · rw [if_pos hc]; exact ih n t fun y hy => hx y (List.mem_cons_of_mem _ hy)
      · rw [if_neg hc]
        unfold Rapl.openOne
        rw [if_pos (hx (c, d) List.mem_cons_self hc)]
        exact ih _ _ fun y hy => hx y (List.mem_cons_of_mem _ hy)
  refine key _ _ _ fun x hx hc => ?_
  obtain ⟨c, hcm, hx⟩ := List.mem_flatMap.1 hx
  obtain ⟨d, -, rfl⟩ := List.mem_map.1 hx
  exact h d hc c hcm

theorem sample_ok {os : EnergyOS} {m : Rapl} {s : ESys} (h : ∀ d, ∀ f ∈ m.fds d, os.reads s.now d f.cpu = true) : ∃ m1, m.sample os s = (m1, true) := by
  have hread : ∀ d (l : List EFd) v, (∀ f ∈ l, os.reads s.now d f.cpu = true) → (readLoop os s.now d l v).2 = true := by
    intro d l
    induction l with
    | nil => intro v _; rfl
    | cons f r ih =>
      intro v hf
      unfold readLoop
      rw [if_pos (hf f List.mem_cons_self)]
      exact ih _ fun g hg => hf g (List.mem_cons_of_mem _ hg)
  have key : ∀ (l : List EDomain) (n : Rapl), n.fds = m.fds → ∃ m1, n.sampleLoop os s.now l = (m1, true) := by
    intro l
    induction l with
    | nil => intro n _; exact ⟨n, rfl⟩
    | cons d r ih =>
      intro n hn
      unfold Rapl.sampleLoop
      simp only
      rw [if_pos (by rw [hn]; exact hread d _ _ (h d))]
      exact ih _ hn
  exact key _ m rfl

/-- The energy of an iteration: if the counters can be opened and read, it is what was consumed during that iteration, whatever was measured before. -/
theorem C129_iteration_partial {os : EnergyOS} {t : ETuner} (hp : t.possible = true) {u : EDomain → Rat} (hu : ∀ d, t.meter.unit d = some (u d)) (n : Nat)
    (hopen : ∀ d, t.meter.config d ≠ 0 → ∀ c ∈ t.meter.cpus, os.opens t.sys.now d c = true)
    (hread : ∀ d, t.meter.config d ≠ 0 → ∀ c ∈ t.meter.cpus, os.reads (t.sys.now + n) d c = true) :
    let e := fun d => consumed os (decide (t.meter.config d ≠ 0)) t.meter.cpus d t.sys.now (t.sys.now + n)
    ∃ t', t.iteration os n = .ok (t', ⟨true, some (u .psys * e .psys), some (u .pkg * e .pkg), some (u .ram * e .ram),
        some (if 0 < e .psys then e .psys else e .pkg + e .ram)⟩) ∧
      t'.possible = true ∧ t'.sys.now = t.sys.now + n ∧ t'.meter.cpus = t.meter.cpus ∧ t'.meter.config = t.meter.config ∧ t'.meter.unit = t.meter.unit ∧
      t'.byEnergy = t.byEnergy := by
  intro e
  obtain ⟨m1, s1, h1⟩ := reset_ok hopen
  obtain ⟨a1, -, a3, a4, a5, -, a7⟩ := reset_spec h1
  obtain ⟨m2, h2⟩ : ∃ m2, m1.sample os (s1.pass n) = (m2, true) := by
    refine sample_ok fun d f hf => ?_
    have hm : (f.cpu, f.since) ∈ (m1.fds d).map fun f => (f.cpu, f.since) := List.mem_map.2 ⟨f, hf, rfl⟩
    rw [a7 rfl d] at hm
    by_cases hc : t.meter.config d = 0
    · rw [if_pos hc] at hm; cases hm
    · rw [if_neg hc] at hm
      obtain ⟨c, hcm, he⟩ := List.mem_map.1 hm
      simp only [Prod.mk.injEq] at he
      show os.reads (s1.now + n) d f.cpu = true
      rw [a1, ← he.1]
      exact hread d hc c hcm
  have hraw : ∀ d, m2.raw d = some (e d) := C129_sample h1 h2
  obtain ⟨b1, b2, b3, -⟩ := sampleLoop_spec os _ _ _ _ _ h2
  obtain ⟨c1, c2⟩ := C129_total (hraw .psys) (hraw .pkg) (hraw .ram)
  have hunit : ∀ d, m2.unit d = some (u d) := fun d => by rw [b3, a5]; exact hu d
  refine ⟨⟨m2, s1.pass n, true, t.byEnergy⟩, ?_, rfl, by simp [ESys.pass, a1], by rw [b1, a3], by rw [b2, a4], by rw [b3, a5], rfl⟩
  unfold ETuner.iteration ETuner.resetEnergy
  rw [if_pos hp, h1]
  simp only [Outcome.bind]
  unfold ETuner.sampleStep
  rw [if_pos (by exact hp)]
  simp only [h2]
  rw [c2 _ _ _ (hunit _) (hraw _), c2 _ _ _ (hunit _) (hraw _), c2 _ _ _ (hunit _) (hraw _), c1]
  simp only [hp, if_true]

/-- If a counter cannot be opened: with energy as the metric an exception, else the iteration is marked as not measured, and so are all that follow. -/
theorem C129_lost {os : EnergyOS} {t : ETuner} {m : Rapl} {s : ESys} (hp : t.possible = true) (hr : t.meter.reset os t.sys = ((m, s), false)) (n : Nat) :
    (t.byEnergy = true → t.iteration os n = .throws) ∧
    (t.byEnergy = false → ∀ t' e, t.iteration os n = .ok (t', e) → e = ⟨false, none, none, none, none⟩ ∧ t'.possible = false) ∧
    ∀ t' : ETuner, t'.possible = false → ∀ k t'' e, t'.iteration os k = .ok (t'', e) → e.possible = false ∧ t''.possible = false := by
  refine ⟨fun hb => ?_, fun hb t' e h => ?_, fun t' hf k t'' e h => ?_⟩
  · unfold ETuner.iteration ETuner.resetEnergy
    rw [if_pos hp, hr]
    simp only [hb, if_true, Outcome.bind]
  · unfold ETuner.iteration ETuner.resetEnergy at h
    rw [if_pos hp, hr] at h
    simp only [hb, Bool.false_eq_true, if_false, Outcome.bind] at h
    unfold ETuner.sampleStep at h
    simp only [Bool.false_eq_true, if_false] at h
    obtain ⟨e1, -, h⟩ := Outcome.bind_ok.1 h
    obtain ⟨e2, -, h⟩ := Outcome.bind_ok.1 h
    obtain ⟨e3, -, h⟩ := Outcome.bind_ok.1 h
    obtain ⟨e4, -, h⟩ := Outcome.bind_ok.1 h
    cases h
    exact ⟨rfl, rfl⟩
  · unfold ETuner.iteration ETuner.resetEnergy at h
    rw [if_neg (by rw [hf]; decide)] at h
    simp only [Outcome.bind] at h
    unfold ETuner.sampleStep at h
    rw [if_neg (by rw [hf]; decide)] at h
    obtain ⟨e1, -, h⟩ := Outcome.bind_ok.1 h
    obtain ⟨e2, -, h⟩ := Outcome.bind_ok.1 h
    obtain ⟨e3, -, h⟩ := Outcome.bind_ok.1 h
    obtain ⟨e4, -, h⟩ := Outcome.bind_ok.1 h
    simp only [hf, Bool.false_eq_true, if_false, Outcome.ok.injEq, Prod.mk.injEq] at h
    obtain ⟨rfl, rfl⟩ := h
    exact ⟨rfl, rfl⟩

/-! ### What is not as it should be -/

theorem iteration_uninitialised {os : EnergyOS} {t : ETuner} (hp : t.possible = false) (hu : t.meter.unit .psys = none) (n : Nat) : t.iteration os n = .ub := by
  unfold ETuner.iteration ETuner.resetEnergy
  rw [if_neg (by rw [hp]; decide)]
  simp only [Outcome.bind]
  unfold ETuner.sampleStep
  rw [if_neg (by rw [hp]; decide)]
  simp only [Rapl.energy, hu]

/-- Without energy measurements compiled in (the default), every iteration of every user reads variables that were never set. -/
theorem C129_violated_disabled (os : EnergyOS) (s : ESys) : ∃ t, ETuner.new false os false s = .ok t ∧ ∀ n, t.iteration os n = .ub :=
  ⟨_, rfl, fun n => iteration_uninitialised rfl rfl n⟩

/-- The same with measurements compiled in, on a machine that does not support them. -/
theorem C129_violated_no_support {os : EnergyOS} {ps : List Int} (hps : os.topology = ps.map .number) (ht : os.typeFile = none) (s : ESys) :
    ∃ t, ETuner.new true os false s = .ok t ∧ ∀ n, t.iteration os n = .ub := by
  have hscan := scan_spec ps [] 0 none (by simp)
  refine ⟨⟨{ Rapl.new with cpus := recordsOf ps }, s, false, false⟩, ?_, fun n => iteration_uninitialised rfl rfl n⟩
  unfold ETuner.new
  rw [if_pos rfl]
  unfold Rapl.init
  rw [hps]
  have : scanTopology (ps.map .number) 0 0 none Rapl.new.cpus = .ok (true, recordsOf ps) := hscan
  rw [this]
  simp only [Outcome.bind, ht, Bool.not_true, Bool.false_eq_true, if_false]
  rfl

theorem init_unit {os : EnergyOS} {b : Bool} {s s' : ESys} {m : Rapl} {r : EInit} (h : Rapl.new.init os b s = .ok ((m, s'), r)) {d : EDomain} (hd : os.scale d = none) :
    m.unit d = none := by
  have hm : ∀ q : List Nat, ({ Rapl.new with cpus := q, config := os.config, unit := fun d => (os.scale d).or (Rapl.new.unit d) } : Rapl).unit d = none := by
    intro q; simp [hd, Rapl.new]
  unfold Rapl.init at h
  obtain ⟨q, -, h⟩ := Outcome.bind_ok.1 h
  simp only at h
  split at h
  · cases h; rfl
  · split at h
    · cases h; rfl
    · cases h; rfl
    · split at h
      · cases h; exact hm _
      · split at h
        · rename_i m3 s3 h3
          obtain ⟨-, -, -, -, a5, -⟩ := reset_spec h3
          cases h
          rw [a5]; exact hm _
        · rename_i m3 s3 h3
          obtain ⟨-, -, -, -, a5, -⟩ := reset_spec h3
          split at h
          · rename_i m4 h4
            obtain ⟨-, -, b3, -⟩ := sampleLoop_spec os _ _ _ _ _ h4
            cases h
            rw [b3, a5]; exact hm _
          · rename_i m4 h4
            obtain ⟨-, -, b3, -⟩ := sampleLoop_spec os _ _ _ _ _ h4
            cases h
            rw [b3, a5]; exact hm _

/-- On a machine without the counter of the whole system (so without the file of its scale), no iteration can be measured, although `init` succeeds. -/
theorem C129_violated_no_psys {os : EnergyOS} (hs : os.scale .psys = none) {b : Bool} {s : ESys} {t : ETuner} (ht : ETuner.new true os b s = .ok t) (n : Nat) :
    ∀ r, t.iteration os n ≠ .ok r := by
  have hu : t.meter.unit .psys = none := by
    unfold ETuner.new at ht
    rw [if_pos rfl] at ht
    obtain ⟨⟨⟨m, s'⟩, e⟩, hi, h⟩ := Outcome.bind_ok.1 ht
    have := init_unit hi hs
    cases e <;> simp only [Outcome.ok.injEq, reduceCtorEq] at h
    · subst h; exact this
    · subst h; exact this
  intro r h
  unfold ETuner.iteration at h
  obtain ⟨t1, h1, h⟩ := Outcome.bind_ok.1 h
  obtain ⟨t2, h2, h⟩ := Outcome.bind_ok.1 h
  obtain ⟨e1, h3, h⟩ := Outcome.bind_ok.1 h
  have hu1 : t1.meter.unit = t.meter.unit := by
    unfold ETuner.resetEnergy at h1
    split at h1
    · split at h1
      · rename_i m s3 hr; cases h1; exact (reset_spec hr).2.2.2.2.1
      · rename_i m s3 hr
        split at h1
        · cases h1
        · cases h1; exact (reset_spec hr).2.2.2.2.1
    · cases h1; rfl
  have hu2 : t2.meter.unit = t1.meter.unit := by
    unfold ETuner.sampleStep at h2
    split at h2
    · split at h2
      · rename_i m hr; cases h2; exact (sampleLoop_spec os _ _ _ _ _ hr).2.2.1
      · rename_i m hr
        split at h2
        · cases h2
        · cases h2; exact (sampleLoop_spec os _ _ _ _ _ hr).2.2.1
    · cases h2; rfl
  unfold Rapl.energy at h3
  rw [hu2, hu1, hu] at h3
  cases h3

/-- A machine with CPUs in the given packages and all counters, which count 7 units per time and CPU; those of packages cannot be read from time 10 on. -/
def sampleMachine (topology : List PkgFile) : EnergyOS :=
  ⟨topology, some true, fun d => match d with | .psys => 5 | .pkg => 2 | .cores => 1 | .ram => 3, fun _ => some (1 / 4), true, fun _ _ _ => true,
    fun t d _ => !(decide (d = .pkg) && decide (10 ≤ t)), fun _ _ t => 7 * t⟩

def startSys : ESys := ⟨0, 3, [0, 1, 2], 0⟩

/-- The measurements of iterations of the given durations. -/
def eMeasure (os : EnergyOS) : List Nat → ETuner → Outcome (List EMeasurement)
  | [], _ => .ok []
  | n :: r, t => (t.iteration os n).bind fun x => (eMeasure os r x.1).bind fun l => .ok (x.2 :: l)

/-- In the second iteration a counter cannot be read any more: that of the packages is 0 and that of the memory is of the iteration before (both should be 21 / 2), but they are declared valid. -/
theorem C129_violated_stale : (ETuner.new true (sampleMachine [.number 0]) false startSys).bind (eMeasure (sampleMachine [.number 0]) [4, 6]) =
    .ok [⟨true, some 7, some 7, some 7, some 28⟩, ⟨true, some (21 / 2), some 0, some 7, some 42⟩] := by decide +kernel

/-- Two packages of which the second appears first: only that one is measured. -/
theorem C129_violated_packages : (Rapl.new.init (sampleMachine [.number 1, .number 0, .number 1, .number 0]) true startSys).bind (fun r => .ok (r.1.1.cpus, r.2)) =
    .ok ([0], .ready) := by decide +kernel

/-- Initialised twice, the second package counts twice. -/
theorem C129_violated_twice : (Rapl.new.init (sampleMachine [.number 0, .number 1]) true startSys).bind (fun r =>
    (r.1.1.init (sampleMachine [.number 0, .number 1]) true r.1.2).bind fun r => .ok (r.1.1.cpus, r.2)) = .ok ([0, 1, 1], .ready) := by decide +kernel

/-- A successful initialisation leaves no file of the system open, and every other one at most one: this happens whenever the type of the counters cannot be understood. -/
theorem C129_files_partial {os : EnergyOS} {mustSucceed : Bool} {m m' : Rapl} {s s' : ESys} {e : EInit} (h : m.init os mustSucceed s = .ok ((m', s'), e)) :
    (e = .ready → s'.files = s.files) ∧ s.files ≤ s'.files ∧ s'.files ≤ s.files + 1 ∧ (os.typeFile = some false → s'.files = s.files + 1) := by
  have key : ∀ {α β : Type} {x : Outcome α} {f : α → Outcome β} {b : β}, x.bind f = .ok b → ∃ a, f a = .ok b := by
    intro α β x f b hx
    cases x <;> first | exact ⟨_, hx⟩ | cases hx
  obtain ⟨r, h⟩ := key h
  have hfail : EInit.fail mustSucceed ≠ .ready := by cases mustSucceed <;> simp [EInit.fail]
  simp only at h
  split at h
  · cases h; exact ⟨fun hc => absurd hc hfail, by simp, by simp, fun _ => rfl⟩
  · split at h
    · rename_i ht; cases h; exact ⟨fun hc => absurd hc hfail, le_refl _, by omega, fun hc => by rw [ht] at hc; cases hc⟩
    · cases h; exact ⟨fun hc => absurd hc hfail, by simp, by simp, fun _ => rfl⟩
    · rename_i ht
      have hn : ¬ os.typeFile = some false := by rw [ht]; simp
      split at h
      · cases h; exact ⟨fun _ => rfl, le_refl _, by omega, fun hc => absurd hc hn⟩
      · split at h
        · rename_i hr; cases h
          have := (reset_spec hr).2.1
          exact ⟨fun _ => this, by omega, by omega, fun hc => absurd hc hn⟩
        · rename_i hr
          have := (reset_spec hr).2.1
          split at h <;> cases h <;> exact ⟨fun _ => this, by omega, by omega, fun hc => absurd hc hn⟩

/-- A file that cannot be understood stays open; an empty one is undefined behaviour. -/
theorem C129_violated_files : (Rapl.new.init (sampleMachine [.garbage]) false startSys).bind (fun r => .ok (r.1.2.files, r.2)) = .ok (1, .notPossible) ∧
    Rapl.new.init (sampleMachine [.empty]) false startSys = .ub := ⟨by decide +kernel, rfl⟩

/-! ### Examples -/

example : (Rapl.new.init (sampleMachine [.number 0, .number 0, .number 1, .number 1]) true startSys).bind (fun r => .ok (r.1.1.cpus, r.1.2.opened, r.2)) =
    .ok ([0, 2], [0, 1, 2, 3, 4, 5, 6, 7, 8, 9, 10], .ready) := by decide +kernel
example : FirstSeenInOrder [0, 0, 1, 1] := by unfold FirstSeenInOrder; decide
example : (ETuner.new true (sampleMachine [.number 0, .number 1]) true startSys).bind (eMeasure (sampleMachine [.number 0, .number 1]) [4]) =
    .ok [⟨true, some 14, some 14, some 14, some 56⟩] := by decide +kernel
example : (eRun (sampleMachine [.number 0]) [.init true, .pass 3, .reset, .sample, .pass 9, .sample, .reset] Rapl.new startSys).bind
    (fun r => .ok (r.1.ids, (r.1.closeAll r.2).opened)) = .ok ([11, 12, 13, 14], [0, 1, 2]) := by decide +kernel

end Verif
