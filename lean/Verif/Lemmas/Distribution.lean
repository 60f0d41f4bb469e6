import Verif.Model.Distribution
import Verif.Lemmas.MDObjectsPacked
import Mathlib.Tactic.Ring
import Mathlib.Tactic.Linarith
import Mathlib.Algebra.Order.Ring.Nat
/-! Lemmas on the distribution of options among ranks. -/
namespace Verif
namespace Dist

/-- Applicable traversals of a container. -/
def travsOf (a : DistOptions) (c : Cont) : List Trav :=
  match compatibleTraversals c a.it with
  | none => []
  | some ts => a.travs.filter fun t => ts.contains t

def estsOf (a : DistOptions) (c : Cont) (t : Trav) : List LoadEst := applicableLoadEstimators c t a.les

def blockN (a : DistOptions) (c : Cont) (f : Rat) (t : Trav) (e : LoadEst) (d : Layout) : List DistConf := a.n3s.map fun n => ⟨c, f, t, e, d, n⟩
def blockD (a : DistOptions) (c : Cont) (f : Rat) (t : Trav) (e : LoadEst) : List DistConf := a.lays.flatMap (blockN a c f t e)
def blockE (a : DistOptions) (c : Cont) (f : Rat) (t : Trav) : List DistConf := (estsOf a c t).flatMap (blockD a c f t)
def blockT (a : DistOptions) (c : Cont) (f : Rat) : List DistConf := (travsOf a c).flatMap (blockE a c f)
def blockF (a : DistOptions) (c : Cont) : List DistConf := a.csfs.flatMap (blockT a c)

/-- All configurations in the order of the handler. -/
def allConfs (a : DistOptions) : List DistConf := a.conts.flatMap (blockF a)

/-- Nothing is empty. -/
structure Good (a : DistOptions) : Prop where
  comp : ∀ c ∈ a.conts, (compatibleTraversals c a.it).isSome
  trav : ∀ c ∈ a.conts, travsOf a c ≠ []
  csfs : a.csfs ≠ []
  lays : a.lays ≠ []
  n3s : a.n3s ≠ []

theorem estsOf_ne (a : DistOptions) (c : Cont) (t : Trav) : estsOf a c t ≠ [] := by
  unfold estsOf applicableLoadEstimators
  split
  · dsimp only
    split
    · simp
    · rename_i h
      intro hc
      rw [hc] at h
      simp at h
  · simp

/-- The iterators stand in front of the configurations `l`. -/
inductive Stands (a : DistOptions) (s : ConfIter) (l : List DistConf) : Prop
  | done (h : s.contIt = []) (hl : l = [])
  | at (c : Cont) (cs : List Cont) (f : Rat) (fs : List Rat) (t : Trav) (ts : List Trav) (e : LoadEst) (es : List LoadEst) (d : Layout) (ds : List Layout)
      (n : Bool) (ns : List Bool) (hc : c :: cs <:+ a.conts) (h1 : s.contIt = c :: cs) (h2 : s.csfIt = f :: fs) (h3 : s.travSet = travsOf a c)
      (h4 : s.travIt = t :: ts) (h5 : s.leSet = estsOf a c t) (h6 : s.leIt = e :: es) (h7 : s.layIt = d :: ds) (h8 : s.n3It = n :: ns)
      (hl : l = (n :: ns).map (fun n => ⟨c, f, t, e, d, n⟩) ++ (ds.flatMap (blockN a c f t e) ++ (es.flatMap (blockD a c f t) ++
        (ts.flatMap (blockE a c f) ++ (fs.flatMap (blockT a c) ++ cs.flatMap (blockF a))))))

theorem selectTraversals_eq {a : DistOptions} (ha : Good a) {s : ConfIter} {c : Cont} {cs : List Cont} (h : s.contIt = c :: cs) (hc : c ∈ a.conts) :
    ConfIter.selectTraversals a s = .ok { s with travSet := travsOf a c, travIt := travsOf a c } := by
  unfold ConfIter.selectTraversals travsOf
  rw [h]
  have := ha.comp c hc
  cases hq : compatibleTraversals c a.it with
  | none => rw [hq] at this; cases this
  | some ts => simp only [hq]

theorem exists_cons {α : Type} {l : List α} (h : l ≠ []) : ∃ x xs, l = x :: xs := by
  cases l with
  | nil => exact absurd rfl h
  | cons x xs => exact ⟨x, xs, rfl⟩

theorem stands_cont {a : DistOptions} (ha : Good a) {s : ConfIter} {c : Cont} {cs : List Cont} (h : s.contIt = c :: cs) (hc : c :: cs <:+ a.conts)
    (hf : s.csfIt = a.csfs) (hd : s.layIt = a.lays) (hn : s.n3It = a.n3s) :
    ∃ s', (ConfIter.selectTraversals a s).bind (ConfIter.selectEstimators a) = .ok s' ∧ Stands a s' ((c :: cs).flatMap (blockF a)) := by
  have hm : c ∈ a.conts := hc.subset List.mem_cons_self
  rw [selectTraversals_eq ha h hm, ok_bind_eq]
  obtain ⟨t, ts, ht⟩ := exists_cons (ha.trav c hm)
  obtain ⟨f, fs, hf'⟩ := exists_cons ha.csfs
  obtain ⟨d, ds, hd'⟩ := exists_cons ha.lays
  obtain ⟨n, ns, hn'⟩ := exists_cons ha.n3s
  obtain ⟨e, es, he⟩ := exists_cons (estsOf_ne a c t)
  have hs : ConfIter.selectEstimators a { s with travSet := travsOf a c, travIt := travsOf a c } =
      .ok { s with travSet := travsOf a c, travIt := travsOf a c, leSet := estsOf a c t, leIt := estsOf a c t } := by
    unfold ConfIter.selectEstimators
    simp only [h, ht]
    rfl
  refine ⟨_, hs, Stands.at c cs f fs t ts e es d ds n ns hc h (hf.trans hf') rfl ht rfl he (hd.trans hd') (hn.trans hn') ?_⟩
  rw [List.flatMap_cons, blockF, hf', List.flatMap_cons, blockT, ht, List.flatMap_cons, blockE, he, List.flatMap_cons, blockD, hd', List.flatMap_cons,
    blockN, hn']
  simp only [List.append_assoc]

theorem start_stands {a : DistOptions} (ha : Good a) (hne : a.conts ≠ []) : ∃ s, ConfIter.start a = .ok s ∧ Stands a s (allConfs a) := by
  obtain ⟨c, cs, hc⟩ := exists_cons hne
  unfold ConfIter.start allConfs
  obtain ⟨s, h1, h2⟩ := stands_cont ha (s := ⟨a.conts, a.csfs, [], [], [], [], a.lays, a.n3s⟩) hc (by rw [hc]) rfl rfl rfl
  exact ⟨s, h1, by rw [hc]; exact h2⟩

theorem current_stands {a : DistOptions} {s : ConfIter} {x : DistConf} {l : List DistConf} (h : Stands a s (x :: l)) : s.current = .ok x := by
  cases h with
  | done h hl => cases hl
  | «at» c cs f fs t ts e es d ds n ns hc h1 h2 h3 h4 h5 h6 h7 h8 hl =>
    rw [List.map_cons, List.cons_append] at hl
    rw [(List.cons.inj hl).1]
    unfold ConfIter.current
    simp only [h1, h2, h4, h6, h7, h8]

theorem advance_stands {a : DistOptions} (ha : Good a) {s : ConfIter} {x : DistConf} {l : List DistConf} (h : Stands a s (x :: l)) :
    ∃ s', s.advance a = .ok s' ∧ Stands a s' l := by
  cases h with
  | done h hl => cases hl
  | «at» c cs f fs t ts e es d ds n ns hc h1 h2 h3 h4 h5 h6 h7 h8 hl =>
    rw [List.map_cons, List.cons_append] at hl
    have hl := (List.cons.inj hl).2
    subst hl
    have hm : c ∈ a.conts := hc.subset List.mem_cons_self
    obtain ⟨n0, ns0, hn0⟩ := exists_cons ha.n3s
    obtain ⟨d0, ds0, hd0⟩ := exists_cons ha.lays
    unfold ConfIter.advance
    cases ns with
    | cons n' ns =>
      simp only [h8]
      exact ⟨_, rfl, Stands.at c cs f fs t ts e es d ds n' ns hc h1 h2 h3 h4 h5 h6 h7 rfl rfl⟩
    | nil =>
    rw [List.map_nil, List.nil_append]
    simp only [h8]
    cases ds with
    | cons d' ds =>
      simp only [h7]
      refine ⟨_, rfl, Stands.at c cs f fs t ts e es d' ds n0 ns0 hc h1 h2 h3 h4 h5 h6 rfl hn0 ?_⟩
      rw [List.flatMap_cons, List.append_assoc, blockN, hn0]
    | nil =>
    rw [List.flatMap_nil, List.nil_append]
    simp only [h7]
    cases es with
    | cons e' es =>
      simp only [h6]
      refine ⟨_, rfl, Stands.at c cs f fs t ts e' es d0 ds0 n0 ns0 hc h1 h2 h3 h4 h5 rfl hd0 hn0 ?_⟩
      rw [List.flatMap_cons, List.append_assoc, blockD, hd0, List.flatMap_cons, List.append_assoc, blockN, hn0]
    | nil =>
    rw [List.flatMap_nil, List.nil_append]
    simp only [h6]
    cases ts with
    | cons t' ts =>
      simp only [h4]
      obtain ⟨e0, es0, he0⟩ := exists_cons (estsOf_ne a c t')
      refine ⟨{ s with n3It := a.n3s, layIt := a.lays, travIt := t' :: ts, leSet := estsOf a c t', leIt := estsOf a c t' }, ?_,
        Stands.at c cs f fs t' ts e0 es0 d0 ds0 n0 ns0 hc h1 h2 h3 rfl rfl he0 hd0 hn0 ?_⟩
      · unfold ConfIter.selectEstimators
        simp only [h1]
        rfl
      · rw [List.flatMap_cons, List.append_assoc, blockE, he0, List.flatMap_cons, List.append_assoc, blockD, hd0, List.flatMap_cons,
          List.append_assoc, blockN, hn0]
    | nil =>
    rw [List.flatMap_nil, List.nil_append]
    obtain ⟨t0, ts0, ht0⟩ := exists_cons (ha.trav c hm)
    obtain ⟨e0, es0, he0⟩ := exists_cons (estsOf_ne a c t0)
    have hsel : ConfIter.selectEstimators a { s with n3It := a.n3s, layIt := a.lays, leIt := s.leSet, travIt := s.travSet } =
        .ok { s with n3It := a.n3s, layIt := a.lays, travIt := s.travSet, leSet := estsOf a c t0, leIt := estsOf a c t0 } := by
      unfold ConfIter.selectEstimators
      simp only [h1, h3, ht0]
      rfl
    simp only [h4]
    rw [hsel, ok_bind_eq]
    cases fs with
    | cons f' fs =>
      simp only [h2]
      refine ⟨_, rfl, Stands.at c cs f' fs t0 ts0 e0 es0 d0 ds0 n0 ns0 hc h1 rfl h3 (h3.trans ht0) rfl he0 hd0 hn0 ?_⟩
      rw [List.flatMap_cons, List.append_assoc, blockT, ht0, List.flatMap_cons, List.append_assoc, blockE, he0, List.flatMap_cons, List.append_assoc,
        blockD, hd0, List.flatMap_cons, List.append_assoc, blockN, hn0]
    | nil =>
    rw [List.flatMap_nil, List.nil_append]
    simp only [h2]
    cases cs with
    | cons c' cs =>
      simp only [h1]
      exact stands_cont ha rfl ((List.suffix_cons c _).trans hc) rfl rfl rfl
    | nil =>
      simp only [h1]
      exact ⟨_, rfl, .done rfl rfl⟩

/-! ### The number of configurations -/

theorem mapM_some {α β : Type} {f : α → Option β} {g : α → β} : ∀ {l : List α}, (∀ a ∈ l, f a = some (g a)) → l.mapM f = some (l.map g) := by
  intro l
  induction l with
  | nil => intro _; rfl
  | cons a l ih =>
    intro h
    rw [List.mapM_cons, h a (by simp), ih fun b hb => h b (by simp [hb])]
    rfl

theorem length_flatMap_const {α β : Type} (l : List α) (f : α → List β) (n : Nat) (h : ∀ x ∈ l, (f x).length = n) : (l.flatMap f).length = l.length * n := by
  induction l with
  | nil => simp
  | cons x l ih =>
    rw [List.flatMap_cons, List.length_append, h x (by simp), ih fun y hy => h y (by simp [hy]), List.length_cons]
    ring

theorem searchSpaceSize_eq {a : DistOptions} (hc : ∀ c ∈ a.conts, (compatibleTraversals c a.it).isSome) :
    searchSpaceSize a = some (allConfs a).length := by
  unfold searchSpaceSize
  have hE : ∀ c f t, (blockE a c f t).length = (estsOf a c t).length * (a.lays.length * a.n3s.length) := by
    intro c f t
    apply length_flatMap_const
    intro e _
    apply length_flatMap_const
    intro d _
    simp [blockN]
  have hT : ∀ c f, (blockT a c f).length = ((travsOf a c).map fun t => (estsOf a c t).length * (a.lays.length * a.n3s.length)).sum := by
    intro c f
    unfold blockT
    rw [List.length_flatMap]
    simp only [hE]
  have hF : ∀ c, (blockF a c).length = ((travsOf a c).map fun t => a.csfs.length * (estsOf a c t).length * a.lays.length * a.n3s.length).sum := by
    intro c
    rw [blockF, length_flatMap_const _ _ _ (fun f _ => hT c f), ← List.sum_map_mul_left]
    congr 1
    apply List.map_congr_left
    intro t _
    ring
  rw [mapM_some (g := fun c => (blockF a c).length)]
  · simp only [Option.map_some, allConfs, List.length_flatMap]
  · intro c hcm
    have := hc c hcm
    rw [hF, travsOf]
    cases hq : compatibleTraversals c a.it with
    | none => rw [hq] at this; cases this
    | some ts => rfl

/-! ### Ranks -/

/-- The numbers of the handler: position in the configurations, rank, remaining block size, remainder. -/
structure Pos where
  k : Nat
  r : Nat
  rem : Nat
  m : Nat

/-- What the numbers satisfy as long as there are ranks and configurations left. -/
def Pos.Inv (N R : Nat) (p : Pos) : Prop :=
  p.k < N ∧ p.r < R ∧
  (R ≤ N → p.k + p.rem + 1 + ((R - p.r - 1) * (N / R) + p.m) = N ∧ p.m ≤ R - p.r - 1) ∧
  (N ≤ R → p.r + p.rem + 1 + ((N - p.k - 1) * (R / N) + p.m) = R ∧ p.m ≤ N - p.k - 1)

/-- The numbers after `advanceIterators`. -/
def Pos.next (N R : Nat) (p : Pos) : Pos :=
  ⟨if N ≥ R ∨ p.rem = 0 then p.k + 1 else p.k, if R ≥ N ∨ p.rem = 0 then p.r + 1 else p.r,
    if p.rem = 0 then (if N ≥ R then N / R else R / N) + (if p.m > 0 then 1 else 0) - 1 else p.rem - 1, if p.rem = 0 then p.m - 1 else p.m⟩

theorem half_step {N R k r rem m : Nat} (hr : r < R) (hk : k + rem + 1 + ((R - r - 1) * (N / R) + m) = N) (hm : m ≤ R - r - 1) (hrem : rem = 0)
    (hq : 0 < N / R) : (r + 1 = R ∧ k + 1 = N) ∨ (r + 1 < R ∧ k + 1 < N ∧
      k + 1 + (N / R + (if m > 0 then 1 else 0) - 1) + 1 + ((R - (r + 1) - 1) * (N / R) + (m - 1)) = N ∧ m - 1 ≤ R - (r + 1) - 1) := by
  subst hrem
  rcases Nat.lt_or_ge (r + 1) R with h | h
  · right
    obtain ⟨x, hx⟩ : ∃ x, R - r - 1 = x + 1 := ⟨R - r - 2, by omega⟩
    have hx2 : R - (r + 1) - 1 = x := by omega
    rw [hx, Nat.add_mul, Nat.one_mul] at hk
    rw [hx] at hm
    rw [hx2]
    generalize x * (N / R) = y at *
    generalize N / R = q at *
    split_ifs <;> omega
  · left
    have hx : R - r - 1 = 0 := by omega
    rw [hx, Nat.zero_mul] at hk
    omega

theorem next_inv {N R : Nat} {p : Pos} (h : p.Inv N R) :
    (p.next N R).Inv N R ∨ ((p.next N R).k = N ∧ (p.next N R).r = R) := by
  obtain ⟨k, r, rem, m⟩ := p
  obtain ⟨h1, h2, h3, h4⟩ := h
  dsimp only at h1 h2 h3 h4
  have hN : 0 < N := by omega
  have hR : 0 < R := by omega
  unfold Pos.next Pos.Inv
  dsimp only
  rcases Nat.lt_trichotomy R N with hlt | heq | hgt
  · -- more configurations
    obtain ⟨e1, e2⟩ := h3 hlt.le
    have hq : 0 < N / R := Nat.div_pos hlt.le hR
    rw [if_pos (.inl hlt.le)]
    by_cases hrem : rem = 0
    · rcases half_step h2 e1 e2 hrem hq with ⟨g1, g2⟩ | ⟨g1, g2, g3, g4⟩
      · right
        rw [if_pos (.inr hrem)]
        exact ⟨g2, g1⟩
      · left
        rw [if_pos (.inr hrem), if_pos hrem, if_pos hrem, if_pos hlt.le]
        exact ⟨g2, g1, fun _ => ⟨g3, g4⟩, fun h => absurd h (by omega)⟩
    · left
      rw [if_neg (by omega), if_neg hrem, if_neg hrem]
      refine ⟨by omega, h2, fun _ => ⟨by omega, e2⟩, fun h => absurd h (by omega)⟩
  · subst heq
    obtain ⟨e1, e2⟩ := h3 le_rfl
    obtain ⟨e3, e4⟩ := h4 le_rfl
    rw [if_pos (.inl le_rfl), if_pos (.inl le_rfl), if_pos le_rfl, Nat.div_self hR]
    rw [Nat.div_self hR, Nat.mul_one] at e1 e3
    have hrem : rem = 0 := by omega
    have hm : m = 0 := by omega
    subst hrem; subst hm
    rcases Nat.lt_or_ge (k + 1) R with h | h
    · left
      simp
      omega
    · right
      omega
  · obtain ⟨e1, e2⟩ := h4 hgt.le
    have hq : 0 < R / N := Nat.div_pos hgt.le hN
    rw [if_pos (.inl hgt.le : R ≥ N ∨ rem = 0)]
    by_cases hrem : rem = 0
    · rcases half_step h1 e1 e2 hrem hq with ⟨g1, g2⟩ | ⟨g1, g2, g3, g4⟩
      · right
        rw [if_pos (.inr hrem)]
        exact ⟨g1, g2⟩
      · left
        rw [if_pos (.inr hrem), if_pos hrem, if_pos hrem, if_neg (by omega)]
        exact ⟨g1, g2, fun h => absurd h (by omega), fun _ => ⟨g3, g4⟩⟩
    · left
      rw [if_neg (by omega), if_neg hrem, if_neg hrem]
      refine ⟨h1, by omega, fun h => absurd h (by omega), fun _ => ⟨by omega, e2⟩⟩

/-- The handler with its numbers. -/
def At (a : DistOptions) (N R : Nat) (h : DistHandler) (p : Pos) : Prop :=
  Stands a h.conf ((allConfs a).drop p.k) ∧ h.rank = p.r ∧ h.remainingBlockSize = p.rem ∧ h.remainder = p.m

theorem advanceRank_at {N R : Nat} {h : DistHandler} {p : Pos} (h2 : h.rank = p.r) (h3 : h.remainingBlockSize = p.rem) (h4 : h.remainder = p.m) :
    (h.advanceRank N R).rank = (p.next N R).r ∧ (h.advanceRank N R).remainingBlockSize = (p.next N R).rem ∧
      (h.advanceRank N R).remainder = (p.next N R).m := by
  obtain ⟨k, r, rem, m⟩ := p
  dsimp only at h2 h3 h4
  subst h2; subst h3; subst h4
  unfold DistHandler.advanceRank Pos.next
  dsimp only
  split_ifs <;> simp_all <;> omega

theorem advance_at {a : DistOptions} (ha : Good a) {N R : Nat} (hN : (allConfs a).length = N) {h : DistHandler} {p : Pos} (hp : p.k < N) (hat : At a N R h p) :
    ∃ h', h.advance a N R = .ok h' ∧ At a N R h' (p.next N R) := by
  obtain ⟨h1, h2, h3, h4⟩ := hat
  obtain ⟨g2, g3, g4⟩ := advanceRank_at (N := N) (R := R) h2 h3 h4
  unfold DistHandler.advance
  have hd : (allConfs a).drop p.k = (allConfs a)[p.k]'(by omega) :: (allConfs a).drop (p.k + 1) := List.drop_eq_getElem_cons (by omega)
  by_cases hc : N ≥ R ∨ p.rem = 0
  · rw [if_pos (by rwa [h3])]
    rw [hd] at h1
    obtain ⟨s', e1, e2⟩ := advance_stands ha h1
    rw [e1, ok_bind_eq]
    refine ⟨_, rfl, ?_, g2, g3, g4⟩
    have : (p.next N R).k = p.k + 1 := by unfold Pos.next; exact if_pos hc
    rw [this]
    exact e2
  · rw [if_neg (by rwa [h3]), ok_bind_eq]
    refine ⟨_, rfl, ?_, g2, g3, g4⟩
    have : (p.next N R).k = p.k := by unfold Pos.next; exact if_neg hc
    rw [this]
    exact h1

/-- The first position. -/
def Pos.start (N R : Nat) : Pos :=
  ⟨0, 0, if R ≥ N then R / N - 1 else N / R - 1, if R ≥ N then R % N else N % R⟩

theorem start_inv {N R : Nat} (hN : 0 < N) (hR : 0 < R) : (Pos.start N R).Inv N R := by
  have key : ∀ A B : Nat, 0 < A → A ≤ B → 0 + (B / A - 1) + 1 + ((A - 0 - 1) * (B / A) + B % A) = B ∧ B % A ≤ A - 0 - 1 := by
    intro A B hA hAB
    have h1 := Nat.div_add_mod B A
    have h2 := Nat.mod_lt B hA
    have h3 : 0 < B / A := Nat.div_pos hAB hA
    obtain ⟨x, rfl⟩ : ∃ x, A = x + 1 := ⟨A - 1, by omega⟩
    rw [Nat.add_mul, Nat.one_mul] at h1
    simp only [Nat.sub_zero, Nat.add_sub_cancel]
    omega
  unfold Pos.start Pos.Inv
  refine ⟨hN, hR, fun h => ?_, fun h => ?_⟩
  · dsimp only
    rcases Nat.lt_or_ge R N with hlt | hge
    · rw [if_neg (by omega), if_neg (by omega)]
      exact key R N hR h
    · have e : R = N := by omega
      subst e
      rw [if_pos le_rfl, if_pos le_rfl]
      exact key R R hR le_rfl
  · dsimp only
    rw [if_pos h, if_pos h]
    exact key N R hN h

/-! ### All steps -/

/-- The positions that are passed, with the rank. -/
def trace (N R : Nat) : Nat → Pos → List (Nat × Nat)
  | 0, _ => []
  | n + 1, p => if p.r = R then [] else (p.k, p.r) :: trace N R n (p.next N R)

/-- Steps that are left. -/
def left (N R : Nat) (p : Pos) : Nat := if R ≤ N then N - p.k else R - p.r

/-- Inside or at the end. -/
def Ok (N R : Nat) (p : Pos) : Prop := p.Inv N R ∨ (p.k = N ∧ p.r = R)

theorem left_next {N R : Nat} {p : Pos} (h : p.Inv N R) : left N R (p.next N R) + 1 = left N R p := by
  have h1 := h.1
  have h2 := h.2.1
  unfold left Pos.next
  dsimp only
  split_ifs <;> omega

theorem Ok.next {N R : Nat} {p : Pos} (h : p.Inv N R) : Ok N R (p.next N R) := next_inv h

theorem next_mono (N R : Nat) (p : Pos) : p.k ≤ (p.next N R).k ∧ (p.next N R).k ≤ p.k + 1 ∧ p.r ≤ (p.next N R).r ∧ (p.next N R).r ≤ p.r + 1 := by
  unfold Pos.next
  dsimp only
  split_ifs <;> omega

/-- All ranks and all configurations from here on are passed, and nothing else. -/
theorem trace_covers {N R : Nat} : ∀ (n : Nat) (p : Pos), Ok N R p → left N R p ≤ n →
    (∀ k, p.k ≤ k → k < N → ∃ r < R, (k, r) ∈ trace N R n p) ∧ (∀ r, p.r ≤ r → r < R → ∃ k < N, (k, r) ∈ trace N R n p) ∧
    ∀ x ∈ trace N R n p, p.k ≤ x.1 ∧ x.1 < N ∧ p.r ≤ x.2 ∧ x.2 < R := by
  intro n
  induction n with
  | zero =>
    intro p h hl
    rcases h with h | ⟨h1, h2⟩
    · have := left_next h
      omega
    · refine ⟨fun k h3 h4 => by omega, fun r h3 h4 => by omega, fun x hx => by cases hx⟩
  | succ n ih =>
    intro p h hl
    rcases h with h | ⟨h1, h2⟩
    · have hn := left_next h
      obtain ⟨i1, i2, i3⟩ := ih (p.next N R) (next_inv h) (by omega)
      obtain ⟨m1, m2, m3, m4⟩ := next_mono N R p
      have hk := h.1
      have hr := h.2.1
      have e : trace N R (n + 1) p = (p.k, p.r) :: trace N R n (p.next N R) := by
        rw [trace, if_neg (by omega)]
      rw [e]
      refine ⟨fun k h3 h4 => ?_, fun r h3 h4 => ?_, fun x hx => ?_⟩
      · by_cases hc : k = p.k
        · exact ⟨p.r, hr, by rw [hc]; exact List.mem_cons_self⟩
        · obtain ⟨r, h5, h6⟩ := i1 k (by omega) h4
          exact ⟨r, h5, List.mem_cons_of_mem _ h6⟩
      · by_cases hc : r = p.r
        · exact ⟨p.k, hk, by rw [hc]; exact List.mem_cons_self⟩
        · obtain ⟨k, h5, h6⟩ := i2 r (by omega) h4
          exact ⟨k, h5, List.mem_cons_of_mem _ h6⟩
      · rcases List.mem_cons.1 hx with rfl | hx
        · exact ⟨le_rfl, hk, le_rfl, hr⟩
        · obtain ⟨j1, j2, j3, j4⟩ := i3 x hx
          exact ⟨by omega, j2, by omega, j4⟩
    · refine ⟨fun k h3 h4 => by omega, fun r h3 h4 => by omega, fun x hx => ?_⟩
      rw [trace, if_pos h2] at hx
      cases hx

/-- What a rank collects. -/
theorem collect_spec {a : DistOptions} (ha : Good a) {N R ρ : Nat} (hN : (allConfs a).length = N) (hρ : ρ < R) : ∀ (n : Nat) (p : Pos) (h : DistHandler),
    Ok N R p → left N R p < n → At a N R h p → ρ ≤ p.r →
    ∃ cs, distCollect a N R ρ n h = .ok cs ∧ cs.map some = ((trace N R n p).filter fun x => x.2 = ρ).map fun x => (allConfs a)[x.1]? := by
  intro n
  induction n with
  | zero => intro p h _ hl; omega
  | succ n ih =>
    intro p h hok hl hat hle
    unfold distCollect
    rw [hat.2.1]
    by_cases hr : p.r = ρ
    · rw [if_pos hr]
      have hinv : p.Inv N R := by
        rcases hok with h | ⟨-, h⟩
        · exact h
        · omega
      have hk := hinv.1
      have hd : (allConfs a).drop p.k = (allConfs a)[p.k]'(by omega) :: (allConfs a).drop (p.k + 1) := List.drop_eq_getElem_cons (by omega)
      have hcur := current_stands (hd ▸ hat.1)
      obtain ⟨h', e1, e2⟩ := advance_at ha hN hk hat
      have hl' := left_next hinv
      obtain ⟨cs, e3, e4⟩ := ih (p.next N R) h' (next_inv hinv) (by omega) e2 (by have := next_mono N R p; omega)
      rw [hcur, ok_bind_eq, e1, ok_bind_eq, e3, ok_bind_eq]
      refine ⟨_, rfl, ?_⟩
      rw [trace, if_neg (by omega), List.filter_cons, if_pos (by simpa using hr), List.map_cons, List.map_cons, e4, List.getElem?_eq_getElem (by omega)]
    · rw [if_neg hr]
      refine ⟨[], rfl, ?_⟩
      have : (trace N R (n + 1) p).filter (fun x => x.2 = ρ) = [] := by
        rw [List.filter_eq_nil_iff]
        intro x hx
        have := ((trace_covers (n + 1) p hok (by omega)).2.2 x hx).2.2.1
        simp only [decide_eq_true_eq]
        omega
      rw [this]
      rfl

/-- Where the first loop ends. -/
theorem skip_spec {a : DistOptions} (ha : Good a) {N R ρ : Nat} (hN : (allConfs a).length = N) (hρ : ρ < R) : ∀ (n : Nat) (p : Pos) (h : DistHandler),
    Ok N R p → left N R p < n → At a N R h p → p.r ≤ ρ →
    ∃ h' p' n', distSkip a N R ρ n h = .ok h' ∧ Ok N R p' ∧ At a N R h' p' ∧ p'.r = ρ ∧ left N R p' ≤ left N R p ∧ left N R p' < n' ∧
      (trace N R n p).filter (fun x => x.2 = ρ) = (trace N R n' p').filter fun x => x.2 = ρ := by
  intro n
  induction n with
  | zero => intro p h _ hl; omega
  | succ n ih =>
    intro p h hok hl hat hle
    unfold distSkip
    rw [hat.2.1]
    have hinv : p.Inv N R := by
      rcases hok with h | ⟨-, h⟩
      · exact h
      · omega
    by_cases hr : p.r < ρ
    · rw [if_pos hr]
      obtain ⟨h', e1, e2⟩ := advance_at ha hN hinv.1 hat
      have hl' := left_next hinv
      obtain ⟨h'', p', n', g1, g2, g3, g4, g5, g6, g7⟩ := ih (p.next N R) h' (next_inv hinv) (by omega) e2 (by have := next_mono N R p; omega)
      rw [e1, ok_bind_eq]
      refine ⟨h'', p', n', g1, g2, g3, g4, by omega, g6, ?_⟩
      rw [trace, if_neg (by omega), List.filter_cons, if_neg (by simp; omega), g7]
    · rw [if_neg hr]
      exact ⟨h, p, n + 1, rfl, hok, hat, by omega, le_rfl, hl, rfl⟩

theorem trace_fuel {N R : Nat} : ∀ (n m : Nat) (p : Pos), Ok N R p → left N R p ≤ n → left N R p ≤ m → trace N R n p = trace N R m p := by
  intro n
  induction n with
  | zero =>
    intro m p h hn hm
    rcases h with h | ⟨h1, h2⟩
    · have := left_next h; omega
    · cases m with
      | zero => rfl
      | succ m => rw [trace, trace, if_pos h2]
  | succ n ih =>
    intro m p h hn hm
    rcases h with h | ⟨h1, h2⟩
    · have hl := left_next h
      cases m with
      | zero => omega
      | succ m =>
        rw [trace, trace]
        split
        · rfl
        · rw [ih m (p.next N R) (next_inv h) (by omega) (by omega)]
    · cases m with
      | zero => rw [trace, trace, if_pos h2]
      | succ m => rw [trace, trace, if_pos h2, if_pos h2]

/-- How often a rank is passed. -/
theorem trace_count {N R : Nat} : ∀ (n : Nat) (p : Pos), Ok N R p → left N R p ≤ n →
    (R ≤ N → (p.r < R → ((trace N R n p).filter fun x => x.2 = p.r).length = p.rem + 1) ∧ ∀ r, p.r < r → r < R →
      ((trace N R n p).filter fun x => x.2 = r).length = N / R ∨ ((trace N R n p).filter fun x => x.2 = r).length = N / R + 1) ∧
    (N ≤ R → ∀ r, p.r ≤ r → r < R → ((trace N R n p).filter fun x => x.2 = r).length = 1) := by
  intro n
  induction n with
  | zero =>
    intro p h hl
    rcases h with h | ⟨h1, h2⟩
    · have := left_next h; omega
    · exact ⟨fun _ => ⟨fun _ => by omega, fun r _ _ => by omega⟩, fun _ r _ _ => by omega⟩
  | succ n ih =>
    intro p h hl
    rcases h with h | ⟨h1, h2⟩
    swap
    · exact ⟨fun _ => ⟨fun _ => by omega, fun r _ _ => by omega⟩, fun _ r _ _ => by omega⟩
    have hn := left_next h
    obtain ⟨i1, i2⟩ := ih (p.next N R) (next_inv h) (by omega)
    have hcov := (trace_covers n (p.next N R) (next_inv h) (by omega)).2.2
    have hnone : ∀ r, r < (p.next N R).r → (trace N R n (p.next N R)).filter (fun x => x.2 = r) = [] := by
      intro r hr
      rw [List.filter_eq_nil_iff]
      intro x hx
      have := (hcov x hx).2.2.1
      simp only [decide_eq_true_eq]
      omega
    have e : trace N R (n + 1) p = (p.k, p.r) :: trace N R n (p.next N R) := by
      rw [trace, if_neg (by have := h.2.1; omega)]
    have hk := h.1
    have hr := h.2.1
    rw [e]
    refine ⟨fun hRN => ?_, fun hNR r h1 h2 => ?_⟩
    · obtain ⟨j1, j2⟩ := i1 hRN
      have hq : 0 < N / R := Nat.div_pos hRN (by omega)
      by_cases hrem : p.rem = 0
      · have hnr : (p.next N R).r = p.r + 1 := if_pos (.inr hrem)
        have hnrem : (p.next N R).rem + 1 = N / R ∨ (p.next N R).rem + 1 = N / R + 1 := by
          have : (p.next N R).rem = N / R + (if p.m > 0 then 1 else 0) - 1 := by
            unfold Pos.next
            dsimp only
            rw [if_pos hrem, if_pos hRN]
          rw [this]
          split_ifs <;> omega
        refine ⟨fun _ => ?_, fun r h1 h2 => ?_⟩
        · rw [List.filter_cons, if_pos (by simp), hnone p.r (by omega), List.length_singleton, hrem]
        · rw [List.filter_cons, if_neg (by simp; omega)]
          by_cases hc : r = p.r + 1
          · have := j1 (by omega)
            rw [hnr] at this
            rw [hc, this]
            exact hnrem
          · exact j2 r (by omega) h2
      · have hRN' : R < N := by
          by_contra hc
          have e' : R = N := by omega
          obtain ⟨e1, e2⟩ := h.2.2.1 hRN
          obtain ⟨e3, e4⟩ := h.2.2.2 (by omega)
          subst e'
          rw [Nat.div_self (by omega), Nat.mul_one] at e1 e3
          omega
        have hnr : (p.next N R).r = p.r := if_neg (by omega)
        have hnrem : (p.next N R).rem = p.rem - 1 := by
          unfold Pos.next
          dsimp only
          rw [if_neg hrem]
        refine ⟨fun _ => ?_, fun r h1 h2 => ?_⟩
        · have := j1 (by omega)
          rw [hnr] at this
          rw [List.filter_cons, if_pos (by simp), List.length_cons, this, hnrem]
          omega
        · rw [List.filter_cons, if_neg (by simp; omega)]
          exact j2 r (by omega) h2
    · have hnr : (p.next N R).r = p.r + 1 := if_pos (.inl hNR)
      by_cases hc : r = p.r
      · rw [List.filter_cons, if_pos (by simp [hc]), hc, hnone p.r (by omega), List.length_singleton]
      · rw [List.filter_cons, if_neg (by simp; omega)]
        exact i2 hNR r (by omega) h2

theorem start_count {N R : Nat} (hN : 0 < N) {fuel : Nat} (hf : N + R < fuel) {r : Nat} (hr : r < R) :
    (R ≤ N → ((trace N R fuel (Pos.start N R)).filter fun x => x.2 = r).length = N / R ∨
      ((trace N R fuel (Pos.start N R)).filter fun x => x.2 = r).length = N / R + 1) ∧
    (N ≤ R → ((trace N R fuel (Pos.start N R)).filter fun x => x.2 = r).length = 1) := by
  have hR : 0 < R := by omega
  obtain ⟨h1, h2⟩ := trace_count fuel (Pos.start N R) (.inl (start_inv hN hR)) (by unfold left; split <;> omega)
  refine ⟨fun hRN => ?_, fun hNR => h2 hNR r (Nat.zero_le _) hr⟩
  obtain ⟨j1, j2⟩ := h1 hRN
  by_cases hc : r = 0
  · left
    have := j1 hR
    rw [hc]
    show ((trace N R fuel (Pos.start N R)).filter fun x => x.2 = (Pos.start N R).r).length = _
    rw [this]
    have hq : 0 < N / R := Nat.div_pos hRN hR
    have : (Pos.start N R).rem = N / R - 1 := by
      unfold Pos.start
      dsimp only
      split
      · have : R = N := by omega
        rw [this]
      · rfl
    omega
  · exact j2 r (by show 0 < r; omega) hr

/-! ### Whole intervals -/

/-- Several ranks for every configuration, the same number for all. -/
def HandlerInv (q : Nat) (h : DistHandler) : Prop := h.offset + h.remainingBlockSize + 1 = q ∧ h.blockSize = q ∧ h.remainder = 0

theorem handlerInv_advance {a : DistOptions} {N R : Nat} (hNR : N < R) (hN : 0 < N) {h h' : DistHandler} (hi : HandlerInv (R / N) h)
    (ha : h.advance a N R = .ok h') : HandlerInv (R / N) h' := by
  obtain ⟨i1, i2, i3⟩ := hi
  have hq : 0 < R / N := Nat.div_pos hNR.le hN
  have key : HandlerInv (R / N) (h.advanceRank N R) := by
    unfold DistHandler.advanceRank HandlerInv
    dsimp only
    rw [if_pos (show R ≥ N ∨ h.remainingBlockSize = 0 from .inl hNR.le)]
    by_cases hrem : h.remainingBlockSize = 0
    · rw [if_pos hrem, if_neg (show ¬ N ≥ R by omega)]
      dsimp only
      rw [if_neg (show ¬ h.remainder > 0 by omega)]
      dsimp only
      omega
    · rw [if_neg hrem]
      dsimp only
      omega
  unfold DistHandler.advance at ha
  cases hc : (if N ≥ R ∨ h.remainingBlockSize = 0 then h.conf.advance a else .ok h.conf) with
  | ok conf =>
    rw [hc, ok_bind_eq] at ha
    cases ha
    exact key
  | _ => rw [hc] at ha; cases ha

theorem handlerInv_skip {a : DistOptions} {N R ρ : Nat} (hNR : N < R) (hN : 0 < N) : ∀ (fuel : Nat) (h h' : DistHandler), HandlerInv (R / N) h →
    distSkip a N R ρ fuel h = .ok h' → HandlerInv (R / N) h' := by
  intro fuel
  induction fuel with
  | zero => intro h h' _ hs; cases hs
  | succ n ih =>
    intro h h' hi hs
    unfold distSkip at hs
    split at hs
    · cases hc : h.advance a N R with
      | ok x =>
        rw [hc, ok_bind_eq] at hs
        exact ih x h' (handlerInv_advance hNR hN hi hc) hs
      | _ => rw [hc] at hs; cases hs
    · cases hs; exact hi

/-- The position is determined by the rank. -/
theorem pos_div {N R : Nat} (hNR : N < R) (hdiv : N ∣ R) {p : Pos} (h : p.Inv N R) (hm : p.m = 0) (hrem : p.rem < R / N) :
    p.k = p.r / (R / N) ∧ R / N - 1 - p.rem = p.r % (R / N) := by
  obtain ⟨h1, h2, -, h4⟩ := h
  obtain ⟨h5, -⟩ := h4 hNR.le
  have hN : 0 < N := by omega
  have hR : N * (R / N) = R := Nat.mul_div_cancel' hdiv
  generalize R / N = q at *
  rw [hm] at h5
  obtain ⟨x, hx⟩ : ∃ x, N = p.k + 1 + x := ⟨N - p.k - 1, by omega⟩
  have hx2 : N - p.k - 1 = x := by omega
  rw [hx2] at h5
  have e1 : p.r + p.rem + 1 = (p.k + 1) * q := by
    have : N * q = (p.k + 1) * q + x * q := by rw [hx, Nat.add_mul]
    omega
  rw [Nat.add_mul, Nat.one_mul] at e1
  have e2 : p.r = (q - 1 - p.rem) + p.k * q := by omega
  have hq : 0 < q := by omega
  constructor
  · rw [e2, Nat.add_mul_div_right _ _ hq, Nat.div_eq_of_lt (by omega), Nat.zero_add]
  · conv_rhs => rw [e2, Nat.add_mul_mod_self_right, Nat.mod_eq_of_lt (by omega)]

theorem trace_div {N R : Nat} (hNR : N < R) (hdiv : N ∣ R) : ∀ (n : Nat) (p : Pos), Ok N R p → p.m = 0 → p.rem < R / N →
    ∀ x ∈ trace N R n p, x.1 = x.2 / (R / N) := by
  intro n
  induction n with
  | zero => intro p _ _ _ x hx; cases hx
  | succ n ih =>
    intro p h hm hrem x hx
    rcases h with h | ⟨h1, h2⟩
    · rw [trace, if_neg (by have := h.2.1; omega)] at hx
      rcases List.mem_cons.1 hx with rfl | hx
      · exact (pos_div hNR hdiv h hm hrem).1
      · refine ih (p.next N R) (next_inv h) ?_ ?_ x hx
        · unfold Pos.next
          dsimp only
          split <;> omega
        · unfold Pos.next
          dsimp only
          split
          · rw [if_neg (by omega), if_neg (by omega)]
            omega
          · omega
    · rw [trace, if_pos h2] at hx
      cases hx

/-- Everything a rank collects, with the handler behind the first loop. -/
theorem distribution_spec {a : DistOptions} (ha : Good a) (hne : a.conts ≠ []) {R ρ : Nat} (hρ : ρ < R) {fuel : Nat}
    (hf : (allConfs a).length + R < fuel) :
    ∃ h0 h cs, DistHandler.start a (allConfs a).length R = .ok h0 ∧ distSkip a (allConfs a).length R ρ fuel h0 = .ok h ∧
      distCollect a (allConfs a).length R ρ fuel h = .ok cs ∧
      cs.length = ((trace (allConfs a).length R fuel (Pos.start (allConfs a).length R)).filter fun x => x.2 = ρ).length ∧
      ((allConfs a).length < R → (allConfs a).length ∣ R → h.blockSize = R / (allConfs a).length ∧ h.offset = ρ % (R / (allConfs a).length)) ∧
      ∀ c, c ∈ cs ↔ ∃ k, (k, ρ) ∈ trace (allConfs a).length R fuel (Pos.start (allConfs a).length R) ∧ (allConfs a)[k]? = some c := by
  obtain ⟨s, hs, hst⟩ := start_stands ha hne
  have hR : 0 < R := by omega
  have hN : 0 < (allConfs a).length := by
    obtain ⟨c, cs, hc⟩ := exists_cons hne
    have hm : c ∈ a.conts := by rw [hc]; exact List.mem_cons_self
    obtain ⟨t, ts, ht⟩ := exists_cons (ha.trav c hm)
    obtain ⟨f, fs, hf'⟩ := exists_cons ha.csfs
    obtain ⟨d, ds, hd'⟩ := exists_cons ha.lays
    obtain ⟨n, ns, hn'⟩ := exists_cons ha.n3s
    obtain ⟨e, es, he⟩ := exists_cons (estsOf_ne a c t)
    apply List.length_pos_of_mem (a := (⟨c, f, t, e, d, n⟩ : DistConf))
    refine List.mem_flatMap.2 ⟨c, hm, List.mem_flatMap.2 ⟨f, by rw [hf']; exact List.mem_cons_self, List.mem_flatMap.2 ⟨t, by rw [ht]; exact List.mem_cons_self,
      List.mem_flatMap.2 ⟨e, by rw [he]; exact List.mem_cons_self, List.mem_flatMap.2 ⟨d, by rw [hd']; exact List.mem_cons_self,
        List.mem_map.2 ⟨n, by rw [hn']; exact List.mem_cons_self, rfl⟩⟩⟩⟩⟩⟩
  generalize hNe : (allConfs a).length = N at hN hf ⊢
  have h0 : DistHandler.start a N R = .ok ⟨s, 0, (Pos.start N R).rem, (Pos.start N R).m, 0, if R ≥ N then R / N else N / R⟩ := by
    unfold DistHandler.start
    rw [hs]
    rfl
  have hinv := start_inv hN hR
  have hat : At a N R ⟨s, 0, (Pos.start N R).rem, (Pos.start N R).m, 0, if R ≥ N then R / N else N / R⟩ (Pos.start N R) := ⟨hst, rfl, rfl, rfl⟩
  have hleft : left N R (Pos.start N R) ≤ N + R := by
    unfold left
    split <;> omega
  obtain ⟨h, p', n', g1, g2, g3, g4, g5, g6, g7⟩ := skip_spec ha hNe hρ fuel _ _ (.inl hinv) (by omega) hat (Nat.zero_le _)
  obtain ⟨cs, e1, e2⟩ := collect_spec ha hNe hρ fuel p' h g2 (by omega) g3 (by omega)
  have e3 : cs.map some = ((trace N R fuel (Pos.start N R)).filter fun x => x.2 = ρ).map fun x => (allConfs a)[x.1]? := by
    rw [e2, g7, trace_fuel fuel n' p' g2 (by omega) (by omega)]
  refine ⟨_, h, cs, h0, g1, e1, ?_, fun hNR hdiv => ?_, fun c => ?_⟩
  · have := congrArg List.length e3
    simpa using this
  · obtain ⟨j1, j2, j3⟩ := handlerInv_skip hNR hN fuel _ h (by
      refine ⟨?_, ?_, ?_⟩
      · have : 0 < R / N := Nat.div_pos hNR.le hN
        show 0 + (Pos.start N R).rem + 1 = R / N
        unfold Pos.start
        dsimp only
        rw [if_pos hNR.le]
        omega
      · exact if_pos hNR.le
      · show (Pos.start N R).m = 0
        unfold Pos.start
        dsimp only
        rw [if_pos hNR.le]
        exact Nat.mod_eq_zero_of_dvd hdiv) g1
    refine ⟨j2, ?_⟩
    have hpi : p'.Inv N R := by
      rcases g2 with g2 | g2
      · exact g2
      · omega
    have := (pos_div hNR hdiv hpi (by rw [← g3.2.2.2, j3]) (by rw [← g3.2.2.1]; omega)).2
    rw [g4, ← g3.2.2.1] at this
    omega
  have e4 : c ∈ cs ↔ some c ∈ cs.map some := by simp
  rw [e4, e3]
  constructor
  · intro h
    obtain ⟨⟨k, r⟩, h1, h2⟩ := List.mem_map.1 h
    obtain ⟨h3, h4⟩ := List.mem_filter.1 h1
    simp only [decide_eq_true_eq] at h4
    subst h4
    exact ⟨k, h3, h2⟩
  · rintro ⟨k, h1, h2⟩
    exact List.mem_map.2 ⟨(k, ρ), List.mem_filter.2 ⟨h1, by simp⟩, h2⟩

end Dist
end Verif
