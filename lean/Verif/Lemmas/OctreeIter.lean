import Verif.Model.OctreeIter
import Verif.Lemmas.OctreeGeometry
import Mathlib.Tactic.IntervalCases
/-! Scanning the leaves of an octree: what `advanceTree` finds. -/
namespace Verif.Octree

variable {P : Type}

/-- A leaf with its index vector, box and particles. -/
abbrev Leaf (P : Type) := List Nat × Box × List P

/-- The leaves below a node, in the order of the iteration. -/
def under : OTree P → Box → List Nat → List (Leaf P)
  | .leaf ps, b, ds => [(ds, b, ps)]
  | .inner c, b, ds => (List.range 8).flatMap fun i => under (c (octant i)) (childBoxNo b i) (i :: ds)

/-- The leaves after a node. -/
def restAfter (cfg : OTIterCfg P) (owned halo : OTree P) : List Nat → List (Leaf P)
  | [] => []
  | [d] => if d = 0 ∧ cfg.wantsHalo = true then under halo cfg.haloBox [1] else []
  | d :: q =>
    match nodeOf cfg owned halo q with
    | some (.inner c, b) =>
      ((List.range' (d + 1) (7 - d)).flatMap fun i => under (c (octant i)) (childBoxNo b i) (i :: q)) ++ restAfter cfg owned halo q
    | _ => []

theorem under_length_pos (t : OTree P) (b : Box) (ds : List Nat) : 0 < (under t b ds).length := by
  induction t generalizing b ds with
  | leaf ps => simp [under]
  | inner c ih =>
    rw [under, show List.range 8 = 0 :: [1, 2, 3, 4, 5, 6, 7] from rfl, List.flatMap_cons, List.length_append]
    have := ih (octant 0) (childBoxNo b 0) (0 :: ds)
    omega

theorem nodeOf_cons {cfg : OTIterCfg P} {owned halo : OTree P} {d d' : Nat} {q : List Nat} :
    nodeOf cfg owned halo (d :: d' :: q) =
      match nodeOf cfg owned halo (d' :: q) with
      | some (.inner c, b) => if d < 8 then some (c (octant d), childBoxNo b d) else none
      | _ => none := rfl

theorem nodeOf_child {cfg : OTIterCfg P} {owned halo : OTree P} {ds : List Nat} {c : Vertex → OTree P} {b : Box} {i : Nat}
    (h : nodeOf cfg owned halo ds = some (.inner c, b)) (hi : i < 8) :
    nodeOf cfg owned halo (i :: ds) = some (c (octant i), childBoxNo b i) := by
  cases ds with
  | nil => cases h
  | cons d q => rw [nodeOf_cons, h]; simp [hi]

theorem restAfter_child {cfg : OTIterCfg P} {owned halo : OTree P} {ds : List Nat} {c : Vertex → OTree P} {b : Box} {i : Nat}
    (h : nodeOf cfg owned halo ds = some (.inner c, b)) :
    restAfter cfg owned halo (i :: ds) =
      ((List.range' (i + 1) (7 - i)).flatMap fun j => under (c (octant j)) (childBoxNo b j) (j :: ds)) ++ restAfter cfg owned halo ds := by
  cases ds with
  | nil => cases h
  | cons d q =>
    rw [restAfter, h]
    intro hx; cases hx

theorem nodeOf_parent {cfg : OTIterCfg P} {owned halo : OTree P} {d : Nat} {q : List Nat} {n : OTree P × Box} (hq : q ≠ [])
    (h : nodeOf cfg owned halo (d :: q) = some n) :
    d < 8 ∧ ∃ c b, nodeOf cfg owned halo q = some (.inner c, b) ∧ n = (c (octant d), childBoxNo b d) := by
  cases q with
  | nil => contradiction
  | cons d' q =>
    rw [nodeOf_cons] at h
    split at h
    · rename_i c b heq
      split at h
      · rename_i hd
        exact ⟨hd, c, b, heq, (Option.some.inj h).symm⟩
      · cases h
    · cases h

theorem nodeOf_root {cfg : OTIterCfg P} {owned halo : OTree P} {d : Nat} {n : OTree P × Box} (h : nodeOf cfg owned halo [d] = some n) :
    (d = 0 ∧ n = (owned, cfg.box)) ∨ (d = 1 ∧ n = (halo, cfg.haloBox)) := by
  simp only [nodeOf] at h
  by_cases h0 : d = 0
  · left; rw [if_pos h0] at h; exact ⟨h0, (Option.some.inj h).symm⟩
  · rw [if_neg h0] at h
    by_cases h1 : d = 1
    · right; rw [if_pos h1] at h; exact ⟨h1, (Option.some.inj h).symm⟩
    · rw [if_neg h1] at h; cases h

/-- `nextNode` goes to the next subtree. -/
theorem nextNode_spec {cfg : OTIterCfg P} {owned halo : OTree P} {ds : List Nat} {n : OTree P × Box}
    (h : nodeOf cfg owned halo ds = some n) :
    (nextNode cfg ds = none ∧ restAfter cfg owned halo ds = []) ∨
    ∃ ds' n', nextNode cfg ds = some ds' ∧ nodeOf cfg owned halo ds' = some n' ∧
      restAfter cfg owned halo ds = under n'.1 n'.2 ds' ++ restAfter cfg owned halo ds' := by
  induction ds generalizing n with
  | nil => cases h
  | cons d q ih =>
    by_cases hq : q = []
    · subst hq
      rcases nodeOf_root h with ⟨rfl, -⟩ | ⟨rfl, -⟩
      · cases hh : cfg.wantsHalo with
        | true =>
          right
          refine ⟨[1], (halo, cfg.haloBox), ?_, rfl, ?_⟩
          · simp [nextNode, climb, hh]
          · simp [restAfter, hh]
        | false => left; simp [nextNode, climb, restAfter, hh]
      · left; simp [nextNode, climb, restAfter]
    · obtain ⟨hd, c, b, hp, rfl⟩ := nodeOf_parent hq h
      rw [restAfter_child hp]
      by_cases h7 : d = 7
      · subst h7
        have e1 : nextNode cfg (7 :: q) = nextNode cfg q := by simp [nextNode, climb]
        rw [e1]
        simpa using ih hp
      · right
        refine ⟨(d + 1) :: q, (c (octant (d + 1)), childBoxNo b (d + 1)), ?_, nodeOf_child hp (by omega), ?_⟩
        · obtain ⟨d', q', rfl⟩ := List.exists_cons_of_ne_nil hq
          simp [nextNode, climb, h7]
        · rw [restAfter_child hp, show 7 - d = (7 - (d + 1)) + 1 by omega, List.range'_succ, List.flatMap_cons, List.append_assoc]

/-! ### Relevance -/

/-- What the scan needs of the relevance test: a relevant node has a relevant child, and a node with a relevant child is relevant. -/
structure RelOk (cfg : OTIterCfg P) (I : Box → Prop) : Prop where
  box : I cfg.box
  haloBox : I cfg.haloBox
  child : ∀ b, I b → ∀ i, i < 8 → I (childBoxNo b i)
  down : ∀ b, I b → ∀ c : Vertex → OTree P, cfg.relevant (.inner c) b = true → ∃ i, i < 8 ∧ cfg.relevant (c (octant i)) (childBoxNo b i) = true
  up : ∀ b, I b → ∀ c : Vertex → OTree P, ∀ i, i < 8 → cfg.relevant (c (octant i)) (childBoxNo b i) = true → cfg.relevant (.inner c) b = true

theorem RelOk.node {cfg : OTIterCfg P} {I : Box → Prop} (h : RelOk cfg I) {owned halo : OTree P} {ds : List Nat} {n : OTree P × Box}
    (hn : nodeOf cfg owned halo ds = some n) : I n.2 := by
  induction ds generalizing n with
  | nil => cases hn
  | cons d q ih =>
    by_cases hq : q = []
    · subst hq
      rcases nodeOf_root hn with ⟨-, rfl⟩ | ⟨-, rfl⟩
      · exact h.box
      · exact h.haloBox
    · obtain ⟨hd, c, b, hp, rfl⟩ := nodeOf_parent hq hn
      exact h.child _ (ih hp) _ hd

/-- The relevance of a leaf. -/
def OTIterCfg.leafRel (cfg : OTIterCfg P) (e : Leaf P) : Bool := cfg.relevant (.leaf e.2.2) e.2.1

theorem irrelevant_under {cfg : OTIterCfg P} {I : Box → Prop} (h : RelOk cfg I) (t : OTree P) (b : Box) (hb : I b) (ds : List Nat)
    (hr : cfg.relevant t b = false) : ∀ e ∈ under t b ds, cfg.leafRel e = false := by
  induction t generalizing b ds with
  | leaf ps =>
    intro e he
    rw [under, List.mem_singleton] at he
    subst he
    exact hr
  | inner c ih =>
    intro e he
    rw [under, List.mem_flatMap] at he
    obtain ⟨i, hi, he⟩ := he
    rw [List.mem_range] at hi
    refine ih (octant i) (childBoxNo b i) (h.child b hb i hi) (i :: ds) ?_ e he
    by_contra hc
    rw [Bool.not_eq_false] at hc
    rw [h.up b hb c i hi hc] at hr
    cases hr

/-- `descend` reaches the first relevant leaf. -/
theorem descend_spec {cfg : OTIterCfg P} {I : Box → Prop} (h : RelOk cfg I) {owned halo : OTree P} (t : OTree P) (b : Box) (ds : List Nat)
    (hn : nodeOf cfg owned halo ds = some (t, b)) (hr : cfg.relevant t b = true) :
    ∃ pre e post, descend cfg t b ds = .ok e.1 ∧ nodeOf cfg owned halo e.1 = some (.leaf e.2.2, e.2.1) ∧ under t b ds = pre ++ e :: post ∧
      (∀ e' ∈ pre, cfg.leafRel e' = false) ∧ cfg.leafRel e = true ∧
      restAfter cfg owned halo e.1 = post ++ restAfter cfg owned halo ds := by
  induction t generalizing b ds with
  | leaf ps => exact ⟨[], (ds, b, ps), [], rfl, hn, rfl, by simp, hr, rfl⟩
  | inner c ih =>
    have hI := h.node hn
    rw [descend]
    cases hf : (List.range 8).find? fun (i : Nat) => cfg.relevant (c (octant i)) (childBoxNo b i) with
    | none =>
      obtain ⟨i, hi, hi'⟩ := h.down b hI c hr
      rw [List.find?_eq_none] at hf
      exact absurd hi' (hf i (List.mem_range.2 hi))
    | some i =>
      rw [List.find?_eq_some_iff_append] at hf
      obtain ⟨hrel, as, bs, hsplit, has⟩ := hf
      have hi : i < 8 := List.mem_range.1 (by rw [hsplit]; simp)
      have hbs : bs = List.range' (i + 1) (7 - i) := by
        have hlen : as.length = i := by
          have h1 := congrArg (·[as.length]?) hsplit
          simp only [List.getElem?_append_right (Nat.le_refl _), Nat.sub_self, List.getElem?_cons_zero] at h1
          obtain ⟨h2, h3⟩ := List.getElem?_eq_some_iff.1 h1
          simpa using h3
        have h1 := congrArg (List.drop (i + 1)) hsplit
        have h2 : (as ++ i :: bs).drop (i + 1) = bs := by
          rw [show as ++ i :: bs = (as ++ [i]) ++ bs by simp]
          exact List.drop_left' (by simp [hlen])
        rw [h2] at h1
        rw [← h1, List.range_eq_range', List.drop_range']
        congr 1 <;> omega
      obtain ⟨pre, e, post, g1, g2, g3, g4, g5, g6⟩ := ih (octant i) (childBoxNo b i) (i :: ds) (nodeOf_child hn hi) hrel
      refine ⟨(as.flatMap fun j => under (c (octant j)) (childBoxNo b j) (j :: ds)) ++ pre, e,
        post ++ bs.flatMap fun j => under (c (octant j)) (childBoxNo b j) (j :: ds), g1, g2, ?_, ?_, g5, ?_⟩
      · rw [under, hsplit, List.flatMap_append, List.flatMap_cons, g3]
        simp
      · intro e' he'
        rcases List.mem_append.1 he' with he' | he'
        · obtain ⟨j, hj, he'⟩ := List.mem_flatMap.1 he'
          have hj8 : j < 8 := List.mem_range.1 (by rw [hsplit]; exact List.mem_append_left _ hj)
          exact irrelevant_under h _ _ (h.child b hI j hj8) _ (by simpa using has j hj) e' he'
        · exact g4 e' he'
      · rw [g6, restAfter_child hn, hbs, List.append_assoc]

/-! ### Searching -/

/-- The first matching particle of a vector from `i` on. -/
def firstAt (ful : P → Bool) (ps : List P) (i : Nat) : Option Nat :=
  if h : i < ps.length then if ful ps[i] then some i else firstAt ful ps (i + 1) else none
termination_by ps.length - i

/-- The first matching particle in relevant leaves. -/
def firstIn (cfg : OTIterCfg P) : List (Leaf P) → Option (List Nat × Nat)
  | [] => none
  | e :: r =>
    if cfg.leafRel e then
      match firstAt cfg.ful e.2.2 0 with
      | some j => some (e.1, j)
      | none => firstIn cfg r
    else firstIn cfg r

theorem firstIn_irrelevant {cfg : OTIterCfg P} {l r : List (Leaf P)} (h : ∀ e ∈ l, cfg.leafRel e = false) :
    firstIn cfg (l ++ r) = firstIn cfg r := by
  induction l with
  | nil => rfl
  | cons e l ih =>
    rw [List.cons_append, firstIn, h e (by simp), if_neg (by simp)]
    exact ih fun e' he' => h e' (by simp [he'])

/-- Rounds for a list of leaves. -/
def scanCost (l : List (Leaf P)) : Nat := (l.map fun e => e.2.2.length + 1).sum

theorem scanCost_append (l r : List (Leaf P)) : scanCost (l ++ r) = scanCost l + scanCost r := by
  simp [scanCost]

theorem scanCost_cons (e : Leaf P) (r : List (Leaf P)) : scanCost (e :: r) = e.2.2.length + 1 + scanCost r := by
  simp [scanCost]

theorem scanCost_under_pos (t : OTree P) (b : Box) (ds : List Nat) : 0 < scanCost (under t b ds) := by
  have := under_length_pos t b ds
  cases h : under t b ds with
  | nil => rw [h] at this; cases this
  | cons e r => rw [scanCost_cons]; omega

/-- What `advanceTree` answers, from a leaf or from a node to be skipped. -/
theorem advanceTree_spec {cfg : OTIterCfg P} {I : Box → Prop} (h : RelOk cfg I) {owned halo : OTree P} (rounds : Nat) (ds : List Nat) (i : Nat)
    (force : Bool) {t : OTree P} {b : Box} (hn : nodeOf cfg owned halo ds = some (t, b)) :
    (force = true → scanCost (restAfter cfg owned halo ds) < rounds →
      advanceTree cfg owned halo rounds ds i force = .ok (firstIn cfg (restAfter cfg owned halo ds))) ∧
    (∀ ps, t = .leaf ps → force = false → scanCost (restAfter cfg owned halo ds) + (ps.length - i) < rounds →
      advanceTree cfg owned halo rounds ds i force = .ok
        (match firstAt cfg.ful ps i with
         | some j => some (ds, j)
         | none => firstIn cfg (restAfter cfg owned halo ds))) := by
  induction rounds generalizing ds i force t b with
  | zero => exact ⟨fun _ hc => absurd hc (by omega), fun _ _ _ hc => absurd hc (by omega)⟩
  | succ n ih =>
    have jump : scanCost (restAfter cfg owned halo ds) < n + 1 → ((collectAll t).length ≤ i ∨ force = true) →
        advanceTree cfg owned halo (n + 1) ds i force = .ok (firstIn cfg (restAfter cfg owned halo ds)) := by
      intro hc hj
      rw [advanceTree, hn]
      simp only
      rw [if_pos hj]
      rcases nextNode_spec hn with ⟨h1, h2⟩ | ⟨ds', n', h1, h2, h3⟩
      · rw [h1, h2]; rfl
      · obtain ⟨t', b'⟩ := n'
        rw [h1]
        simp only
        rw [h2]
        simp only
        rw [h3, scanCost_append] at hc
        have hpos := scanCost_under_pos t' b' ds'
        by_cases hr : cfg.relevant t' b' = false
        · rw [if_pos hr, (ih ds' i true h2).1 rfl (by simp only at hc; omega), h3,
            firstIn_irrelevant (irrelevant_under h _ _ (h.node h2) _ hr)]
        · rw [if_neg hr]
          rw [Bool.not_eq_false] at hr
          obtain ⟨pre, e, post, g1, g2, g3, g4, g5, g6⟩ := descend_spec h t' b' ds' h2 hr
          rw [g1]
          simp only [Outcome.bind]
          simp only [g3, scanCost_append, scanCost_cons] at hc
          rw [(ih e.1 0 false g2).2 e.2.2 rfl rfl (by rw [g6, scanCost_append]; omega), h3]
          simp only [g3]
          rw [List.append_assoc, firstIn_irrelevant g4, List.cons_append, firstIn, if_pos g5, g6]
    refine ⟨fun hf hc => jump hc (Or.inr hf), ?_⟩
    rintro ps rfl hf hc
    by_cases hi : ps.length ≤ i
    · rw [jump (by omega) (Or.inl hi), firstAt, dif_neg (by omega)]
    · rw [advanceTree, hn]
      simp only
      have hno : ¬ ((collectAll (.leaf ps)).length ≤ i ∨ force = true) := by
        rintro (h1 | h1)
        · exact hi h1
        · rw [hf] at h1; cases h1
      rw [if_neg hno, List.getElem?_eq_getElem (by omega)]
      simp only
      rw [firstAt, dif_pos (by omega)]
      by_cases hful : cfg.ful ps[i] = true
      · rw [if_pos hful, if_pos hful]
      · rw [if_neg hful, if_neg hful, (ih ds (i + 1) false hn).2 ps rfl rfl (by omega)]

end Verif.Octree
