import Verif.Lemmas.Iterator
/-! A user loop over an iterator: what it visits and what it leaves behind. -/
namespace Verif

variable {P : Type}

/-- Particles still to be visited, in scanning order: (from an additional vector?, index of the vector, particle). -/
def pending (cfg : IterCfg P) (s : IterState P) : List (Bool × Nat × P) :=
  if s.inVecs then (restT cfg.ful cfg.stride s.vecs.length s.vecs s.ci s.pi).map (fun e => (true, e))
  else (restT cfg.ful cfg.stride (cfg.endC + 1) s.cells s.ci s.pi).map (fun e => (false, e)) ++
    (tailT cfg.ful cfg.stride s.vecs.length s.vecs cfg.thread).map (fun e => (true, e))

/-- Cell or additional vector number `k`. -/
def IterState.at (s : IterState P) (b : Bool) (k : Nat) : List P := if b then s.vecs.getD k [] else s.cells.getD k []

/-- The state points at a matching particle. -/
structure ValidAt (cfg : IterCfg P) (s : IterState P) (p : P) : Prop where
  cur : s.cur = some p
  ful : cfg.ful p = true
  here : (s.at s.inVecs s.ci)[s.pi]? = some p
  lo : s.inVecs = false → cfg.startC + cfg.thread ≤ s.ci
  hi : s.inVecs = false → s.ci < cfg.endC + 1

/-- What is assumed of storage: at least one thread, irrelevant cells hold nothing of interest, sizes fit `size_t`. -/
structure GoodStore (cfg : IterCfg P) (s : IterState P) : Prop where
  stride : 0 < cfg.stride
  irr : NoneInIrrelevant cfg s.cells
  small : ∀ b k, (s.at b k).length < idxMod
  vsmall : s.vecs.length < idxMod

theorem ValidAt.pending {cfg : IterCfg P} {s : IterState P} {p : P} (hv : ValidAt cfg s p) (hs : 0 < cfg.stride) :
    pending cfg s = (s.inVecs, s.ci, p) :: pending cfg { s with pi := s.pi + 1 } := by
  have h := hv.here
  unfold Verif.pending
  cases hb : s.inVecs with
  | true =>
    rw [IterState.at, hb, if_pos rfl] at h
    have hl : s.ci < s.vecs.length := by
      by_contra hl
      rw [List.getD, List.getElem?_eq_none (show s.vecs.length ≤ s.ci by omega)] at h; simp at h
    simp only [if_true]
    rw [restT_hit hs hl h hv.ful]; rfl
  | false =>
    rw [IterState.at, hb, if_neg (by simp)] at h
    simp only [Bool.false_eq_true, if_false]
    rw [restT_hit hs (hv.hi hb) h hv.ful]; rfl

/-- Outcome of `fetch` from a state whose position is not the restart position. -/
theorem fetch_spec {cfg : IterCfg P} {s : IterState P} (hg : GoodStore cfg s)
    (h0 : s.inVecs = false → cfg.startC + cfg.thread ≤ effCell cfg s.ci s.pi)
    (he : s.inVecs = false → effCell cfg s.ci s.pi = s.ci) :
    (fetch cfg s).cells = s.cells ∧ (fetch cfg s).vecs = s.vecs ∧
    ((pending cfg s = [] ∧ (fetch cfg s).cur = none ∧
        (((fetch cfg s).inVecs = true ∧ (fetch cfg s).ci = idxMod - 1 ∧ (fetch cfg s).pi = idxMod - 1) ∨
          ((fetch cfg s).inVecs = false ∧ s.inVecs = false ∧ s.vecs = [] ∧ (fetch cfg s).ci = 0 ∧ (fetch cfg s).pi = 0))) ∨
     (∃ p, ValidAt cfg (fetch cfg s) p ∧ pending cfg (fetch cfg s) = pending cfg s)) := by
  have vec : ∀ s' : IterState P, s'.inVecs = true →
      (fetchVecs cfg s').cells = s'.cells ∧ (fetchVecs cfg s').vecs = s'.vecs ∧
      ((pending cfg s' = [] ∧ (fetchVecs cfg s').cur = none ∧
          ((fetchVecs cfg s').inVecs = true ∧ (fetchVecs cfg s').ci = idxMod - 1 ∧ (fetchVecs cfg s').pi = idxMod - 1)) ∨
       (∃ p, ValidAt cfg (fetchVecs cfg s') p ∧ pending cfg (fetchVecs cfg s') = pending cfg s')) := by
    intro s' hb
    unfold fetchVecs
    cases hf : findInVecs cfg s'.vecs s'.ci s'.pi with
    | none =>
      refine ⟨rfl, rfl, Or.inl ⟨?_, rfl, hb, rfl, rfl⟩⟩
      unfold pending
      rw [if_pos hb, findInVecs_none hg.stride hf]; rfl
    | some q =>
      obtain ⟨v, i, p⟩ := q
      obtain ⟨k1, k2, k3, k4⟩ := findInVecs_some hg.stride hf
      refine ⟨rfl, rfl, Or.inr ⟨p, ⟨rfl, k3, ?_, ?_, ?_⟩, ?_⟩⟩
      · simp only [IterState.at, hb, if_true]; exact k2
      · intro h; simp only [hb] at h; cases h
      · intro h; simp only [hb] at h; cases h
      · unfold pending
        simp only [hb, if_true]
        rw [k4]
  cases hb : s.inVecs with
  | true =>
    have hfe : fetch cfg s = fetchVecs cfg s := by unfold fetch; rw [if_pos hb]
    rw [hfe]
    obtain ⟨k1, k2, k3⟩ := vec s hb
    refine ⟨k1, k2, ?_⟩
    rcases k3 with ⟨k3, k4, k5⟩ | k3
    · exact Or.inl ⟨k3, k4, Or.inl k5⟩
    · exact Or.inr k3
  | false =>
    have h0' := h0 hb
    have he' := he hb
    unfold fetch
    rw [if_neg (by simp [hb])]
    cases hgp : getParticleImpl cfg s.cells s.ci s.pi with
    | some q =>
      obtain ⟨c, i, p⟩ := q
      obtain ⟨k1, k2, k3, k4, k5⟩ := getParticle_some hg.stride hg.irr hgp
      refine ⟨rfl, rfl, Or.inr ⟨p, ⟨rfl, k4, ?_, ?_, ?_⟩, ?_⟩⟩
      · simp only [IterState.at, hb, Bool.false_eq_true, if_false]; exact k3
      · intro _; show cfg.startC + cfg.thread ≤ c; omega
      · intro _; exact k2
      · unfold pending
        simp only [hb, Bool.false_eq_true, if_false]
        rw [he'] at k5
        rw [k5]
    | none =>
      have kn := getParticle_none hg.stride hg.irr hgp
      rw [he'] at kn
      by_cases hvn : s.vecs = []
      · simp only [hvn, if_true]
        refine ⟨trivial, trivial, Or.inl ⟨?_, trivial, Or.inr ⟨hb, trivial, trivial, trivial, trivial⟩⟩⟩
        unfold pending
        simp only [hb, Bool.false_eq_true, if_false]
        rw [kn, hvn, tailT_out (by simp)]; rfl
      · simp only [hvn, if_false]
        have hp : pending cfg s = pending cfg { s with ci := cfg.thread, pi := 0, inVecs := true } := by
          unfold pending
          simp only [hb, Bool.false_eq_true, if_false, if_true]
          rw [kn, restT_zero]; rfl
        obtain ⟨k1, k2, k3⟩ := vec { s with ci := cfg.thread, pi := 0, inVecs := true } rfl
        refine ⟨k1, k2, ?_⟩
        rcases k3 with ⟨k3, k4, k5⟩ | ⟨p, k3, k4⟩
        · exact Or.inl ⟨hp.trans k3, k4, Or.inl k5⟩
        · exact Or.inr ⟨p, k3, k4.trans hp.symm⟩

/-- Fetching again at a valid position changes nothing. -/
theorem fetch_valid {cfg : IterCfg P} {s : IterState P} {p : P} (hs : 0 < cfg.stride) (hv : ValidAt cfg s p) :
    fetch cfg s = s := by
  have h := hv.here
  unfold fetch
  cases hb : s.inVecs with
  | true =>
    rw [IterState.at, hb, if_pos rfl] at h
    simp only [if_true]
    unfold fetchVecs
    rw [findInVecs_here hs h hv.ful]
    simp only [← hv.cur]
  | false =>
    rw [IterState.at, hb, if_neg (by simp)] at h
    simp only [Bool.false_eq_true, if_false]
    rw [getParticle_here (hv.lo hb) (hv.hi hb) h hv.ful]
    simp only [← hv.cur]
    rw [← hb]

/-- The fetched state survives `--` followed by `++`, unless the iterator has run off the end of a container without
additional vectors. -/
theorem back_and_forth {cfg : IterCfg P} {s : IterState P} (hg : GoodStore cfg s)
    (h0 : s.inVecs = false → cfg.startC + cfg.thread ≤ effCell cfg s.ci s.pi)
    (he : s.inVecs = false → effCell cfg s.ci s.pi = s.ci)
    (hr : pending cfg s ≠ [] ∨ s.vecs ≠ [] ∨ s.inVecs = true) :
    iterNext cfg { fetch cfg s with pi := ((fetch cfg s).pi + idxMod - 1) % idxMod } = fetch cfg s := by
  obtain ⟨k1, k2, k3⟩ := fetch_spec hg h0 he
  unfold iterNext
  rcases k3 with ⟨k3, k4, ⟨k5, k6, k7⟩ | ⟨k5, k6, k7, k8, k9⟩⟩ | ⟨p, k3, k4⟩
  · have hpi : (((fetch cfg s).pi + idxMod - 1) % idxMod + 1) % idxMod = (fetch cfg s).pi := by
      rw [k7]; decide
    simp only [hpi]
    generalize hX : fetch cfg s = X at *
    show fetch cfg X = X
    unfold fetch
    rw [if_pos k5]
    unfold fetchVecs
    have : findInVecs cfg X.vecs X.ci X.pi = none := by
      rw [findInVecs, dif_pos]
      left
      rw [k2, k6]
      have := hg.vsmall
      unfold idxMod at *
      omega
    rw [this]
    simp only [← k4]
    conv_rhs => rw [show X = ⟨X.cells, X.vecs, X.inVecs, X.ci, X.pi, X.cur⟩ from rfl, k6, k7]
  · simp_all
  · have hs : (fetch cfg s).pi < idxMod := by
      have h1 := k3.here
      obtain ⟨hl, -⟩ := List.getElem?_eq_some_iff.1 h1
      have := hg.small (fetch cfg s).inVecs (fetch cfg s).ci
      have e : s.at (fetch cfg s).inVecs (fetch cfg s).ci = (fetch cfg s).at (fetch cfg s).inVecs (fetch cfg s).ci := by
        unfold IterState.at; rw [k1, k2]
      rw [e] at this
      omega
    have hpi : (((fetch cfg s).pi + idxMod - 1) % idxMod + 1) % idxMod = (fetch cfg s).pi := by
      unfold idxMod at *
      omega
    simp only [hpi]
    exact fetch_valid hg.stride k3

end Verif
