import Verif.Model.VerletListsUse
import Verif.Lemmas.WithRemainder
import Verif.Props.C51
/-! The VerletLists container: loading the SoA, index lists. -/
namespace Verif
open Spec

section
variable {P : Type}

theorem soaLoadCell_append (a : List (Option P)) (cell : List P) (b : List (Option P)) (hb : cell.length ≤ b.length) :
    soaLoadCell (a ++ b) a.length cell = a ++ (cell.map some ++ b.drop cell.length) := by
  unfold soaLoadCell
  have key : ∀ (cell : List P) (k : Nat) (d : List (Option P)) (b : List (Option P)), d.length = k → cell.length ≤ b.length →
      (cell.zipIdx k).foldl (fun x e => x.set (a.length + e.2) (some e.1)) (a ++ (d ++ b)) = a ++ (d ++ (cell.map some ++ b.drop cell.length)) := by
    intro cell
    induction cell with
    | nil => intro k d b _ _; simp
    | cons p cell ih =>
      intro k d b hd hb
      cases b with
      | nil => simp at hb
      | cons x b =>
        rw [List.zipIdx_cons, List.foldl_cons]
        have : (a ++ (d ++ x :: b)).set (a.length + k) (some p) = a ++ ((d ++ [some p]) ++ b) := by
          rw [List.set_append_right _ _ (by omega), show a.length + k - a.length = k by omega,
            List.set_append_right _ _ (by omega), hd, Nat.sub_self, List.set_cons_zero]
          simp
        rw [this, ih (k + 1) (d ++ [some p]) b (by simp [hd]) (by simpa using hb)]
        simp
  have := key cell 0 [] b rfl hb
  simpa using this

theorem scanl_last (cells : List (List P)) (n : Nat) :
    (cells.scanl (fun sum cell => sum + cell.length) n).getLastD 0 = n + cells.flatten.length := by
  induction cells generalizing n with
  | nil => simp
  | cons l cells ih =>
    rw [List.scanl_cons, List.flatten_cons, List.length_append]
    have h := ih (n + l.length)
    cases hs : cells.scanl (fun sum cell => sum + cell.length) (n + l.length) with
    | nil => simp at hs
    | cons y ys =>
      rw [hs] at h
      simp only [List.getLastD_cons] at h ⊢
      omega

theorem scanl_get (cells : List (List P)) (n i : Nat) (hi : i ≤ cells.length) :
    (cells.scanl (fun sum cell => sum + cell.length) n).getD i 0 = n + (cells.take i).flatten.length := by
  induction cells generalizing n i with
  | nil =>
    simp only [List.length_nil, Nat.le_zero] at hi
    subst hi
    simp
  | cons l cells ih =>
    rw [List.scanl_cons]
    cases i with
    | zero => simp
    | succ i =>
      rw [List.getD_cons_succ, ih _ _ (by simpa using hi), List.take_succ_cons, List.flatten_cons, List.length_append]
      omega

theorem flatten_take_succ {l : List (List P)} {n : Nat} (h : n < l.length) :
    (l.take (n + 1)).flatten = (l.take n).flatten ++ l.getD n [] := by
  rw [List.take_add_one, List.getElem?_eq_getElem h, List.flatten_append, List.getD_eq_getElem?_getD, List.getElem?_eq_getElem h]
  simp

/-- Loading: the SoA contains the particles of all cells in order. -/
theorem soaLoad_eq (cells : List (List P)) : soaLoad cells = cells.flatten.map some := by
  unfold soaLoad soaOffsets
  dsimp only
  rw [scanl_last, Nat.zero_add]
  have key : ∀ n, n ≤ cells.length → (List.range n).foldl (fun soa i => soaLoadCell soa ((cells.scanl (fun sum cell => sum + cell.length) 0).getD i 0) (cells.getD i []))
      (List.replicate cells.flatten.length none) = (cells.take n).flatten.map some ++
        List.replicate (cells.flatten.length - (cells.take n).flatten.length) none := by
    intro n
    induction n with
    | zero => intro _; simp
    | succ n ih =>
      intro hn
      rw [List.range_succ, List.foldl_append, ih (by omega), List.foldl_cons, List.foldl_nil, scanl_get _ _ _ (by omega), Nat.zero_add]
      have htot : (cells.take n).flatten.length + (cells.getD n []).length ≤ cells.flatten.length := by
        have h1 : cells.flatten = (cells.take (n + 1)).flatten ++ (cells.drop (n + 1)).flatten := by
          rw [← List.flatten_append, List.take_append_drop]
        rw [h1, List.length_append, flatten_take_succ (by omega), List.length_append]
        omega
      have hsa := soaLoadCell_append ((cells.take n).flatten.map some) (cells.getD n [])
        (List.replicate (cells.flatten.length - (cells.take n).flatten.length) none) (by rw [List.length_replicate]; omega)
      rw [List.length_map] at hsa
      rw [hsa, flatten_take_succ (by omega), List.map_append, List.append_assoc, List.drop_replicate, List.length_append]
      congr 3
      omega
  rw [key _ (Nat.le_refl _), List.take_length, Nat.sub_self]
  simp

variable [DecidableEq P]

omit [DecidableEq P] in
theorem flatMap_classes_perm {X : Type} (l : List X) (key : X → Nat) (n : Nat) (h : ∀ x ∈ l, key x < n) :
    ((List.range n).flatMap fun i => l.filter fun x => key x = i).Perm l := by
  induction l with
  | nil => simp
  | cons x l ih =>
    have ih := ih fun y hy => h y (List.mem_cons_of_mem _ hy)
    have hx := h x List.mem_cons_self
    have hsplit : ((List.range n).flatMap fun i => (x :: l).filter fun y => key y = i).Perm
        (((List.range n).flatMap fun i => if key x = i then [x] else []) ++ (List.range n).flatMap fun i => l.filter fun y => key y = i) := by
      refine List.Perm.trans ?_ (List.flatMap_append_perm _ _ _).symm
      refine List.Perm.flatMap_left _ fun i _ => ?_
      by_cases hi : key x = i
      · rw [List.filter_cons_of_pos (by simp [hi]), if_pos hi]; exact List.Perm.refl _
      · rw [List.filter_cons_of_neg (by simp [hi]), if_neg hi]; exact List.Perm.refl _
    refine hsplit.trans ?_
    have hone : ((List.range n).flatMap fun i => if key x = i then [x] else []) = [x] := by
      have e : (List.range n) = List.range (key x) ++ key x :: (List.range' (key x + 1) (n - key x - 1)) := by
        rw [List.range_eq_range', List.range_eq_range', ← List.range'_succ, show n - key x - 1 + 1 = n - key x by omega]
        have h2 := List.range'_append_1 (s := 0) (m := key x) (n := n - key x)
        rw [Nat.zero_add, show key x + (n - key x) = n by omega] at h2
        exact h2.symm
      rw [e, List.flatMap_append, List.flatMap_cons, if_pos rfl]
      have z : ∀ L : List Nat, (∀ i ∈ L, i ≠ key x) → (L.flatMap fun i => if key x = i then [x] else []) = [] := by
        intro L hL
        rw [List.flatMap_eq_nil_iff]
        intro i hi
        rw [if_neg (hL i hi).symm]
      rw [z _ (fun i hi => by rw [List.mem_range] at hi; omega), z _ (fun i hi => by rw [List.mem_range'_1] at hi; omega)]
      rfl
    rw [hone]
    exact ih.cons x

/-- The SoA traversal makes the same calls as the AoS traversal. -/
theorem verletIterateSoA_perm {cells : List (List P)} {lists : List (P × P)} (hn : cells.flatten.Nodup)
    (h : ∀ e ∈ lists, e.1 ∈ cells.flatten ∧ e.2 ∈ cells.flatten) :
    (verletIterateSoA (soaLoad cells) (soaListsOf cells.flatten lists)).Perm (verletIterate lists) := by
  set O := cells.flatten with hO
  have hidx : ∀ p ∈ O, (O.map some).getD (indexIn O p) none = some p := by
    intro p hp
    unfold indexIn
    rw [if_pos hp, List.getD_eq_getElem?_getD, List.getElem?_map]
    have hlt := List.idxOf_lt_length_of_mem hp
    rw [List.getElem?_eq_getElem hlt]
    simp
  have hlt : ∀ p ∈ O, indexIn O p < O.length := by
    intro p hp
    unfold indexIn
    rw [if_pos hp]
    exact List.idxOf_lt_length_of_mem hp
  unfold verletIterateSoA
  rw [soaLoad_eq, ← hO]
  have e1 : (soaListsOf O lists).length = O.length := by unfold soaListsOf; simp
  rw [e1]
  have e2 : ((List.range O.length).flatMap fun i => ((soaListsOf O lists).getD i []).filterMap fun j =>
      match (O.map some).getD i none, (O.map some).getD j none with
      | some p, some q => some (⟨p, q, false⟩ : PairCall P)
      | _, _ => none) =
      (List.range O.length).flatMap fun i => (lists.filter fun e => indexIn O e.1 = i).map fun e => ⟨e.1, e.2, false⟩ := by
    apply List.flatMap_congr
    intro i hi
    rw [List.mem_range] at hi
    have e3 : (soaListsOf O lists).getD i [] = (lists.filter fun e => indexIn O e.1 = i).map fun e => indexIn O e.2 := by
      unfold soaListsOf
      rw [List.getD_eq_getElem?_getD, List.getElem?_map, List.getElem?_range hi]
      rfl
    rw [e3, List.filterMap_map]
    have : ∀ L : List (P × P), (∀ e ∈ L, e ∈ lists ∧ indexIn O e.1 = i) → List.filterMap ((fun j =>
      match (O.map some).getD i none, (O.map some).getD j none with
      | some p, some q => some (⟨p, q, false⟩ : PairCall P)
      | _, _ => none) ∘ fun e => indexIn O e.2) L = L.map fun e => ⟨e.1, e.2, false⟩ := by
      intro L
      induction L with
      | nil => intro _; rfl
      | cons e L ih =>
        intro hL
        obtain ⟨h1, h2⟩ := hL e List.mem_cons_self
        have g1 := hidx e.1 (h e h1).1
        have g2 := hidx e.2 (h e h1).2
        rw [h2] at g1
        rw [List.map_cons, ← ih fun e' he' => hL e' (List.mem_cons_of_mem _ he')]
        rw [List.filterMap_cons_some]
        simp only [Function.comp, g1, g2]
    exact this _ fun e he => by
      rw [List.mem_filter, decide_eq_true_eq] at he
      exact he
  refine (List.Perm.of_eq e2).trans ?_
  unfold verletIterate
  have e4 : ((List.range O.length).flatMap fun i => (lists.filter fun e => indexIn O e.1 = i).map fun e => (⟨e.1, e.2, false⟩ : PairCall P)) =
      ((List.range O.length).flatMap fun i => lists.filter fun e => indexIn O e.1 = i).map fun e => ⟨e.1, e.2, false⟩ := by
    rw [List.map_flatMap]
  rw [e4]
  exact (flatMap_classes_perm lists (fun e => indexIn O e.1) O.length fun e he => hlt _ (h e he).1).map _

/-- List entries count received contributions. -/
theorem received_verletIterate (lists : List (P × P)) (a b : P) : timesReceived (verletIterate lists) a b = lists.count (a, b) := by
  unfold timesReceived verletIterate
  congr 1
  unfold contributions
  induction lists with
  | nil => rfl
  | cons e lists ih =>
    rw [List.map_cons, List.flatMap_cons, ih]
    rfl

theorem count_entries (calls : List (PairCall P)) (hn : ∀ c ∈ calls, c.newton3 = false) (g : PairCall P → List (P × P)) (a b : P) (q : Prop)
    [Decidable q] (hg : ∀ c ∈ calls, c.p = a → c.q = b → (g c).count (a, b) = if q then 1 else 0)
    (hg0 : ∀ c ∈ calls, ¬ (c.p = a ∧ c.q = b) → (g c).count (a, b) = 0) :
    (calls.flatMap g).count (a, b) = if q then timesReceived calls a b else 0 := by
  induction calls with
  | nil => simp [timesReceived, contributions]
  | cons c calls ih =>
    have ih := ih (fun x hx => hn x (List.mem_cons_of_mem _ hx)) (fun x hx => hg x (List.mem_cons_of_mem _ hx))
      (fun x hx => hg0 x (List.mem_cons_of_mem _ hx))
    have e : timesReceived (c :: calls) a b = (if c.p = a ∧ c.q = b then 1 else 0) + timesReceived calls a b := by
      unfold timesReceived contributions
      rw [List.flatMap_cons, List.count_append, hn c List.mem_cons_self]
      congr 1
      by_cases hx : c.p = a ∧ c.q = b
      · rw [if_pos hx, hx.1, hx.2]; simp
      · rw [if_neg hx]
        simp only [Bool.false_eq_true, if_false]
        rw [List.count_cons_of_ne (by intro hy; cases hy; exact hx ⟨rfl, rfl⟩)]
        rfl
    rw [List.flatMap_cons, List.count_append, ih, e]
    by_cases hx : c.p = a ∧ c.q = b
    · rw [hg c List.mem_cons_self hx.1 hx.2, if_pos hx]
      split <;> omega
    · rw [hg0 c List.mem_cons_self hx, if_neg hx]
      split <;> omega

end
end Verif
