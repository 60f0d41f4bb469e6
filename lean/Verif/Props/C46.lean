import Verif.Model.StringMatch
import Mathlib.Data.List.Nodup
import Mathlib.Order.MinMax
/-!
# C46 — exact option names always parse to themselves
-/
namespace Verif

/-- The recurrence of the score matrix, on reversed prefixes. -/
def nwRec : List Char → List Char → Int
  | [], b => -(b.length : Int)
  | a, [] => -(a.length : Int)
  | c :: a, d :: b => nwEntry c d (nwRec a b) (nwRec a (d :: b)) (nwRec (c :: a) b)
termination_by a b => a.length + b.length

theorem nwRec_nil_left (b : List Char) : nwRec [] b = -(b.length : Int) := by rw [nwRec]

theorem nwRec_nil_right (a : List Char) : nwRec a [] = -(a.length : Int) := by
  cases a with
  | nil => rw [nwRec]
  | cons c a =>
    rw [nwRec]
    intro h; cases h

theorem nwRec_cons (c d : Char) (a b : List Char) : nwRec (c :: a) (d :: b) = nwEntry c d (nwRec a b) (nwRec a (d :: b)) (nwRec (c :: a) b) := by
  rw [nwRec]

/-- The entries of a row after the prefix `b`. -/
def nwRowFrom (a : List Char) : List Char → List Char → List Int
  | _, [] => []
  | b, d :: s2 => nwRec a (d :: b) :: nwRowFrom a (d :: b) s2

theorem nwRowRest_eq (c : Char) (a s2 : List Char) : ∀ b, nwRowRest c s2 (nwRowFrom a b s2) (nwRec a b) (nwRec (c :: a) b) = nwRowFrom (c :: a) b s2 := by
  induction s2 with
  | nil => intro b; rfl
  | cons d s2 ih =>
    intro b
    simp only [nwRowFrom, nwRowRest]
    rw [← nwRec_cons, ih]

theorem nwRows_eq (s2 s1 : List Char) : ∀ a, nwRows s2 s1 a.length (nwRec a [] :: nwRowFrom a [] s2) =
    nwRec (s1.reverse ++ a) [] :: nwRowFrom (s1.reverse ++ a) [] s2 := by
  induction s1 with
  | nil => intro a; rfl
  | cons c s1 ih =>
    intro a
    simp only [nwRows, nwRow]
    have h : -((a.length + 1 : Nat) : Int) = nwRec (c :: a) [] := by rw [nwRec_nil_right, List.length_cons]
    have := ih (c :: a)
    rw [List.length_cons] at this
    rw [h, nwRowRest_eq, this]
    simp

theorem nwRow0 (s2 : List Char) : ((List.range (s2.length + 1)).map fun (j : Nat) => -(j : Int)) = nwRec [] [] :: nwRowFrom [] [] s2 := by
  have : ∀ (s2 b : List Char), (List.range s2.length).map (fun (j : Nat) => -((b.length + 1 + j : Nat) : Int)) = nwRowFrom [] b s2 := by
    intro s2
    induction s2 with
    | nil => intro b; rfl
    | cons d s2 ih =>
      intro b
      rw [List.length_cons, List.range_succ_eq_map, List.map_cons, List.map_map, nwRowFrom, ← ih (d :: b), nwRec_nil_left]
      congr 1
      apply List.map_congr_left
      intro j _
      simp only [Function.comp, List.length_cons]
      congr 2; omega
  rw [List.range_succ_eq_map, List.map_cons, List.map_map, ← this s2 [], nwRec_nil_left]
  congr 1
  apply List.map_congr_left
  intro j _
  simp only [Function.comp, List.length_nil]
  congr 2; omega

theorem nwRow_last (a s2 : List Char) : ∀ b, (nwRec a b :: nwRowFrom a b s2).getLastD 0 = nwRec a (s2.reverse ++ b) := by
  induction s2 with
  | nil => intro b; rfl
  | cons d s2 ih =>
    intro b
    have := ih (d :: b)
    simp only [nwRowFrom, List.getLastD_cons, List.reverse_cons, List.append_assoc, List.singleton_append] at this ⊢
    exact this

theorem score_eq_nwRec (s1 s2 : List Char) : needlemanWunschScore s1 s2 = nwRec s1.reverse s2.reverse := by
  unfold needlemanWunschScore
  rw [nwRow0]
  have := nwRows_eq s2 s1 []
  rw [List.length_nil, List.append_nil] at this
  rw [this, nwRow_last, List.append_nil]

theorem nwRec_le (a : List Char) : ∀ b, nwRec a b ≤ a.length ∧ (nwRec a b = a.length → a = b) := by
  induction a with
  | nil =>
    intro b
    rw [nwRec_nil_left]
    refine ⟨by simp, fun h => ?_⟩
    cases b with
    | nil => rfl
    | cons d b => simp only [List.length_cons, List.length_nil] at h; omega
  | cons c a iha =>
    intro b
    induction b with
    | nil =>
      rw [nwRec_nil_right, List.length_cons]
      exact ⟨by omega, fun h => by omega⟩
    | cons d b ihb =>
      rw [nwRec_cons]
      unfold nwEntry
      have h1 := iha b
      have h2 := (iha (d :: b)).1
      have h3 := ihb.1
      simp only [List.length_cons] at h3 ⊢
      by_cases e : c = d
      · rw [if_pos e]
        refine ⟨by omega, fun h => ?_⟩
        have : nwRec a b = a.length := by omega
        rw [e, h1.2 this]
      · rw [if_neg e]
        exact ⟨by omega, fun h => by have := h1.1; omega⟩

theorem nwRec_self (a : List Char) : nwRec a a = a.length := by
  apply le_antisymm (nwRec_le a a).1
  induction a with
  | nil => rw [nwRec_nil_left]; simp
  | cons c a ih =>
    rw [nwRec_cons]
    unfold nwEntry
    rw [if_pos rfl, List.length_cons]
    omega

/-- The score never exceeds the length of the needle and reaches it only for the needle itself. -/
theorem C46_score (needle s : List Char) : needlemanWunschScore needle needle = needle.length ∧ needlemanWunschScore needle s ≤ needle.length ∧
    (needlemanWunschScore needle s = needle.length → s = needle) := by
  rw [score_eq_nwRec, score_eq_nwRec]
  have h := nwRec_le needle.reverse s.reverse
  rw [List.length_reverse] at h
  refine ⟨by rw [nwRec_self, List.length_reverse], h.1, fun e => ?_⟩
  exact (List.reverse_injective (h.2 e)).symm

theorem matchLoop_exact {needle : List Char} : ∀ (haystack : List (List Char)) (best : Option Int) (matched : List (List Char)),
    (needle ∈ haystack → haystack.Nodup → (∀ b, best = some b → b < needle.length) → matchLoop needle haystack best matched = [needle]) ∧
    (needle ∉ haystack → best = some (needle.length : Int) → matchLoop needle haystack best matched = matched) := by
  intro haystack
  induction haystack with
  | nil => intro best matched; exact ⟨fun h => absurd h List.not_mem_nil, fun _ _ => rfl⟩
  | cons s haystack ih =>
    intro best matched
    obtain ⟨s1, s2, s3⟩ := C46_score needle s
    constructor
    · intro hm hn hb
      rw [List.nodup_cons] at hn
      by_cases e : s = needle
      · subst e
        have hx := (ih (some (s.length : Int)) [s]).2 hn.1 rfl
        unfold matchLoop
        simp only
        cases best with
        | none => simpa [s1] using hx
        | some b =>
          have := hb b rfl
          simpa [s1, this] using hx
      · have hlt : needlemanWunschScore needle s < needle.length := lt_of_le_of_ne s2 fun h => e (s3 h)
        have hm' : needle ∈ haystack := (List.mem_cons.1 hm).resolve_left fun h => e h.symm
        unfold matchLoop
        simp only
        apply (ih _ _).1 hm' hn.2
        intro b hb'
        cases best with
        | none => simp only [if_true, Option.some.injEq] at hb'; omega
        | some b0 =>
          have := hb b0 rfl
          simp only at hb'
          by_cases hd : needlemanWunschScore needle s > b0
          · simp only [hd, decide_true, if_true, Option.some.injEq] at hb'; omega
          · simp only [hd, decide_false, Bool.false_eq_true, if_false, Option.some.injEq] at hb'; omega
    · intro hm hb
      subst hb
      have e : s ≠ needle := fun h => hm (by rw [h]; exact List.mem_cons_self ..)
      have hlt : needlemanWunschScore needle s < needle.length := lt_of_le_of_ne s2 fun h => e (s3 h)
      unfold matchLoop
      have h1 : ¬ needlemanWunschScore needle s > needle.length := by omega
      have h2 : ¬ needlemanWunschScore needle s ≥ needle.length := by omega
      simp only [h1, decide_false, Bool.false_eq_true, if_false, h2]
      exact (ih _ _).2 (fun h => hm (List.mem_cons_of_mem _ h)) rfl

/-- C46. If the lower-cased needle is one of the distinct names, that name is returned; there is no ambiguity. -/
theorem C46_exact_name (haystack : List (List Char)) (hn : haystack.Nodup) (needle : List Char) (h : needle.map Char.toLower ∈ haystack) :
    matchStrings haystack needle = .ok (needle.map Char.toLower) := by
  unfold matchStrings
  rw [(matchLoop_exact haystack none []).1 h hn (by simp)]

variable {E : Type}

theorem find_lower {names : List (E × List Char)} (hn : (names.map fun x => x.2.map Char.toLower).Nodup) {x : E × List Char} (hx : x ∈ names) :
    (names.map fun y => (y.1, y.2.map Char.toLower)).find? (fun y => y.2 = x.2.map Char.toLower) = some (x.1, x.2.map Char.toLower) := by
  induction names with
  | nil => cases hx
  | cons y names ih =>
    rw [List.map_cons, List.nodup_cons] at hn
    rw [List.map_cons, List.find?_cons]
    rcases List.mem_cons.1 hx with rfl | hx
    · simp
    · have : y.2.map Char.toLower ≠ x.2.map Char.toLower := by
        intro he
        exact hn.1 (List.mem_map.2 ⟨x, hx, he.symm⟩)
      simp only [this, decide_false]
      exact ih hn.2 hx

/-- A list of option names, in any case and separated by delimiters, is parsed into exactly these options (for a table of names that differ also ignoring case). -/
theorem C46_option_list (names : List (E × List Char)) (hn : (names.map fun x => x.2.map Char.toLower).Nodup) (s : List Char)
    (chosen : List (E × List Char)) (hc : ∀ x ∈ chosen, x ∈ names) (hs : (tokenize defaultDelim s).map (List.map Char.toLower) = chosen.map fun x => x.2.map Char.toLower)
    (hall : tokenize defaultDelim s ≠ ["all".toList]) : parseOptions names s = .ok (chosen.map Prod.fst) := by
  unfold parseOptions
  simp only
  rw [if_neg hall]
  generalize tokenize defaultDelim s = needles at hs
  clear hall
  have hnd : ((names.map fun x => (x.1, x.2.map Char.toLower)).map Prod.snd).Nodup := by
    rw [List.map_map]; exact hn
  induction needles generalizing chosen with
  | nil =>
    cases chosen with
    | nil => rfl
    | cons => simp at hs
  | cons t needles ih =>
    cases chosen with
    | nil => simp at hs
    | cons x chosen =>
      simp only [List.map_cons, List.cons.injEq] at hs
      rw [List.foldr_cons, ih chosen (fun y hy => hc y (List.mem_cons_of_mem _ hy)) hs.2]
      have hx := hc x (List.mem_cons_self ..)
      simp only [Outcome.bind]
      rw [C46_exact_name _ hnd t (by
        rw [hs.1, List.map_map]
        exact List.mem_map.2 ⟨x, hx, rfl⟩), hs.1]
      simp only
      rw [find_lower hn hx]
      rfl

/-- Tokens are non-empty, contain no delimiter, and together are the characters of the string that are no delimiters, in order. -/
theorem C46_tokens (isDelim : Char → Bool) (s : List Char) : (∀ t ∈ tokenize isDelim s, t ≠ [] ∧ ∀ c ∈ t, isDelim c = false) ∧
    (tokenize isDelim s).flatten = s.filter (fun c => !isDelim c) := by
  unfold tokenize
  have : ∀ (s cur : List Char), (∀ c ∈ cur, isDelim c = false) → (∀ t ∈ tokenizeFrom isDelim s cur, t ≠ [] ∧ ∀ c ∈ t, isDelim c = false) ∧
      (tokenizeFrom isDelim s cur).flatten = cur ++ s.filter (fun c => !isDelim c) := by
    intro s
    induction s with
    | nil =>
      intro cur hc
      unfold tokenizeFrom
      by_cases e : cur = []
      · rw [if_pos e, e]; simp
      · rw [if_neg e]
        refine ⟨fun t ht => ?_, by simp⟩
        rw [List.mem_singleton] at ht
        rw [ht]; exact ⟨e, hc⟩
    | cons c s ih =>
      intro cur hc
      unfold tokenizeFrom
      by_cases hd : isDelim c = true
      · rw [if_pos hd]
        obtain ⟨h1, h2⟩ := ih [] (by simp)
        refine ⟨?_, ?_⟩
        · intro t ht
          rcases List.mem_append.1 ht with ht | ht
          · by_cases e : cur = []
            · rw [if_pos e] at ht; cases ht
            · rw [if_neg e, List.mem_singleton] at ht
              rw [ht]; exact ⟨e, hc⟩
          · exact h1 t ht
        · rw [List.flatten_append, h2]
          by_cases e : cur = []
          · rw [if_pos e]; simp [hd, e]
          · rw [if_neg e]; simp [hd]
      · rw [if_neg hd]
        have hd' : isDelim c = false := by simpa using hd
        obtain ⟨h1, h2⟩ := ih (cur ++ [c]) (by
          intro x hx
          rcases List.mem_append.1 hx with hx | hx
          · exact hc x hx
          · rw [List.mem_singleton] at hx; rw [hx]; exact hd')
        exact ⟨h1, by rw [h2]; simp [hd']⟩
  exact this s [] (by simp)

/-- Names of the data layouts, and a list naming both. -/
example : ([("aos".toList), ("soa".toList)] : List (List Char)).Nodup ∧ ("AoS".toList).map Char.toLower ∈ [("aos".toList), ("soa".toList)] ∧
    matchStrings ["aos".toList, "soa".toList] "AoS".toList = .ok "aos".toList ∧
    parseOptions [(0, "AoS".toList), (1, "SoA".toList)] "SoA, aos".toList = .ok [1, 0] ∧ tokenize defaultDelim "SoA, aos".toList = ["SoA".toList, "aos".toList] := by
  refine ⟨by decide, by decide, by decide, by decide, by decide⟩

/-- An ambiguous needle is reported. -/
example : matchStrings ["aos".toList, "soa".toList] "x".toList = .throws := by decide

end Verif
