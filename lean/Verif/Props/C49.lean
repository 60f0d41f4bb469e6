import Verif.Model.StringMatch
import Mathlib.Data.List.Nodup
/-!
# C49 — options written to a stream are read back
-/
namespace Verif

variable {E : Type}

/-- A table of names as the options have it: distinct, non-empty, made of the characters options may have. -/
structure Spec.GoodNames (names : List (E × List Char)) : Prop where
  distinct : (names.map Prod.snd).Nodup
  nonempty : ∀ x ∈ names, x.2 ≠ []
  chars : ∀ x ∈ names, ∀ c ∈ x.2, isOptionChar c = true ∧ c.isWhitespace = false

open Spec

theorem parseExact_name {names : List (E × List Char)} (hn : (names.map Prod.snd).Nodup) {x : E × List Char} (hx : x ∈ names) :
    parseOptionExact names x.2 = .ok x.1 := by
  unfold parseOptionExact
  have : names.find? (fun y => y.2 = x.2) = some x := by
    induction names with
    | nil => cases hx
    | cons y names ih =>
      rw [List.map_cons, List.nodup_cons] at hn
      rw [List.find?_cons]
      rcases List.mem_cons.1 hx with rfl | hx
      · simp
      · have hne : y.2 ≠ x.2 := fun he => hn.1 (List.mem_map.2 ⟨x, hx, he.symm⟩)
        simp only [hne, decide_false]
        exact ih hn.2 hx
  rw [this]

theorem skipSpace_of (ws : List Char) (hw : ∀ c ∈ ws, c.isWhitespace = true) (c : Char) (hc : c.isWhitespace = false) (s : List Char) :
    skipSpace (ws ++ c :: s) = .ok (c, s) := by
  induction ws with
  | nil => simp [skipSpace, hc]
  | cons w ws ih =>
    rw [List.cons_append, skipSpace, if_pos (hw w (List.mem_cons_self ..))]
    exact ih fun x hx => hw x (List.mem_cons_of_mem _ hx)

theorem collect_of (name : List Char) (hn : ∀ c ∈ name, isOptionChar c = true) (sep : Char) (hs : isOptionChar sep = false) (rest : List Char) :
    ∀ last, collectOption (name ++ sep :: rest) last = .ok (name, rest) := by
  induction name with
  | nil => intro last; simp [collectOption, hs]
  | cons c name ih =>
    intro last
    rw [List.cons_append, collectOption, if_pos (hn c (List.mem_cons_self ..)), ih fun x hx => hn x (List.mem_cons_of_mem _ hx)]
    rfl

theorem collect_end (name : List Char) (hn : ∀ c ∈ name, isOptionChar c = true) : ∀ last, isOptionChar last = true → collectOption name last = .diverges := by
  induction name with
  | nil => intro last h; simp [collectOption, h]
  | cons c name ih =>
    intro last _
    have hc := hn c (List.mem_cons_self ..)
    rw [collectOption, if_pos hc, ih (fun x hx => hn x (List.mem_cons_of_mem _ hx)) c hc]
    rfl

/-- C49 (partial). An option's name, after any white space and followed by a character that cannot belong to an option, is read back as that option, and the stream
continues after that character. Missing: a name at the very end of the stream, see `C49_violated_end_of_stream`. -/
theorem C49_read_back_partial (names : List (E × List Char)) (hn : GoodNames names) {x : E × List Char} (hx : x ∈ names) (ws : List Char)
    (hw : ∀ c ∈ ws, c.isWhitespace = true) (sep : Char) (hs : isOptionChar sep = false) (rest : List Char) :
    readOption names (ws ++ x.2 ++ sep :: rest) = .ok (x.1, rest) := by
  obtain ⟨c, name, hxe⟩ := List.exists_cons_of_ne_nil (hn.nonempty x hx)
  have hc := hn.chars x hx c (by rw [hxe]; exact List.mem_cons_self ..)
  unfold readOption
  rw [List.append_assoc, hxe, List.cons_append, skipSpace_of ws hw c hc.2]
  simp only [Outcome.bind]
  rw [collect_of name (fun d hd => (hn.chars x hx d (by rw [hxe]; exact List.mem_cons_of_mem _ hd)).1) sep hs rest]
  simp only
  rw [← hxe, parseExact_name hn.distinct hx]

/-- C49 fails at the end of the stream: if nothing follows the name, reading never returns (for every option of every table). -/
theorem C49_violated_end_of_stream (names : List (E × List Char)) (hn : GoodNames names) {x : E × List Char} (hx : x ∈ names) :
    readOption names x.2 = .diverges := by
  obtain ⟨c, name, hxe⟩ := List.exists_cons_of_ne_nil (hn.nonempty x hx)
  have hc := hn.chars x hx c (by rw [hxe]; exact List.mem_cons_self ..)
  unfold readOption
  rw [hxe]
  have := skipSpace_of [] (by simp) c hc.2 name
  rw [List.nil_append] at this
  rw [this]
  simp only [Outcome.bind]
  rw [collect_end name (fun d hd => (hn.chars x hx d (by rw [hxe]; exact List.mem_cons_of_mem _ hd)).1) c hc.1]

/-- The names of the Newton 3 options form a good table. -/
example : GoodNames [(0, "disabled".toList), (1, "enabled".toList)] ∧
    readOption [(0, "disabled".toList), (1, "enabled".toList)] "  enabled, disabled".toList = .ok (1, " disabled".toList) ∧
    readOption [(0, "disabled".toList), (1, "enabled".toList)] "enabled".toList = .diverges := by
  refine ⟨⟨by decide, by decide, by decide⟩, by decide, by decide⟩

end Verif
