import Mathlib.Data.Nat.Digits.Lemmas
import Verif.Lemmas.CheckpointNumbers
import Verif.Model.VtkNames
import Verif.Spec.VtkNames
/-!
# C139: names of the vtk files

Files of different kinds, ranks or iterations have different names, the main file lists the files of all ranks, and the alphabetical order of the files
is the order of the iterations.
-/
namespace Verif

open Spec.VtkNames

namespace VtkNames

theorem padded_digits (w n : Nat) : AllDigits (paddedText w n) := by
  unfold paddedText
  refine AllDigits.append ?_ (natText_digits n)
  intro c hc
  rw [List.eq_of_mem_replicate hc]; decide

theorem padded_val (w n : Nat) : digitsVal (paddedText w n) = n := by
  unfold paddedText
  rw [digitsVal_append, digitsVal_zeros, digitsVal_natText]; simp

theorem padded_injective {w m n : Nat} (h : paddedText w m = paddedText w n) : m = n := by
  rw [← padded_val w m, h, padded_val]

/-- Two numbers in front of a character that is no digit. -/
theorem digits_split {a b r s : List Char} (ha : AllDigits a) (hb : AllDigits b) {c : Char} (hc : isDigitChar c = false)
    (h : a ++ c :: r = b ++ c :: s) : a = b ∧ r = s := by
  induction a generalizing b with
  | nil =>
    cases b with
    | nil => simpa using h
    | cons d b =>
      simp only [List.nil_append, List.cons_append, List.cons.injEq] at h
      have := hb d (by simp); rw [← h.1, hc] at this; cases this
  | cons d a ih =>
    cases b with
    | nil =>
      simp only [List.nil_append, List.cons_append, List.cons.injEq] at h
      have := ha d (by simp); rw [h.1, hc] at this; cases this
    | cons e b =>
      simp only [List.cons_append, List.cons.injEq] at h
      obtain ⟨h1, h2⟩ := ih (fun x hx => ha x (by simp [hx])) (fun x hx => hb x (by simp [hx])) h.2
      exact ⟨by rw [h.1, h1], h2⟩

theorem digitsVal_cons (c : Char) (l : List Char) : digitsVal (c :: l) = (c.toNat - 48) * 10 ^ l.length + digitsVal l := by
  have := digitsVal_append [c] l
  simpa [digitsVal] using this

theorem digitsVal_lt {l : List Char} (h : AllDigits l) : digitsVal l < 10 ^ l.length := by
  induction l with
  | nil => simp [digitsVal]
  | cons c l ih =>
    have h1 := ih fun x hx => h x (by simp [hx])
    have h2 := digit_toNat (h c (by simp))
    rw [digitsVal_cons, List.length_cons, pow_succ]
    have : (c.toNat - 48) * 10 ^ l.length ≤ 9 * 10 ^ l.length := Nat.mul_le_mul_right _ (by omega)
    omega

/-- Numbers with equally many digits are in alphabetical order. -/
theorem before_digits {a b : List Char} (ha : AllDigits a) (hb : AllDigits b) (hl : a.length = b.length) (h : digitsVal a < digitsVal b)
    (s t : List Char) : Before (a ++ s) (b ++ t) := by
  induction a generalizing b with
  | nil =>
    cases b with
    | nil => exact absurd h (lt_irrefl _)
    | cons => simp at hl
  | cons c a ih =>
    cases b with
    | nil => simp at hl
    | cons d b =>
      have ha' : AllDigits a := fun x hx => ha x (by simp [hx])
      have hb' : AllDigits b := fun x hx => hb x (by simp [hx])
      have hl' : a.length = b.length := by simpa using hl
      have hc := digit_toNat (ha c (by simp))
      have hd := digit_toNat (hb d (by simp))
      rw [digitsVal_cons, digitsVal_cons, hl'] at h
      have h2 := digitsVal_lt hb'
      rcases Nat.lt_trichotomy c.toNat d.toNat with hlt | heq | hgt
      · exact .head hlt _ _
      · rw [heq] at h
        have hcd : c = d := Char.toNat_inj.1 heq
        subst hcd
        exact .tail c (ih ha' hb' hl' (by omega))
      · exfalso
        have h3 : (d.toNat - 48 + 1) * 10 ^ b.length ≤ (c.toNat - 48) * 10 ^ b.length := Nat.mul_le_mul_right _ (by omega)
        rw [Nat.add_mul] at h3
        omega

theorem before_prefix (p : List Char) {s t : List Char} (h : Before s t) : Before (p ++ s) (p ++ t) := by
  induction p with
  | nil => exact h
  | cons c p ih => exact .tail c ih

theorem natText_length_mono {m n : Nat} (h : m ≤ n) : (natText m).length ≤ (natText n).length := by
  unfold natText
  by_cases hn : n = 0
  · have : m = 0 := by omega
    simp [hn, this]
  · by_cases hm : m = 0
    · have h0 : (Nat.digits 10 n).length ≠ 0 := by simp [Nat.digits_ne_nil_iff_ne_zero.2 hn, hn]
      simp [hm, hn]; omega
    · simpa [hm, hn] using Nat.le_length_digits_le 10 m n h

theorem padded_length {w n : Nat} (h : (natText n).length ≤ w) : (paddedText w n).length = w := by
  unfold paddedText; simp; omega

theorem text_particles : VtkTag.text .particles = ['P', 'a', 'r', 't', 'i', 'c', 'l', 'e', 's'] := by decide +kernel

theorem text_ranks : VtkTag.text .ranks = ['R', 'a', 'n', 'k', 's'] := by decide +kernel

theorem us_particles : "_Particles_".toList = ['_', 'P', 'a', 'r', 't', 'i', 'c', 'l', 'e', 's', '_'] := by decide +kernel

theorem us_ranks : "_Ranks_".toList = ['_', 'R', 'a', 'n', 'k', 's', '_'] := by decide +kernel

theorem lit_vtu : "vtu".toList = ['v', 't', 'u'] := by decide +kernel

theorem lit_dotvtu : ".vtu".toList = ['.', 'v', 't', 'u'] := by decide +kernel

theorem lit_pvtu : ".pvtu".toList = ['.', 'p', 'v', 't', 'u'] := by decide +kernel

theorem lit_data : "data/".toList = ['d', 'a', 't', 'a', '/'] := by decide +kernel

theorem lit_dotdata : "./data/".toList = ['.', '/', 'd', 'a', 't', 'a', '/'] := by decide +kernel

theorem dataFileName_eq (l name : List Char) (w : Nat) (t : VtkTag) (r i : Nat) :
    dataFileName l name w t r i =
      (dataFolder l name ++ name ++ ['_']) ++ (t.text ++ '_' :: (natText r ++ '_' :: (paddedText w i ++ ['.', 'v', 't', 'u']))) := by
  simp only [dataFileName, lit_vtu, List.append_assoc, List.cons_append, List.nil_append]

theorem mainFileName_eq (l name : List Char) (w : Nat) (t : VtkTag) (i : Nat) :
    mainFileName l name w t i = (sessionFolder l name ++ name ++ ['_']) ++ (t.text ++ '_' :: (paddedText w i ++ ['.', 'p', 'v', 't', 'u'])) := by
  cases t <;> simp only [mainFileName, us_particles, us_ranks, text_particles, text_ranks, lit_pvtu, List.append_assoc, List.cons_append,
    List.nil_append]

theorem tag_split {t u : VtkTag} {r s : List Char} (h : t.text ++ '_' :: r = u.text ++ '_' :: s) : t = u ∧ r = s := by
  cases t <;> cases u <;> simp [text_particles, text_ranks] at h ⊢ <;> exact h

theorem folderOf_eq {p f : List Char} (hf : ∀ c ∈ f, c ≠ '/') : folderOf (p ++ '/' :: f) = p ++ ['/'] := by
  unfold folderOf
  have h : ∀ (l : List Char), (∀ c ∈ l, c ≠ '/') → ∀ m, List.dropWhile (fun x => decide (x ≠ '/')) (l ++ '/' :: m) = '/' :: m := by
    intro l hl m
    induction l with
    | nil => simp
    | cons c l ih =>
      rw [List.cons_append, List.dropWhile_cons_of_pos (by simpa using hl c (by simp))]
      exact ih fun x hx => hl x (by simp [hx])
  have : (p ++ '/' :: f).reverse = f.reverse ++ '/' :: p.reverse := by simp
  rw [this, h _ (by simpa using hf)]
  simp

theorem padded_no_slash (w n : Nat) : ∀ c ∈ paddedText w n, c ≠ '/' := by
  intro c hc h
  have := padded_digits w n c hc
  rw [h] at this; revert this; decide

theorem resolve_dot (folder rest : List Char) : resolve folder ('.' :: '/' :: rest) = some (folder ++ rest) := rfl

theorem piece_eq (l name : List Char) (w : Nat) (t : VtkTag) (r i : Nat) : ∃ rest,
    pieceSource name w t i r = '.' :: '/' :: rest ∧ sessionFolder l name ++ rest = dataFileName l name w t r i := by
  refine ⟨"data/".toList ++ (name ++ '_' :: (t.text ++ '_' :: (natText r ++ '_' :: (paddedText w i ++ ['.', 'v', 't', 'u'])))), ?_, ?_⟩
  · unfold pieceSource
    rw [lit_dotdata, lit_dotvtu, lit_data]
    cases t
    · rw [text_particles]
      dsimp only
      rw [us_particles]
      simp only [List.append_assoc, List.cons_append, List.nil_append]
    · rw [text_ranks]
      dsimp only
      rw [us_ranks]
      simp only [List.append_assoc, List.cons_append, List.nil_append]
  · rw [dataFileName_eq, dataFolder]
    simp only [List.append_assoc, List.cons_append, List.nil_append]

theorem resolve_piece (l name : List Char) (w : Nat) (t : VtkTag) (r i : Nat) :
    resolve (sessionFolder l name) (pieceSource name w t i r) = some (dataFileName l name w t r i) := by
  obtain ⟨rest, h, h'⟩ := piece_eq l name w t r i
  rw [h, resolve_dot, h']

end VtkNames

open VtkNames

/-- Two data files with the same name are the same file, and two main files as well. A data file never has the name of a main file. -/
theorem C139_distinct (location name : List Char) (width : Nat) :
    (∀ t r i t' r' i', dataFileName location name width t r i = dataFileName location name width t' r' i' → t = t' ∧ r = r' ∧ i = i') ∧
    (∀ t i t' i', mainFileName location name width t i = mainFileName location name width t' i' → t = t' ∧ i = i') ∧
    (∀ t r i t' i', dataFileName location name width t r i ≠ mainFileName location name width t' i') := by
  refine ⟨fun t r i t' r' i' h => ?_, fun t i t' i' h => ?_, fun t r i t' i' h => ?_⟩
  · rw [dataFileName_eq, dataFileName_eq] at h
    obtain ⟨h1, h2⟩ := tag_split (List.append_cancel_left h)
    obtain ⟨h3, h4⟩ := digits_split (natText_digits r) (natText_digits r') (by decide) h2
    obtain ⟨h5, -⟩ := digits_split (padded_digits _ _) (padded_digits _ _) (by decide) h4
    exact ⟨h1, natText_injective h3, padded_injective h5⟩
  · rw [mainFileName_eq, mainFileName_eq] at h
    obtain ⟨h1, h2⟩ := tag_split (List.append_cancel_left h)
    obtain ⟨h5, -⟩ := digits_split (padded_digits _ _) (padded_digits _ _) (by decide) h2
    exact ⟨h1, padded_injective h5⟩
  · have h' := congrArg List.reverse h
    rw [dataFileName_eq, mainFileName_eq] at h'
    simp at h'

/-- Each entry of a main file refers, from the folder of the main file, to the data file of the same kind and iteration: one entry for each rank in the
order of ranks. The name of the session contains no `/`. -/
theorem C139_pieces (location name : List Char) (hname : '/' ∉ name) (width : Nat) (t : VtkTag) (i numRanks : Nat) :
    (pieceSources name width t i numRanks).map (resolve (folderOf (mainFileName location name width t i))) =
      (List.range numRanks).map fun r => some (dataFileName location name width t r i) := by
  have hf : folderOf (mainFileName location name width t i) = sessionFolder location name := by
    have : mainFileName location name width t i =
        (location ++ ['/'] ++ name) ++ '/' :: (name ++ '_' :: (t.text ++ '_' :: (paddedText width i ++ ['.', 'p', 'v', 't', 'u']))) := by
      simp only [mainFileName_eq, sessionFolder, List.append_assoc, List.cons_append, List.nil_append]
    rw [this, folderOf_eq]
    · simp [sessionFolder]
    · intro c hc hs
      subst hs
      have hp := fun h => padded_no_slash width i _ h rfl
      cases t <;> simp [text_particles, text_ranks, hname] at hc <;> exact hp hc
  rw [hf, pieceSources, List.map_map]
  refine List.map_congr_left fun r _ => ?_
  exact resolve_piece location name width t r i

/-- In a simulation of a given number of iterations, the names of main files of the same kind, and those of data files of the same kind and rank, are in
the alphabetical order of the iterations, up to and with the last one. -/
theorem C139_sorted_partial (location name : List Char) (iterations : Nat) (t : VtkTag) {i j : Nat} (hij : i < j) (hj : j ≤ iterations) :
    Before (mainFileName location name (vtkWidth iterations 0) t i) (mainFileName location name (vtkWidth iterations 0) t j) ∧
    ∀ r, Before (dataFileName location name (vtkWidth iterations 0) t r i) (dataFileName location name (vtkWidth iterations 0) t r j) := by
  have hw : ∀ n, n ≤ iterations → (paddedText (vtkWidth iterations 0) n).length = vtkWidth iterations 0 := by
    intro n hn
    exact padded_length (natText_length_mono (by simpa using hn))
  have key : ∀ s u, Before (paddedText (vtkWidth iterations 0) i ++ s) (paddedText (vtkWidth iterations 0) j ++ u) := by
    refine before_digits (padded_digits _ _) (padded_digits _ _) (by rw [hw i (by omega), hw j hj]) ?_
    rw [padded_val, padded_val]; exact hij
  refine ⟨?_, fun r => ?_⟩
  · rw [mainFileName_eq, mainFileName_eq]
    exact before_prefix _ (before_prefix _ (.tail _ (key _ _)))
  · rw [dataFileName_eq, dataFileName_eq]
    exact before_prefix _ (before_prefix _ (.tail _ (before_prefix _ (.tail _ (key _ _)))))

/-- The names of all data files of such a run have the same length for each rank. -/
theorem C139_length (location name : List Char) (iterations : Nat) (t : VtkTag) {i : Nat} (hi : i ≤ iterations) :
    (mainFileName location name (vtkWidth iterations 0) t i).length = (mainFileName location name (vtkWidth iterations 0) t iterations).length := by
  have hw : ∀ n, n ≤ iterations → (paddedText (vtkWidth iterations 0) n).length = vtkWidth iterations 0 := by
    intro n hn
    exact padded_length (natText_length_mono (by simpa using hn))
  rw [mainFileName_eq, mainFileName_eq]
  simp [hw i hi, hw iterations le_rfl]

/-- If the simulation is limited by tuning phases the names have no leading zeros, whatever the given number of iterations: the file of iteration 10 comes
before that of iteration 9. -/
theorem C139_violated_sorted (location name : List Char) (iterations : Nat) {tuningPhases : Nat} (h : tuningPhases > 0) (t : VtkTag) :
    Before (mainFileName location name (vtkWidth iterations tuningPhases) t 10) (mainFileName location name (vtkWidth iterations tuningPhases) t 9) := by
  have : vtkWidth iterations tuningPhases = 1 := by simp [vtkWidth, h, natText]
  rw [this, mainFileName_eq, mainFileName_eq]
  refine before_prefix _ (before_prefix _ (.tail _ ?_))
  have h10 : paddedText 1 10 = ['1', '0'] := by simp [paddedText, natText, digitChar]
  have h9 : paddedText 1 9 = ['9'] := by simp [paddedText, natText, digitChar]
  rw [h10, h9]
  exact .head (by decide) _ _

/-- The hypotheses are met by a run of 1000 iterations with two written files. -/
example : (9 : Nat) < 10 ∧ (10 : Nat) ≤ 1000 ∧ '/' ∉ "run".toList ∧ mainFileName "out".toList "run".toList (vtkWidth 1000 0) .particles 10 =
    "out/run/run_Particles_0010.pvtu".toList := by
  refine ⟨by decide, by decide, by decide, ?_⟩
  have hw : vtkWidth 1000 0 = 4 := by simp [vtkWidth, natText]
  have h10 : paddedText 4 10 = ['0', '0', '1', '0'] := by simp [paddedText, natText, digitChar, List.replicate]
  rw [hw, mainFileName_eq, h10, text_particles]
  decide +kernel

end Verif
