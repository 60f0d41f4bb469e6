import Verif.Lemmas.CheckpointFile
/-! File names, the number of pieces, and the whole checkpoint. -/
namespace Verif

open Spec.Checkpoint

/-! ### Counting -/

/-- Number of hits in a text and the current word at its end. -/
def wordRun : List Char → List Char → Nat × List Char
  | cur, [] => (0, cur)
  | cur, c :: rest =>
    let cur' := if c ∈ wordSeparators then [] else cur ++ [c]
    if cur' = "Piece".toList then ((wordRun [] rest).1 + 1, (wordRun [] rest).2) else wordRun cur' rest

theorem wordRun_append : ∀ (l l' cur : List Char),
    wordRun cur (l ++ l') = ((wordRun cur l).1 + (wordRun (wordRun cur l).2 l').1, (wordRun (wordRun cur l).2 l').2) := by
  intro l
  induction l with
  | nil => intro l' cur; simp [wordRun]
  | cons c l ih =>
    intro l' cur
    rw [List.cons_append, wordRun, wordRun]
    by_cases h : (if c ∈ wordSeparators then [] else cur ++ [c]) = "Piece".toList
    · rw [if_pos h, if_pos h, ih]
      ext
      · simp only; omega
      · rfl
    · rw [if_neg h, if_neg h, ih]

theorem wordRun_append_zero {l cur cur' : List Char} (h : wordRun cur l = (0, cur')) (l' : List Char) :
    wordRun cur (l ++ l') = wordRun cur' l' := by
  rw [wordRun_append, h]
  simp

theorem findWordGo_run : ∀ (l cur : List Char),
    (findWordGo "Piece".toList cur l = .eof ∧ (wordRun cur l).1 = 0) ∨
      ∃ r, findWordGo "Piece".toList cur l = .good r ∧ (wordRun cur l).1 = (wordRun [] r).1 + 1 ∧ r.length < l.length := by
  intro l
  induction l with
  | nil => intro cur; exact Or.inl ⟨rfl, rfl⟩
  | cons c l ih =>
    intro cur
    rw [findWordGo, wordRun]
    by_cases h : (if c ∈ wordSeparators then [] else cur ++ [c]) = "Piece".toList
    · rw [if_pos h, if_pos h]
      exact Or.inr ⟨l, rfl, rfl, by simp⟩
    · rw [if_neg h, if_neg h]
      rcases ih (if c ∈ wordSeparators then [] else cur ++ [c]) with h1 | ⟨r, h1, h2, h3⟩
      · exact Or.inl h1
      · exact Or.inr ⟨r, h1, h2, by simp only [List.length_cons]; omega⟩

theorem countPiecesGo_eq : ∀ (fuel : Nat) (l : List Char), l.length < fuel → countPiecesGo fuel (.good l) = (wordRun [] l).1 := by
  intro fuel
  induction fuel with
  | zero => intro l h; omega
  | succ k ih =>
    intro l hl
    rcases findWordGo_run l [] with ⟨h1, h2⟩ | ⟨r, h1, h2, h3⟩
    · rw [countPiecesGo, h1, h2]
    · rw [countPiecesGo, h1, h2]
      dsimp only
      rw [ih r (by omega)]

theorem numPieces_eq (l : List Char) : numPieces l = (wordRun [] l).1 := countPiecesGo_eq _ _ (by omega)

theorem not_piece {l : List Char} (h : '_' ∈ l) : l ≠ "Piece".toList := by
  rintro rfl
  revert h
  decide

/-- No hit in a word with an underscore. -/
theorem wordRun_word : ∀ (l cur : List Char), '_' ∈ cur → (∀ c ∈ l, c ∉ wordSeparators) → wordRun cur l = (0, cur ++ l) := by
  intro l
  induction l with
  | nil => intro cur _ _; simp [wordRun]
  | cons c l ih =>
    intro cur hc hl
    have h1 := hl c List.mem_cons_self
    have h2 : '_' ∈ cur ++ [c] := List.mem_append_left _ hc
    rw [wordRun]
    simp only [h1, if_false]
    rw [if_neg (not_piece h2), ih _ h2 fun d hd => hl d (List.mem_cons_of_mem _ hd)]
    simp

theorem wordRun_underscore (cur l : List Char) (hl : ∀ c ∈ l, c ∉ wordSeparators) : ∃ cur', '_' ∈ cur' ∧ wordRun cur ('_' :: l) = (0, cur') := by
  have h2 : '_' ∈ cur ++ ['_'] := by simp
  refine ⟨cur ++ ['_'] ++ l, List.mem_append_left _ h2, ?_⟩
  rw [wordRun]
  simp only [show '_' ∉ wordSeparators by decide, if_false]
  rw [if_neg (not_piece h2)]
  exact wordRun_word l _ h2 hl

theorem digit_not_sep {c : Char} (h : isDigitChar c = true) : c ∉ wordSeparators := by
  have := digit_toNat h
  intro hm
  have hall : ∀ d ∈ wordSeparators, d.toNat < 48 ∨ 57 < d.toNat := by decide
  have := hall c hm
  omega

theorem padded_digits (w n : Nat) : AllDigits (paddedText w n) := by
  refine AllDigits.append ?_ (natText_digits n)
  intro d hd
  rw [(List.mem_replicate.1 hd).2]
  decide

theorem wordRun_name {name : List Char} (h : NoPiece name) : (wordRun [] name).1 = 0 := by
  have key : ∀ (l cur pre : List Char), (pre = [] ∨ ∃ a c, pre = a ++ [c] ∧ c ∈ Separators) → name = pre ++ cur ++ l →
      (wordRun cur l).1 = 0 := by
    intro l
    induction l with
    | nil => intro cur pre _ _; rfl
    | cons c l ih =>
      intro cur pre hpre hname
      rw [wordRun]
      by_cases hs : c ∈ wordSeparators
      · rw [if_pos hs, if_neg (by decide)]
        exact ih [] (pre ++ cur ++ [c]) (Or.inr ⟨pre ++ cur, c, rfl, hs⟩) (by rw [hname]; simp)
      · rw [if_neg hs]
        split_ifs with hp
        · exfalso
          have := h pre l (by rw [hname, ← hp]; simp)
          obtain ⟨a', c', rfl, hc'⟩ := this
          rcases hpre with h0 | ⟨a, d, ha, hd⟩
          · simp at h0
          · have := List.append_inj' ha rfl
            have h2 : c' = d := by simpa using this.2
            exact hc' (h2 ▸ hd)
        · exact ih _ pre hpre (by rw [hname]; simp)
  exact key name [] [] (Or.inl rfl) (by simp)

theorem wordRun_piece_aux {A B B' C D D' name n p : List Char} (hA : wordRun [] A = (1, []))
    (hB : B = '_' :: B') (hB' : ∀ c ∈ B', c ∉ wordSeparators) (hn : ∀ c ∈ n, c ∉ wordSeparators) (hC : ∀ c ∈ C, c ∉ wordSeparators)
    (hp : ∀ c ∈ p, c ∉ wordSeparators) (hD : D = '.' :: D') (hD' : wordRun [] D' = (0, [])) :
    wordRun [] (A ++ (name ++ (B ++ (n ++ (C ++ (p ++ D)))))) = (1 + (wordRun [] name).1, []) := by
  have hw : ∀ c ∈ B' ++ (n ++ (C ++ p)), c ∉ wordSeparators := by
    intro c hc
    simp only [List.mem_append] at hc
    rcases hc with hc | hc | hc | hc
    · exact hB' c hc
    · exact hn c hc
    · exact hC c hc
    · exact hp c hc
  obtain ⟨cur', _, hc'⟩ := wordRun_underscore (wordRun [] name).2 _ hw
  have heq : B ++ (n ++ (C ++ (p ++ D))) = ('_' :: (B' ++ (n ++ (C ++ p)))) ++ D := by
    rw [hB]
    simp only [List.append_assoc, List.cons_append]
  have hD2 : wordRun cur' D = (0, []) := by
    rw [hD, wordRun]
    simp only [show '.' ∈ wordSeparators by decide, if_true]
    rw [if_neg (by decide)]
    exact hD'
  rw [wordRun_append, hA, wordRun_append, heq, wordRun_append_zero hc', hD2]
  rfl

theorem wordRun_pieceLine (name : List Char) (w it r : Nat) : wordRun [] (pieceLine name w it r) = (1 + (wordRun [] name).1, []) :=
  wordRun_piece_aux (B' := "Particles_".toList) (D' := "vtu\"/>\n".toList) (by decide +kernel) (by decide +kernel)
    (by decide +kernel) (fun c hc => digit_not_sep (natText_digits r c hc)) (by decide +kernel)
    (fun c hc => digit_not_sep (padded_digits w it c hc)) (by decide +kernel) (by decide +kernel)

/-- A piece is counted once if its name contains no such word. -/
theorem wordRun_piece {name : List Char} (h : NoPiece name) (w it r : Nat) : wordRun [] (pieceLine name w it r) = (1, []) := by
  rw [wordRun_pieceLine, wordRun_name h]

theorem wordRun_pieces {name : List Char} (h : NoPiece name) (w it : Nat) : ∀ rs : List Nat,
    wordRun [] (rs.flatMap (pieceLine name w it)) = (rs.length, []) := by
  intro rs
  induction rs with
  | nil => rfl
  | cons r rs ih =>
    rw [List.flatMap_cons, wordRun_append, wordRun_piece h]
    dsimp only
    rw [ih, List.length_cons, Nat.add_comm]

theorem numPieces_aux {A B C : List Char} {n : Nat} (h1 : wordRun [] A = (0, [])) (h2 : wordRun [] B = (n, [])) (h3 : wordRun [] C = (0, [])) :
    (wordRun [] (A ++ (B ++ C))).1 = n := by
  rw [wordRun_append_zero h1, wordRun_append, h2, h3]
  rfl

theorem wordRun_lines : ∀ {ls : List String}, (∀ s ∈ ls, wordRun [] s.toList = (0, [])) → wordRun [] (ls.flatMap String.toList) = (0, []) := by
  intro ls
  induction ls with
  | nil => intro _; rfl
  | cons s ls ih =>
    intro h
    rw [List.flatMap_cons, wordRun_append_zero (h s List.mem_cons_self)]
    exact ih fun t ht => h t (List.mem_cons_of_mem _ ht)

theorem wordRun_first : ∀ s ∈ pvtuFirst, wordRun [] s.toList = (0, []) := by
  unfold pvtuFirst
  simp only [List.forall_mem_cons]
  refine ⟨?_, ?_, ?_, ?_, ?_, ?_, by intro s hs; cases hs⟩ <;> decide +kernel

theorem wordRun_second : ∀ s ∈ pvtuSecond, wordRun [] s.toList = (0, []) := by
  unfold pvtuSecond
  simp only [List.forall_mem_cons]
  refine ⟨?_, ?_, ?_, ?_, ?_, ?_, ?_, ?_, ?_, ?_, by intro s hs; cases hs⟩ <;> decide +kernel

theorem wordRun_multi : ∀ s ∈ pvtuMultisite, wordRun [] s.toList = (0, []) := by
  unfold pvtuMultisite
  simp only [List.forall_mem_cons]
  refine ⟨?_, ?_, ?_, by intro s hs; cases hs⟩ <;> decide +kernel

theorem wordRun_head (multisite : Bool) : wordRun [] (pvtuHead multisite) = (0, []) := by
  refine wordRun_lines fun s hs => ?_
  rcases List.mem_append.1 hs with hs | hs
  · rcases List.mem_append.1 hs with hs | hs
    · exact wordRun_first s hs
    · cases multisite with
      | false => cases hs
      | true => exact wordRun_multi s hs
  · exact wordRun_second s hs

theorem wordRun_end : wordRun [] "  </PUnstructuredGrid>\n</VTKFile>\n".toList = (0, []) := by decide +kernel

theorem numPieces_pvtu (multisite : Bool) {name : List Char} (h : NoPiece name) (w it n : Nat) :
    numPieces (pvtuFile multisite name w it n) = n := by
  rw [numPieces_eq]
  have := wordRun_pieces h w it (List.range n)
  rw [List.length_range] at this
  exact numPieces_aux (wordRun_head multisite) this wordRun_end

/-! ### Names -/

theorem splitLast_append {c : Char} {b : List Char} (h : c ∉ b) (a : List Char) : splitLast c (a ++ c :: b) = some (a, b) := by
  have hb : ∀ d ∈ b.reverse, (decide (d ≠ c)) = true := by
    intro d hd
    rw [List.mem_reverse] at hd
    simp only [decide_eq_true_eq]
    rintro rfl
    exact h hd
  have hrev : (a ++ c :: b).reverse = b.reverse ++ c :: a.reverse := by simp
  have hd : (a ++ c :: b).reverse.dropWhile (fun x => decide (x ≠ c)) = c :: a.reverse := by
    rw [hrev, List.dropWhile_append_of_pos hb]
    simp
  have ht : (a ++ c :: b).reverse.takeWhile (fun x => decide (x ≠ c)) = b.reverse := by
    rw [hrev, List.takeWhile_append_of_pos hb]
    simp
  rw [splitLast, if_pos (by simp), hd, ht]
  simp

theorem digits_no {l : List Char} (h : AllDigits l) {c : Char} (hc : isDigitChar c = false) : c ∉ l := by
  intro hm
  rw [h c hm] at hc
  exact absurd hc (by decide)

theorem rankFilename_pvtu {name : List Char} (hname : '/' ∉ name) (dir : List Char) (w it r : Nat) :
    rankFilename (pvtuPath dir name w it) r = vtuPath dir name w it r := by
  have hp := padded_digits w it
  have e1 : pvtuPath dir name w it = dir ++ '/' :: (name ++ "_Particles_".toList ++ paddedText w it ++ ".pvtu".toList) := by
    simp only [pvtuPath, List.append_assoc]
    rfl
  have e2 : name ++ "_Particles_".toList ++ paddedText w it ++ ".pvtu".toList =
      (name ++ "_Particles".toList) ++ '_' :: (paddedText w it ++ ".pvtu".toList) := by
    have : "_Particles_".toList = "_Particles".toList ++ ['_'] := by decide +kernel
    rw [this]
    simp only [List.append_assoc, List.cons_append, List.nil_append]
  have e3 : paddedText w it ++ ".pvtu".toList = paddedText w it ++ '.' :: "pvtu".toList := by
    have : ".pvtu".toList = '.' :: "pvtu".toList := by decide +kernel
    rw [this]
  have n1 : '/' ∉ name ++ "_Particles_".toList ++ paddedText w it ++ ".pvtu".toList := by
    simp only [List.mem_append, not_or]
    exact ⟨⟨⟨hname, by decide +kernel⟩, digits_no hp (by decide)⟩, by decide +kernel⟩
  have n2 : '_' ∉ paddedText w it ++ ".pvtu".toList := by
    simp only [List.mem_append, not_or]
    exact ⟨digits_no hp (by decide), by decide +kernel⟩
  have n3 : '.' ∉ "pvtu".toList := by decide +kernel
  have s1 := splitLast_append n1 dir
  have s2 := splitLast_append n2 (name ++ "_Particles".toList)
  have s3 := splitLast_append n3 (paddedText w it)
  rw [← e1] at s1
  rw [← e2] at s2
  rw [← e3] at s3
  simp only [rankFilename, s1, s2, s3]
  have : "_Particles_".toList = "_Particles".toList ++ "_".toList := by decide +kernel
  rw [vtuPath, this]
  simp only [List.append_assoc]

theorem vtuPath_injective {dir name : List Char} {w it r s : Nat} (h : vtuPath dir name w it r = vtuPath dir name w it s) : r = s := by
  simp only [vtuPath, List.append_assoc] at h
  have h := List.append_cancel_left (List.append_cancel_left (List.append_cancel_left (List.append_cancel_left h)))
  exact natText_injective (List.append_cancel_right h)

theorem vtuPath_ne_pvtu {dir name : List Char} {w it r : Nat} : vtuPath dir name w it r ≠ pvtuPath dir name w it := by
  intro h
  have h2 := congrArg (fun l : List Char => l.reverse.getD 3 'x') h
  have r1 : ".vtu".toList.reverse = ['u', 't', 'v', '.'] := by decide +kernel
  have r2 : ".pvtu".toList.reverse = ['u', 't', 'v', 'p', '.'] := by decide +kernel
  simp only [vtuPath, pvtuPath, List.reverse_append, r1, r2] at h2
  simp at h2

/-! ### Writing -/

theorem writeAll_get : ∀ {order : List (List Char × List Char)} (fs : FileSystem) {p f : List Char}, (order.map (·.1)).Nodup →
    (p, f) ∈ order → fs.writeAll order p = some f := by
  intro order
  induction order using List.reverseRecOn with
  | nil => intro fs p f _ h; cases h
  | append_singleton l w ih =>
    intro fs p f hn hm
    rw [List.map_append, List.nodup_append] at hn
    simp only [FileSystem.writeAll, List.foldl_append, List.foldl_cons, List.foldl_nil, FileSystem.write]
    rcases List.mem_append.1 hm with h | h
    · have hne : p ≠ w.1 := hn.2.2 p (List.mem_map.2 ⟨_, h, rfl⟩) w.1 (by simp)
      rw [if_neg hne]
      exact ih fs hn.1 h
    · have : (p, f) = w := by simpa using h
      subst this
      rw [if_pos rfl]

theorem checkpointFiles_go {multisite : Bool} {dir name : List Char} {w it : Nat} : ∀ {ranks : List (V3 Rat × List CkParticle)} {r : Nat}
    {fs : List (List Char × List Char)}, checkpointFiles.go multisite dir name w it r ranks = .ok fs →
    fs.map (·.1) = (List.range' r ranks.length).map (vtuPath dir name w it) ∧
      ∀ i (hi : i < ranks.length), ∃ f, vtuFile multisite (ranks[i]).1 (ranks[i]).2 = .ok f ∧ (vtuPath dir name w it (r + i), f) ∈ fs := by
  intro ranks
  induction ranks with
  | nil =>
    intro r fs h
    rw [checkpointFiles.go] at h
    obtain rfl := Outcome.ok.inj h
    exact ⟨rfl, fun i hi => absurd hi (by simp)⟩
  | cons x rest ih =>
    intro r fs h
    obtain ⟨b, ps⟩ := x
    rw [checkpointFiles.go, Outcome.bind_ok] at h
    obtain ⟨f, hf, h⟩ := h
    rw [Outcome.bind_ok] at h
    obtain ⟨fs', hfs, h⟩ := h
    obtain rfl := Outcome.ok.inj h
    obtain ⟨h1, h2⟩ := ih hfs
    refine ⟨?_, ?_⟩
    · rw [List.map_cons, h1, List.length_cons, List.range'_succ, List.map_cons]
    · intro i hi
      cases i with
      | zero => exact ⟨f, hf, by simp⟩
      | succ i =>
        obtain ⟨g, hg, hm⟩ := h2 i (by simpa using hi)
        refine ⟨g, hg, List.mem_cons_of_mem _ ?_⟩
        rw [show r + (i + 1) = r + 1 + i by omega]
        exact hm

theorem range'_nodup_map {dir name : List Char} {w it : Nat} (r n : Nat) : ((List.range' r n).map (vtuPath dir name w it)).Nodup :=
  (List.nodup_range' (s := r) (n := n)).map fun _ _ h => vtuPath_injective h

/-- After a checkpoint was written, in any order of the files, all files are there. -/
theorem checkpoint_written {multisite : Bool} {dir name : List Char} {w it : Nat} {ranks : List (V3 Rat × List CkParticle)}
    {files order : List (List Char × List Char)} (h : checkpointFiles multisite dir name w it ranks = .ok files) (ho : order.Perm files)
    (fs : FileSystem) :
    fs.writeAll order (pvtuPath dir name w it) = some (pvtuFile multisite name w it ranks.length) ∧
      ∀ i (hi : i < ranks.length), ∃ f, vtuFile multisite (ranks[i]).1 (ranks[i]).2 = .ok f ∧
        fs.writeAll order (vtuPath dir name w it i) = some f := by
  rw [checkpointFiles, Outcome.bind_ok] at h
  obtain ⟨fs', hgo, h⟩ := h
  obtain rfl := Outcome.ok.inj h
  obtain ⟨h1, h2⟩ := checkpointFiles_go hgo
  have hnd : (order.map (·.1)).Nodup := by
    refine ((ho.map _).nodup_iff).2 ?_
    rw [List.map_cons, List.nodup_cons, h1]
    refine ⟨?_, range'_nodup_map _ _⟩
    intro hm
    obtain ⟨r, _, hr⟩ := List.mem_map.1 hm
    exact vtuPath_ne_pvtu hr
  refine ⟨writeAll_get fs hnd (ho.mem_iff.2 List.mem_cons_self), fun i hi => ?_⟩
  obtain ⟨f, hf, hm⟩ := h2 i hi
  rw [Nat.zero_add] at hm
  exact ⟨f, hf, writeAll_get fs hnd (ho.mem_iff.2 (List.mem_cons_of_mem _ hm))⟩

theorem loadPieces_eq {load : Nat → Outcome (List CkParticle)} {qs : List (List CkParticle)} : ∀ (k i : Nat), i + k = qs.length →
    (∀ j (hj : j < qs.length), load j = .ok qs[j]) → loadPieces load i k = .ok (qs.drop i).flatten := by
  intro k
  induction k with
  | zero =>
    intro i hi _
    rw [loadPieces, List.drop_of_length_le (by omega)]
    rfl
  | succ k ih =>
    intro i hi h
    rw [loadPieces, h i (by omega), ok_bind_eq, ih (i + 1) (by omega) h, ok_bind_eq, List.drop_eq_getElem_cons (i := i) (by omega), List.flatten_cons]

end Verif
