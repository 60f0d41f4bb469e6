import Verif.Lemmas.CsvLogs
import Verif.Model.SearchSpace
/-!
C132: the log files can be read: every line has exactly one field for each column of the header, in the same order, for all configurations, measurements and runs.

Violated: `C132_violated_samples` (tuning data: one column too many if all samples of a configuration were taken with, or all without rebuilding neighbour lists, in
particular always with one sample per configuration, `C132_violated_one_sample`), `C132_violated_energy` (iterations: energy columns, if energy measurements fail in
the run), `C132_violated_functor` (a functor with a comma in its name). Otherwise: `C132_iterations_partial`, `C132_samples_partial`.
-/
namespace Verif

/-! ### Reading lines -/

theorem datedLine_format (date : Text) {fs : List Text} (h : fs ≠ []) : datedLine date (csvFormat fs) = csvFormat (date :: fs) := (csvFormat_cons date h).symm

theorem fields_of_values {c : ConfigTexts} (h : c.Ok) : ∀ f ∈ c.values, CsvField f := fun f hf => (h.fields f hf).1

/-- The line of a configuration is read as its options, whatever their texts are (without commas), its header as the names of the options. -/
theorem C132_configuration {c : ConfigTexts} (h : c.Ok) : csvFields c.csvLine = c.values ∧ csvFields c.csvHeader = configColumns := by
  rw [csvLine_eq h, csvHeader_eq h]
  exact ⟨csvFields_format (by simp [ConfigTexts.values]) (fields_of_values h), by decide⟩

theorem line_fields {pre post : List Text} {c : ConfigTexts} (h : c.Ok) (hp : pre ≠ []) (hq : post ≠ []) (hpf : ∀ f ∈ pre, CsvField f) (hqf : ∀ f ∈ post, CsvField f) :
    csvFields (csvFormat (pre ++ c.csvLine :: post)) = pre ++ c.values ++ post := by
  rw [csvLine_eq h, csvFormat_nested hp (by simp [ConfigTexts.values]) hq, csvFields_format (by simp [hp])]
  intro f hf
  rcases List.mem_append.1 hf with hf | hf
  · rcases List.mem_append.1 hf with hf | hf
    · exact hpf f hf
    · exact fields_of_values h f hf
  · exact hqf f hf

/-- Results of tuning. -/
theorem C132_results {c : ConfigTexts} (h : c.Ok) {date iteration tuning optimum : Text} (hd : CsvField date) (hi : CsvField iteration) (ht : CsvField tuning) (ho : CsvField optimum) :
    csvFields tuningResultHeader = ["Date".toList, "Iteration".toList] ++ configColumns ++ ["tuning[ns]".toList, "optimumPerformance[ns]".toList] ∧
    csvFields (tuningResultLine date c iteration tuning optimum) = [date, iteration] ++ c.values ++ [tuning, optimum] := by
  constructor
  · unfold tuningResultHeader; rw [csvHeader_eq defaultConfigTexts_ok]; decide
  · unfold tuningResultLine
    rw [datedLine_format _ (by simp)]
    exact line_fields (pre := [date, iteration]) h (by simp) (by simp) (by simp [hd, hi]) (by simp [ht, ho])

/-- Predictions. -/
theorem C132_predictions {c : ConfigTexts} (h : c.Ok) {date phase : Text} {prediction : Option Text} (hd : CsvField date) (hp : CsvField phase) (hr : ∀ p ∈ prediction, CsvField p) :
    csvFields predictionHeader = ["Date".toList, "Tuning Phase".toList] ++ configColumns ++ ["Prediction".toList] ∧
    csvFields (predictionLine date c phase prediction) = [date, phase] ++ c.values ++ [prediction.getD "none".toList] := by
  constructor
  · unfold predictionHeader; rw [csvHeader_eq defaultConfigTexts_ok]; decide
  · unfold predictionLine
    rw [datedLine_format _ (by simp)]
    refine line_fields (pre := [date, phase]) h (by simp) (by simp) (by simp [hd, hp]) ?_
    cases prediction with
    | none => simp only [Option.getD_none, List.mem_singleton, forall_eq]; unfold CsvField; decide
    | some p => simpa using hr p rfl

/-- FLOPs. -/
theorem C132_flops {date iteration : Text} {flops hitRate : Option Text} (hd : CsvField date) (hi : CsvField iteration) (hf : ∀ p ∈ flops, CsvField p) (hh : ∀ p ∈ hitRate, CsvField p) :
    csvFields flopHeader = ["Date".toList, "Iteration".toList, "Number FLOPs".toList, "Hit Rate".toList] ∧
    csvFields (flopLine date iteration flops hitRate) = [date, iteration, flops.getD "Not Implemented".toList, hitRate.getD "Not Implemented".toList] := by
  have hn : CsvField "Not Implemented".toList := by unfold CsvField; decide
  have key : ∀ o : Option Text, (∀ p ∈ o, CsvField p) → CsvField (o.getD "Not Implemented".toList) := fun o ho => by
    cases o with
    | none => exact hn
    | some p => exact ho p rfl
  refine ⟨by decide, ?_⟩
  unfold flopLine
  rw [datedLine_format _ (by simp), csvFields_format (by simp)]
  simp only [List.mem_cons, List.not_mem_nil, or_false, forall_eq_or_imp, forall_eq]
  exact ⟨hd, hi, key _ hf, key _ hh⟩

/-! ### Iterations -/

/-- All measurements are written without commas. -/
structure MeasurementTexts.Ok (m : MeasurementTexts) : Prop where
  fields : ∀ f ∈ [m.computeInteractions, m.remainder, m.rebuild, m.total, m.psys, m.pkg, m.ram], CsvField f

/-- The columns of the iteration log. -/
def iterationColumns (energy : Bool) : List Text :=
  ["Date".toList, "Iteration".toList, "Functor".toList, "inTuningPhase".toList] ++ configColumns ++
    (["computeInteractions[ns]".toList, "remainderTraversal[ns]".toList, "rebuildNeighborLists[ns]".toList, "computeInteractionsTotal[ns]".toList, "tuning[ns]".toList] ++
    if energy then ["energyPsys[J]".toList, "energyPkg[J]".toList, "energyRam[J]".toList] else [])

theorem iterationHeader_fields (energy : Bool) : csvFields (iterationHeader energy) = iterationColumns energy := by
  unfold iterationHeader; rw [csvHeader_eq defaultConfigTexts_ok]; cases energy <;> decide +kernel

/-- What a line is read as, for any functor name without commas. -/
theorem iterationLine_fields {c : ConfigTexts} (h : c.Ok) {m : MeasurementTexts} (hm : m.Ok) {date iteration functorName tuning : Text} (inTuningPhase : Bool)
    (hd : CsvField date) (hi : CsvField iteration) (hn : CsvField functorName) (ht : CsvField tuning) :
    csvFields (iterationLine date c iteration functorName inTuningPhase tuning m) =
      [date, iteration, functorName, if inTuningPhase then "true".toList else "false".toList] ++ c.values ++
        ([m.computeInteractions, m.remainder, m.rebuild, m.total, tuning] ++ if m.energyPossible then [m.psys, m.pkg, m.ram] else []) := by
  obtain ⟨hm⟩ := hm
  simp only [List.mem_cons, List.not_mem_nil, or_false, forall_eq_or_imp, forall_eq] at hm
  obtain ⟨m1, m2, m3, m4, m5, m6, m7⟩ := hm
  have hphase : CsvField (if inTuningPhase then "true".toList else "false".toList) := by unfold CsvField; cases inTuningPhase <;> decide
  unfold iterationLine
  simp only
  split
  · rw [datedLine_format _ (by simp)]
    exact line_fields (pre := [date, iteration, functorName, _]) h (by simp) (by simp)
      (by simp only [List.mem_cons, List.not_mem_nil, or_false, forall_eq_or_imp, forall_eq]; exact ⟨hd, hi, hn, hphase⟩) (by simp [m1, m2, m3, m4, m5, m6, m7, ht])
  · rw [datedLine_format _ (by simp), List.append_nil]
    exact line_fields (pre := [date, iteration, functorName, _]) h (by simp) (by simp)
      (by simp only [List.mem_cons, List.not_mem_nil, or_false, forall_eq_or_imp, forall_eq]; exact ⟨hd, hi, hn, hphase⟩) (by simp [m1, m2, m3, m4, ht])

/-- Iterations, if energy can be measured in this iteration if and only if it could be measured when the log was opened, and the functor has no comma in its name. -/
theorem C132_iterations_partial {c : ConfigTexts} (h : c.Ok) {m : MeasurementTexts} (hm : m.Ok) {date iteration functorName tuning : Text} (inTuningPhase : Bool)
    (hd : CsvField date) (hi : CsvField iteration) (hn : CsvField functorName) (ht : CsvField tuning) (energy : Bool) (he : m.energyPossible = energy) :
    csvFields (iterationHeader energy) = iterationColumns energy ∧
    csvFields (iterationLine date c iteration functorName inTuningPhase tuning m) =
      [date, iteration, functorName, if inTuningPhase then "true".toList else "false".toList] ++ c.values ++
        ([m.computeInteractions, m.remainder, m.rebuild, m.total, tuning] ++ if energy then [m.psys, m.pkg, m.ram] else []) ∧
    (csvFields (iterationLine date c iteration functorName inTuningPhase tuning m)).length = (csvFields (iterationHeader energy)).length := by
  have h1 := iterationLine_fields h hm inTuningPhase hd hi hn ht
  rw [he] at h1
  refine ⟨iterationHeader_fields energy, h1, ?_⟩
  rw [h1, iterationHeader_fields]
  cases energy <;> simp [iterationColumns, configColumns, ConfigTexts.values]

/-- If measuring energy fails after the log was opened, lines are three fields shorter than the header; if energy can be measured for the functor of this iteration
but not for that known when the log was opened, they are three fields longer. -/
theorem C132_violated_energy {c : ConfigTexts} (h : c.Ok) {m : MeasurementTexts} (hm : m.Ok) {date iteration functorName tuning : Text} (inTuningPhase : Bool)
    (hd : CsvField date) (hi : CsvField iteration) (hn : CsvField functorName) (ht : CsvField tuning) :
    (m.energyPossible = false →
      (csvFields (iterationLine date c iteration functorName inTuningPhase tuning m)).length + 3 = (csvFields (iterationHeader true)).length) ∧
    (m.energyPossible = true →
      (csvFields (iterationLine date c iteration functorName inTuningPhase tuning m)).length = (csvFields (iterationHeader false)).length + 3) := by
  have h1 := iterationLine_fields h hm inTuningPhase hd hi hn ht
  constructor <;> intro he <;> rw [h1, iterationHeader_fields, he] <;> simp [iterationColumns, configColumns, ConfigTexts.values]

/-- A comma in the name of the functor moves all later values by one column. -/
theorem C132_violated_functor {c : ConfigTexts} (h : c.Ok) {m : MeasurementTexts} (hm : m.Ok) {date iteration a b tuning : Text} (inTuningPhase : Bool)
    (hd : CsvField date) (hi : CsvField iteration) (ha : CsvField a) (hb : CsvField b) (ht : CsvField tuning) (energy : Bool) (he : m.energyPossible = energy) :
    (csvFields (iterationLine date c iteration (a ++ ',' :: b) inTuningPhase tuning m)).length = (csvFields (iterationHeader energy)).length + 1 ∧
    (csvFields (iterationLine date c iteration (a ++ ',' :: b) inTuningPhase tuning m))[3]? = some b ∧ (csvFields (iterationHeader energy))[3]? = some "inTuningPhase".toList := by
  have key : csvFields (iterationLine date c iteration (a ++ ',' :: b) inTuningPhase tuning m) =
      date :: iteration :: a :: (csvFields (iterationLine date c iteration b inTuningPhase tuning m)).drop 2 := by
    unfold iterationLine
    simp only
    split
    · rw [datedLine_format _ (by simp), datedLine_format _ (by simp), csvFormat_cons _ (by simp), csvFormat_cons _ (by simp), csvFormat_cons _ (by simp),
        csvFormat_cons date (by simp), csvFormat_cons iteration (by simp), csvFields_cons _ hd, csvFields_cons _ hi, csvFields_cons _ hd, csvFields_cons _ hi,
        List.append_assoc, List.cons_append, csvFields_cons _ ha]
      rfl
    · rw [datedLine_format _ (by simp), datedLine_format _ (by simp), csvFormat_cons _ (by simp), csvFormat_cons _ (by simp), csvFormat_cons _ (by simp),
        csvFormat_cons date (by simp), csvFormat_cons iteration (by simp), csvFields_cons _ hd, csvFields_cons _ hi, csvFields_cons _ hd, csvFields_cons _ hi,
        List.append_assoc, List.cons_append, csvFields_cons _ ha]
      rfl
  rw [key, iterationLine_fields h hm inTuningPhase hd hi hb ht, iterationHeader_fields, he]
  cases energy <;> simp [iterationColumns, configColumns, ConfigTexts.values]

/-! ### Tuning data -/

theorem header_samples {g : Nat → Text} (hg : ∀ i, CsvField (g i)) (s : Text) : ∀ (l : List Nat) {f : Text}, CsvField f →
    csvFields (f ++ ((l.flatMap fun i => ',' :: g i) ++ ',' :: s)) = f :: l.map g ++ csvFields s := by
  intro l
  induction l with
  | nil => intro f hf; simp only [List.flatMap_nil, List.nil_append, List.map_nil]; rw [csvFields_cons _ hf]; rfl
  | cons i l ih =>
    intro f hf
    rw [List.flatMap_cons, List.cons_append, List.cons_append, csvFields_cons _ hf, List.append_assoc, ih (hg i)]
    rfl

/-- The columns of the log of tuning data. -/
def tuningDataColumns (num : Nat → Text) (numSamples : Nat) : List Text :=
  ["Date".toList, "Iteration".toList] ++ configColumns ++ ((List.range numSamples).map fun i => "sample".toList ++ num i) ++ ["Reduced".toList, "Smoothed".toList]

theorem tuningDataHeader_fields {num : Nat → Text} (hnum : ∀ i, CsvField (num i)) (numSamples : Nat) :
    csvFields (tuningDataHeader num numSamples) = tuningDataColumns num numSamples := by
  unfold tuningDataHeader
  rw [csvHeader_eq defaultConfigTexts_ok]
  have e : "Date,Iteration,".toList ++ csvFormat configColumns ++ ((List.range numSamples).flatMap fun i => ",sample".toList ++ num i) ++ ",Reduced,Smoothed".toList =
      "Date".toList ++ ',' :: ("Iteration".toList ++ ',' :: ("Interaction Type".toList ++ ',' :: ("Container".toList ++ ',' :: ("CellSizeFactor".toList ++ ',' ::
      ("Traversal".toList ++ ',' :: ("Load Estimator".toList ++ ',' :: ("Data Layout".toList ++ ',' :: ("Newton 3".toList ++
      (((List.range numSamples).flatMap fun i => ',' :: ("sample".toList ++ num i)) ++ ',' :: "Reduced,Smoothed".toList))))))))) := by
    have : (fun i => ",sample".toList ++ num i) = fun i => ',' :: ("sample".toList ++ num i) := rfl
    rw [this]
    have h2 : "Date,Iteration,".toList ++ csvFormat configColumns = "Date".toList ++ ',' :: ("Iteration".toList ++ ',' :: ("Interaction Type".toList ++ ',' :: ("Container".toList ++ ',' ::
      ("CellSizeFactor".toList ++ ',' :: ("Traversal".toList ++ ',' :: ("Load Estimator".toList ++ ',' :: ("Data Layout".toList ++ ',' :: "Newton 3".toList))))))) := by decide
    rw [h2]
    simp only [List.append_assoc, List.cons_append]
    rfl
  rw [e]
  have hs : ∀ i, CsvField ("sample".toList ++ num i) := fun i => field_append (by unfold CsvField; decide) (hnum i)
  rw [csvFields_cons _ (by unfold CsvField; decide), csvFields_cons _ (by unfold CsvField; decide), csvFields_cons _ (by unfold CsvField; decide),
    csvFields_cons _ (by unfold CsvField; decide), csvFields_cons _ (by unfold CsvField; decide), csvFields_cons _ (by unfold CsvField; decide),
    csvFields_cons _ (by unfold CsvField; decide), csvFields_cons _ (by unfold CsvField; decide), header_samples hs _ _ (by unfold CsvField; decide)]
  have : csvFields "Reduced,Smoothed".toList = ["Reduced".toList, "Smoothed".toList] := by decide
  rw [this]
  rfl

/-- An empty list of samples is written as an empty field. -/
def orEmpty (l : List Text) : List Text := if l = [] then [[]] else l

theorem csvFormat_orEmpty (l : List Text) : csvFormat l = csvFormat (orEmpty l) := by unfold orEmpty; split <;> simp_all [csvFormat]

theorem orEmpty_ne (l : List Text) : orEmpty l ≠ [] := by unfold orEmpty; split <;> simp_all

theorem tuningDataLine_fields {c : ConfigTexts} (h : c.Ok) {date iteration reduced smoothed : Text} {reb not : List Text} (hd : CsvField date) (hi : CsvField iteration)
    (hr : CsvField reduced) (hs : CsvField smoothed) (hreb : ∀ f ∈ reb, CsvField f) (hnot : ∀ f ∈ not, CsvField f) :
    csvFields (tuningDataLine date c reb not iteration reduced smoothed) = [date, iteration] ++ c.values ++ orEmpty reb ++ orEmpty not ++ [reduced, smoothed] := by
  unfold tuningDataLine
  rw [datedLine_format _ (by simp), csvFormat_orEmpty reb, csvFormat_orEmpty not]
  have e1 : csvFormat [date, iteration, c.csvLine, csvFormat (orEmpty reb), csvFormat (orEmpty not), reduced, smoothed] =
      csvFormat ([date, iteration] ++ c.csvLine :: (orEmpty reb ++ orEmpty not ++ [reduced, smoothed])) := by
    have h1 := csvFormat_nested (pre := [date, iteration, c.csvLine]) (fs := orEmpty reb) (post := [csvFormat (orEmpty not), reduced, smoothed]) (by simp) (orEmpty_ne _) (by simp)
    have h2 := csvFormat_nested (pre := [date, iteration, c.csvLine] ++ orEmpty reb) (fs := orEmpty not) (post := [reduced, smoothed]) (by simp) (orEmpty_ne _) (by simp)
    have h3 : csvFormat [date, iteration, c.csvLine, csvFormat (orEmpty reb), csvFormat (orEmpty not), reduced, smoothed] =
      csvFormat ([date, iteration, c.csvLine] ++ csvFormat (orEmpty reb) :: [csvFormat (orEmpty not), reduced, smoothed]) := rfl
    rw [h3, h1, h2]; simp
  rw [e1]
  have fo : ∀ l : List Text, (∀ f ∈ l, CsvField f) → ∀ f ∈ orEmpty l, CsvField f := fun l hl f hf => by
    unfold orEmpty at hf
    split at hf
    · simp at hf; subst hf; unfold CsvField; decide
    · exact hl f hf
  rw [line_fields (pre := [date, iteration]) h (by simp) (by simp) (by simp [hd, hi])]
  · simp
  · intro f hf
    rcases List.mem_append.1 hf with hf | hf
    · rcases List.mem_append.1 hf with hf | hf
      · exact fo reb hreb f hf
      · exact fo not hnot f hf
    · simp at hf; rcases hf with rfl | rfl
      · exact hr
      · exact hs

/-- Tuning data, if some samples were taken with and some without rebuilding neighbour lists. -/
theorem C132_samples_partial {c : ConfigTexts} (h : c.Ok) {date iteration reduced smoothed : Text} {reb not : List Text} {num : Nat → Text} (hd : CsvField date)
    (hi : CsvField iteration) (hr : CsvField reduced) (hs : CsvField smoothed) (hreb : ∀ f ∈ reb, CsvField f) (hnot : ∀ f ∈ not, CsvField f) (hnum : ∀ i, CsvField (num i))
    (hreb' : reb ≠ []) (hnot' : not ≠ []) :
    csvFields (tuningDataHeader num (reb.length + not.length)) = tuningDataColumns num (reb.length + not.length) ∧
    csvFields (tuningDataLine date c reb not iteration reduced smoothed) = [date, iteration] ++ c.values ++ (reb ++ not) ++ [reduced, smoothed] ∧
    (csvFields (tuningDataLine date c reb not iteration reduced smoothed)).length = (csvFields (tuningDataHeader num (reb.length + not.length))).length := by
  have h1 := tuningDataLine_fields h hd hi hr hs hreb hnot
  rw [show orEmpty reb = reb by simp [orEmpty, hreb'], show orEmpty not = not by simp [orEmpty, hnot'], List.append_assoc _ reb not] at h1
  refine ⟨tuningDataHeader_fields hnum _, h1, ?_⟩
  rw [h1, tuningDataHeader_fields hnum]
  simp [tuningDataColumns, configColumns, ConfigTexts.values]; omega

/-- If all samples of a configuration were taken with rebuilding neighbour lists, or all without, the line has one field more than the header: the column of the
reduced value is empty, or contains a sample. -/
theorem C132_violated_samples {c : ConfigTexts} (h : c.Ok) {date iteration reduced smoothed : Text} {samples : List Text} {num : Nat → Text} (hd : CsvField date)
    (hi : CsvField iteration) (hr : CsvField reduced) (hs : CsvField smoothed) (hsam : ∀ f ∈ samples, CsvField f) (hnum : ∀ i, CsvField (num i)) (hne : samples ≠ []) :
    (csvFields (tuningDataHeader num samples.length))[9 + samples.length]? = some "Reduced".toList ∧
    (csvFields (tuningDataLine date c samples [] iteration reduced smoothed)).length = (csvFields (tuningDataHeader num samples.length)).length + 1 ∧
    (csvFields (tuningDataLine date c samples [] iteration reduced smoothed))[9 + samples.length]? = some [] ∧
    (csvFields (tuningDataLine date c [] samples iteration reduced smoothed)).length = (csvFields (tuningDataHeader num samples.length)).length + 1 ∧
    (csvFields (tuningDataLine date c [] samples iteration reduced smoothed))[9 + samples.length]? = samples.getLast? := by
  have ho : orEmpty samples = samples := by simp [orEmpty, hne]
  have hl := List.length_pos_iff.2 hne
  rw [tuningDataLine_fields h hd hi hr hs hsam (by simp), tuningDataLine_fields h hd hi hr hs (by simp) hsam, tuningDataHeader_fields hnum, ho]
  have h0 : orEmpty [] = [[]] := rfl
  rw [h0]
  refine ⟨?_, by simp [tuningDataColumns, configColumns, ConfigTexts.values], ?_, by simp [tuningDataColumns, configColumns, ConfigTexts.values], ?_⟩
  · unfold tuningDataColumns
    rw [List.getElem?_append_right (by simp [configColumns]; omega)]
    have : 9 + samples.length - (["Date".toList, "Iteration".toList] ++ configColumns ++ ((List.range samples.length).map fun i => "sample".toList ++ num i)).length = 0 := by
      simp [configColumns]; omega
    rw [this]; rfl
  · rw [List.append_assoc _ [[]] _, List.getElem?_append_right (by simp [ConfigTexts.values]; omega)]
    have : 9 + samples.length - ([date, iteration] ++ c.values ++ samples).length = 0 := by simp [ConfigTexts.values]; omega
    rw [this]; rfl
  · rw [List.getElem?_append_left (by simp [ConfigTexts.values]; omega), List.getElem?_append_right (by simp [ConfigTexts.values]; omega)]
    rw [List.getLast?_eq_getElem?]
    congr 1
    simp [ConfigTexts.values]; omega

/-- With one sample for each configuration every line is like this. -/
theorem C132_violated_one_sample {c : ConfigTexts} (h : c.Ok) {date iteration reduced smoothed : Text} {reb not : List Text} {num : Nat → Text} (hd : CsvField date)
    (hi : CsvField iteration) (hr : CsvField reduced) (hs : CsvField smoothed) (hreb : ∀ f ∈ reb, CsvField f) (hnot : ∀ f ∈ not, CsvField f) (hnum : ∀ i, CsvField (num i))
    (hone : reb.length + not.length = 1) :
    (csvFields (tuningDataLine date c reb not iteration reduced smoothed)).length = (csvFields (tuningDataHeader num 1)).length + 1 := by
  rw [tuningDataLine_fields h hd hi hr hs hreb hnot, tuningDataHeader_fields hnum]
  have : (orEmpty reb).length + (orEmpty not).length = 2 := by
    unfold orEmpty
    cases reb <;> cases not <;> simp at hone ⊢ <;> first | (exfalso; omega) | simp_all
  simp [tuningDataColumns, configColumns, ConfigTexts.values]; omega

/-! ### Live info -/

/-- The live info of all iterations of a run, each with the same keys. -/
theorem C132_live_info {keys : List Text} (hk : keys ≠ []) {log : List (Text × Text × List (Text × Text))} (hne : log ≠ [])
    (hlog : ∀ e ∈ log, CsvField e.1 ∧ CsvField e.2.1 ∧ e.2.2.map Prod.fst = keys ∧ ∀ kv ∈ e.2.2, Word kv.1 ∧ Word kv.2) :
    ∃ header lines, infoFile log = header :: lines ∧ csvFields header = ["Date".toList, "Iteration".toList] ++ keys ∧
      lines.map csvFields = log.map (fun e => [e.1, e.2.1] ++ e.2.2.map Prod.snd) ∧ ∀ l ∈ lines, (csvFields l).length = (csvFields header).length := by
  cases log with
  | nil => exact absurd rfl hne
  | cons e log =>
    obtain ⟨date, iteration, infos⟩ := e
    obtain ⟨-, -, h3, h4⟩ := hlog _ List.mem_cons_self
    have hin : infos ≠ [] := by rintro rfl; exact hk h3.symm
    have hkf : ∀ k ∈ keys, CsvField k := by
      rw [← h3]; intro k hk'
      obtain ⟨kv, hkv, rfl⟩ := List.mem_map.1 hk'
      exact (h4 kv hkv).1.field
    have hh : csvFields ("Date,Iteration,".toList ++ (infoCSV infos).1) = ["Date".toList, "Iteration".toList] ++ keys := by
      rw [infoCSV_eq hin h4]
      simp only at h3
      simp only [h3]
      have : "Date,Iteration,".toList ++ csvFormat keys = "Date".toList ++ ',' :: ("Iteration".toList ++ ',' :: csvFormat keys) := by
        have h0 : "Date,Iteration,".toList = "Date".toList ++ ',' :: ("Iteration".toList ++ [',']) := by decide
        rw [h0]; simp only [List.append_assoc, List.cons_append, List.nil_append]
      rw [this, csvFields_cons _ (by unfold CsvField; decide), csvFields_cons _ (by unfold CsvField; decide), csvFields_format hk hkf]
      rfl
    have hl : ∀ e ∈ (date, iteration, infos) :: log, csvFields (datedLine e.1 (csvFormat [e.2.1, (infoCSV e.2.2).2])) = [e.1, e.2.1] ++ e.2.2.map Prod.snd := by
      intro e he
      obtain ⟨a1, a2, a3, a4⟩ := hlog e he
      have hin' : e.2.2 ≠ [] := by intro h0; rw [h0] at a3; exact hk a3.symm
      rw [infoCSV_eq hin' a4]
      have : datedLine e.1 (csvFormat [e.2.1, csvFormat (e.2.2.map Prod.snd)]) = e.1 ++ ',' :: (e.2.1 ++ ',' :: csvFormat (e.2.2.map Prod.snd)) := rfl
      rw [this, csvFields_cons _ a1, csvFields_cons _ a2, csvFields_format (by simpa using hin')]
      · rfl
      · intro f hf
        obtain ⟨kv, hkv, rfl⟩ := List.mem_map.1 hf
        exact (a4 kv hkv).2.field
    refine ⟨_, _, rfl, hh, ?_, ?_⟩
    · rw [List.map_map]
      exact List.map_congr_left hl
    · intro l hl'
      obtain ⟨e, he, rfl⟩ := List.mem_map.1 hl'
      have h5 := hl e he
      rw [hh]
      have h6 : (csvFields (datedLine e.1 (csvFormat [e.2.1, (infoCSV e.2.2).2]))).length = ([e.1, e.2.1] ++ e.2.2.map Prod.snd).length := by rw [h5]
      refine h6.trans ?_
      have := congrArg List.length (hlog e he).2.2.1
      simp at this ⊢; exact this

/-! ### Examples -/

private def exampleConfig : ConfigTexts :=
  ⟨"pairwise".toList, "LinkedCells".toList, "1.000000".toList, "lc_c08".toList, "none".toList, "SoA".toList, "enabled".toList⟩

example : exampleConfig.Ok := ⟨by unfold CsvField; decide⟩
/-- The names of traversals can be fields. -/
example : ∀ t ∈ Trav.values, CsvField t.name.toList ∧ t.name.toList ≠ [] := by unfold CsvField; decide
example : Word "numParticles".toList ∧ Word "0.500000".toList := by unfold Word; decide
example : CsvField "2026-11-15 12:00:00".toList := by unfold CsvField; decide
/-- Digits can be fields. -/
example : csvFields (tuningDataLine "d".toList exampleConfig ["5".toList] ["3".toList, "4".toList] "7".toList "4".toList "4".toList) =
    ["d", "7", "pairwise", "LinkedCells", "1.000000", "lc_c08", "none", "SoA", "enabled", "5", "3", "4", "4", "4"].map String.toList :=
  (C132_samples_partial (num := fun _ => []) (by exact ⟨by unfold CsvField; decide⟩) (by unfold CsvField; decide) (by unfold CsvField; decide) (by unfold CsvField; decide) (by unfold CsvField; decide)
    (by unfold CsvField; decide) (by unfold CsvField; decide) (fun _ => by unfold CsvField; decide) (by decide) (by decide)).2.1

end Verif
