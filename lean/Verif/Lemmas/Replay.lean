import Verif.Lemmas.TuningLog
import Verif.Lemmas.AutoTuner
import Verif.Model.RandomSearch
import Verif.Lemmas.RandomSearch
/-! Replaying logs of tuning. -/
namespace Verif
open Spec Spec.TuningLog Spec.Checkpoint

/-! ### Live info -/

theorem readWord_text {ws w : List Char} (hws : ∀ c ∈ ws, isSpaceChar c = true) (hne : w ≠ []) (hw : ∀ c ∈ w, isSpaceChar c = false) {c : Char}
    (hc : isSpaceChar c = true) (rest : List Char) : readWord (.good (ws ++ (w ++ c :: rest))) = (w, .good (c :: rest)) := by
  obtain ⟨d, w', rfl⟩ := List.exists_cons_of_ne_nil hne
  have h1 : (ws ++ (d :: w' ++ c :: rest)).dropWhile isSpaceChar = d :: w' ++ c :: rest := by
    have := dropWhile_spaces hws (hw d (by simp)) (w' ++ c :: rest)
    exact this
  have h2 : ∀ l : List Char, (∀ x ∈ l, isSpaceChar x = false) → (l ++ c :: rest).takeWhile (fun c => !isSpaceChar c) = l ∧
      (l ++ c :: rest).dropWhile (fun c => !isSpaceChar c) = c :: rest := by
    intro l
    induction l with
    | nil => intro _; simp [hc]
    | cons x l ih =>
      intro hl
      obtain ⟨i1, i2⟩ := ih (fun y hy => hl y (by simp [hy]))
      have hx : isSpaceChar x = false := hl x (by simp)
      rw [List.cons_append]
      simp only [List.takeWhile_cons, List.dropWhile_cons, hx, Bool.not_false, if_true, i1, i2, and_self]
  obtain ⟨h3, h4⟩ := h2 (d :: w') hw
  simp only [readWord, h1, h3, h4]
  rfl

/-- A value after writing and reading. -/
def storedInfo : InfoValue → InfoValue
  | .double q => .double (roundSig 6 q)
  | v => v

theorem storedInfo_same (v : InfoValue) : SameValue v (storedInfo v) := by
  cases v with
  | double q => exact roundSig_closest (by norm_num) q
  | bool b => rfl
  | size n => rfl
  | option k o => rfl

theorem goodTables_info {t : OptionTables} (ht : GoodTables t) (kind : Fin 5) : GoodNames (t.info kind) := by
  match kind with
  | 0 => exact ht.container
  | 1 => exact ht.traversal
  | 2 => exact ht.loadEstimator
  | 3 => exact ht.dataLayout
  | 4 => exact ht.newton3

theorem readInfo_text {t : OptionTables} (ht : GoodTables t) {v : InfoValue} (hv : GoodValue t v) (rest : List Char) :
    ∃ ws, (∀ c ∈ ws, isSpaceChar c = true) ∧ readInfo t v.index (.good (' ' :: (v.text t ++ ' ' :: rest))) = .ok (storedInfo v, .good (ws ++ rest)) := by
  cases v with
  | bool b =>
    refine ⟨[' '], by decide, ?_⟩
    have := readLong_text (n := if b then 1 else 0) (by split_ifs <;> norm_num) (by split_ifs <;> norm_num) (ws := [' ']) (by decide) (c := ' ') (by decide) rest
    have ht : intText (if b then 1 else 0) = (InfoValue.bool b).text t := by cases b <;> (simp only [InfoValue.text]; decide)
    rw [ht, List.singleton_append, List.cons_append] at this
    show Outcome.ok (InfoValue.bool (readBool (.good _)).1, (readBool (.good _)).2) = _
    simp only [readBool, this]
    cases b <;> rfl
  | double q =>
    refine ⟨[' '], by decide, ?_⟩
    have := readDouble_ratText (P := 6) (by norm_num) q (ws := [' ']) (by decide) (c := ' ') (by decide) rest
    rw [List.singleton_append, List.cons_append] at this
    show Outcome.ok (InfoValue.double (readDouble (.good (' ' :: (ratText 6 q ++ ' ' :: rest)))).1, (readDouble (.good (' ' :: (ratText 6 q ++ ' ' :: rest)))).2) = _
    rw [this]
    rfl
  | size n =>
    refine ⟨[' '], by decide, ?_⟩
    have := readNat_text hv (ws := [' ']) (by decide) (c := ' ') (by decide) rest
    rw [List.singleton_append, List.cons_append] at this
    show Outcome.ok (InfoValue.size (readNat (.good (' ' :: (natText n ++ ' ' :: rest)))).1, (readNat (.good (' ' :: (natText n ++ ' ' :: rest)))).2) = _
    rw [this]
    rfl
  | option kind o =>
    refine ⟨[], by simp, ?_⟩
    obtain ⟨x, hx, hxo, htx⟩ := optionText_named hv
    have := C49_read_back_partial (t.info kind) (goodTables_info ht kind) hx [' '] (by decide) ' ' (by decide) rest
    rw [List.singleton_append, List.cons_append] at this
    have hi : (InfoValue.option kind o).index = kind.val + 3 := by simp [InfoValue.index]; omega
    rw [hi]
    simp only [readInfo, kind.isLt, dif_pos, InfoValue.text, htx, readOptionFrom, this, Outcome.bind, hxo]
    rfl

theorem setInfo_new : ∀ {l : List (List Char × InfoValue)} {n : List Char} (v : InfoValue), n ∉ l.map (·.1) → setInfo l n v = l ++ [(n, v)] := by
  intro l
  induction l with
  | nil => intro n v _; rfl
  | cons x l ih =>
    intro n v h
    rw [List.map_cons, List.mem_cons, not_or] at h
    simp only [setInfo]
    rw [if_neg fun e => h.1 e.symm, ih v h.2]
    rfl

theorem infoValue_index_lt (v : InfoValue) : v.index < 2 ^ 64 := by
  cases v <;> simp [InfoValue.index]
  omega

theorem readInfos_text {t : OptionTables} (ht : GoodTables t) : ∀ (infos acc : List (List Char × InfoValue)) (ws rest : List Char),
    (∀ c ∈ ws, isSpaceChar c = true) → ((acc ++ infos).map (·.1)).Nodup → (∀ x ∈ infos, x.1 ≠ [] ∧ ∀ c ∈ x.1, isSpaceChar c = false) →
    (∀ x ∈ infos, GoodValue t x.2) →
    readInfos t infos.length acc (.good (ws ++ (infos.flatMap (infoText t) ++ rest))) = .ok (acc ++ infos.map fun x => (x.1, storedInfo x.2)) := by
  intro infos
  induction infos with
  | nil => intro acc ws rest _ _ _ _; simp [readInfos]
  | cons x infos ih =>
    intro acc ws rest hws hnd hw hv
    obtain ⟨h1, h2⟩ := hw x (by simp)
    have htext : ws ++ ((x :: infos).flatMap (infoText t) ++ rest) =
        ws ++ (x.1 ++ ' ' :: (natText x.2.index ++ ' ' :: (x.2.text t ++ ' ' :: (infos.flatMap (infoText t) ++ rest)))) := by
      simp [infoText]
    obtain ⟨ws', hws', hval⟩ := readInfo_text ht (hv x (by simp)) (infos.flatMap (infoText t) ++ rest)
    have e1 := readWord_text hws h1 h2 (c := ' ') (by decide) (natText x.2.index ++ ' ' :: (x.2.text t ++ ' ' :: (infos.flatMap (infoText t) ++ rest)))
    have e2 := readNat_text (infoValue_index_lt x.2) (ws := [' ']) (by decide) (c := ' ') (by decide) (x.2.text t ++ ' ' :: (infos.flatMap (infoText t) ++ rest))
    rw [List.singleton_append, List.cons_append] at e2
    rw [htext, List.length_cons]
    simp only [readInfos, e1, e2, hval, Outcome.bind]
    have hnew : x.1 ∉ acc.map (·.1) := by
      rw [List.map_append, List.map_cons] at hnd
      intro hm
      exact (List.nodup_append.1 hnd).2.2 _ hm _ (by simp) rfl
    rw [setInfo_new _ hnew, ih (acc ++ [(x.1, storedInfo x.2)]) ws' rest hws' (by simpa using hnd) (fun y hy => hw y (by simp [hy]))
      (fun y hy => hv y (by simp [hy]))]
    simp

theorem readLiveInfo_text {t : OptionTables} (ht : GoodTables t) {infos : List (List Char × InfoValue)} (h : GoodInfos t infos) (rest : List Char) :
    readLiveInfo t (.good (liveInfoText t infos ++ rest)) = .ok (infos.map fun x => (x.1, storedInfo x.2)) := by
  unfold readLiveInfo liveInfoText
  have e := readNat_text h.number (ws := []) (by simp) (c := ' ') (by decide) (infos.flatMap (infoText t) ++ rest)
  have hr := readInfos_text ht infos [] [' '] rest (by decide) (by simpa using h.distinct) h.words h.values
  rw [List.nil_append] at e
  rw [List.singleton_append, List.nil_append] at hr
  rw [List.append_assoc, List.cons_append, e]
  exact hr

/-! ### Lines -/

theorem digits_clean {l : List Char} (h : AllDigits l) : '\n' ∉ l := fun hm => absurd (h _ hm) (by decide)

theorem stripZeros_clean {l : List Char} (h : '\n' ∉ l) : '\n' ∉ stripZeros l := by
  obtain ⟨k, hk⟩ := stripZeros_spec l
  intro hm
  apply h
  rw [hk]
  simp [hm]

theorem fracText_clean {l : List Char} (h : '\n' ∉ l) : '\n' ∉ fracText l := by
  unfold fracText
  split_ifs
  · simp
  · rw [List.mem_cons, not_or]; exact ⟨by decide, stripZeros_clean h⟩

theorem expText_clean (x : Int) : '\n' ∉ expText x := by
  have := digits_clean (natText_digits x.natAbs)
  unfold expText
  split_ifs <;> simp [this]

theorem ratText_clean (P : Nat) (q : Rat) : '\n' ∉ ratText P q := by
  unfold ratText
  split_ifs
  · decide
  all_goals
    have hd := digits_clean (natText_digits (sigDigits P |q|).1)
    have ht : ∀ k, '\n' ∉ (natText (sigDigits P |q|).1).take k := fun k hm => hd (List.mem_of_mem_take hm)
    have hdr : ∀ k, '\n' ∉ (natText (sigDigits P |q|).1).drop k := fun k hm => hd (List.mem_of_mem_drop hm)
    have : '\n' ∉ digitsText P (sigDigits P |q|).1 (sigDigits P |q|).2 := by
      simp only [digitsText]
      split_ifs
      · simp only [List.mem_append, not_or]
        exact ⟨⟨ht 1, fracText_clean (hdr 1)⟩, expText_clean _⟩
      · simp only [List.mem_append, not_or]
        exact ⟨ht _, fracText_clean (hdr _)⟩
      · rw [List.mem_cons, not_or]
        refine ⟨by decide, fracText_clean ?_⟩
        rw [List.mem_append, not_or, List.mem_replicate]
        exact ⟨fun h => absurd h.2 (by decide), hd⟩
    simp [this]

theorem option_clean {names : List (Nat × List Char)} (hn : GoodNames names) {o : Nat} (ho : Named names o) : '\n' ∉ optionText names o := by
  obtain ⟨x, hx, -, ht⟩ := optionText_named ho
  rw [ht]
  intro hm
  exact absurd (hn.chars x hx _ hm).1 (by decide)

theorem fixedText_clean (q : Rat) : '\n' ∉ fixedText q := by
  intro hm
  rcases fixedText_chars _ _ hm with h | h | h <;> exact absurd h (by decide)

theorem configText_clean {t : OptionTables} (ht : GoodTables t) {c : Configuration Rat} (hc : Writable t c) : '\n' ∉ configText t c := by
  have h1 := option_clean ht.interactionType hc.interactionType
  have h2 := option_clean ht.container hc.container
  have h3 := option_clean ht.traversal hc.traversal
  have h4 := option_clean ht.loadEstimator hc.loadEstimator
  have h5 := option_clean ht.dataLayout hc.dataLayout
  have h6 := option_clean ht.newton3 hc.newton3
  have h7 := fixedText_clean c.cellSizeFactor
  unfold configText
  simp only [List.mem_append, not_or]
  refine ⟨⟨⟨⟨⟨⟨⟨⟨⟨⟨⟨⟨⟨⟨?_, h1⟩, ?_⟩, h2⟩, ?_⟩, h7⟩, ?_⟩, h3⟩, ?_⟩, h4⟩, ?_⟩, h5⟩, ?_⟩, h6⟩, ?_⟩ <;> decide

theorem infoText_clean {t : OptionTables} (ht : GoodTables t) {x : List Char × InfoValue} (hw : ∀ c ∈ x.1, isSpaceChar c = false) (hv : GoodValue t x.2) :
    '\n' ∉ infoText t x := by
  have h1 : '\n' ∉ x.1 := fun hm => absurd (hw _ hm) (by decide)
  have h2 : '\n' ∉ x.2.text t := by
    cases hx : x.2 with
    | bool b => cases b <;> (simp only [InfoValue.text]; decide)
    | double q => exact ratText_clean 6 q
    | size n => exact digits_clean (natText_digits n)
    | option kind o => rw [hx] at hv; exact option_clean (goodTables_info ht kind) hv
  have h3 := digits_clean (natText_digits x.2.index)
  unfold infoText
  simp [h1, h2, h3]

theorem entry_clean {t : OptionTables} (ht : GoodTables t) {e : LogEntry} (he : GoodEntry t e) : '\n' ∉ e.text t := by
  cases e with
  | evidence v i c =>
    obtain ⟨-, -, -, hc⟩ := he
    have h1 : '\n' ∉ intText v := by
      intro hm
      rcases intText_chars _ _ hm with h | h <;> exact absurd h (by decide)
    have h2 := digits_clean (natText_digits i)
    have h3 := configText_clean ht hc
    have h4 : '\n' ∉ "evidence".toList := by decide
    unfold LogEntry.text
    simp [h1, h2, h3]
  | tune => exact (by decide : '\n' ∉ "tune".toList ++ [' '])
  | reset i =>
    have h2 := digits_clean (natText_digits i)
    unfold LogEntry.text
    simp [h2]
  | liveInfo infos =>
    have h1 := digits_clean (natText_digits infos.length)
    have h2 : '\n' ∉ infos.flatMap (infoText t) := by
      intro hm
      obtain ⟨x, hx, hm⟩ := List.mem_flatMap.1 hm
      exact infoText_clean ht (he.words x hx).2 (he.values x hx) hm
    unfold LogEntry.text liveInfoText
    simp only [List.mem_append, List.mem_cons, not_or]
    exact ⟨by decide, by decide, ⟨h1, by decide, h2⟩, by decide, by simp⟩

theorem splitLines_last {l : List Char} (h : '\n' ∉ l) : splitLines l = [l] := by
  induction l with
  | nil => rfl
  | cons c l ih =>
    rw [List.mem_cons, not_or] at h
    simp only [splitLines]
    rw [if_neg fun e => h.1 e.symm, ih h.2]

theorem splitLines_line {l : List Char} (h : '\n' ∉ l) (r : List Char) : splitLines (l ++ '\n' :: r) = l :: splitLines r := by
  induction l with
  | nil => simp [splitLines]
  | cons c l ih =>
    rw [List.mem_cons, not_or] at h
    rw [List.cons_append]
    simp only [splitLines]
    rw [if_neg fun e => h.1 e.symm, ih h.2]

theorem splitLines_log {t : OptionTables} (ht : GoodTables t) {es : List LogEntry} (he : ∀ e ∈ es, GoodEntry t e) {p : List Char} (hp : '\n' ∉ p) :
    splitLines (logFile t es ++ p) = es.map (LogEntry.text t) ++ [p] := by
  induction es with
  | nil => exact splitLines_last hp
  | cons e es ih =>
    have : logFile t (e :: es) ++ p = e.text t ++ '\n' :: (logFile t es ++ p) := by simp [logFile]
    rw [this, splitLines_line (entry_clean ht (he e (by simp))), ih fun x hx => he x (by simp [hx])]
    rfl

/-! ### Replaying -/

section
variable {σ : Type} {t : OptionTables} {st : Strategy σ (Configuration Rat)} {receive : σ → List (List Char × InfoValue) → σ} {fuel : Nat}

/-- The effect of an entry. -/
def replayEntry (st : Strategy σ (Configuration Rat)) (receive : σ → List (List Char × InfoValue) → σ) (fuel : Nat) : LogEntry → Replay σ → Outcome (Replay σ)
  | .evidence v i c, x => .ok { x with added := true, times := (c, v, i) :: x.times }
  | .tune, x => .ok x
  | .liveInfo infos, x => .ok { x with strat := receive x.strat (infos.map fun y => (y.1, storedInfo y.2)) }
  | .reset _, x => replayReset st fuel x

def replayEntries (st : Strategy σ (Configuration Rat)) (receive : σ → List (List Char × InfoValue) → σ) (fuel : Nat) : List LogEntry → Replay σ → Outcome (Replay σ)
  | [], x => .ok x
  | e :: es, x => (replayEntry st receive fuel e x).bind fun x => replayEntries st receive fuel es x

theorem line_parts {w : List Char} (hw : ' ' ∉ w) (r : List Char) : lineType (w ++ ' ' :: r) = w ∧ lineRest (w ++ ' ' :: r) = .good r := by
  have h1 : (w ++ ' ' :: r).takeWhile (· ≠ ' ') = w ∧ (w ++ ' ' :: r).dropWhile (· ≠ ' ') = ' ' :: r := by
    induction w with
    | nil => simp
    | cons c w ih =>
      rw [List.mem_cons, not_or] at hw
      obtain ⟨i1, i2⟩ := ih hw.2
      have hc : decide (c ≠ ' ') = true := by simpa using fun e : c = ' ' => hw.1 e.symm
      rw [List.cons_append]
      simp only [List.takeWhile_cons, List.dropWhile_cons, hc, if_true, i1, i2, and_self]
  exact ⟨h1.1, by simp only [lineRest, h1.2]⟩

theorem replayLine_entry (ht : GoodTables t) {e : LogEntry} (he : GoodEntry t e) (atEnd : Bool) (x : Replay σ) :
    replayLine t st receive fuel atEnd (e.text t) x = replayEntry st receive fuel e x := by
  cases e with
  | evidence v i c =>
    obtain ⟨h1, h2, h3, hc⟩ := he
    obtain ⟨a1, a2⟩ := line_parts (w := "evidence".toList) (by decide) (intText v ++ ' ' :: (natText i ++ ' ' :: (configText t c ++ [' '])))
    have hr := readEvidence_text ht hc h1 h2 h3 [' ']
    unfold replayLine LogEntry.text
    rw [a1, a2, if_pos rfl, hr]
    rfl
  | tune =>
    obtain ⟨a1, a2⟩ := line_parts (w := "tune".toList) (by decide) []
    unfold replayLine LogEntry.text
    rw [a1, if_neg (by decide), if_pos rfl]
    rfl
  | reset i =>
    obtain ⟨a1, a2⟩ := line_parts (w := "reset".toList) (by decide) (natText i ++ [' '])
    unfold replayLine LogEntry.text
    rw [a1, if_neg (by decide), if_neg (by decide), if_neg (by decide), if_pos (Or.inl rfl)]
    rfl
  | liveInfo infos =>
    obtain ⟨a1, a2⟩ := line_parts (w := "liveInfo".toList) (by decide) (liveInfoText t infos ++ [' '])
    unfold replayLine LogEntry.text
    rw [a1, a2, if_neg (by decide), if_neg (by decide), if_pos rfl, readLiveInfo_text ht he]
    rfl

theorem replayLines_log (ht : GoodTables t) (p : List Char) : ∀ {es : List LogEntry} (_ : ∀ e ∈ es, GoodEntry t e) (x : Replay σ),
    replayLines t st receive fuel (es.map (LogEntry.text t) ++ [p]) x =
      (replayEntries st receive fuel es x).bind fun x => replayLine t st receive fuel true p x := by
  intro es
  induction es with
  | nil => intro _ x; rfl
  | cons e es ih =>
    intro he x
    have hstep : replayLines t st receive fuel ((e :: es).map (LogEntry.text t) ++ [p]) x =
        (replayLine t st receive fuel false (e.text t) x).bind fun x => replayLines t st receive fuel (es.map (LogEntry.text t) ++ [p]) x := by
      cases es <;> rfl
    rw [hstep, replayLine_entry ht (he e (by simp))]
    simp only [replayEntries]
    cases replayEntry st receive fuel e x with
    | ok y => simp only [Outcome.bind]; exact ih (fun d hd => he d (by simp [hd])) y
    | throws => rfl
    | ub => rfl
    | diverges => rfl

theorem replayEntries_append (a b : List LogEntry) (x : Replay σ) :
    replayEntries st receive fuel (a ++ b) x = (replayEntries st receive fuel a x).bind fun y => replayEntries st receive fuel b y := by
  induction a generalizing x with
  | nil => rfl
  | cons e a ih =>
    rw [List.cons_append]
    simp only [replayEntries]
    cases replayEntry st receive fuel e x with
    | ok y => simp only [Outcome.bind]; exact ih y
    | throws => rfl
    | ub => rfl
    | diverges => rfl

/-- The measurements in a list of entries, newest first. -/
def newTimes (es : List LogEntry) : List (Configuration Rat × Int × Nat) :=
  (es.filterMap fun e => match e with
    | .evidence v i c => some (c, v, i)
    | _ => none).reverse

/-- Entries of one phase. -/
theorem replayEntries_phase : ∀ {es : List LogEntry} (_ : ∀ e ∈ es, ∀ i, e ≠ .reset i) (x : Replay σ),
    ∃ s, replayEntries st receive fuel es x = .ok { x with added := x.added || !(newTimes es).isEmpty, times := newTimes es ++ x.times, strat := s } := by
  intro es
  induction es with
  | nil => intro _ x; exact ⟨x.strat, by simp [replayEntries, newTimes]⟩
  | cons e es ih =>
    intro hne x
    have hne' : ∀ d ∈ es, ∀ i, d ≠ .reset i := fun d hd => hne d (by simp [hd])
    cases e with
    | evidence v i c =>
      obtain ⟨s, hs⟩ := ih hne' { x with added := true, times := (c, v, i) :: x.times }
      refine ⟨s, ?_⟩
      simp only [replayEntries, replayEntry, Outcome.bind, hs]
      simp [newTimes]
    | tune =>
      obtain ⟨s, hs⟩ := ih hne' x
      exact ⟨s, by simp only [replayEntries, replayEntry, Outcome.bind, hs]; simp [newTimes]⟩
    | liveInfo infos =>
      obtain ⟨s, hs⟩ := ih hne' { x with strat := receive x.strat (infos.map fun y => (y.1, storedInfo y.2)) }
      exact ⟨s, by simp only [replayEntries, replayEntry, Outcome.bind, hs]; simp [newTimes]⟩
    | reset i => exact absurd rfl (hne _ (by simp) i)

theorem newTimes_find (p : Phase) (c : Configuration Rat) : ((newTimes p.entries).find? (fun x => x.1 = c)).map (fun x => x.2.1) = measured p c := by
  unfold measured newTimes
  induction p.entries using List.reverseRecOn with
  | nil => rfl
  | append_singleton es e ih =>
    rw [List.filterMap_append, List.filterMap_append, List.reverse_append, List.find?_append, List.getLast?_append]
    cases e with
    | evidence v i d =>
      by_cases h : d = c
      · simp [h]
      · simp only [List.filterMap_cons, List.filterMap_nil, List.reverse_cons, List.reverse_nil, List.nil_append, List.find?_cons, h, decide_false,
          List.find?_nil, Option.none_or, if_false, List.getLast?_nil]
        exact ih
    | tune => simpa using ih
    | reset i => simpa using ih
    | liveInfo infos => simpa using ih

theorem addEvidence_new {C : Type} [DecidableEq C] : ∀ {m : EvidenceMap C} {c : C} (e : Evidence), c ∉ m.map (·.1) → addEvidence m c e = m ++ [(c, [e])] := by
  intro m
  induction m with
  | nil => intro c e _; rfl
  | cons x m ih =>
    intro c e h
    rw [List.map_cons, List.mem_cons, not_or] at h
    obtain ⟨k, es⟩ := x
    simp only [addEvidence]
    rw [if_neg fun e => h.1 e.symm, ih e h.2]
    rfl

/-- The evidence the replayer adds for one phase. -/
def foundEvidence (times : List (Configuration Rat × Int × Nat)) (phase : Nat) (S : List (Configuration Rat)) : EvidenceMap (Configuration Rat) :=
  S.filterMap fun c => (times.find? (fun x => x.1 = c)).map fun x => (c, [⟨x.2.2, phase, x.2.1⟩])

theorem foundEvidence_keys {times : List (Configuration Rat × Int × Nat)} {phase : Nat} {S : List (Configuration Rat)} {c : Configuration Rat}
    (h : c ∈ (foundEvidence times phase S).map (·.1)) : c ∈ S := by
  obtain ⟨y, hy, rfl⟩ := List.mem_map.1 h
  obtain ⟨d, hd, he⟩ := List.mem_filterMap.1 hy
  obtain ⟨x, -, rfl⟩ := Option.map_eq_some_iff.1 he
  exact hd

theorem replayQueue_passive (hp : Passive st) {times : List (Configuration Rat × Int × Nat)} {phase : Nat} : ∀ {S : List (Configuration Rat)} {fuel : Nat}
    {ev : EvidenceMap (Configuration Rat)} {s : σ}, S.length ≤ fuel → S.Nodup → (∀ c ∈ S, c ∉ ev.map (·.1)) →
    ∃ s', replayQueue st times phase fuel S.reverse ev s = .ok (ev ++ foundEvidence times phase S, s') := by
  intro S
  induction S with
  | nil =>
    intro fuel ev s _ _ _
    refine ⟨s, ?_⟩
    cases fuel <;> simp [replayQueue, foundEvidence]
  | cons c S ih =>
    intro fuel ev s hf hnd hev
    obtain ⟨fuel, rfl⟩ : ∃ f, fuel = f + 1 := ⟨fuel - 1, by simp at hf; omega⟩
    rw [List.nodup_cons] at hnd
    obtain ⟨q, qs, hq⟩ : ∃ q qs, (c :: S).reverse = q :: qs := List.exists_cons_of_ne_nil (by simp)
    have hlast : (q :: qs).getLast? = some c := by rw [← hq]; simp
    have hdrop : (q :: qs).dropLast = S.reverse := by rw [← hq, List.reverse_cons, List.dropLast_concat]
    rw [hq]
    simp only [replayQueue]
    have hopt : (st.optimize s (q :: qs) ev).1.1 = q :: qs := hp.optimize _ _ _
    rw [hopt, hlast, hdrop]
    simp only
    cases hfind : times.find? (fun x => x.1 = c) with
    | none =>
      obtain ⟨s', hs⟩ := ih (ev := ev) (s := (st.optimize s (q :: qs) ev).2) (fuel := fuel) (by simpa using hf) hnd.2 (fun d hd => hev d (by simp [hd]))
      refine ⟨s', ?_⟩
      simp only [hs]
      simp [foundEvidence, hfind]
    | some x =>
      simp only
      rw [addEvidence_new _ (hev c (by simp))]
      obtain ⟨s', hs⟩ := ih (ev := ev ++ [(c, [⟨x.2.2, phase, x.2.1⟩])])
        (s := st.addEvidence (st.optimize s (q :: qs) ev).2 c ⟨x.2.2, phase, x.2.1⟩) (fuel := fuel) (by simpa using hf) hnd.2 (by
          intro d hd hm
          rw [List.map_append, List.mem_append] at hm
          rcases hm with hm | hm
          · exact hev d (by simp [hd]) hm
          · simp only [List.map_cons, List.map_nil, List.mem_singleton] at hm
            exact hnd.1 (hm ▸ hd))
      refine ⟨s', ?_⟩
      rw [hs]
      simp [foundEvidence, hfind]

theorem latestPhase_const {C : Type} {m : EvidenceMap C} {p : Nat} (h : ∀ k es, (k, es) ∈ m → ∀ e ∈ es, e.tuningPhase = p)
    (hne : ∃ k es e, (k, es) ∈ m ∧ e ∈ es) : latestPhase m = p := by
  unfold latestPhase
  have h1 : ∀ e ∈ m.flatMap Prod.snd, e.tuningPhase = p := by
    intro e he
    obtain ⟨x, hx, he⟩ := List.mem_flatMap.1 he
    exact h x.1 x.2 hx e he
  have h2 : m.flatMap Prod.snd ≠ [] := by
    obtain ⟨k, es, e, h3, h4⟩ := hne
    exact List.ne_nil_of_mem (List.mem_flatMap.2 ⟨(k, es), h3, h4⟩)
  have h3 : ∀ (l : List Evidence) (a : Nat), (∀ e ∈ l, e.tuningPhase = p) → l.foldl (fun a e => max a e.tuningPhase) a = if l = [] then a else max a p := by
    intro l
    induction l with
    | nil => intro a _; rfl
    | cons e l ih =>
      intro a hl
      rw [List.foldl_cons, ih _ (fun d hd => hl d (by simp [hd])), hl e (by simp)]
      split_ifs <;> simp_all
  rw [h3 _ 0 h1, if_neg h2]
  simp

/-- The evaluation of the first phase. -/
theorem evaluate_first (hp : Passive st) {p : Phase} {S : List (Configuration Rat)} (hnd : S.Nodup) (hf : S.length ≤ fuel)
    (hv : ∀ c ∈ S, ∀ v, measured p c = some v → v < longMax) (hsome : ∃ c ∈ S, measured p c ≠ none) {x : Replay σ} (h1 : x.queue = S.reverse)
    (h2 : x.evidence = []) (h3 : x.added = true) (h4 : x.times = newTimes p.entries) :
    ∃ x' best, replayReset st fuel x = .ok x' ∧ x'.queue = [] ∧ x'.best = some best ∧ x'.added = false ∧
      getOptimalConfiguration x'.evidence (latestPhase x'.evidence) = .ok best ∧ FastestOf S p best := by
  unfold replayReset
  rw [if_pos h3]
  simp only [hp.reset, h1, h2]
  obtain ⟨s', hs⟩ := replayQueue_passive hp (times := x.times) (phase := x.phase) (S := S) (fuel := fuel) (ev := []) (s := (st.reset x.strat 0 0 S.reverse []).2) hf hnd (by simp)
  rw [List.nil_append] at hs
  rw [hs]
  simp only [Outcome.bind]
  set M := foundEvidence x.times x.phase S with hM
  have hmem : ∀ k es, (k, es) ∈ M ↔ k ∈ S ∧ ∃ v i, es = [⟨i, x.phase, v⟩] ∧ x.times.find? (fun y => y.1 = k) = some (k, v, i) := by
    intro k es
    rw [hM]
    unfold foundEvidence
    rw [List.mem_filterMap]
    constructor
    · rintro ⟨c, hc, he⟩
      obtain ⟨y, hy, he⟩ := Option.map_eq_some_iff.1 he
      have hyc : y.1 = c := by simpa using List.find?_some hy
      cases he
      refine ⟨hc, y.2.1, y.2.2, rfl, ?_⟩
      rw [hy, ← hyc]
    · rintro ⟨hk, v, i, rfl, hy⟩
      exact ⟨k, hk, by rw [hy]; rfl⟩
  have hmeas : ∀ c v, measured p c = some v ↔ ∃ i, x.times.find? (fun y => y.1 = c) = some (c, v, i) := by
    intro c v
    rw [← newTimes_find, ← h4]
    constructor
    · intro h
      obtain ⟨y, hy, he⟩ := Option.map_eq_some_iff.1 h
      have hyc : y.1 = c := by simpa using List.find?_some hy
      exact ⟨y.2.2, by rw [hy, ← hyc, ← he]⟩
    · rintro ⟨i, hy⟩
      rw [hy]; rfl
  obtain ⟨c0, hc0, hm0⟩ := hsome
  obtain ⟨v0, hv0⟩ := Option.ne_none_iff_exists'.1 hm0
  obtain ⟨i0, hi0⟩ := (hmeas c0 v0).1 hv0
  have hin : (c0, [(⟨i0, x.phase, v0⟩ : Evidence)]) ∈ M := (hmem _ _).2 ⟨hc0, v0, i0, rfl, hi0⟩
  have hphase : ∀ k es, (k, es) ∈ M → ∀ e ∈ es, e.tuningPhase = x.phase := by
    intro k es hk e he
    obtain ⟨-, v, i, rfl, -⟩ := (hmem k es).1 hk
    rw [List.mem_singleton] at he
    rw [he]
  have hlat : latestPhase M = x.phase := latestPhase_const hphase ⟨c0, _, _, hin, List.mem_singleton.2 rfl⟩
  obtain ⟨best, es, e, g1, g2, g3, g4, g5⟩ := getOptimal_spec (p := x.phase) (m := M) (by
      intro k es hk e he e' he' _ _
      obtain ⟨-, v, i, rfl, -⟩ := (hmem k es).1 hk
      rw [List.mem_singleton] at he he'
      rw [he, he'])
    (by
      intro k es hk e he _
      obtain ⟨hkS, v, i, rfl, hfi⟩ := (hmem k es).1 hk
      rw [List.mem_singleton] at he
      rw [he]
      exact hv k hkS v ((hmeas k v).2 ⟨i, hfi⟩))
    ⟨c0, _, _, hin, List.mem_singleton.2 rfl, rfl⟩
  rw [hlat, g1]
  refine ⟨_, best, rfl, rfl, rfl, rfl, by simp only; rw [hlat]; exact g1, ?_⟩
  obtain ⟨hbS, v, i, hes, hfi⟩ := (hmem best es).1 g2
  refine ⟨hbS, v, (hmeas best v).2 ⟨i, hfi⟩, ?_⟩
  intro c hc w hw
  obtain ⟨j, hj⟩ := (hmeas c w).1 hw
  have := g5 c _ ((hmem c _).2 ⟨hc, w, j, rfl, hj⟩) _ (List.mem_singleton.2 rfl) rfl
  rw [hes, List.mem_singleton] at g3
  rw [g3] at this
  exact this

/-- Nothing changes after the first evaluation. -/
structure Replay.Done (x : Replay σ) (b : Configuration Rat) : Prop where
  queue : x.queue = []
  best : x.best = some b
  optimal : getOptimalConfiguration x.evidence (latestPhase x.evidence) = .ok b

theorem Replay.Done.reset (hp : Passive st) {x : Replay σ} {b : Configuration Rat} (h : x.Done b) : ∃ x', replayReset st fuel x = .ok x' ∧ x'.Done b := by
  obtain ⟨h1, h2, h3⟩ := h
  unfold replayReset
  by_cases ha : x.added = true
  · rw [if_pos ha]
    simp only [hp.reset, h1]
    have : ∀ s : σ, replayQueue st x.times x.phase fuel [] x.evidence s = .ok (x.evidence, s) := by
      intro s; cases fuel <;> rfl
    rw [this]
    simp only [Outcome.bind]
    rw [h3]
    exact ⟨_, rfl, rfl, rfl, h3⟩
  · rw [if_neg ha]
    simp only [Outcome.bind, hp.reset]
    exact ⟨_, rfl, h1, h2, h3⟩

theorem Replay.Done.entries (hp : Passive st) {b : Configuration Rat} : ∀ (es : List LogEntry) {x : Replay σ}, x.Done b →
    ∃ x', replayEntries st receive fuel es x = .ok x' ∧ x'.Done b := by
  intro es
  induction es with
  | nil => intro x h; exact ⟨x, rfl, h⟩
  | cons e es ih =>
    intro x h
    have hstep : ∃ x', replayEntry st receive fuel e x = .ok x' ∧ x'.Done b := by
      cases e with
      | evidence v i c => exact ⟨_, rfl, h.queue, h.best, h.optimal⟩
      | tune => exact ⟨_, rfl, h⟩
      | liveInfo infos => exact ⟨_, rfl, h.queue, h.best, h.optimal⟩
      | reset i => exact h.reset hp
    obtain ⟨y, hy, hd⟩ := hstep
    obtain ⟨z, hz, hd'⟩ := ih hd
    exact ⟨z, by simp only [replayEntries, hy, Outcome.bind]; exact hz, hd'⟩

/-- The last line of a complete log is empty. -/
theorem replayLine_end (x : Replay σ) : replayLine t st receive fuel true [] x = replayReset st fuel x := by
  unfold replayLine
  have h : lineType [] = [] := rfl
  rw [h, if_neg (by decide), if_neg (by decide), if_neg (by decide), if_pos (Or.inr rfl)]

/-- The initial reset. -/
theorem replay_first_reset {x : Replay σ} (h : x.added = false) :
    replayReset st fuel x = .ok ⟨(st.reset x.strat 0 (x.phase + 1) x.queue x.evidence).1.1, x.evidence, x.phase + 1, x.best, x.added, [],
      (st.reset x.strat 0 (x.phase + 1) x.queue x.evidence).2⟩ := by
  unfold replayReset
  rw [if_neg (by rw [h]; decide)]
  rfl

end

/-- Random search empties the queue on purpose when it has enough evidence. -/
theorem replayQueue_random {m : Nat} {draw : Nat → Nat → Nat} (hdraw : ∀ k n, 0 < n → draw k n < n) {times : List (Configuration Rat × Int × Nat)} {phase : Nat} :
    ∀ {j fuel : Nat} {q : List (Configuration Rat)} {ev : EvidenceMap (Configuration Rat)} {s : RandomState}, s.numEvidence + j = m → j < q.length → j < fuel →
    (∀ c ∈ q, ∃ x, times.find? (fun y => y.1 = c) = some x) → replayQueue (randomStrategy m draw) times phase fuel q ev s = .ub := by
  intro j
  induction j with
  | zero =>
    intro fuel q ev s hs hq hf _
    obtain ⟨fuel, rfl⟩ : ∃ f, fuel = f + 1 := ⟨fuel - 1, by omega⟩
    obtain ⟨a, q, rfl⟩ := List.exists_cons_of_ne_nil (List.ne_nil_of_length_pos hq)
    simp only [replayQueue]
    have : (randomStrategy m draw).optimize s (a :: q) ev = (([], true), s) := by
      simp [randomStrategy, RandomState.optimize, show s.numEvidence = m by omega]
    rw [this]
    rfl
  | succ j ih =>
    intro fuel q ev s hs hq hf hall
    obtain ⟨fuel, rfl⟩ : ∃ f, fuel = f + 1 := ⟨fuel - 1, by omega⟩
    obtain ⟨a, q, rfl⟩ := List.exists_cons_of_ne_nil (List.ne_nil_of_length_pos (by omega : 0 < q.length))
    have hi := hdraw s.draws (a :: q).length (by simp)
    have hopt : (randomStrategy m draw).optimize s (a :: q) ev = ((swapBack (a :: q) (draw s.draws (a :: q).length), false), { s with draws := s.draws + 1 }) := by
      have : ¬ s.numEvidence = m := by omega
      simp [randomStrategy, RandomState.optimize, this]
    obtain ⟨h1, h2⟩ := swapBack_spec hi
    obtain ⟨c, hc⟩ : ∃ c, (swapBack (a :: q) (draw s.draws (a :: q).length)).getLast? = some c := by
      rw [h1]; exact ⟨_, List.getElem?_eq_getElem hi⟩
    have hcm : c ∈ a :: q := h2.subset (List.mem_of_getLast? hc)
    obtain ⟨x, hx⟩ := hall c hcm
    simp only [replayQueue]
    rw [hopt]
    simp only [hc, hx]
    refine ih (by simp only [randomStrategy]; omega) ?_ (by omega) ?_
    · rw [List.length_dropLast, h2.length_eq]
      simp at hq ⊢
      omega
    · intro d hd
      exact hall d (h2.subset (List.mem_of_mem_dropLast hd))

end Verif
