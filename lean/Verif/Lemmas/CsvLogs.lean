import Verif.Spec.CsvLogs
import Mathlib.Data.List.Basic
import Mathlib.Data.List.TakeWhile
/-! Lemmas for C132. -/
namespace Verif

/-! ### Fields -/

theorem csvFields_single : ∀ {f : Text}, CsvField f → csvFields f = [f]
  | [], _ => rfl
  | c :: f, h => by
    have hc : c ≠ ',' := fun e => h (by simp [e])
    have := csvFields_single (f := f) fun hm => h (List.mem_cons_of_mem _ hm)
    unfold csvFields; rw [if_neg hc, this]

theorem csvFields_cons : ∀ {f : Text} (s : Text), CsvField f → csvFields (f ++ ',' :: s) = f :: csvFields s
  | [], s, _ => by rw [List.nil_append]; conv_lhs => unfold csvFields
                   simp
  | c :: f, s, h => by
    have hc : c ≠ ',' := fun e => h (by simp [e])
    have := csvFields_cons (f := f) s fun hm => h (List.mem_cons_of_mem _ hm)
    rw [List.cons_append]
    conv_lhs => unfold csvFields
    rw [if_neg hc, this]

theorem csvFormat_cons (f : Text) {fs : List Text} (h : fs ≠ []) : csvFormat (f :: fs) = f ++ ',' :: csvFormat fs := by
  cases fs with
  | nil => exact absurd rfl h
  | cons g gs => rfl

theorem csvFields_format : ∀ {fs : List Text}, fs ≠ [] → (∀ f ∈ fs, CsvField f) → csvFields (csvFormat fs) = fs
  | [], h, _ => absurd rfl h
  | [f], _, h => csvFields_single (h f List.mem_cons_self)
  | f :: g :: gs, _, h => by
    rw [csvFormat_cons f (by simp), csvFields_cons _ (h f List.mem_cons_self),
      csvFields_format (by simp) fun x hx => h x (List.mem_cons_of_mem _ hx)]

theorem csvFormat_append : ∀ {fs gs : List Text}, fs ≠ [] → gs ≠ [] → csvFormat (fs ++ gs) = csvFormat fs ++ ',' :: csvFormat gs
  | [], _, h, _ => absurd rfl h
  | [f], gs, _, hg => by rw [List.singleton_append, csvFormat_cons f hg]; rfl
  | f :: g :: fs, gs, _, hg => by
    rw [List.cons_append, csvFormat_cons f (by simp), csvFormat_cons f (by simp), csvFormat_append (by simp) hg]; simp

/-- A text of several fields inside of a line. -/
theorem csvFormat_nested {pre fs post : List Text} (hp : pre ≠ []) (hf : fs ≠ []) (hq : post ≠ []) :
    csvFormat (pre ++ csvFormat fs :: post) = csvFormat (pre ++ fs ++ post) := by
  rw [csvFormat_append hp (by simp), csvFormat_cons _ hq, List.append_assoc, csvFormat_append hp (by simp [hf]), csvFormat_append hf hq]

theorem commaTerminated_eq : ∀ {gs : List Text}, gs ≠ [] → commaTerminated gs = csvFormat gs
  | [], h => absurd rfl h
  | [g], _ => by simp [commaTerminated, csvFormat]
  | g :: h :: gs, _ => by
    have := commaTerminated_eq (gs := h :: gs) (by simp)
    unfold commaTerminated at this ⊢
    rw [List.flatMap_cons, List.dropLast_append_of_ne_nil (by simp), this, csvFormat_cons g (by simp)]; simp

/-! ### Regular expressions -/

theorem regexAll_match {m : Text → Option (Text × Text)} {s g rest : Text} (h : m s = some (g, rest)) (hl : rest.length < s.length) :
    regexAll m s = g :: regexAll m rest := by
  cases s with
  | nil => simp at hl
  | cons c cs => rw [regexAll, h]; simp only; rw [if_pos hl]

theorem regexAll_skip {m : Text → Option (Text × Text)} {c : Char} {cs : Text} (h : m (c :: cs) = none) : regexAll m (c :: cs) = regexAll m cs := by
  rw [regexAll, h]

theorem regexAll_nil (m : Text → Option (Text × Text)) : regexAll m [] = [] := by rw [regexAll]

theorem takeWhile_stop {p : Char → Bool} : ∀ {v : Text} {c : Char} {r : Text}, (∀ x ∈ v, p x = true) → p c = false →
    (v ++ c :: r).takeWhile p = v ∧ (v ++ c :: r).dropWhile p = c :: r
  | [], c, r, _, hc => by simp [hc]
  | x :: v, c, r, h, hc => by
    have hx := h x List.mem_cons_self
    obtain ⟨h1, h2⟩ := takeWhile_stop (v := v) (r := r) (fun y hy => h y (List.mem_cons_of_mem _ hy)) hc
    simp [hx, h1, h2]

theorem takeWhile_end {p : Char → Bool} {v : Text} (h : ∀ x ∈ v, p x = true) : v.takeWhile p = v ∧ v.dropWhile p = [] := by
  refine ⟨?_, ?_⟩
  · rw [List.takeWhile_eq_self_iff]; exact h
  · rw [List.dropWhile_eq_nil_iff]; exact h

theorem ne_comma {v : Text} (h : CsvField v) : ∀ x ∈ v, (x != ',') = true := fun x hx => by
  simp only [bne_iff_ne, ne_eq]; rintro rfl; exact h hx

theorem matchValue_mid {v rest : Text} (hv : CsvField v) (hne : v ≠ []) : matchValue (':' :: ' ' :: (v ++ ' ' :: ',' :: rest)) = some (v, rest) := by
  unfold matchValue
  have h1 : (v ++ ' ' :: ',' :: rest).takeWhile (· != ',') = v ++ [' '] := by
    have := (takeWhile_stop (p := (· != ',')) (v := v ++ [' ']) (c := ',') (r := rest) (by
      intro x hx
      rcases List.mem_append.1 hx with hx | hx
      · exact ne_comma hv x hx
      · simp at hx; subst hx; rfl) rfl).1
    simpa using this
  simp only [h1]
  have hpos : 0 < v.length := List.length_pos_iff.2 hne
  obtain ⟨k, hk⟩ : ∃ k, v.length = k + 1 := ⟨v.length - 1, by omega⟩
  have h2 : (v ++ [' ']).length = v.length + 1 := by simp
  rw [h2]
  unfold valueBacktrack
  have h3 : (v ++ ' ' :: ',' :: rest).drop (v.length + 1) = ',' :: rest := by rw [List.drop_length_add_append]; rfl
  simp only [h3]
  rw [hk]
  unfold valueBacktrack
  have h4 : (v ++ ' ' :: ',' :: rest).drop (k + 1) = ' ' :: ',' :: rest := by rw [← hk, List.drop_left]
  have h5 : (v ++ ' ' :: ',' :: rest).take (k + 1) = v := by rw [← hk, List.take_left]
  simp only [h4, h5]
  rfl

theorem matchValue_last {v : Text} (hv : CsvField v) (hne : v ≠ []) : matchValue (':' :: ' ' :: (v ++ ['}'])) = some (v, []) := by
  unfold matchValue
  have h1 : (v ++ ['}']).takeWhile (· != ',') = v ++ ['}'] := (takeWhile_end (by
      intro x hx
      rcases List.mem_append.1 hx with hx | hx
      · exact ne_comma hv x hx
      · simp at hx; subst hx; rfl)).1
  simp only [h1]
  have hpos : 0 < v.length := List.length_pos_iff.2 hne
  obtain ⟨k, hk⟩ : ∃ k, v.length = k + 1 := ⟨v.length - 1, by omega⟩
  have h2 : (v ++ ['}']).length = v.length + 1 := by simp
  rw [h2]
  unfold valueBacktrack
  have h3 : (v ++ ['}']).drop (v.length + 1) = [] := by rw [List.drop_length_add_append]; rfl
  simp only [h3]
  rw [hk]
  unfold valueBacktrack
  have h4 : (v ++ ['}']).drop (k + 1) = ['}'] := by rw [← hk, List.drop_left]
  have h5 : (v ++ ['}']).take (k + 1) = v := by rw [← hk, List.take_left]
  simp only [h4, h5]

theorem values_skip : ∀ {pre : Text} (s : Text), (∀ c ∈ pre, c ≠ ':') → regexAll matchValue (pre ++ s) = regexAll matchValue s
  | [], _, _ => rfl
  | c :: pre, s, h => by
    rw [List.cons_append, regexAll_skip, values_skip s fun x hx => h x (List.mem_cons_of_mem _ hx)]
    have := h c List.mem_cons_self
    unfold matchValue
    split
    · rename_i heq; simp only [List.cons.injEq] at heq; exact absurd heq.1 this
    · rfl

theorem values_mid {pre v : Text} (rest : Text) (hp : ∀ c ∈ pre, c ≠ ':') (hv : CsvField v) (hne : v ≠ []) :
    regexAll matchValue (pre ++ ':' :: ' ' :: (v ++ ' ' :: ',' :: rest)) = v :: regexAll matchValue rest := by
  rw [values_skip _ hp, regexAll_match (matchValue_mid hv hne) (by simp; omega)]

theorem values_last {pre v : Text} (hp : ∀ c ∈ pre, c ≠ ':') (hv : CsvField v) (hne : v ≠ []) :
    regexAll matchValue (pre ++ ':' :: ' ' :: (v ++ ['}'])) = [v] := by
  rw [values_skip _ hp, regexAll_match (matchValue_last hv hne) (by simp), regexAll_nil]

theorem keyBacktrack_top {s : Text} {r : Text × Text} {k : Nat} (h : matchName (s.drop (k + 1)) = some r) : keyBacktrack s (k + 1) = some r := by
  unfold keyBacktrack; rw [h]

theorem matchKey_eq {run g r : Text} (hrun : run ≠ []) (hr : ∀ c ∈ run, (c == '{' || c == ',' || c == ' ') = true) (hg : g ≠ []) (hgc : ':' ∉ g)
    (hg0 : ∀ c ∈ g.head?, (c == '{' || c == ',' || c == ' ') = false) : matchKey (run ++ (g ++ ':' :: r)) = some (g, r.dropWhile (· != ',')) := by
  cases g with
  | nil => exact absurd rfl hg
  | cons x g =>
    have hx := hg0 x (by simp)
    unfold matchKey
    have h1 : (run ++ (x :: g ++ ':' :: r)).takeWhile (fun c => c == '{' || c == ',' || c == ' ') = run :=
      (takeWhile_stop (r := g ++ ':' :: r) hr hx).1
    rw [h1]
    obtain ⟨k, hk⟩ : ∃ k, run.length = k + 1 := ⟨run.length - 1, by have := List.length_pos_iff.2 hrun; omega⟩
    rw [hk]
    apply keyBacktrack_top
    rw [← hk, List.drop_left]
    have h2 := takeWhile_stop (p := (· != ':')) (v := x :: g) (c := ':') (r := r) (by
      intro y hy; simp only [bne_iff_ne, ne_eq]; rintro rfl; exact hgc hy) rfl
    unfold matchName
    rw [h2.1, h2.2]; simp

theorem keys_mid {run g v : Text} (rest : Text) (hrun : run ≠ []) (hr : ∀ c ∈ run, (c == '{' || c == ',' || c == ' ') = true) (hg : g ≠ []) (hgc : ':' ∉ g)
    (hg0 : ∀ c ∈ g.head?, (c == '{' || c == ',' || c == ' ') = false) (hv : CsvField v) :
    regexAll matchKey (run ++ (g ++ ':' :: (v ++ ',' :: rest))) = g :: regexAll matchKey (',' :: rest) := by
  have h := matchKey_eq (r := v ++ ',' :: rest) hrun hr hg hgc hg0
  rw [(takeWhile_stop (p := (· != ',')) (v := v) (c := ',') (r := rest) (ne_comma hv) rfl).2] at h
  rw [regexAll_match h]
  have := List.length_pos_iff.2 hg
  simp; omega

theorem keys_last {run g v : Text} (hrun : run ≠ []) (hr : ∀ c ∈ run, (c == '{' || c == ',' || c == ' ') = true) (hg : g ≠ []) (hgc : ':' ∉ g)
    (hg0 : ∀ c ∈ g.head?, (c == '{' || c == ',' || c == ' ') = false) (hv : CsvField v) : regexAll matchKey (run ++ (g ++ ':' :: v)) = [g] := by
  have h := matchKey_eq (r := v) hrun hr hg hgc hg0
  rw [(takeWhile_end (p := (· != ',')) (ne_comma hv)).2] at h
  rw [regexAll_match h (by simp; omega), regexAll_nil]

/-! ### Configurations -/

theorem config_values {c : ConfigTexts} (h : c.Ok) : regexAll matchValue c.toText = c.values := by
  obtain ⟨h⟩ := h
  simp only [List.mem_cons, List.not_mem_nil, or_false, forall_eq_or_imp, forall_eq] at h
  obtain ⟨h1, h2, h3, h4, h5, h6, h7⟩ := h
  have e : c.toText = "{Interaction Type".toList ++ ':' :: ' ' :: (c.interactionType ++ ' ' :: ',' :: (" Container".toList ++ ':' :: ' ' :: (c.container ++ ' ' :: ',' ::
      (" CellSizeFactor".toList ++ ':' :: ' ' :: (c.cellSizeFactor ++ ' ' :: ',' :: (" Traversal".toList ++ ':' :: ' ' :: (c.traversal ++ ' ' :: ',' ::
      (" Load Estimator".toList ++ ':' :: ' ' :: (c.loadEstimator ++ ' ' :: ',' :: (" Data Layout".toList ++ ':' :: ' ' :: (c.dataLayout ++ ' ' :: ',' ::
      (" Newton 3".toList ++ ':' :: ' ' :: (c.newton3 ++ ['}'])))))))))))))  := by
    unfold ConfigTexts.toText; simp
  rw [e, values_mid _ (by decide) h1.1 h1.2, values_mid _ (by decide) h2.1 h2.2, values_mid _ (by decide) h3.1 h3.2, values_mid _ (by decide) h4.1 h4.2,
    values_mid _ (by decide) h5.1 h5.2, values_mid _ (by decide) h6.1 h6.2, values_last (by decide) h7.1 h7.2]
  rfl

theorem field_append {a b : Text} (ha : CsvField a) (hb : CsvField b) : CsvField (a ++ b) := fun h => (List.mem_append.1 h).elim ha hb

theorem config_keys {c : ConfigTexts} (h : c.Ok) : regexAll matchKey c.toText = configColumns := by
  obtain ⟨h⟩ := h
  simp only [List.mem_cons, List.not_mem_nil, or_false, forall_eq_or_imp, forall_eq] at h
  obtain ⟨h1, h2, h3, h4, h5, h6, h7⟩ := h
  have f : ∀ {v : Text}, CsvField v → CsvField (' ' :: (v ++ [' '])) := fun {v} hv => field_append (a := [' ']) (by unfold CsvField; decide) (field_append hv (by unfold CsvField; decide))
  have f7 : CsvField (' ' :: (c.newton3 ++ ['}'])) := field_append (a := [' ']) (by unfold CsvField; decide) (field_append h7.1 (by unfold CsvField; decide))
  have e : c.toText = "{".toList ++ ("Interaction Type".toList ++ ':' :: ((' ' :: (c.interactionType ++ [' '])) ++ ',' :: (" ".toList ++ ("Container".toList ++ ':' ::
      ((' ' :: (c.container ++ [' '])) ++ ',' :: (" ".toList ++ ("CellSizeFactor".toList ++ ':' :: ((' ' :: (c.cellSizeFactor ++ [' '])) ++ ',' ::
      (" ".toList ++ ("Traversal".toList ++ ':' :: ((' ' :: (c.traversal ++ [' '])) ++ ',' :: (" ".toList ++ ("Load Estimator".toList ++ ':' ::
      ((' ' :: (c.loadEstimator ++ [' '])) ++ ',' :: (" ".toList ++ ("Data Layout".toList ++ ':' :: ((' ' :: (c.dataLayout ++ [' '])) ++ ',' ::
      (" ".toList ++ ("Newton 3".toList ++ ':' :: (' ' :: (c.newton3 ++ ['}']))))))))))))))))))))) := by
    unfold ConfigTexts.toText; simp
  have g : ∀ (name v rest : Text), ',' :: (" ".toList ++ (name ++ ':' :: (v ++ ',' :: rest))) = ", ".toList ++ (name ++ ':' :: (v ++ ',' :: rest)) := fun _ _ _ => rfl
  have g7 : ∀ (name v : Text), ',' :: (" ".toList ++ (name ++ ':' :: v)) = ", ".toList ++ (name ++ ':' :: v) := fun _ _ => rfl
  rw [e, keys_mid _ (by decide) (by decide) (by decide) (by decide) (by decide) (f h1.1), g,
    keys_mid _ (by decide) (by decide) (by decide) (by decide) (by decide) (f h2.1), g,
    keys_mid _ (by decide) (by decide) (by decide) (by decide) (by decide) (f h3.1), g,
    keys_mid _ (by decide) (by decide) (by decide) (by decide) (by decide) (f h4.1), g,
    keys_mid _ (by decide) (by decide) (by decide) (by decide) (by decide) (f h5.1), g,
    keys_mid _ (by decide) (by decide) (by decide) (by decide) (by decide) (f h6.1), g7,
    keys_last (by decide) (by decide) (by decide) (by decide) (by decide) f7]
  rfl

theorem csvLine_eq {c : ConfigTexts} (h : c.Ok) : c.csvLine = csvFormat c.values := by
  unfold ConfigTexts.csvLine; rw [config_values h, commaTerminated_eq (by simp [ConfigTexts.values])]

theorem csvHeader_eq {c : ConfigTexts} (h : c.Ok) : c.csvHeader = csvFormat configColumns := by
  unfold ConfigTexts.csvHeader; rw [config_keys h, commaTerminated_eq (by simp [configColumns])]

/-! ### Live info -/

/-- A text that can be a key or a value of an info. -/
def Word (t : Text) : Prop := t ≠ [] ∧ ∀ c ∈ t, c ≠ '=' ∧ c ≠ ' ' ∧ c ≠ ','

theorem Word.key {t : Text} (h : Word t) : ∀ c ∈ t, (c != '=' && c != ' ') = true := fun c hc => by
  have := h.2 c hc; simp [this.1, this.2.1]

theorem Word.val {t : Text} (h : Word t) : ∀ c ∈ t, (c != ' ') = true := fun c hc => by
  have := h.2 c hc; simp [this.2.1]

theorem Word.field {t : Text} (h : Word t) : CsvField t := fun hc => (h.2 _ hc).2.2 rfl

theorem isEmpty_false {t : Text} (h : t ≠ []) : t.isEmpty = false := by cases t <;> simp_all

theorem infoKey_mid {k v : Text} (r : Text) (hk : Word k) (hv : Word v) : matchInfoKey (k ++ '=' :: (v ++ ' ' :: r)) = some (k, ' ' :: r) := by
  have h1 := takeWhile_stop (c := '=') (r := v ++ ' ' :: r) hk.key rfl
  have h2 := takeWhile_stop (c := ' ') (r := r) hv.val rfl
  unfold matchInfoKey
  rw [h1.2, h1.1]; simp only
  rw [h2.2, isEmpty_false hk.1]; rfl

theorem infoKey_last {k v : Text} (hk : Word k) (hv : Word v) : matchInfoKey (k ++ '=' :: v) = some (k, []) := by
  have h1 := takeWhile_stop (c := '=') (r := v) hk.key rfl
  have h2 := takeWhile_end hv.val
  unfold matchInfoKey
  rw [h1.2, h1.1]; simp only
  rw [h2.2, isEmpty_false hk.1]; rfl

theorem infoValue_mid {v : Text} (r : Text) (hv : Word v) : matchInfoValue ('=' :: (v ++ ' ' :: r)) = some (v, ' ' :: r) := by
  have h2 := takeWhile_stop (c := ' ') (r := r) hv.val rfl
  unfold matchInfoValue
  simp only
  rw [h2.1, h2.2, isEmpty_false hv.1]; rfl

theorem infoValue_last {v : Text} (hv : Word v) : matchInfoValue ('=' :: v) = some (v, []) := by
  have h2 := takeWhile_end hv.val
  unfold matchInfoValue
  simp only
  rw [h2.1, h2.2, isEmpty_false hv.1]; rfl

theorem infoValue_skip : ∀ {pre : Text} (s : Text), (∀ c ∈ pre, c ≠ '=') → regexAll matchInfoValue (pre ++ s) = regexAll matchInfoValue s
  | [], _, _ => rfl
  | c :: pre, s, h => by
    rw [List.cons_append, regexAll_skip, infoValue_skip s fun x hx => h x (List.mem_cons_of_mem _ hx)]
    have := h c List.mem_cons_self
    unfold matchInfoValue
    split
    · rename_i heq; simp only [List.cons.injEq] at heq; exact absurd heq.1 this
    · rfl

theorem infoKey_space (s : Text) : regexAll matchInfoKey (' ' :: s) = regexAll matchInfoKey s := by
  apply regexAll_skip
  unfold matchInfoKey
  simp [List.dropWhile_cons]

theorem infoKeys_eq : ∀ {infos : List (Text × Text)}, (∀ kv ∈ infos, Word kv.1 ∧ Word kv.2) →
    regexAll matchInfoKey (csvInfoText infos) = infos.map Prod.fst ∧ regexAll matchInfoValue (csvInfoText infos) = infos.map Prod.snd
  | [], _ => by constructor <;> exact regexAll_nil _
  | [(k, v)], h => by
    obtain ⟨hk, hv⟩ := h (k, v) (by simp)
    have hk' : ∀ c ∈ k, c ≠ '=' := fun c hc => (hk.2 c hc).1
    have hl := List.length_pos_iff.2 hk.1
    unfold csvInfoText
    constructor
    · rw [regexAll_match (infoKey_last hk hv) (by simp; omega), regexAll_nil]; rfl
    · rw [infoValue_skip _ hk', regexAll_match (infoValue_last hv) (by simp), regexAll_nil]; rfl
  | (k, v) :: b :: l, h => by
    obtain ⟨hk, hv⟩ := h (k, v) (by simp)
    obtain ⟨i1, i2⟩ := infoKeys_eq (infos := b :: l) fun kv hkv => h kv (List.mem_cons_of_mem _ hkv)
    have hk' : ∀ c ∈ k, c ≠ '=' := fun c hc => (hk.2 c hc).1
    have hl := List.length_pos_iff.2 hk.1
    have hv0 := List.length_pos_iff.2 hv.1
    have e : csvInfoText ((k, v) :: b :: l) = k ++ '=' :: (v ++ ' ' :: csvInfoText (b :: l)) := by
      conv_lhs => unfold csvInfoText
      simp
    rw [e]
    constructor
    · rw [regexAll_match (infoKey_mid _ hk hv) (by simp; omega), infoKey_space, i1]; rfl
    · rw [infoValue_skip _ hk', regexAll_match (infoValue_mid _ hv) (by simp; omega)]
      have := infoValue_skip (pre := [' ']) (csvInfoText (b :: l)) (by decide)
      rw [List.singleton_append] at this
      rw [this, i2]; rfl

theorem infoCSV_eq {infos : List (Text × Text)} (hne : infos ≠ []) (h : ∀ kv ∈ infos, Word kv.1 ∧ Word kv.2) :
    infoCSV infos = (csvFormat (infos.map Prod.fst), csvFormat (infos.map Prod.snd)) := by
  unfold infoCSV
  rw [(infoKeys_eq h).1, (infoKeys_eq h).2, commaTerminated_eq (by simpa using hne), commaTerminated_eq (by simpa using hne)]

theorem defaultConfigTexts_ok : defaultConfigTexts.Ok := ⟨by unfold CsvField; decide⟩

end Verif
