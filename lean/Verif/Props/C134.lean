import Verif.Spec.YamlParser
import Verif.Props.C133
/-!
C134: an input file of md-flexible sets the options it contains to the values it gives and leaves all others unchanged; it is accepted if and only if every key is known and
has a value the option accepts.

Violated: `C134_violated_negative`, `C134_violated_mass`, `C134_violated_site_ids`, `C134_violated_strategies`, `C134_violated_suffix`, `C134_violated_blank`.
-/
namespace Verif

/-! ### The loop -/

/-- Success of the loop over a part of the file. -/
theorem yamlLoop_ok {env : YamlEnv} {file : List (String × Yaml)} : ∀ {l : List (String × Yaml)} {c c' : YamlConfig} {e : Bool},
    yamlLoop env file l c e = .ok (c', false) → e = false ∧ ∃ effs : List YamlEffect,
      List.Forall₂ (fun (kn : String × Yaml) eff => yamlEntry env kn.1 ((file.lookup kn.1).getD .undefined) = .ok (eff, false)) l effs ∧ c' = effs.foldl YamlConfig.apply c := by
  intro l
  induction l with
  | nil => intro c c' e h; cases h; exact ⟨rfl, [], .nil, rfl⟩
  | cons kn l ih =>
    intro c c' e h
    obtain ⟨k, n⟩ := kn
    obtain ⟨⟨eff, bad⟩, h1, h2⟩ := outcome_bind_eq_ok h
    obtain ⟨h3, effs, h4, h5⟩ := ih h2
    simp only [Bool.or_eq_false_iff] at h3
    obtain ⟨he, rfl⟩ := h3
    exact ⟨he, eff :: effs, .cons h1 h4, h5⟩

theorem yamlLoop_total {env : YamlEnv} {file : List (String × Yaml)} : ∀ {l : List (String × Yaml)} {c c' : YamlConfig} {e b : Bool},
    yamlLoop env file l c e = .ok (c', b) → (b = false ↔ e = false ∧ ∀ kn ∈ l, ∃ eff, yamlEntry env kn.1 ((file.lookup kn.1).getD .undefined) = .ok (eff, false)) := by
  intro l
  induction l with
  | nil => intro c c' e b h; cases h; simp
  | cons kn l ih =>
    intro c c' e b h
    obtain ⟨k, n⟩ := kn
    obtain ⟨⟨eff, bad⟩, h1, h2⟩ := outcome_bind_eq_ok h
    rw [ih h2, Bool.or_eq_false_iff, List.forall_mem_cons]
    constructor
    · rintro ⟨⟨he, rfl⟩, h3⟩; exact ⟨he, ⟨eff, h1⟩, h3⟩
    · rintro ⟨he, ⟨eff', h4⟩, h3⟩
      simp only at h1 h4
      rw [h1] at h4; cases h4
      exact ⟨⟨he, rfl⟩, h3⟩

theorem parse_ok {env : YamlEnv} {file : List (String × Yaml)} {c c' : YamlConfig} (h : parseYamlFile env file c = .ok (c', true)) :
    ∃ effs : List YamlEffect,
      List.Forall₂ (fun (kn : String × Yaml) eff => yamlEntry env kn.1 ((file.lookup kn.1).getD .undefined) = .ok (eff, false)) file effs ∧ c' = effs.foldl YamlConfig.apply c := by
  obtain ⟨⟨d, e⟩, h1, h2⟩ := outcome_bind_eq_ok h
  simp only [Outcome.ok.injEq, Prod.mk.injEq, Bool.not_eq_true'] at h2
  obtain ⟨rfl, rfl⟩ := h2
  exact (yamlLoop_ok h1).2

theorem parse_single {env : YamlEnv} {k : String} {n : Yaml} {c : YamlConfig} {eff : YamlEffect} (h : yamlEntry env k n = .ok (eff, false)) :
    parseYamlFile env [(k, n)] c = .ok (c.apply eff, true) := by
  simp [parseYamlFile, yamlLoop, h, Outcome.bind]

theorem parse_single_iff {env : YamlEnv} {k : String} {n : Yaml} {c : YamlConfig} :
    (∃ c₁, parseYamlFile env [(k, n)] c = .ok (c₁, true)) ↔ ∃ eff, yamlEntry env k n = .ok (eff, false) := by
  constructor
  · rintro ⟨c₁, h⟩
    obtain ⟨effs, h1, -⟩ := parse_ok h
    cases h1 with
    | cons h1 _ => simp at h1; exact ⟨_, h1⟩
  · rintro ⟨eff, h⟩; exact ⟨_, parse_single h⟩

/-! ### Which options an entry sets -/

theorem thermostatLoop_keys {env : YamlEnv} {n : Yaml} : ∀ {ps : List (String × YamlKind)} {r : List (String × CliVal) × Bool}, yamlThermostatLoop env n ps = .ok r →
    ∀ p ∈ r.1, p.1 ∈ ps.map Prod.fst := by
  intro ps
  induction ps with
  | nil => intro r h; cases h; simp
  | cons p ps ih =>
    intro r h q hq
    obtain ⟨p, kind⟩ := p
    simp only [yamlThermostatLoop] at h
    split at h
    · cases h; simp at hq
    · split at h
      · obtain ⟨r', h1, h2⟩ := outcome_bind_eq_ok h
        cases h2
        rcases List.mem_cons.1 hq with rfl | hq
        · exact List.mem_cons_self
        · exact List.mem_cons_of_mem _ (ih h1 q hq)
      · obtain ⟨r', h1, h2⟩ := outcome_bind_eq_ok h
        cases h2
        exact List.mem_cons_of_mem _ (ih h1 q hq)
      · cases h
      · cases h

theorem entry_keys {env : YamlEnv} {k : String} {n : Yaml} {eff : YamlEffect} {b : Bool} (h : yamlEntry env k n = .ok (eff, b)) :
    ∀ p ∈ eff.values, p.1 = k ∨ k = "thermostat" ∧ p.1 ∈ thermostatOptions := by
  unfold yamlEntry at h
  split at h
  · split at h <;> first | (cases h; simp) | cases h
  · split at h
    · cases h; simp
    · split at h
      · cases h; simp
      · split at h
        · cases h; simp
        · split at h
          · rename_i hk
            obtain ⟨r, h1, h2⟩ := outcome_bind_eq_ok h
            cases h2
            intro p hp
            rcases List.mem_cons.1 hp with rfl | hp
            · exact .inl hk.symm
            · exact .inr ⟨hk, thermostatLoop_keys h1 p hp⟩
          · cases h; simp

theorem foldl_other : ∀ (l : List (String × CliVal)) (f : String → CliVal) (o : String), (∀ p ∈ l, p.1 ≠ o) → l.foldl (fun f p o => if o = p.1 then p.2 else f o) f o = f o := by
  intro l
  induction l with
  | nil => intros; rfl
  | cons p l ih =>
    intro f o h
    rw [List.foldl_cons, ih _ _ fun q hq => h q (List.mem_cons_of_mem _ hq), if_neg (Ne.symm (h p List.mem_cons_self))]

/-- The last assignment counts, whatever was there before. -/
theorem foldl_value : ∀ (l : List (String × CliVal)) (f g : String → CliVal) (o : String), (f o = g o ∨ ∃ p ∈ l, p.1 = o) →
    l.foldl (fun f p o => if o = p.1 then p.2 else f o) f o = l.foldl (fun f p o => if o = p.1 then p.2 else f o) g o := by
  intro l
  induction l with
  | nil => intro f g o h; simpa using h
  | cons p l ih =>
    intro f g o h
    rw [List.foldl_cons, List.foldl_cons]
    apply ih
    by_cases hp : o = p.1
    · left; simp [hp]
    · simp only [if_neg hp]
      rcases h with h | ⟨q, hq, h⟩
      · exact .inl h
      · rcases List.mem_cons.1 hq with rfl | hq
        · exact absurd h.symm hp
        · exact .inr ⟨q, hq, h⟩

theorem lookup_some_of_mem {α : Type} {k : String} {v : α} : ∀ {l : List (String × α)}, (k, v) ∈ l → ∃ w, l.lookup k = some w := by
  intro l
  induction l with
  | nil => intro h; cases h
  | cons p l ih =>
    intro h
    obtain ⟨q, x⟩ := p
    by_cases hq : k = q
    · exact ⟨x, by simp [List.lookup, hq]⟩
    · rcases List.mem_cons.1 h with h | h
      · cases h; exact absurd rfl hq
      · obtain ⟨w, hw⟩ := ih h
        exact ⟨w, by rw [List.lookup_cons, beq_false_of_ne hq]; exact hw⟩

theorem mem_of_lookup {α : Type} {k : String} {v : α} : ∀ {l : List (String × α)}, l.lookup k = some v → (k, v) ∈ l := by
  intro l
  induction l with
  | nil => intro h; cases h
  | cons p l ih =>
    intro h
    obtain ⟨q, x⟩ := p
    by_cases hq : k = q
    · subst hq; simp [List.lookup] at h; subst h; exact List.mem_cons_self
    · rw [List.lookup_cons, beq_false_of_ne hq] at h
      exact List.mem_cons_of_mem _ (ih h)

theorem not_mem_of_lookup {α : Type} {k : String} {l : List (String × α)} (h : l.lookup k = none) : ∀ p ∈ l, p.1 ≠ k := by
  rintro ⟨q, x⟩ hp rfl
  obtain ⟨w, hw⟩ := lookup_some_of_mem hp
  rw [h] at hw; cases hw

/-- The values of an option after a list of entries; only entries with the key `key` set it. -/
theorem effects_value {env : YamlEnv} {file : List (String × Yaml)} {o key : String}
    (hown : ∀ k n eff, k ≠ key → yamlEntry env k n = .ok (eff, false) → ∀ p ∈ eff.values, p.1 ≠ o) : ∀ {l : List (String × Yaml)} {effs : List YamlEffect},
    List.Forall₂ (fun (kn : String × Yaml) eff => yamlEntry env kn.1 ((file.lookup kn.1).getD .undefined) = .ok (eff, false)) l effs → ∀ c : YamlConfig,
    ((∀ p ∈ l, p.1 ≠ key) → (effs.foldl YamlConfig.apply c).value o = c.value o) ∧
    (∀ eff, yamlEntry env key ((file.lookup key).getD .undefined) = .ok (eff, false) → (c.value o = (c.apply eff).value o ∨ ∃ p ∈ l, p.1 = key) →
      (effs.foldl YamlConfig.apply c).value o = (c.apply eff).value o) := by
  intro l effs h
  induction h with
  | nil => intro c; exact ⟨fun _ => rfl, fun eff _ h => h.resolve_right (by simp)⟩
  | @cons kn eff l effs h1 h2 ih =>
    intro c
    obtain ⟨k, n⟩ := kn
    simp only at h1
    have hother : k ≠ key → (c.apply eff).value o = c.value o := fun hk => foldl_other _ _ _ (hown k _ eff hk h1)
    constructor
    · intro h3
      rw [List.foldl_cons, (ih _).1 fun p hp => h3 p (List.mem_cons_of_mem _ hp), hother (h3 _ List.mem_cons_self)]
    · intro eff' he h3
      have happ : ∀ d : YamlConfig, (d.value o = c.value o ∨ d.value o = (c.apply eff').value o) → (d.apply eff').value o = (c.apply eff').value o := by
        intro d hd
        by_cases hs : ∃ p ∈ eff'.values, p.1 = o
        · exact foldl_value _ _ _ _ (.inr hs)
        · have hno : ∀ p ∈ eff'.values, p.1 ≠ o := fun p hp hpo => hs ⟨p, hp, hpo⟩
          have hc : (c.apply eff').value o = c.value o := foldl_other _ _ _ hno
          have hd' : (d.apply eff').value o = d.value o := foldl_other _ _ _ hno
          rw [hd', hc]
          rcases hd with hd | hd
          · exact hd
          · rw [hd, hc]
      rw [List.foldl_cons]
      by_cases hk : k = key
      · subst hk
        rw [h1] at he
        cases he
        have h5 : ((c.apply eff).apply eff).value o = (c.apply eff).value o := happ _ (.inr rfl)
        rw [(ih (c.apply eff)).2 eff h1 (.inl h5.symm), h5]
      · have hd := hother hk
        have h5 := happ (c.apply eff) (.inl hd)
        rw [(ih (c.apply eff)).2 eff' he ?_, h5]
        rcases h3 with h3 | ⟨p, hp, h3⟩
        · left; rw [h5, hd]; exact h3
        · right
          rcases List.mem_cons.1 hp with rfl | hp
          · exact absurd h3 hk
          · exact ⟨p, hp, h3⟩

theorem entry_owner {env : YamlEnv} {o k : String} {n : Yaml} {eff : YamlEffect} (hk : k ≠ if o ∈ thermostatOptions then "thermostat" else o)
    (h : yamlEntry env k n = .ok (eff, false)) : ∀ p ∈ eff.values, p.1 ≠ o := by
  rintro p hp rfl
  rcases entry_keys h p hp with h1 | ⟨h1, h2⟩
  · by_cases ht : p.1 ∈ thermostatOptions
    · have hl : yamlTable.lookup k = none := by
        rw [← h1]
        simp only [thermostatOptions, List.mem_cons, List.not_mem_nil, or_false] at ht
        rcases ht with ht | ht | ht | ht | ht <;> rw [ht] <;> simp [yamlTable, List.lookup]
      have hne : k ≠ "Sites" ∧ k ≠ "Molecules" ∧ k ≠ "Objects" ∧ k ≠ "thermostat" := by
        rw [← h1]
        simp only [thermostatOptions, List.mem_cons, List.not_mem_nil, or_false] at ht
        rcases ht with ht | ht | ht | ht | ht <;> rw [ht] <;> decide
      simp [yamlEntry, hl, hne] at h
    · rw [if_neg ht] at hk; exact hk h1.symm
  · rw [if_pos h2] at hk; exact hk h1

/-- Options whose key is not in the file keep their value; an option whose key is in the file has the value that this line alone would give it. The options of the
thermostat are below its key. -/
theorem C134_options {env : YamlEnv} {file : List (String × Yaml)} {c c' : YamlConfig} (h : parseYamlFile env file c = .ok (c', true)) {o key : String}
    (hkey : key = if o ∈ thermostatOptions then "thermostat" else o) :
    (file.lookup key = none → c'.value o = c.value o) ∧
    ∀ n, file.lookup key = some n → ∃ c₁, parseYamlFile env [(key, n)] c = .ok (c₁, true) ∧ c'.value o = c₁.value o := by
  obtain ⟨effs, h1, rfl⟩ := parse_ok h
  have hv := effects_value (o := o) (key := key) (fun k n eff hk he => entry_owner (hkey ▸ hk) he) h1 c
  refine ⟨fun hn => hv.1 (not_mem_of_lookup hn), fun n hn => ?_⟩
  have hm := mem_of_lookup hn
  have : ∃ eff, yamlEntry env key n = .ok (eff, false) := by
    have := List.forall₂_iff_get.1 h1
    obtain ⟨i, hi, hget⟩ := List.getElem_of_mem hm
    refine ⟨effs.get ⟨i, this.1 ▸ hi⟩, ?_⟩
    have h3 := this.2 i hi (this.1 ▸ hi)
    simp only [List.get_eq_getElem, hget, hn, Option.getD_some] at h3
    exact h3
  obtain ⟨eff, he⟩ := this
  refine ⟨_, parse_single he, ?_⟩
  exact hv.2 eff (by rw [hn]; exact he) (.inr ⟨_, hm, rfl⟩)

/-- A file is accepted if and only if each of its lines alone is accepted. -/
theorem C134_accepted {env : YamlEnv} {file : List (String × Yaml)} {c c' : YamlConfig} {b : Bool} (h : parseYamlFile env file c = .ok (c', b)) :
    b = true ↔ ∀ k n, file.lookup k = some n → ∃ c₁, parseYamlFile env [(k, n)] c = .ok (c₁, true) := by
  obtain ⟨⟨d, e⟩, h1, h2⟩ := outcome_bind_eq_ok h
  simp only [Outcome.ok.injEq, Prod.mk.injEq] at h2
  obtain ⟨rfl, rfl⟩ := h2
  rw [Bool.not_eq_true', yamlLoop_total h1]
  simp only [parse_single_iff, true_and]
  constructor
  · intro h2 k n hn
    have := h2 _ (mem_of_lookup hn)
    simpa [hn] using this
  · rintro h2 ⟨k, n⟩ hm
    obtain ⟨w, hw⟩ := lookup_some_of_mem hm
    simp only [hw, Option.getD_some]
    exact h2 k w hw

theorem table_keys : ∀ p ∈ yamlTable, p.1 ∈ fileKeys := by simp [yamlTable, fileKeys]

/-- Unknown keys are reported. -/
theorem C134_unknown {env : YamlEnv} {file : List (String × Yaml)} {c c' : YamlConfig} {b : Bool} (h : parseYamlFile env file c = .ok (c', b)) {k : String} {n : Yaml}
    (hk : k ∉ fileKeys) (hn : (k, n) ∈ file) : b = false := by
  cases hb : b with
  | false => rfl
  | true =>
    exfalso
    obtain ⟨w, hw⟩ := lookup_some_of_mem hn
    obtain ⟨eff, he⟩ := parse_single_iff.1 ((C134_accepted h).1 hb k w hw)
    have hl : yamlTable.lookup k = none := by
      cases hl : yamlTable.lookup k with
      | none => rfl
      | some kind => exact absurd (table_keys _ (mem_of_lookup hl)) hk
    have hne : k ≠ "Sites" ∧ k ≠ "Molecules" ∧ k ≠ "Objects" ∧ k ≠ "thermostat" := by
      refine ⟨?_, ?_, ?_, ?_⟩ <;> (rintro rfl; exact hk (by simp [fileKeys]))
    simp [yamlEntry, hl, hne] at he

/-! ### Values -/

theorem file_value {env : YamlEnv} {file : List (String × Yaml)} {c c' : YamlConfig} (h : parseYamlFile env file c = .ok (c', true)) {o : String} {kind : YamlKind}
    (hk : yamlTable.lookup o = some kind) (ho : o ∉ thermostatOptions) {n : Yaml} (hn : file.lookup o = some n) : yamlCase env o n kind = .ok (c'.value o, false) := by
  obtain ⟨c₁, h1, h2⟩ := (C134_options h (if_neg ho).symm).2 n hn
  obtain ⟨eff, he⟩ := parse_single_iff.1 ⟨c₁, h1⟩
  rw [parse_single he] at h1
  cases h1
  simp only [yamlEntry, hk] at he
  split at he
  · rename_i v bad hv
    cases he
    rw [hv, h2]
    simp [YamlConfig.apply]
  · cases he
  · cases he
  · cases he

theorem entry_of_case {env : YamlEnv} {o : String} {n : Yaml} {kind : YamlKind} {v : CliVal} (hk : yamlTable.lookup o = some kind) (hv : yamlCase env o n kind = .ok (v, false)) :
    yamlEntry env o n = .ok ({ values := [(o, v)], interactions := kind.interaction }, false) := by simp [yamlEntry, hk, hv]

theorem ofOption_ok {α : Type} {x : Option α} {a : α} (h : Outcome.ofOption x = .ok a) : x = some a := by cases x <;> cases h; rfl

theorem as_some {α : Type} {f : List Char → Option α} {n : Yaml} {a : α} (h : n.as f = some a) : ∃ t, n = .scalar t ∧ f t = some a := by
  cases n <;> first | exact ⟨_, rfl, h⟩ | cases h

theorem naturals_lookup : ∀ e ∈ fileNaturals, yamlTable.lookup e.1 = some (.signed e.2.1 e.2.2) ∧ e.1 ∉ thermostatOptions ∧ 1 ≤ e.2.1 ∧ e.2.2 ≤ 2 ∧ (e.2.1 = 32 ∨ e.2.1 = 64) := by
  simp [fileNaturals, yamlTable, List.lookup, thermostatOptions]

/-- Natural numbers are taken as written, and at least the documented minimum. Numbers outside of the range of the type are refused. Missing: negative numbers should be refused. -/
theorem C134_numbers_partial {env : YamlEnv} {file : List (String × Yaml)} {c c' : YamlConfig} (h : parseYamlFile env file c = .ok (c', true)) {o : String} {bits min : Nat}
    (ho : (o, bits, min) ∈ fileNaturals) {n : Yaml} (hn : file.lookup o = some n) :
    ∃ t i, n = .scalar t ∧ env.asInt t = some i ∧ (-(2 ^ (bits - 1) : Int) ≤ i ∧ i < 2 ^ (bits - 1)) ∧
      (0 ≤ i → c'.value o = .num i.toNat ∧ (min : Int) ≤ i) := by
  obtain ⟨hk, ht, hb, -, hbits⟩ := naturals_lookup _ ho
  have hv := file_value h hk ht hn
  obtain ⟨i, h1, h2⟩ := outcome_bind_eq_ok hv
  obtain ⟨t, rfl, h3⟩ := as_some (ofOption_ok h1)
  simp only [YamlEnv.asSigned, Option.filter_eq_some_iff, decide_eq_true_eq] at h3
  refine ⟨t, i, rfl, h3.1, h3.2, fun h0 => ?_⟩
  have hlt : i < 2 ^ bits := by rcases hbits with h | h <;> simp only at h <;> subst h <;> omega
  have hmod : i % 2 ^ bits = i := Int.emod_eq_of_lt h0 hlt
  simp only [hmod, Outcome.ok.injEq, Prod.mk.injEq, decide_eq_false_iff_not, Nat.not_lt] at h2
  exact ⟨h2.1.symm, by omega⟩

/-- Natural numbers in the range of the option are accepted. -/
theorem C134_numbers_accepted (env : YamlEnv) (c : YamlConfig) {o : String} {bits min : Nat} (ho : (o, bits, min) ∈ fileNaturals) {t : List Char} {k : Nat}
    (ht : env.asInt t = some (k : Int)) (hm : min ≤ k) (hk : k < 2 ^ (bits - 1)) : ∃ c', parseYamlFile env [(o, .scalar t)] c = .ok (c', true) ∧ c'.value o = .num k := by
  obtain ⟨hl, hth, hb, -, hbits⟩ := naturals_lookup _ ho
  have hlt : (k : Int) < 2 ^ (bits - 1) ∧ (k : Int) < 2 ^ bits := by
    simp only at hbits
    rcases hbits with h | h <;> subst h <;> omega
  have hs : env.asSigned bits t = some (k : Int) := by
    simp only [YamlEnv.asSigned, ht, Option.filter_some]
    rw [if_pos]
    simp only [decide_eq_true_eq]
    simp only at hbits
    rcases hbits with h | h <;> subst h <;> exact ⟨by omega, by omega⟩
  have hv : yamlCase env o (.scalar t) (.signed bits min) = .ok (.num k, false) := by
    simp only [yamlCase, Yaml.as, hs, Outcome.ofOption, Outcome.bind, Int.emod_eq_of_lt (Int.natCast_nonneg k) hlt.2, Int.toNat_natCast, Nat.not_lt.2 hm, decide_false]
  refine ⟨_, parse_single (entry_of_case hl hv), ?_⟩
  simp [YamlConfig.apply]

/-- Violated: every negative number of the type is accepted too, and becomes a huge one (e.g. a tuning interval of `-1`), although an error message for this case exists. -/
theorem C134_violated_negative (env : YamlEnv) (c : YamlConfig) {o : String} {bits min : Nat} (ho : (o, bits, min) ∈ fileNaturals) {t : List Char} {i : Int}
    (ht : env.asInt t = some i) (hneg : i < 0) (hr : -(2 ^ (bits - 1) : Int) ≤ i) :
    ∃ c', parseYamlFile env [(o, .scalar t)] c = .ok (c', true) ∧ c'.value o = .num (2 ^ bits + i).toNat ∧ (2 : Int) ^ (bits - 1) ≤ 2 ^ bits + i := by
  obtain ⟨hl, hth, hb, hmin, hbits⟩ := naturals_lookup _ ho
  simp only at hmin hbits hl
  have hs : env.asSigned bits t = some i := by
    simp only [YamlEnv.asSigned, ht, Option.filter_some]
    rw [if_pos]
    simp only [decide_eq_true_eq]
    rcases hbits with h | h <;> subst h <;> exact ⟨hr, by omega⟩
  have hmod : i % 2 ^ bits = 2 ^ bits + i := by rcases hbits with h | h <;> subst h <;> omega
  have hge : ¬ (2 ^ bits + i).toNat < min := by rcases hbits with h | h <;> subst h <;> omega
  have hv : yamlCase env o (.scalar t) (.signed bits min) = .ok (.num (2 ^ bits + i).toNat, false) := by
    simp only [yamlCase, Yaml.as, hs, Outcome.ofOption, Outcome.bind, hmod, hge, decide_false]
  refine ⟨_, parse_single (entry_of_case hl hv), by simp [YamlConfig.apply], ?_⟩
  rcases hbits with h | h <;> subst h <;> omega

/-- Counts that are read without sign. -/
theorem C134_counts {env : YamlEnv} {file : List (String × Yaml)} {c c' : YamlConfig} (h : parseYamlFile env file c = .ok (c', true)) {o : String} {min : Nat}
    (ho : (o, min) ∈ [("sorting-threshold", 0), ("vtk-write-frequency", 1)]) {n : Yaml} (hn : file.lookup o = some n) :
    ∃ t k, n = .scalar t ∧ env.asInt t = some (Int.ofNat k) ∧ min ≤ k ∧ c'.value o = .num k := by
  have hk : yamlTable.lookup o = some (.unsigned min) ∧ o ∉ thermostatOptions := by
    simp only [List.mem_cons, Prod.mk.injEq, List.not_mem_nil, or_false] at ho
    rcases ho with ⟨rfl, rfl⟩ | ⟨rfl, rfl⟩ <;> simp [yamlTable, List.lookup, thermostatOptions]
  obtain ⟨k, h1, h2⟩ := outcome_bind_eq_ok (file_value h hk.1 hk.2 hn)
  obtain ⟨t, rfl, h3⟩ := as_some (ofOption_ok h1)
  simp only [YamlEnv.asUnsigned, Option.map_eq_some_iff, Option.filter_eq_some_iff, decide_eq_true_eq] at h3
  obtain ⟨i, ⟨h3, h4⟩, h5⟩ := h3
  simp only [Outcome.ok.injEq, Prod.mk.injEq, decide_eq_false_iff_not, Nat.not_lt] at h2
  exact ⟨t, k, rfl, by rw [h3, ← h5]; simp [Int.toNat_of_nonneg h4.1], h2.2, h2.1.symm⟩

/-- Real numbers are in the documented range. -/
theorem C134_reals {env : YamlEnv} {file : List (String × Yaml)} {c c' : YamlConfig} (h : parseYamlFile env file c = .ok (c', true)) {o : String} {ok : Rat → Prop}
    (ho : (o, ok) ∈ fileReals) {n : Yaml} (hn : file.lookup o = some n) : ∃ t x, n = .scalar t ∧ env.asReal t = some x ∧ ok x ∧ c'.value o = .real x := by
  have hk : ∃ f : Rat → Bool, yamlTable.lookup o = some (.real f) ∧ (∀ x, f x = true → ok x) ∧ o ∉ thermostatOptions := by
    simp only [fileReals, List.mem_cons, Prod.mk.injEq, List.not_mem_nil, or_false] at ho
    rcases ho with ⟨rfl, rfl⟩ | ⟨rfl, rfl⟩ | ⟨rfl, rfl⟩ | ⟨rfl, rfl⟩ | ⟨rfl, rfl⟩ | ⟨rfl, rfl⟩ | ⟨rfl, rfl⟩ <;>
      exact ⟨_, by simp [yamlTable, List.lookup] <;> rfl, by simp, by simp [thermostatOptions]⟩
  obtain ⟨f, hk, hf, ht⟩ := hk
  obtain ⟨x, h1, h2⟩ := outcome_bind_eq_ok (file_value h hk ht hn)
  obtain ⟨t, rfl, h3⟩ := as_some (ofOption_ok h1)
  simp only [Outcome.ok.injEq, Prod.mk.injEq, Bool.not_eq_false'] at h2
  exact ⟨t, x, rfl, h3, hf x h2.2, h2.1.symm⟩

/-- Booleans. The option `no-end-config` is stored as the opposite (as on the command line, `C133_flags`). -/
theorem C134_bools {env : YamlEnv} {file : List (String × Yaml)} {c c' : YamlConfig} (h : parseYamlFile env file c = .ok (c', true)) {n : Yaml} :
    (∀ o ∈ fileBools, file.lookup o = some n → ∃ t b, n = .scalar t ∧ env.asBool t = some b ∧ c'.value o = .bool b) ∧
    (file.lookup "no-end-config" = some n → ∃ t b, n = .scalar t ∧ env.asBool t = some b ∧ c'.value "no-end-config" = .bool !b) := by
  constructor
  · intro o ho hn
    have hk : yamlTable.lookup o = some .bool ∧ o ∉ thermostatOptions := by
      simp only [fileBools, List.mem_cons, List.not_mem_nil, or_false] at ho
      rcases ho with rfl | rfl | rfl | rfl | rfl <;> simp [yamlTable, List.lookup, thermostatOptions]
    obtain ⟨b, h1, h2⟩ := outcome_bind_eq_ok (file_value h hk.1 hk.2 hn)
    obtain ⟨t, rfl, h3⟩ := as_some (ofOption_ok h1)
    simp only [Outcome.ok.injEq, Prod.mk.injEq, and_true] at h2
    exact ⟨t, b, rfl, h3, h2.symm⟩
  · intro hn
    obtain ⟨b, h1, h2⟩ := outcome_bind_eq_ok (file_value h (kind := .notBool) (by simp [yamlTable, List.lookup]) (by simp [thermostatOptions]) hn)
    obtain ⟨t, rfl, h3⟩ := as_some (ofOption_ok h1)
    simp only [Outcome.ok.injEq, Prod.mk.injEq, and_true] at h2
    exact ⟨t, b, rfl, h3, h2.symm⟩

theorem three_some {α β : Type} {f : Yaml → Option α} {mk : α → α → α → β} {n : Yaml} {v : β} (hf : f .undefined = none) (h : n.three f mk = some v) :
    ∃ a b c x y z rest, n = .seq (a :: b :: c :: rest) ∧ f a = some x ∧ f b = some y ∧ f c = some z ∧ v = mk x y z := by
  simp only [Yaml.three, Option.bind_eq_bind, Option.pure_def, Option.bind_eq_some_iff, Option.some.injEq] at h
  obtain ⟨x, hx, y, hy, z, hz, rfl⟩ := h
  cases n with
  | seq l =>
    cases l with
    | nil => simp [Yaml.at, hf] at hx
    | cons a l =>
      cases l with
      | nil => simp [Yaml.at, hf] at hy
      | cons b l =>
        cases l with
        | nil => simp [Yaml.at, hf] at hz
        | cons c l => exact ⟨a, b, c, x, y, z, l, rfl, by simpa [Yaml.at] using hx, by simpa [Yaml.at] using hy, by simpa [Yaml.at] using hz, rfl⟩
  | undefined => simp [Yaml.at, hf] at hx
  | null => simp [Yaml.at, hf] at hx
  | scalar t => simp [Yaml.at, hf] at hx
  | map l => simp [Yaml.at, hf] at hx

/-- Vectors and dimensions: component by component. -/
theorem C134_vectors {env : YamlEnv} {file : List (String × Yaml)} {c c' : YamlConfig} (h : parseYamlFile env file c = .ok (c', true)) {n : Yaml} :
    (∀ o ∈ fileVectors, file.lookup o = some n → ParamIs env n .real3 (c'.value o)) ∧
    (file.lookup "subdivide-dimension" = some n → ∃ a b d x y z rest, n = .seq (.scalar a :: .scalar b :: .scalar d :: rest) ∧ env.asBool a = some x ∧ env.asBool b = some y ∧
      env.asBool d = some z ∧ c'.value "subdivide-dimension" = .opts [x.toNat, y.toNat, z.toNat]) := by
  constructor
  · intro o ho hn
    have hk : yamlTable.lookup o = some .reals ∧ o ∉ thermostatOptions := by
      simp only [fileVectors, List.mem_cons, List.not_mem_nil, or_false] at ho
      rcases ho with rfl | rfl | rfl <;> simp [yamlTable, List.lookup, thermostatOptions]
    obtain ⟨v, h1, h2⟩ := outcome_bind_eq_ok (file_value h hk.1 hk.2 hn)
    obtain ⟨a, b, d, x, y, z, rest, rfl, ha, hb, hd, rfl⟩ := three_some rfl (ofOption_ok h1)
    obtain ⟨ta, rfl, ha⟩ := as_some ha
    obtain ⟨tb, rfl, hb⟩ := as_some hb
    obtain ⟨td, rfl, hd⟩ := as_some hd
    simp only [Outcome.ok.injEq, Prod.mk.injEq, and_true] at h2
    exact ⟨ta, tb, td, x, y, z, rest, rfl, ha, hb, hd, h2.symm⟩
  · intro hn
    obtain ⟨v, h1, h2⟩ := outcome_bind_eq_ok (file_value h (kind := .bools) (by simp [yamlTable, List.lookup]) (by simp [thermostatOptions]) hn)
    obtain ⟨a, b, d, x, y, z, rest, rfl, ha, hb, hd, rfl⟩ := three_some rfl (ofOption_ok h1)
    obtain ⟨ta, rfl, ha⟩ := as_some ha
    obtain ⟨tb, rfl, hb⟩ := as_some hb
    obtain ⟨td, rfl, hd⟩ := as_some hd
    simp only [Outcome.ok.injEq, Prod.mk.injEq, and_true] at h2
    exact ⟨ta, tb, td, x, y, z, rest, rfl, ha, hb, hd, h2.symm⟩

/-- Each boundary is the one named for its dimension. -/
theorem C134_boundaries {env : YamlEnv} {file : List (String × Yaml)} {c c' : YamlConfig} (h : parseYamlFile env file c = .ok (c', true)) {n : Yaml}
    (hn : file.lookup "boundary-type" = some n) :
    ∃ a b d tx ty tz x y z rest, n = .seq (a :: b :: d :: rest) ∧ a.asText = some tx ∧ b.asText = some ty ∧ d.asText = some tz ∧
      (x, tx) ∈ env.names "boundary-type" ∧ (y, ty) ∈ env.names "boundary-type" ∧ (z, tz) ∈ env.names "boundary-type" ∧ c'.value "boundary-type" = .opts [x, y, z] := by
  have hv := file_value h (o := "boundary-type") (kind := .boundaries) (by simp [yamlTable, List.lookup]) (by simp [thermostatOptions]) hn
  obtain ⟨r, h1, h2⟩ := outcome_bind_eq_ok hv
  obtain ⟨a, b, d, tx, ty, tz, rest, rfl, ha, hb, hd, rfl⟩ := three_some (mk := fun x y z => (x, y, z)) rfl (ofOption_ok h1)
  obtain ⟨x, hx, h2⟩ := outcome_bind_eq_ok h2
  obtain ⟨y, hy, h2⟩ := outcome_bind_eq_ok h2
  obtain ⟨z, hz, h2⟩ := outcome_bind_eq_ok h2
  simp only [Outcome.ok.injEq, Prod.mk.injEq, and_true] at h2
  exact ⟨a, b, d, tx, ty, tz, x, y, z, rest, rfl, ha, hb, hd, exact_some hx, exact_some hy, exact_some hz, h2.symm⟩

/-- The level of the log is the one whose name begins with the first letter in the file. -/
theorem C134_log_level {env : YamlEnv} {file : List (String × Yaml)} {c c' : YamlConfig} (h : parseYamlFile env file c = .ok (c', true)) {t : List Char}
    (hn : file.lookup "log-level" = some (.scalar t)) :
    ∃ l ∈ ["trace", "debug", "info", "warn", "err", "critical", "off"], c'.value "log-level" = .enum l ∧ (t.map Char.toLower).head? = l.toList.head? := by
  have hv := file_value h (o := "log-level") (kind := .logLevel) (by simp [yamlTable, List.lookup]) (by simp [thermostatOptions]) hn
  simp only [yamlCase, Yaml.asText, Outcome.ofOption, Outcome.bind] at hv
  obtain ⟨l, h1, h2⟩ := outcome_bind_eq_ok hv
  have hl := ofOption_ok h1
  simp only [Outcome.ok.injEq, Prod.mk.injEq, and_true] at h2
  refine ⟨l, ?_⟩
  rw [← h2]
  unfold logLevelOf at hl
  split at hl <;> first | (rename_i hh; cases hl; rw [hh]; exact ⟨by decide, rfl, by decide⟩) | cases hl

/-- Texts are taken as written, also upper case letters. Missing: a key without a value. -/
theorem C134_texts_partial {env : YamlEnv} {file : List (String × Yaml)} {c c' : YamlConfig} (h : parseYamlFile env file c = .ok (c', true)) {o : String} {e : Bool}
    (ho : (o, e) ∈ fileTexts) {t : List Char} (hn : file.lookup o = some (.scalar t)) : c'.value o = .text t ∧ (e = false → t ≠ []) := by
  have hk : yamlTable.lookup o = some (.text e) ∧ o ∉ thermostatOptions := by
    simp only [fileTexts, List.mem_cons, Prod.mk.injEq, List.not_mem_nil, or_false] at ho
    rcases ho with ⟨rfl, rfl⟩ | ⟨rfl, rfl⟩ | ⟨rfl, rfl⟩ | ⟨rfl, rfl⟩ | ⟨rfl, rfl⟩ | ⟨rfl, rfl⟩ | ⟨rfl, rfl⟩ <;> simp [yamlTable, List.lookup, thermostatOptions]
  have hv := file_value h hk.1 hk.2 hn
  simp only [yamlCase, Yaml.asText, Outcome.ofOption, Outcome.bind, Outcome.ok.injEq, Prod.mk.injEq, Bool.and_eq_false_iff, Bool.not_eq_false'] at hv
  refine ⟨hv.1.symm, ?_⟩
  rintro rfl rfl
  simp at hv

/-- Violated: a suffix, or a file name, that is left empty becomes the text `null`. -/
theorem C134_violated_suffix (env : YamlEnv) (c : YamlConfig) : ∀ e ∈ fileTexts,
    ∃ c', parseYamlFile env [(e.1, .null)] c = .ok (c', true) ∧ c'.value e.1 = .text "null".toList := by
  intro e he
  have hk : yamlTable.lookup e.1 = some (.text e.2) := by
    simp only [fileTexts, List.mem_cons, List.not_mem_nil, or_false] at he
    rcases he with rfl | rfl | rfl | rfl | rfl | rfl | rfl <;> simp [yamlTable, List.lookup]
  have hv : yamlCase env e.1 .null (.text e.2) = .ok (.text "null".toList, false) := by simp [yamlCase, Yaml.asText, Outcome.ofOption, Outcome.bind]
  exact ⟨_, parse_single (entry_of_case hk hv), by simp [YamlConfig.apply]⟩

/-! ### Names -/

theorem join_seq (env : YamlEnv) (l : List Yaml) : env.join (.seq l) = ((l.map env.emit).intersperse ", ".toList).flatten := rfl

/-- A list of names sets exactly these options. -/
theorem C134_sets {env : YamlEnv} {file : List (String × Yaml)} {c c' : YamlConfig} (h : parseYamlFile env file c = .ok (c', true)) {o : String} (ho : o ∈ setOptions)
    (hd : ((env.names o).map fun x => x.2.map Char.toLower).Nodup) {l : List Yaml} (hn : file.lookup o = some (.seq l))
    {chosen : List (Nat × List Char)} (hc : ∀ x ∈ chosen, x ∈ env.names o)
    (hs : (tokenize defaultDelim ((l.map env.emit).intersperse ", ".toList).flatten).map (List.map Char.toLower) = chosen.map fun x => x.2.map Char.toLower)
    (hall : tokenize defaultDelim ((l.map env.emit).intersperse ", ".toList).flatten ≠ ["all".toList]) : c'.value o = .opts (chosen.map Prod.fst) ∧ chosen ≠ [] := by
  have hk : yamlTable.lookup o = some .optionSet ∧ o ∉ thermostatOptions := by
    simp only [setOptions, List.mem_cons, List.not_mem_nil, or_false] at ho
    rcases ho with rfl | rfl | rfl | rfl | rfl | rfl | rfl | rfl <;> simp [yamlTable, List.lookup, thermostatOptions]
  have hv := file_value h hk.1 hk.2 hn
  rw [yamlCase, join_seq, C46_option_list _ hd _ chosen hc hs hall] at hv
  simp only [Outcome.bind, Outcome.ok.injEq, Prod.mk.injEq] at hv
  refine ⟨hv.1.symm, ?_⟩
  rintro rfl
  simp at hv

/-- One name, alone or in brackets, sets this option. -/
theorem C134_choices {env : YamlEnv} {file : List (String × Yaml)} {c c' : YamlConfig} (h : parseYamlFile env file c = .ok (c', true)) {o : String} (ho : o ∈ fileChoices)
    (hd : ((env.names o).map fun x => x.2.map Char.toLower).Nodup) {n : Yaml} {t : List Char}
    (hn : file.lookup o = some n) (ht : n = .scalar t ∨ n = .seq [.scalar t] ∧ env.emit (.scalar t) = t) {x : Nat × List Char} (hc : x ∈ env.names o)
    (hs : (tokenize defaultDelim t).map (List.map Char.toLower) = [x.2.map Char.toLower]) (hall : tokenize defaultDelim t ≠ ["all".toList]) : c'.value o = .opts [x.1] := by
  have hk : yamlTable.lookup o = some .oneOption ∧ o ∉ thermostatOptions := by
    simp only [fileChoices, List.mem_cons, List.not_mem_nil, or_false] at ho
    rcases ho with rfl | rfl | rfl | rfl | rfl <;> simp [yamlTable, List.lookup, thermostatOptions]
  have hv := file_value h hk.1 hk.2 hn
  have h1 : env.oneElement n = some t := by
    rcases ht with rfl | ⟨rfl, he⟩
    · rfl
    · simp [YamlEnv.oneElement, he]
  simp only [yamlCase, h1, Outcome.ofOption, Outcome.bind, C46_option_list _ hd _ [x] (by simpa using hc) (by simpa using hs) hall] at hv
  simp only [List.map_cons, List.map_nil, List.foldl_cons, List.foldl_nil, min_self, Outcome.ok.injEq, Prod.mk.injEq, and_true] at hv
  exact hv.symm

/-- A list with no or with several names for such an option is not accepted. -/
theorem C134_one {env : YamlEnv} {file : List (String × Yaml)} {c c' : YamlConfig} (h : parseYamlFile env file c = .ok (c', true)) {o : String} (ho : o ∈ fileChoices)
    {l : List Yaml} (hn : file.lookup o = some (.seq l)) : l.length = 1 := by
  have hk : yamlTable.lookup o = some .oneOption ∧ o ∉ thermostatOptions := by
    simp only [fileChoices, List.mem_cons, List.not_mem_nil, or_false] at ho
    rcases ho with rfl | rfl | rfl | rfl | rfl <;> simp [yamlTable, List.lookup, thermostatOptions]
  have hv := file_value h hk.1 hk.2 hn
  match l with
  | [] => simp [yamlCase, YamlEnv.oneElement, Outcome.ofOption, Outcome.bind] at hv
  | [_] => rfl
  | _ :: _ :: _ => simp [yamlCase, YamlEnv.oneElement, Outcome.ofOption, Outcome.bind] at hv

/-- The functor is found by a part of its name, in any case of the letters: `avx` before `sve` before the name of the potential. -/
theorem C134_functors {env : YamlEnv} {file : List (String × Yaml)} {c c' : YamlConfig} (h : parseYamlFile env file c = .ok (c', true)) {t : List Char} :
    (file.lookup "functor" = some (.scalar t) →
      ("avx".toList <:+: t.map Char.toLower → c'.value "functor" = .enum "lj12_6_AVX") ∧
      (¬ "avx".toList <:+: t.map Char.toLower → "sve".toList <:+: t.map Char.toLower → c'.value "functor" = .enum "lj12_6_SVE") ∧
      (¬ "avx".toList <:+: t.map Char.toLower → ¬ "sve".toList <:+: t.map Char.toLower →
        c'.value "functor" = .enum "lj12_6" ∧ ("lj".toList <:+: t.map Char.toLower ∨ "lennard-jones".toList <:+: t.map Char.toLower))) ∧
    (file.lookup "functor-3b" = some (.scalar t) →
      c'.value "functor-3b" = .enum "at" ∧ ("at".toList <:+: t.map Char.toLower ∨ "axilrod-teller".toList <:+: t.map Char.toLower)) := by
  refine ⟨fun hl => ?_, fun hl => ?_⟩
  · have hv := file_value h (o := "functor") (by simp [yamlTable, List.lookup]; rfl) (by simp [thermostatOptions]) hl
    simp only [← containsText_iff]
    simp only [yamlCase, Yaml.asText, Outcome.ofOption, Outcome.bind, List.find?_cons, List.any_cons, List.any_nil, Bool.or_false, List.find?_nil] at hv
    generalize containsText (t.map Char.toLower) "avx".toList = a at *
    generalize containsText (t.map Char.toLower) "sve".toList = b at *
    generalize containsText (t.map Char.toLower) "lj".toList = d at *
    generalize containsText (t.map Char.toLower) "lennard-jones".toList = e at *
    cases a <;> cases b <;> cases d <;> cases e <;> simp_all
  · have hv := file_value h (o := "functor-3b") (by simp [yamlTable, List.lookup]; rfl) (by simp [thermostatOptions]) hl
    simp only [← containsText_iff]
    simp only [yamlCase, Yaml.asText, Outcome.ofOption, Outcome.bind, List.find?_cons, List.any_cons, List.any_nil, Bool.or_false, List.find?_nil] at hv
    generalize containsText (t.map Char.toLower) "at".toList = a at *
    generalize containsText (t.map Char.toLower) "axilrod-teller".toList = b at *
    cases a <;> cases b <;> simp_all

/-- The cell sizes are the numbers of the list (or of the interval), at least one. -/
theorem C134_cell_size {env : YamlEnv} {file : List (String × Yaml)} {c c' : YamlConfig} (h : parseYamlFile env file c = .ok (c', true)) {l : List Yaml}
    (hn : file.lookup "cell-size" = some (.seq l)) :
    c'.value "cell-size" = .numbers (env.numberSet ((l.map env.emit).intersperse ", ".toList).flatten) ∧
      (env.numberSet ((l.map env.emit).intersperse ", ".toList).flatten).isEmpty = false := by
  have hv := file_value h (o := "cell-size") (kind := .numberSet) (by simp [yamlTable, List.lookup]) (by simp [thermostatOptions]) hn
  have hj : env.join (.seq l) = ((l.map env.emit).intersperse ", ".toList).flatten := rfl
  rw [yamlCase, hj] at hv
  simp only [Outcome.ok.injEq, Prod.mk.injEq] at hv
  exact ⟨hv.1.symm, hv.2⟩

/-- The documented names of the functors are understood, in any case of the letters. -/
theorem C134_names (env : YamlEnv) (c : YamlConfig) {t : List Char} : ∀ e ∈ namedValues, e.1 ≠ "particle-generator" → t.map Char.toLower = e.2.1.toList →
    ∃ c', parseYamlFile env [(e.1, .scalar t)] c = .ok (c', true) ∧ c'.value e.1 = .enum e.2.2 := by
  have key : ∀ e ∈ namedValues, e.1 ≠ "particle-generator" → ∃ tb i, yamlTable.lookup e.1 = some (.contains tb i) ∧
      (tb.find? fun x => x.1.any fun s => containsText e.2.1.toList s.toList).map Prod.snd = some e.2.2 := by
    simp only [namedValues, List.forall_mem_cons, List.not_mem_nil, false_implies, implies_true, and_true]
    refine ⟨?_, ?_, ?_, ?_, ?_, ?_, ?_, ?_, ?_, ?_⟩ <;> intro hne <;>
      first | exact absurd rfl hne | exact ⟨_, _, by simp [yamlTable, List.lookup]; exact ⟨rfl, rfl⟩, by decide +kernel⟩
  intro e he hne ht
  obtain ⟨tb, i, hk, hf⟩ := key e he hne
  have hv : yamlCase env e.1 (.scalar t) (.contains tb i) = .ok (.enum e.2.2, false) := by
    simp only [yamlCase, Yaml.asText, Outcome.ofOption, Outcome.bind, ht]
    cases hx : tb.find? fun x => x.1.any fun s => containsText e.2.1.toList s.toList with
    | none => rw [hx] at hf; cases hf
    | some x =>
      rw [hx, Option.map_some, Option.some.injEq] at hf
      simp only [hf]
  refine ⟨_, parse_single (entry_of_case hk hv), ?_⟩
  simp [YamlConfig.apply]

/-- The strategies of the tuner keep their order. Missing: a single strategy that is not in brackets. -/
theorem C134_strategies_partial {env : YamlEnv} {file : List (String × Yaml)} {c c' : YamlConfig} (h : parseYamlFile env file c = .ok (c', true))
    (hd : ((env.names "tuning-strategies").map fun x => x.2.map Char.toLower).Nodup) {l : List Yaml} (hn : file.lookup "tuning-strategies" = some (.seq l))
    {chosen : List (Nat × List Char)} (hc : ∀ x ∈ chosen, x ∈ env.names "tuning-strategies")
    (hs : (tokenize defaultDelim ((l.map env.emit).intersperse ", ".toList).flatten).map (List.map Char.toLower) = chosen.map fun x => x.2.map Char.toLower)
    (hall : tokenize defaultDelim ((l.map env.emit).intersperse ", ".toList).flatten ≠ ["all".toList]) : c'.value "tuning-strategies" = .opts (chosen.map Prod.fst) := by
  have hv := file_value h (kind := .optionList) (by simp [yamlTable, List.lookup]) (by simp [thermostatOptions]) hn
  rw [yamlCase, join_seq, C46_option_list _ hd _ chosen hc hs hall] at hv
  simp only [Outcome.bind, Outcome.ok.injEq, Prod.mk.injEq, and_true] at hv
  exact hv.symm

theorem parseOptions_nil (names : List (Nat × List Char)) : parseOptions names [] = .ok [] := by
  simp [parseOptions, tokenize, tokenizeFrom, Outcome.bind]

/-- Violated: a strategy that is not in brackets is accepted and ignored: there is no strategy, i.e. full search, whatever was written. -/
theorem C134_violated_strategies (env : YamlEnv) (c : YamlConfig) (t : List Char) :
    ∃ c', parseYamlFile env [("tuning-strategies", .scalar t)] c = .ok (c', true) ∧ c'.value "tuning-strategies" = .opts [] := by
  have hv : yamlCase env "tuning-strategies" (.scalar t) .optionList = .ok (.opts [], false) := by
    have : env.join (.scalar t) = [] := rfl
    simp [yamlCase, this, parseOptions_nil, Outcome.bind]
  exact ⟨_, parse_single (entry_of_case (by simp [yamlTable, List.lookup]) hv), by simp [YamlConfig.apply]⟩

/-- Violated: an empty text for an option that takes one name dereferences the end of an empty set. -/
theorem C134_violated_blank (env : YamlEnv) (c : YamlConfig) : ∀ o ∈ fileChoices, parseYamlFile env [(o, .scalar [])] c = .ub := by
  intro o ho
  have hk : yamlTable.lookup o = some .oneOption := by
    simp only [fileChoices, List.mem_cons, List.not_mem_nil, or_false] at ho
    rcases ho with rfl | rfl | rfl | rfl | rfl <;> simp [yamlTable, List.lookup]
  simp [parseYamlFile, yamlLoop, yamlEntry, hk, yamlCase, YamlEnv.oneElement, Yaml.asText, Outcome.ofOption, Outcome.bind, parseOptions_nil]

/-! ### Interaction types -/

theorem effects_interactions {env : YamlEnv} {file : List (String × Yaml)} : ∀ {l : List (String × Yaml)} {effs : List YamlEffect},
    List.Forall₂ (fun (kn : String × Yaml) eff => yamlEntry env kn.1 ((file.lookup kn.1).getD .undefined) = .ok (eff, false)) l effs → ∀ (c : YamlConfig) (i : String),
    i ∈ (effs.foldl YamlConfig.apply c).interactionTypes ↔ i ∈ c.interactionTypes ∨ ∃ eff ∈ effs, i ∈ eff.interactions := by
  intro l effs h
  induction h with
  | nil => intro c i; simp
  | cons h1 h2 ih =>
    intro c i
    rw [List.foldl_cons, ih]
    simp only [YamlConfig.apply, List.mem_append, List.mem_cons, exists_eq_or_imp]
    tauto

theorem entry_interactions {env : YamlEnv} {k : String} {n : Yaml} {eff : YamlEffect} (h : yamlEntry env k n = .ok (eff, false)) :
    eff.interactions = if k = "functor" then ["pairwise"] else if k = "functor-3b" then ["triwise"] else [] := by
  unfold yamlEntry at h
  split at h
  · rename_i kind hk
    split at h <;> cases h
    have hm := mem_of_lookup hk
    have key : ∀ p ∈ yamlTable, p.2.interaction = if p.1 = "functor" then ["pairwise"] else if p.1 = "functor-3b" then ["triwise"] else [] := by
      simp [yamlTable, YamlKind.interaction]
    exact key _ hm
  · rename_i hk
    have h1 : k ≠ "functor" := by rintro rfl; simp [yamlTable, List.lookup] at hk
    have h2 : k ≠ "functor-3b" := by rintro rfl; simp [yamlTable, List.lookup] at hk
    rw [if_neg h1, if_neg h2]
    split at h
    · cases h; rfl
    · split at h
      · cases h; rfl
      · split at h
        · simp only [Outcome.ok.injEq, Prod.mk.injEq] at h; rw [← h.1]
        · split at h
          · obtain ⟨r, -, h3⟩ := outcome_bind_eq_ok h
            simp only [Outcome.ok.injEq, Prod.mk.injEq] at h3; rw [← h3.1]
          · cases h

/-- A functor in the file adds its interaction type, and nothing else does. -/
theorem C134_interactions {env : YamlEnv} {file : List (String × Yaml)} {c c' : YamlConfig} (h : parseYamlFile env file c = .ok (c', true)) (i : String) :
    i ∈ c'.interactionTypes ↔ i ∈ c.interactionTypes ∨ (i = "pairwise" ∧ ∃ n, ("functor", n) ∈ file) ∨ (i = "triwise" ∧ ∃ n, ("functor-3b", n) ∈ file) := by
  obtain ⟨effs, h1, rfl⟩ := parse_ok h
  rw [effects_interactions h1]
  apply or_congr_right
  have hg := List.forall₂_iff_get.1 h1
  constructor
  · rintro ⟨eff, he, hi⟩
    obtain ⟨j, hj, rfl⟩ := List.getElem_of_mem he
    have h3 := entry_interactions (hg.2 j (hg.1 ▸ hj) hj)
    simp only [List.get_eq_getElem] at h3
    rw [h3] at hi
    have hm : file[j]'(hg.1 ▸ hj) ∈ file := List.getElem_mem _
    split at hi
    · rename_i hk; left; exact ⟨by simpa using hi, _, by rw [← hk]; exact hm⟩
    · split at hi
      · rename_i hk; right; exact ⟨by simpa using hi, _, by rw [← hk]; exact hm⟩
      · simp at hi
  · rintro (⟨rfl, n, hn⟩ | ⟨rfl, n, hn⟩)
    · obtain ⟨j, hj, hjn⟩ := List.getElem_of_mem hn
      have h3 := entry_interactions (hg.2 j hj (hg.1 ▸ hj))
      simp only [List.get_eq_getElem, hjn, if_true] at h3
      exact ⟨_, List.getElem_mem (hg.1 ▸ hj), by rw [h3]; simp⟩
    · obtain ⟨j, hj, hjn⟩ := List.getElem_of_mem hn
      have h3 := entry_interactions (hg.2 j hj (hg.1 ▸ hj))
      simp only [List.get_eq_getElem, hjn] at h3
      exact ⟨_, List.getElem_mem (hg.1 ▸ hj), by rw [h3]; simp⟩

/-! ### Sites, objects, thermostat -/

theorem effects_other {env : YamlEnv} {file : List (String × Yaml)} {α : Type} (get : YamlConfig → α) (eget : YamlEffect → Option α)
    (happ : ∀ c e, get (c.apply e) = (eget e).getD (get c)) {key : String} (hother : ∀ k n eff, k ≠ key → yamlEntry env k n = .ok (eff, false) → eget eff = none)
    {v : α} {n : Yaml} (hn : file.lookup key = some n) (hkey : ∀ eff, yamlEntry env key n = .ok (eff, false) → eget eff = some v) :
    ∀ {l : List (String × Yaml)} {effs : List YamlEffect},
    List.Forall₂ (fun (kn : String × Yaml) eff => yamlEntry env kn.1 ((file.lookup kn.1).getD .undefined) = .ok (eff, false)) l effs → ∀ c : YamlConfig,
    (get c = v ∨ ∃ p ∈ l, p.1 = key) → get (effs.foldl YamlConfig.apply c) = v := by
  intro l effs h
  induction h with
  | nil => intro c h; exact h.resolve_right (by simp)
  | @cons kn eff l effs h1 h2 ih =>
    intro c h
    obtain ⟨k, m⟩ := kn
    rw [List.foldl_cons]
    apply ih
    rw [happ]
    by_cases hk : k = key
    · subst hk
      left
      simp only [hn, Option.getD_some] at h1
      rw [hkey eff h1]; rfl
    · rw [hother k _ eff hk h1]
      rcases h with h | ⟨p, hp, h⟩
      · exact .inl h
      · right
        rcases List.mem_cons.1 hp with rfl | hp
        · exact absurd h hk
        · exact ⟨p, hp, h⟩

theorem entry_sites {env : YamlEnv} {k : String} {n : Yaml} {eff : YamlEffect} {b : Bool} (h : yamlEntry env k n = .ok (eff, b)) :
    eff.sites = (if k = "Sites" then some (yamlSites env n) else none) ∧ eff.objects = if k = "Objects" then some (yamlObjects env n).1 else none := by
  unfold yamlEntry at h
  split at h
  · rename_i kind hk
    have h1 : k ≠ "Sites" := by rintro rfl; simp [yamlTable, List.lookup] at hk
    have h2 : k ≠ "Objects" := by rintro rfl; simp [yamlTable, List.lookup] at hk
    rw [if_neg h1, if_neg h2]
    split at h <;> first | (simp only [Outcome.ok.injEq, Prod.mk.injEq] at h; rw [← h.1]; exact ⟨rfl, rfl⟩) | cases h
  · split at h
    · rename_i hk; simp only [Outcome.ok.injEq, Prod.mk.injEq] at h; rw [← h.1, hk]; simp
    · rename_i h1
      rw [if_neg h1]
      split at h
      · rename_i hk; simp only [Outcome.ok.injEq, Prod.mk.injEq] at h; rw [← h.1, hk]; simp
      · split at h
        · rename_i hk; simp only [Outcome.ok.injEq, Prod.mk.injEq] at h; rw [← h.1, hk]; simp
        · rename_i h2
          rw [if_neg h2]
          split at h
          · obtain ⟨r, -, h3⟩ := outcome_bind_eq_ok h
            simp only [Outcome.ok.injEq, Prod.mk.injEq] at h3; rw [← h3.1]; exact ⟨rfl, rfl⟩
          · simp only [Outcome.ok.injEq, Prod.mk.injEq] at h; rw [← h.1]; exact ⟨rfl, rfl⟩

theorem file_sites {env : YamlEnv} {file : List (String × Yaml)} {c c' : YamlConfig} (h : parseYamlFile env file c = .ok (c', true)) {n : Yaml}
    (hn : file.lookup "Sites" = some n) : c'.sites = yamlSites env n := by
  obtain ⟨effs, h1, rfl⟩ := parse_ok h
  exact effects_other (key := "Sites") YamlConfig.sites YamlEffect.sites (fun _ _ => rfl)
    (fun k n eff hk he => by rw [(entry_sites he).1, if_neg hk]) hn (fun eff he => by rw [(entry_sites he).1]; simp) h1 c (.inr ⟨_, mem_of_lookup hn, rfl⟩)

theorem file_objects {env : YamlEnv} {file : List (String × Yaml)} {c c' : YamlConfig} (h : parseYamlFile env file c = .ok (c', true)) {n : Yaml}
    (hn : file.lookup "Objects" = some n) : c'.objects = (yamlObjects env n).1 ∧ (yamlObjects env n).2 = false := by
  constructor
  · obtain ⟨effs, h1, rfl⟩ := parse_ok h
    exact effects_other (key := "Objects") YamlConfig.objects YamlEffect.objects (fun _ _ => rfl)
      (fun k n eff hk he => by rw [(entry_sites he).2, if_neg hk]) hn (fun eff he => by rw [(entry_sites he).2]; simp) h1 c (.inr ⟨_, mem_of_lookup hn, rfl⟩)
  · obtain ⟨eff, he⟩ := parse_single_iff.1 ((C134_accepted h).1 rfl _ _ hn)
    have hl : yamlTable.lookup "Objects" = none := by simp [yamlTable, List.lookup]
    simp only [yamlEntry, hl] at he
    simp only [String.reduceEq, if_false, if_true, Outcome.ok.injEq, Prod.mk.injEq] at he
    exact he.2

/-- A site as it is described in a file: its mass, and zero for the parameters that are not given. -/
structure SiteIs (env : YamlEnv) (l : List (String × Yaml)) (s : YamlSite) : Prop where
  mass : ∃ t x, l.lookup "mass" = some (.scalar t) ∧ env.asReal t = some x ∧ s.mass = some x
  epsilon : ∀ t x, l.lookup "epsilon" = some (.scalar t) → env.asReal t = some x → s.epsilon = x
  sigma : ∀ t x, l.lookup "sigma" = some (.scalar t) → env.asReal t = some x → s.sigma = x
  nu : ∀ t x, l.lookup "nu" = some (.scalar t) → env.asReal t = some x → s.nu = x
  zero : (l.lookup "epsilon" = none → s.epsilon = 0) ∧ (l.lookup "sigma" = none → s.sigma = 0) ∧ (l.lookup "nu" = none → s.nu = 0)

/-- The sites of the file replace all others, in the order of the file, if all have a mass. Missing: files where a site has no mass, or sites are not in the order of
their numbers. -/
theorem C134_sites_partial {env : YamlEnv} {file : List (String × Yaml)} {c c' : YamlConfig} (h : parseYamlFile env file c = .ok (c', true))
    {l : List (String × List (String × Yaml))} (hn : file.lookup "Sites" = some (.map (l.map fun e => (e.1, .map e.2))))
    (hm : ∀ e ∈ l, ∃ t x, e.2.lookup "mass" = some (.scalar t) ∧ env.asReal t = some x) : List.Forall₂ (fun e s => SiteIs env e.2 s) l c'.sites := by
  rw [file_sites h hn]
  simp only [yamlSites, Yaml.entries, List.map_map, Function.comp_def]
  rw [List.forall₂_map_right_iff]
  apply List.forall₂_same.2
  intro e he
  obtain ⟨t, x, h1, h2⟩ := hm e he
  refine ⟨⟨t, x, h1, h2, ?_⟩, ?_, ?_, ?_, ?_, ?_, ?_⟩
  · simp [yamlSite, Yaml.get, h1, Yaml.as, h2]
  · intro t x h3 h4; simp [yamlSite, Yaml.get, h3, Yaml.as, h4]
  · intro t x h3 h4; simp [yamlSite, Yaml.get, h3, Yaml.as, h4]
  · intro t x h3 h4; simp [yamlSite, Yaml.get, h3, Yaml.as, h4]
  · intro h3; simp [yamlSite, Yaml.get, h3, Yaml.as]
  · intro h3; simp [yamlSite, Yaml.get, h3, Yaml.as]
  · intro h3; simp [yamlSite, Yaml.get, h3, Yaml.as]

/-- Violated: a site without a mass is accepted, and its mass is not initialised: the errors of sites are collected, but never reported. -/
theorem C134_violated_mass (env : YamlEnv) (c : YamlConfig) :
    ∃ c', parseYamlFile env [("Sites", .map [("0", .map [])])] c = .ok (c', true) ∧ c'.sites = [⟨none, 0, 0, 0⟩] := by
  have he : yamlEntry env "Sites" (.map [("0", .map [])]) = .ok ({ sites := some [⟨none, 0, 0, 0⟩] }, false) := by
    have hl : yamlTable.lookup "Sites" = none := by simp [yamlTable, List.lookup]
    simp [yamlEntry, hl, yamlSites, Yaml.entries, yamlSite, Yaml.get, Yaml.as, List.lookup]
  exact ⟨_, parse_single he, rfl⟩

/-- Violated: sites are numbered by their position; the numbers in the file are ignored. -/
theorem C134_violated_site_ids (env : YamlEnv) (c : YamlConfig) {t u : List Char} {x y : Rat} (ht : env.asReal t = some x) (hu : env.asReal u = some y) :
    ∃ c', parseYamlFile env [("Sites", .map [("1", .map [("mass", .scalar t)]), ("0", .map [("mass", .scalar u)])])] c = .ok (c', true) ∧
      c'.sites = [⟨some x, 0, 0, 0⟩, ⟨some y, 0, 0, 0⟩] := by
  have he : yamlEntry env "Sites" (.map [("1", .map [("mass", .scalar t)]), ("0", .map [("mass", .scalar u)])]) =
      .ok ({ sites := some [⟨some x, 0, 0, 0⟩, ⟨some y, 0, 0, 0⟩] }, false) := by
    have hl : yamlTable.lookup "Sites" = none := by simp [yamlTable, List.lookup]
    simp [yamlEntry, hl, yamlSites, Yaml.entries, yamlSite, Yaml.get, Yaml.as, List.lookup, ht, hu]
  exact ⟨_, parse_single he, rfl⟩

theorem unsigned_some {env : YamlEnv} {n : Yaml} {k : Nat} (h : n.as env.asUnsigned = some k) : ∃ t, n = .scalar t ∧ env.asInt t = some (k : Int) := by
  obtain ⟨t, ht, h1⟩ := as_some h
  simp only [YamlEnv.asUnsigned, Option.map_eq_some_iff, Option.filter_eq_some_iff, decide_eq_true_eq] at h1
  obtain ⟨i, ⟨h3, h4⟩, h5⟩ := h1
  exact ⟨t, ht, by rw [h3, ← h5, Int.toNat_of_nonneg h4.1]⟩

theorem param_is {env : YamlEnv} {n : Yaml} {p : YamlParam} {v : CliVal} (h : yamlParam env n p = some v) : ParamIs env n p v := by
  cases p with
  | real =>
    simp only [yamlParam, Option.map_eq_some_iff] at h
    obtain ⟨x, h, rfl⟩ := h
    obtain ⟨t, ht, h1⟩ := as_some h
    exact ⟨t, x, ht, h1, rfl⟩
  | natural =>
    simp only [yamlParam, Option.map_eq_some_iff] at h
    obtain ⟨x, h, rfl⟩ := h
    obtain ⟨t, ht, h1⟩ := unsigned_some h
    exact ⟨t, x, ht, h1, rfl⟩
  | real3 =>
    obtain ⟨a, b, d, x, y, z, rest, rfl, ha, hb, hd, rfl⟩ := three_some rfl h
    obtain ⟨ta, rfl, ha⟩ := as_some ha
    obtain ⟨tb, rfl, hb⟩ := as_some hb
    obtain ⟨td, rfl, hd⟩ := as_some hd
    exact ⟨ta, tb, td, x, y, z, rest, rfl, ha, hb, hd, rfl⟩
  | natural3 =>
    obtain ⟨a, b, d, x, y, z, rest, rfl, ha, hb, hd, rfl⟩ := three_some rfl h
    obtain ⟨ta, rfl, ha'⟩ := unsigned_some ha
    obtain ⟨tb, rfl, hb'⟩ := unsigned_some hb
    obtain ⟨td, rfl, hd'⟩ := unsigned_some hd
    exact ⟨ta, tb, td, x, y, z, rest, rfl, ha', hb', hd', rfl⟩

/-- Exactly the objects of the file are created, in its order, each with all the parameters of its generator, and these have the values in the file. -/
theorem C134_objects {env : YamlEnv} {file : List (String × Yaml)} {c c' : YamlConfig} (h : parseYamlFile env file c = .ok (c', true)) {l : List (String × Yaml)}
    (hn : file.lookup "Objects" = some (.map l)) :
    List.Forall₂ (fun (gn : String × Yaml) (obj : String × List (Option CliVal)) => obj.1 = gn.1 ∧ ∃ params, objectParams.lookup gn.1 = some params ∧
      List.Forall₂ (fun (p : String × YamlParam) v => ∃ w, v = some w ∧ ParamIs env (gn.2.get p.1) p.2 w) params obj.2) (listedObjects l) c'.objects := by
  obtain ⟨h1, h2⟩ := file_objects h hn
  have hg : objectParams = yamlGenerators := rfl
  rw [h1]
  simp only [yamlObjects, List.any_eq_false] at h2 ⊢
  clear h h1 hn
  induction l with
  | nil => exact .nil
  | cons e l ih =>
    simp only [listedObjects, List.flatMap_cons] at ih ⊢
    refine List.rel_append ?_ (ih fun e he => h2 e (List.mem_cons_of_mem _ he))
    have h3 := h2 e List.mem_cons_self
    simp only [yamlGenerator] at h3 ⊢
    split
    · rename_i params hp
      simp only [hp, Bool.not_eq_true, List.any_eq_false] at h3
      rw [List.forall₂_map_left_iff, List.forall₂_map_right_iff]
      apply List.forall₂_same.2
      intro n hn
      refine ⟨rfl, params, by rw [hg]; exact hp, ?_⟩
      simp only [yamlObject]
      rw [List.forall₂_map_right_iff]
      apply List.forall₂_same.2
      intro p hpm
      have h4 := h3 n hn
      simp only [yamlObject, Bool.not_eq_true, List.any_eq_false] at h4
      have h5 := h4 _ (List.mem_map_of_mem hpm)
      cases hv : yamlParam env (n.get p.1) p.2 with
      | none => rw [hv] at h5; simp at h5
      | some v => exact ⟨v, rfl, param_is hv⟩
    · rename_i hp
      simp only [hp] at h3
      exact absurd trivial h3

theorem thermostatLoop_ok {env : YamlEnv} {n : Yaml} : ∀ {ps : List (String × YamlKind)} {vs : List (String × CliVal)}, yamlThermostatLoop env n ps = .ok (vs, false) →
    List.Forall₂ (fun (p : String × YamlKind) (v : String × CliVal) => v.1 = p.1 ∧ yamlCase env p.1 (n.get p.1) p.2 = .ok (v.2, false)) ps vs := by
  intro ps
  induction ps with
  | nil => intro vs h; cases h; exact .nil
  | cons p ps ih =>
    intro vs h
    obtain ⟨p, kind⟩ := p
    simp only [yamlThermostatLoop] at h
    split at h
    · cases h
    · split at h
      · rename_i v bad hv
        obtain ⟨r, h1, h2⟩ := outcome_bind_eq_ok h
        simp only [Outcome.ok.injEq, Prod.mk.injEq, Bool.or_eq_false_iff] at h2
        obtain ⟨rfl, rfl, h3⟩ := h2
        obtain ⟨r1, r2⟩ := r
        simp only at h3
        subst h3
        exact .cons ⟨rfl, hv⟩ (ih h1)
      · obtain ⟨r, h1, h2⟩ := outcome_bind_eq_ok h
        simp at h2
      · cases h
      · cases h

theorem thermostat_line {env : YamlEnv} {n : Yaml} {c c' : YamlConfig} (h : parseYamlFile env [("thermostat", n)] c = .ok (c', true)) :
    c'.value "thermostat" = .bool true ∧
    (∀ o ∈ ["initialTemperature", "targetTemperature", "deltaTemperature"], ∃ t x, n.get o = .scalar t ∧ env.asReal t = some x ∧ c'.value o = .real x) ∧
    (∃ t k, n.get "thermostatInterval" = .scalar t ∧ env.asInt t = some (Int.ofNat k) ∧ 1 ≤ k ∧ c'.value "thermostatInterval" = .num k) ∧
    (∃ t b, n.get "addBrownianMotion" = .scalar t ∧ env.asBool t = some b ∧ c'.value "addBrownianMotion" = .bool b) := by
  obtain ⟨eff, he⟩ := parse_single_iff.1 ⟨c', h⟩
  rw [parse_single he] at h
  cases h
  have hl : yamlTable.lookup "thermostat" = none := by simp [yamlTable, List.lookup]
  simp only [yamlEntry, hl] at he
  simp only [String.reduceEq, if_false, if_true] at he
  obtain ⟨⟨vs, b⟩, h1, h2⟩ := outcome_bind_eq_ok he
  simp only [Outcome.ok.injEq, Prod.mk.injEq] at h2
  obtain ⟨rfl, rfl⟩ := h2
  have h3 := thermostatLoop_ok h1
  simp only [yamlThermostat] at h3
  obtain _ | @⟨_, v1, _, _, ⟨e1, g1⟩, h3⟩ := h3
  obtain _ | @⟨_, v2, _, _, ⟨e2, g2⟩, h3⟩ := h3
  obtain _ | @⟨_, v3, _, _, ⟨e3, g3⟩, h3⟩ := h3
  obtain _ | @⟨_, v4, _, _, ⟨e4, g4⟩, h3⟩ := h3
  obtain _ | @⟨_, v5, _, _, ⟨e5, g5⟩, h3⟩ := h3
  cases h3
  obtain ⟨n1, v1⟩ := v1
  obtain ⟨n2, v2⟩ := v2
  obtain ⟨n3, v3⟩ := v3
  obtain ⟨n4, v4⟩ := v4
  obtain ⟨n5, v5⟩ := v5
  simp only at e1 e2 e3 e4 e5 g1 g2 g3 g4 g5
  subst e1 e2 e3 e4 e5
  have real : ∀ o v, yamlCase env o (n.get o) (.real fun _ => true) = .ok (v, false) → ∃ t x, n.get o = .scalar t ∧ env.asReal t = some x ∧ v = .real x := by
    intro o v g
    obtain ⟨x, k1, k2⟩ := outcome_bind_eq_ok g
    obtain ⟨t, k3, k4⟩ := as_some (ofOption_ok k1)
    simp only [Outcome.ok.injEq, Prod.mk.injEq] at k2
    exact ⟨t, x, k3, k4, k2.1.symm⟩
  refine ⟨by simp [YamlConfig.apply], ?_, ?_, ?_⟩
  · intro o ho
    simp only [List.mem_cons, List.not_mem_nil, or_false] at ho
    rcases ho with rfl | rfl | rfl
    · obtain ⟨t, x, k1, k2, rfl⟩ := real _ _ g1; exact ⟨t, x, k1, k2, by simp [YamlConfig.apply]⟩
    · obtain ⟨t, x, k1, k2, rfl⟩ := real _ _ g3; exact ⟨t, x, k1, k2, by simp [YamlConfig.apply]⟩
    · obtain ⟨t, x, k1, k2, rfl⟩ := real _ _ g4; exact ⟨t, x, k1, k2, by simp [YamlConfig.apply]⟩
  · obtain ⟨k, k1, k2⟩ := outcome_bind_eq_ok g2
    obtain ⟨t, k3, k4⟩ := unsigned_some (ofOption_ok k1)
    simp only [Outcome.ok.injEq, Prod.mk.injEq, decide_eq_false_iff_not, Nat.not_lt] at k2
    exact ⟨t, k, k3, k4, k2.2, by simp [YamlConfig.apply, ← k2.1]⟩
  · obtain ⟨b, k1, k2⟩ := outcome_bind_eq_ok g5
    obtain ⟨t, k3, k4⟩ := as_some (ofOption_ok k1)
    simp only [Outcome.ok.injEq, Prod.mk.injEq, and_true] at k2
    exact ⟨t, b, k3, k4, by simp [YamlConfig.apply, ← k2]⟩

/-- The thermostat of a file is switched on, and needs all its parameters. -/
theorem C134_thermostat {env : YamlEnv} {file : List (String × Yaml)} {n : Yaml} {c c' : YamlConfig} (h : parseYamlFile env file c = .ok (c', true))
    (hn : file.lookup "thermostat" = some n) :
    c'.value "thermostat" = .bool true ∧
    (∀ o ∈ ["initialTemperature", "targetTemperature", "deltaTemperature"], ∃ t x, n.get o = .scalar t ∧ env.asReal t = some x ∧ c'.value o = .real x) ∧
    (∃ t k, n.get "thermostatInterval" = .scalar t ∧ env.asInt t = some (Int.ofNat k) ∧ 1 ≤ k ∧ c'.value "thermostatInterval" = .num k) ∧
    (∃ t b, n.get "addBrownianMotion" = .scalar t ∧ env.asBool t = some b ∧ c'.value "addBrownianMotion" = .bool b) := by
  have key : ∀ o, o ∈ "thermostat" :: thermostatOptions → ∃ c₁, parseYamlFile env [("thermostat", n)] c = .ok (c₁, true) ∧ c'.value o = c₁.value o := by
    intro o ho
    refine (C134_options h ?_).2 n hn
    simp only [thermostatOptions, List.mem_cons, List.not_mem_nil, or_false] at ho
    rcases ho with rfl | rfl | rfl | rfl | rfl | rfl <;> simp [thermostatOptions]
  obtain ⟨c₁, h1, h2⟩ := key "thermostat" (by simp)
  have hall : ∀ o ∈ "thermostat" :: thermostatOptions, c'.value o = c₁.value o := by
    intro o ho
    obtain ⟨c₂, h3, h4⟩ := key o ho
    rw [h1] at h3; cases h3
    exact h4
  have ht := thermostat_line h1
  refine ⟨h2.trans ht.1, fun o ho => ?_, ?_, ?_⟩
  · obtain ⟨t, x, k1, k2, k3⟩ := ht.2.1 o ho
    refine ⟨t, x, k1, k2, (hall o ?_).trans k3⟩
    simp only [List.mem_cons, List.not_mem_nil, or_false] at ho
    rcases ho with rfl | rfl | rfl <;> simp [thermostatOptions]
  · rw [hall "thermostatInterval" (by simp [thermostatOptions])]; exact ht.2.2.1
  · rw [hall "addBrownianMotion" (by simp [thermostatOptions])]; exact ht.2.2.2

/-! ### A concrete file -/

/-- Numbers as in C++, for the example. -/
def exampleYamlEnv : YamlEnv where
  stod := fun _ => none
  numberSet := fun _ => []
  names := fun _ => [(0, "linkedCells".toList), (1, "directSum".toList)]
  fileExists := fun _ => false
  asReal := fun t => (stoul t).map fun (n : Nat) => (n : Rat)
  asInt := fun t => if t = "-1".toList then some (-1) else (stoul t).map fun (n : Nat) => (n : Int)
  asBool := fun t => if t = "true".toList then some true else if t = "false".toList then some false else none
  emit := fun n => match n with | .scalar t => t | _ => []

/-- Defaults for the example. -/
def exampleYamlConfig : YamlConfig := ⟨fun _ => .num 7, [], [], []⟩

/-- A file with a vector, a number, a functor, a site, an object. -/
def exampleYamlFile : List (String × Yaml) :=
  let v (a b c : String) : Yaml := .seq [.scalar a.toList, .scalar b.toList, .scalar c.toList]
  [ ("cutoff", .scalar "3".toList), ("box-max", v "1" "2" "3"), ("iterations", .scalar "100".toList), ("functor", .scalar "Lennard-Jones-AVX".toList),
    ("no-end-config", .scalar "true".toList), ("Sites", .map [("0", .map [("mass", .scalar "1".toList), ("epsilon", .scalar "5".toList)])]),
    ("Objects", .map [("Sphere", .map [("0", .map [("velocity", v "0" "0" "0"), ("particle-type-id", .scalar "0".toList), ("center", v "5" "5" "5"),
      ("radius", .scalar "2".toList), ("particle-spacing", .scalar "1".toList)])])]),
    ("thermostat", .map [("initialTemperature", .scalar "1".toList), ("targetTemperature", .scalar "2".toList), ("deltaTemperature", .scalar "3".toList),
      ("thermostatInterval", .scalar "4".toList), ("addBrownianMotion", .scalar "true".toList)]) ]

/-- It is accepted, and unknown keys and bad values are not. -/
example : (match parseYamlFile exampleYamlEnv exampleYamlFile exampleYamlConfig with
    | .ok (c, b) => b && c.value "cutoff" == .real 3 && c.value "box-max" == .reals 1 2 3 && c.value "iterations" == .num 100 && c.value "functor" == .enum "lj12_6_AVX" &&
        c.value "no-end-config" == .bool false && c.value "deltaT" == .num 7 && c.sites == [⟨some 1, 5, 0, 0⟩] && c.interactionTypes == ["pairwise"] &&
        c.objects == [("Sphere", [some (.reals 0 0 0), some (.num 0), some (.reals 5 5 5), some (.real 2), some (.real 1)])] &&
        c.value "thermostat" == .bool true && c.value "thermostatInterval" == .num 4
    | _ => false) = true := by decide +kernel

example : (match parseYamlFile exampleYamlEnv [("cutoff", .scalar "0".toList)] exampleYamlConfig with | .ok (_, b) => b | _ => true) = false := by decide +kernel
example : (match parseYamlFile exampleYamlEnv [("cut-off", .scalar "1".toList)] exampleYamlConfig with | .ok (_, b) => b | _ => true) = false := by decide +kernel
example : (match parseYamlFile exampleYamlEnv [("container", .seq [.scalar "DirectSum".toList, .scalar "LinkedCells".toList])] exampleYamlConfig with
    | .ok (c, b) => b && c.value "container" == .opts [1, 0] | _ => false) = true := by decide +kernel
example : (match parseYamlFile exampleYamlEnv [("tuning-interval", .scalar "-1".toList)] exampleYamlConfig with
    | .ok (c, b) => b && c.value "tuning-interval" == .num 4294967295 | _ => false) = true := by decide +kernel

end Verif
