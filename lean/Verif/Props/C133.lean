import Verif.Spec.CliParser
import Verif.Props.C46
/-!
C133: the command line of md-flexible overrides the input file option by option: the last argument of an option is its value, options that are not given keep the value
of the file; success is reported exactly if every argument was understood; numbers, names and texts are taken as typed.

Violated: `C133_violated_loess`, `C133_violated_texts`, `C133_violated_numbers`, `C133_violated_interval`, `C133_violated_blank`.
-/
namespace Verif

theorem outcome_bind_eq_ok {α β : Type} {x : Outcome α} {f : α → Outcome β} {b : β} (h : x.bind f = .ok b) : ∃ a, x = .ok a ∧ f a = .ok b := by
  cases x with
  | ok a => exact ⟨a, rfl, h⟩
  | throws => cases h
  | ub => cases h
  | diverges => cases h

/-- Only the names of input files are skipped. -/
theorem cliCase_none {env : CliEnv} {name : String} {arg lower : List Char} {kind : CliKind} (h : cliCase env name arg lower kind = .ok (none, false)) : kind = .skip := by
  cases kind with
  | skip => rfl
  | optionSet => obtain ⟨l, -, h⟩ := outcome_bind_eq_ok h; cases h
  | optionList => obtain ⟨l, -, h⟩ := outcome_bind_eq_ok h; cases h
  | boundary => obtain ⟨l, -, h⟩ := outcome_bind_eq_ok h; cases h
  | oneOption => obtain ⟨l, -, h⟩ := outcome_bind_eq_ok h; split at h <;> cases h
  | flag b => cases h
  | lowerText => cases h
  | numberSet => simp [cliCase] at h
  | file => simp only [cliCase] at h; split at h <;> cases h
  | boolOption => simp only [cliCase] at h; split at h <;> [cases h; (split at h <;> cases h)]
  | trueFalse => simp only [cliCase] at h; split at h <;> [cases h; (split at h <;> cases h)]
  | real ok => simp only [cliCase] at h; split at h <;> simp at h
  | natural bits min => simp only [cliCase] at h; split at h <;> simp at h
  | reals => simp only [cliCase] at h; split at h <;> simp at h
  | lastReal => simp only [cliCase] at h; split at h <;> simp at h
  | naturalNoCatch => simp only [cliCase] at h; split at h <;> simp at h
  | contains t i => simp only [cliCase] at h; split at h <;> simp at h
  | logLevel => simp only [cliCase] at h; split at h <;> simp at h

theorem update_other (c : CliConfig) {name o : String} (kind : CliKind) (v : Option CliVal) (h : o ≠ name) : (c.update name kind v).value o = c.value o := by
  cases v <;> simp [CliConfig.update, CliConfig.set, CliConfig.add, h]

theorem update_same (c : CliConfig) (name : String) (kind : CliKind) (v : CliVal) : (c.update name kind (some v)).value name = v := by
  simp [CliConfig.update, CliConfig.set, CliConfig.add]

theorem update_none (c : CliConfig) (name : String) (kind : CliKind) : (c.update name kind none).value = c.value := rfl

/-- What the value of an option is after the loop. -/
def Overridden (env : CliEnv) (args : List CliArg) (before after : String → CliVal) (o : String) : Prop :=
  match (argsOf o args).getLast? with
  | none => after o = before o
  | some arg => ∃ kind, cliTable.lookup o = some kind ∧ ((kind = .skip ∧ after o = before o) ∨
    (kind ≠ .skip ∧ ∃ v, cliCase env o arg (arg.map Char.toLower) kind = .ok (some v, false) ∧ after o = v))

theorem cliLoop_success {env : CliEnv} : ∀ {args : List CliArg} {c c' : CliConfig} {b : Bool}, cliLoop env args c b = .ok (c', .success) →
    b = false ∧ ∀ o, Overridden env args c.value c'.value o := by
  intro args
  induction args with
  | nil =>
    intro c c' b h
    cases b with
    | false => cases h; exact ⟨rfl, fun o => rfl⟩
    | true => simp [cliLoop] at h
  | cons a args ih =>
    intro c c' b h
    cases a with
    | help => simp [cliLoop] at h
    | zsh => simp [cliLoop] at h
    | unknown => exact absurd (ih h).1 (by simp)
    | opt name arg =>
      simp only [cliLoop] at h
      split at h
      · exact absurd (ih h).1 (by simp)
      · rename_i kind hk
        obtain ⟨r, hr, h⟩ := outcome_bind_eq_ok h
        obtain ⟨v, help⟩ := r
        obtain ⟨hb, ho⟩ := ih h
        simp only [Bool.or_eq_false_iff] at hb
        obtain ⟨hb, rfl⟩ := hb
        refine ⟨hb, fun o => ?_⟩
        have h1 := ho o
        unfold Overridden at h1 ⊢
        by_cases hn : name = o
        · subst hn
          simp only [argsOf, if_true]
          cases hl : (argsOf name args).getLast? with
          | none =>
            rw [hl] at h1
            have hnil : argsOf name args = [] := List.getLast?_eq_none_iff.1 hl
            rw [hnil]
            refine ⟨kind, hk, ?_⟩
            cases v with
            | none => exact .inl ⟨cliCase_none hr, h1⟩
            | some v => exact .inr ⟨(by rintro rfl; cases hr), v, hr, h1.trans (update_same ..)⟩
          | some arg' =>
            rw [hl] at h1
            rw [List.getLast?_cons, hl]
            obtain ⟨kind', hk', h2⟩ := h1
            rw [hk] at hk'
            cases hk'
            refine ⟨kind, hk, ?_⟩
            rcases h2 with ⟨rfl, h2⟩ | h2
            · cases hr
              exact .inl ⟨rfl, h2⟩
            · exact .inr h2
        · simp only [argsOf, if_neg hn]
          have hu := update_other c kind v (Ne.symm hn)
          cases hl : (argsOf o args).getLast? with
          | none => rw [hl] at h1; exact Eq.trans h1 hu
          | some a' =>
            rw [hl] at h1
            obtain ⟨k', hk', h2⟩ := h1
            refine ⟨k', hk', ?_⟩
            rcases h2 with ⟨hs, h2⟩ | h2
            · exact .inl ⟨hs, h2.trans hu⟩
            · exact .inr h2

theorem parseInput_success {env : CliEnv} {args : List CliArg} {c c' : CliConfig} (h : cliParseInput env args c = .ok (c', .success)) :
    ∃ d, cliLoop env args c false = .ok (d, .success) ∧ c'.value = d.value ∧ c'.interactionTypes = d.interactionTypes ∧
      c'.objects = if d.value "checkpoint" = .text [] ∧ d.objects = [] then cliObject d else d.objects := by
  obtain ⟨⟨d, e⟩, h1, h2⟩ := outcome_bind_eq_ok h
  simp only at h2
  split at h2
  · cases h2
  · cases h2
  · simp only [Outcome.ok.injEq, Prod.mk.injEq] at h2
    obtain ⟨h2, rfl⟩ := h2
    refine ⟨d, h1, ?_⟩
    split at h2
    · rename_i hc; rw [← h2, if_pos hc]; exact ⟨rfl, rfl, rfl⟩
    · rename_i hc; rw [← h2, if_neg hc]; exact ⟨rfl, rfl, rfl⟩

/-- Every option of the table but the input files is set by its case. -/
theorem cliOptions_kind : ∀ o ∈ cliOptions, ∃ kind, cliTable.lookup o = some kind ∧ kind ≠ .skip := by
  intro o ho
  simp only [cliOptions, naturalOptions, realOptions, setOptions, choiceOptions, textOptions, List.map_cons, List.map_nil, List.cons_append, List.nil_append, List.mem_cons,
    List.not_mem_nil, or_false] at ho
  repeat' (first | (rcases ho with rfl | ho; · exact ⟨_, by simp [cliTable, List.lookup] <;> rfl, by simp⟩) | (subst ho; exact ⟨_, by simp [cliTable, List.lookup] <;> rfl, by simp⟩))

/-- Options that are not given keep their value; the value of an option that is given depends on its last argument only, not on other options, and the argument is one
that this option understands. -/
theorem C133_override {env : CliEnv} {args : List CliArg} {c c' : CliConfig} (h : cliParseInput env args c = .ok (c', .success)) :
    (∀ o, argsOf o args = [] → c'.value o = c.value o) ∧
    (∀ o ∈ cliOptions, ∀ arg, (argsOf o args).getLast? = some arg →
      ∃ c₁, cliParseInput env [.opt o arg] c = .ok (c₁, .success) ∧ c'.value o = c₁.value o) := by
  obtain ⟨d, h1, h2, -⟩ := parseInput_success h
  have ho := (cliLoop_success h1).2
  constructor
  · intro o hn
    have := ho o
    unfold Overridden at this
    rw [hn] at this
    rw [h2]; exact this
  · intro o hmem arg hl
    have h3 := ho o
    unfold Overridden at h3
    rw [hl] at h3
    obtain ⟨kind, hk, h3⟩ := h3
    obtain ⟨kind', hk', hs⟩ := cliOptions_kind o hmem
    rw [hk] at hk'; cases hk'
    obtain ⟨-, v, hv, h4⟩ := h3.resolve_left fun h => hs h.1
    have hloop : cliLoop env [.opt o arg] c false = .ok (c.update o kind (some v), .success) := by
      simp only [cliLoop, hk, hv, Outcome.bind]
      rfl
    unfold cliParseInput
    rw [hloop]
    simp only [Outcome.bind]
    refine ⟨_, rfl, ?_⟩
    rw [h2, h4]
    split
    · exact (update_same c o kind v).symm
    · exact (update_same c o kind v).symm

theorem given {env : CliEnv} {args : List CliArg} {c c' : CliConfig} (h : cliParseInput env args c = .ok (c', .success)) {o : String} {arg : List Char} {kind : CliKind}
    (hk : cliTable.lookup o = some kind) (hs : kind ≠ .skip) (hl : (argsOf o args).getLast? = some arg) :
    ∃ v, cliCase env o arg (arg.map Char.toLower) kind = .ok (some v, false) ∧ c'.value o = v := by
  obtain ⟨d, h1, h2, -⟩ := parseInput_success h
  have h3 := (cliLoop_success h1).2 o
  unfold Overridden at h3
  rw [hl] at h3
  obtain ⟨kind', hk', h3⟩ := h3
  rw [hk] at hk'; cases hk'
  rw [h2]
  exact (h3.resolve_left fun h => hs h.1).2

theorem single_ok {env : CliEnv} {c : CliConfig} {o : String} {arg : List Char} {kind : CliKind} {v : CliVal} (hk : cliTable.lookup o = some kind)
    (hv : cliCase env o arg (arg.map Char.toLower) kind = .ok (some v, false)) : ∃ c', cliParseInput env [.opt o arg] c = .ok (c', .success) ∧ c'.value o = v := by
  have hloop : cliLoop env [.opt o arg] c false = .ok (c.update o kind (some v), .success) := by
    simp only [cliLoop, hk, hv, Outcome.bind, Bool.or_self, Bool.false_eq_true, if_false]
  have : ∃ c', cliParseInput env [.opt o arg] c = .ok (c', .success) := by
    unfold cliParseInput; rw [hloop]; exact ⟨_, rfl⟩
  obtain ⟨c', h⟩ := this
  refine ⟨c', h, ?_⟩
  by_cases hs : kind = .skip
  · subst hs; cases hv
  · obtain ⟨w, hw, h1⟩ := given h hk hs (by simp [argsOf] : _ = some arg)
    rw [hv] at hw
    cases hw
    exact h1

/-! ### Exit code -/

/-- The argument is one that its option understands. -/
def CliArg.Understood (env : CliEnv) : CliArg → Prop
  | .opt name arg => ∃ kind v, cliTable.lookup name = some kind ∧ cliCase env name arg (arg.map Char.toLower) kind = .ok (v, false)
  | _ => False

theorem cliLoop_exit {env : CliEnv} : ∀ {args : List CliArg} {c c' : CliConfig} {b : Bool} {e : CliExit}, cliLoop env args c b = .ok (c', e) →
    .help ∉ args → .zsh ∉ args → (e = .success ↔ b = false ∧ ∀ a ∈ args, a.Understood env) ∧ (e = .success ∨ e = .parsingError) := by
  intro args
  induction args with
  | nil => intro c c' b e h _ _; cases b <;> cases h <;> simp
  | cons a args ih =>
    intro c c' b e h hh hz
    have hh' : CliArg.help ∉ args := fun h => hh (List.mem_cons_of_mem _ h)
    have hz' : CliArg.zsh ∉ args := fun h => hz (List.mem_cons_of_mem _ h)
    cases a with
    | help => exact absurd List.mem_cons_self hh
    | zsh => exact absurd List.mem_cons_self hz
    | unknown =>
      obtain ⟨h1, h2⟩ := ih h hh' hz'
      exact ⟨⟨fun h3 => absurd (h1.1 h3).1 (by simp), fun h3 => (h3.2 _ List.mem_cons_self).elim⟩, h2⟩
    | opt name arg =>
      simp only [cliLoop] at h
      split at h
      · rename_i hk
        obtain ⟨h1, h2⟩ := ih h hh' hz'
        refine ⟨⟨fun h3 => absurd (h1.1 h3).1 (by simp), fun h3 => ?_⟩, h2⟩
        obtain ⟨kind, v, h4, -⟩ := h3.2 _ List.mem_cons_self
        rw [hk] at h4; cases h4
      · rename_i kind hk
        obtain ⟨⟨v, help⟩, hr, h⟩ := outcome_bind_eq_ok h
        obtain ⟨h1, h2⟩ := ih h hh' hz'
        refine ⟨h1.trans ?_, h2⟩
        simp only [Bool.or_eq_false_iff, List.forall_mem_cons]
        constructor
        · rintro ⟨⟨hb, rfl⟩, h3⟩
          exact ⟨hb, ⟨kind, v, hk, hr⟩, h3⟩
        · rintro ⟨hb, ⟨kind', v', hk', hr'⟩, h3⟩
          rw [hk] at hk'; cases hk'
          rw [hr] at hr'; cases hr'
          exact ⟨⟨hb, rfl⟩, h3⟩

/-- Unless help is asked for, success is reported if and only if every option and every argument was understood. -/
theorem C133_exit {env : CliEnv} {args : List CliArg} {c c' : CliConfig} {e : CliExit} (h : cliParseInput env args c = .ok (c', e)) (hh : .help ∉ args) (hz : .zsh ∉ args) :
    (e = .success ∨ e = .parsingError) ∧
    (e = .success ↔ ∀ a ∈ args, ∃ name arg, a = .opt name arg ∧ ∃ kind v, cliTable.lookup name = some kind ∧ cliCase env name arg (arg.map Char.toLower) kind = .ok (v, false)) := by
  obtain ⟨⟨d, e'⟩, h1, h2⟩ := outcome_bind_eq_ok h
  obtain ⟨h3, h4⟩ := cliLoop_exit h1 hh hz
  have he : e = e' := by
    simp only at h2
    split at h2 <;> cases h2 <;> rfl
  subst he
  refine ⟨h4, h3.trans ⟨fun h5 a ha => ?_, fun h5 => ⟨rfl, fun a ha => ?_⟩⟩⟩
  · have := h5.2 a ha
    cases a with
    | opt name arg => exact ⟨name, arg, rfl, this⟩
    | help => exact this.elim
    | zsh => exact this.elim
    | unknown => exact this.elim
  · obtain ⟨name, arg, rfl, h6⟩ := h5 a ha
    exact h6

/-! ### Numbers, names, texts -/

theorem takeWhile_all {p : Char → Bool} : ∀ {l : List Char}, (∀ c ∈ l, p c = true) → l.takeWhile p = l := by
  intro l
  induction l with
  | nil => intro _; rfl
  | cons c l ih => intro h; rw [List.takeWhile_cons, h c List.mem_cons_self, if_pos rfl, ih fun x hx => h x (List.mem_cons_of_mem _ hx)]

theorem stoul_numeral {t : List Char} {n : Nat} (h : Numeral t n) (hn : n < 2 ^ 64) : stoul (t.map Char.toLower) = some n := by
  obtain ⟨h1, h2, h3⟩ := h
  have key : ∀ c ∈ "0123456789".toList, c.isDigit = true ∧ c.isWhitespace = false ∧ c.toLower = c ∧ c ≠ '-' ∧ c ≠ '+' := by decide
  have hm : t.map Char.toLower = t := by
    conv_rhs => rw [← List.map_id t]
    exact List.map_congr_left fun c hc => (key c (h2 c hc)).2.2.1
  rw [hm]
  cases t with
  | nil => exact absurd rfl h1
  | cons c t =>
    have hc := key c (h2 c List.mem_cons_self)
    have hd : (c :: t).dropWhile Char.isWhitespace = c :: t := by rw [List.dropWhile_cons, hc.2.1]; rfl
    have ht : (c :: t).takeWhile Char.isDigit = c :: t := takeWhile_all fun x hx => (key x (h2 x hx)).1
    have hv : digitsValue (c :: t) = n := h3.symm
    unfold stoul
    simp only [hd, List.head?_cons, Option.some_beq_some, beq_iff_eq, Bool.or_eq_true, hc.2.2.2.1, hc.2.2.2.2, or_self, if_false, ht, List.isEmpty_cons, hv,
      Bool.false_eq_true, ge_iff_le, Nat.not_le.2 hn]

theorem natural_lookup : ∀ e ∈ naturalOptions, cliTable.lookup e.1 = some (.natural e.2.1 e.2.2) ∧ e.2.1 ≤ 64 := by
  simp [naturalOptions, cliTable, List.lookup]

/-- A natural number in decimal is taken as typed if it fits into the type of the option, and it is at least the documented minimum. -/
theorem C133_numbers {env : CliEnv} {args : List CliArg} {c c' : CliConfig} (h : cliParseInput env args c = .ok (c', .success)) {o : String} {bits min : Nat}
    (ho : (o, bits, min) ∈ naturalOptions) {arg : List Char} (hl : (argsOf o args).getLast? = some arg) {n : Nat} (hn : Numeral arg n) (hb : n < 2 ^ bits) :
    c'.value o = .num n ∧ min ≤ n := by
  obtain ⟨hk, h64⟩ := natural_lookup _ ho
  obtain ⟨v, hv, h1⟩ := given h hk (by simp) hl
  have h2 := stoul_numeral hn (lt_of_lt_of_le hb (Nat.pow_le_pow_right (by decide) h64))
  simp only [cliCase, h2, Nat.mod_eq_of_lt hb, Outcome.ok.injEq, Prod.mk.injEq, Option.some.injEq, decide_eq_false_iff_not, Nat.not_lt] at hv
  exact ⟨h1.trans hv.1.symm, hv.2⟩

/-- And such numbers are accepted. -/
theorem C133_numbers_accepted (env : CliEnv) (c : CliConfig) {o : String} {bits min : Nat} (ho : (o, bits, min) ∈ naturalOptions) {arg : List Char} {n : Nat}
    (hn : Numeral arg n) (hb : n < 2 ^ bits) (hm : min ≤ n) : ∃ c', cliParseInput env [.opt o arg] c = .ok (c', .success) ∧ c'.value o = .num n := by
  obtain ⟨hk, h64⟩ := natural_lookup _ ho
  have h2 := stoul_numeral hn (lt_of_lt_of_le hb (Nat.pow_le_pow_right (by decide) h64))
  have hloop : cliLoop env [.opt o arg] c false = .ok (c.update o (.natural bits min) (some (.num n)), .success) := by
    simp only at hk
    simp only [cliLoop, hk, cliCase, h2, Nat.mod_eq_of_lt hb, Outcome.bind, Bool.false_or, decide_eq_true_eq, Nat.not_lt.2 hm, if_false]
  have : ∃ c', cliParseInput env [.opt o arg] c = .ok (c', .success) := by
    unfold cliParseInput; rw [hloop]; exact ⟨_, rfl⟩
  obtain ⟨c', h3⟩ := this
  exact ⟨c', h3, (C133_numbers h3 ho (by simp [argsOf]) hn hb).1⟩

/-- Real numbers are what `std::stod` reads, and in the documented range. -/
theorem C133_reals {env : CliEnv} {args : List CliArg} {c c' : CliConfig} (h : cliParseInput env args c = .ok (c', .success)) {o : String} {ok : Rat → Prop}
    (ho : (o, ok) ∈ realOptions) {arg : List Char} (hl : (argsOf o args).getLast? = some arg) :
    ∃ x, env.stod (arg.map Char.toLower) = some x ∧ ok x ∧ c'.value o = .real x := by
  have hk : ∃ f : Rat → Bool, cliTable.lookup o = some (.real f) ∧ ∀ x, f x = true → ok x := by
    simp only [realOptions, List.mem_cons, Prod.mk.injEq, List.not_mem_nil, or_false] at ho
    rcases ho with ⟨rfl, rfl⟩ | ⟨rfl, rfl⟩ | ⟨rfl, rfl⟩ | ⟨rfl, rfl⟩ | ⟨rfl, rfl⟩ | ⟨rfl, rfl⟩ | ⟨rfl, rfl⟩ | ⟨rfl, rfl⟩ | ⟨rfl, rfl⟩ <;>
      exact ⟨_, by simp [cliTable, List.lookup] <;> rfl, by simp⟩
  obtain ⟨f, hk, hf⟩ := hk
  obtain ⟨v, hv, h1⟩ := given h hk (by simp) hl
  simp only [cliCase] at hv
  split at hv
  · rename_i x hx
    simp only [Outcome.ok.injEq, Prod.mk.injEq, Option.some.injEq, Bool.not_eq_false'] at hv
    exact ⟨x, hx, hf x hv.2, h1.trans hv.1.symm⟩
  · simp at hv

/-- A list of names, in any case and with any of the delimiters, sets exactly these options. -/
theorem C133_sets {env : CliEnv} {args : List CliArg} {c c' : CliConfig} (h : cliParseInput env args c = .ok (c', .success)) {o : String} (ho : o ∈ setOptions)
    (hd : ((env.names o).map fun x => x.2.map Char.toLower).Nodup) {arg : List Char} (hl : (argsOf o args).getLast? = some arg)
    {chosen : List (Nat × List Char)} (hc : ∀ x ∈ chosen, x ∈ env.names o)
    (hs : (tokenize defaultDelim (arg.map Char.toLower)).map (List.map Char.toLower) = chosen.map fun x => x.2.map Char.toLower)
    (hall : tokenize defaultDelim (arg.map Char.toLower) ≠ ["all".toList]) : c'.value o = .opts (chosen.map Prod.fst) ∧ chosen ≠ [] := by
  have hk : cliTable.lookup o = some .optionSet := by
    simp only [setOptions, List.mem_cons, List.not_mem_nil, or_false] at ho
    rcases ho with rfl | rfl | rfl | rfl | rfl | rfl | rfl | rfl <;> simp [cliTable, List.lookup]
  obtain ⟨v, hv, h1⟩ := given h hk (by simp) hl
  rw [cliCase, C46_option_list _ hd _ chosen hc hs hall] at hv
  simp only [Outcome.bind, Outcome.ok.injEq, Prod.mk.injEq, Option.some.injEq] at hv
  refine ⟨h1.trans hv.1.symm, ?_⟩
  rintro rfl
  simp at hv

/-- One name sets this option. -/
theorem C133_choices {env : CliEnv} {args : List CliArg} {c c' : CliConfig} (h : cliParseInput env args c = .ok (c', .success)) {o : String} (ho : o ∈ choiceOptions)
    (hd : ((env.names o).map fun x => x.2.map Char.toLower).Nodup) {arg : List Char} (hl : (argsOf o args).getLast? = some arg)
    {x : Nat × List Char} (hc : x ∈ env.names o)
    (hs : (tokenize defaultDelim (arg.map Char.toLower)).map (List.map Char.toLower) = [x.2.map Char.toLower])
    (hall : tokenize defaultDelim (arg.map Char.toLower) ≠ ["all".toList]) : c'.value o = .opts [x.1] := by
  have hk : cliTable.lookup o = some .oneOption := by
    simp only [choiceOptions, List.mem_cons, List.not_mem_nil, or_false] at ho
    rcases ho with rfl | rfl | rfl | rfl | rfl <;> simp [cliTable, List.lookup]
  obtain ⟨v, hv, h1⟩ := given h hk (by simp) hl
  rw [cliCase, C46_option_list _ hd _ [x] (by simpa using hc) (by simpa using hs) hall] at hv
  have he : (List.map Prod.fst [x]).eraseDups = [x.1] := by simp [List.eraseDups_cons]
  simp only [Outcome.bind, he, Outcome.ok.injEq, Prod.mk.injEq, Option.some.injEq, and_true] at hv
  exact h1.trans hv.symm

/-- Texts without upper case letters are taken as typed. Missing: texts with upper case letters. -/
theorem C133_texts_partial {env : CliEnv} {args : List CliArg} {c c' : CliConfig} (h : cliParseInput env args c = .ok (c', .success)) {o : String} (ho : o ∈ textOptions)
    {arg : List Char} (hl : (argsOf o args).getLast? = some arg) (hlow : ∀ ch ∈ arg, ch.toLower = ch) : c'.value o = .text arg := by
  have hk : cliTable.lookup o = some .lowerText := by
    simp only [textOptions, List.mem_cons, List.not_mem_nil, or_false] at ho
    rcases ho with rfl | rfl | rfl | rfl <;> simp [cliTable, List.lookup]
  obtain ⟨v, hv, h1⟩ := given h hk (by simp) hl
  have hm : arg.map Char.toLower = arg := by
    conv_rhs => rw [← List.map_id arg]
    exact List.map_congr_left hlow
  rw [hm] at hv
  cases hv
  exact h1

/-- Files of rules: as typed, and the file exists. -/
theorem C133_files {env : CliEnv} {args : List CliArg} {c c' : CliConfig} (h : cliParseInput env args c = .ok (c', .success)) {o : String}
    (ho : o = "rule-filename" ∨ o = "fuzzy-rule-filename") {arg : List Char} (hl : (argsOf o args).getLast? = some arg) :
    c'.value o = .text arg ∧ env.fileExists arg = true := by
  have hk : cliTable.lookup o = some .file := by rcases ho with rfl | rfl <;> simp [cliTable, List.lookup]
  obtain ⟨v, hv, h1⟩ := given h hk (by simp) hl
  simp only [cliCase] at hv
  split at hv
  · rename_i he; cases hv; exact ⟨h1, he⟩
  · cases hv

/-- Switches. `no-end-config` is stored as the opposite. -/
theorem C133_flags {env : CliEnv} {args : List CliArg} {c c' : CliConfig} (h : cliParseInput env args c = .ok (c', .success)) :
    (argsOf "fastParticlesThrow" args ≠ [] → c'.value "fastParticlesThrow" = .bool true) ∧
    (argsOf "no-progress-bar" args ≠ [] → c'.value "no-progress-bar" = .bool true) ∧
    (argsOf "no-end-config" args ≠ [] → c'.value "no-end-config" = .bool false) := by
  have key : ∀ o b, cliTable.lookup o = some (.flag b) → argsOf o args ≠ [] → c'.value o = .bool b := by
    intro o b hk hne
    obtain ⟨arg, hl⟩ := Option.ne_none_iff_exists'.1 (fun hn => hne (List.getLast?_eq_none_iff.1 hn))
    obtain ⟨v, hv, h1⟩ := given h hk (by simp) hl
    cases hv
    exact h1
  exact ⟨key _ _ (by simp [cliTable, List.lookup]), key _ _ (by simp [cliTable, List.lookup]), key _ _ (by simp [cliTable, List.lookup])⟩

theorem exact_some {E : Type} {names : List (E × List Char)} {s : List Char} {b : E} (h : parseOptionExact names s = .ok b) : (b, s) ∈ names := by
  unfold parseOptionExact at h
  split at h
  · rename_i x hx
    cases h
    have h1 := List.find?_some hx
    have h2 := List.mem_of_find?_eq_some hx
    simp only [decide_eq_true_eq] at h1
    rw [← h1]
    exact h2
  · cases h

/-- The level of the log is the one whose name begins with the letter that was typed first. -/
theorem C133_log_level {env : CliEnv} {args : List CliArg} {c c' : CliConfig} (h : cliParseInput env args c = .ok (c', .success)) {arg : List Char}
    (hl : (argsOf "log-level" args).getLast? = some arg) :
    ∃ l ∈ ["trace", "debug", "info", "warn", "err", "critical", "off"], c'.value "log-level" = .enum l ∧ (arg.map Char.toLower).head? = l.toList.head? := by
  obtain ⟨v, hv, h1⟩ := given h (o := "log-level") (kind := .logLevel) (by simp [cliTable, List.lookup]) (by simp) hl
  simp only [cliCase] at hv
  rw [h1]
  split at hv
  · rename_i l hl
    cases hv
    refine ⟨l, ?_⟩
    unfold logLevelOf at hl
    split at hl <;> first | (rename_i hh; cases hl; rw [hh]; exact ⟨by decide, rfl, by decide⟩) | cases hl
  · simp at hv

/-- One number for all three dimensions; the force acts in the last dimension. -/
theorem C133_vectors {env : CliEnv} {args : List CliArg} {c c' : CliConfig} (h : cliParseInput env args c = .ok (c', .success)) {o : String} {arg : List Char}
    (hl : (argsOf o args).getLast? = some arg) :
    (o ∈ ["distribution-mean", "distribution-stddeviation"] → ∃ x, env.stod (arg.map Char.toLower) = some x ∧ c'.value o = .reals x x x) ∧
    (o = "globalForce" → ∃ x, env.stod (arg.map Char.toLower) = some x ∧ c'.value o = .reals 0 0 x) := by
  constructor
  · intro ho
    have hk : cliTable.lookup o = some .reals := by
      simp only [List.mem_cons, List.not_mem_nil, or_false] at ho
      rcases ho with rfl | rfl <;> simp [cliTable, List.lookup]
    obtain ⟨v, hv, h1⟩ := given h hk (by simp) hl
    simp only [cliCase] at hv
    split at hv
    · rename_i x hx; cases hv; exact ⟨x, hx, h1⟩
    · simp at hv
  · rintro rfl
    obtain ⟨v, hv, h1⟩ := given h (kind := .lastReal) (by simp [cliTable, List.lookup]) (by simp) hl
    simp only [cliCase] at hv
    split at hv
    · rename_i x hx; cases hv; exact ⟨x, hx, h1⟩
    · simp at hv

/-- The same boundary in all dimensions. -/
theorem C133_boundary {env : CliEnv} {args : List CliArg} {c c' : CliConfig} (h : cliParseInput env args c = .ok (c', .success)) {arg : List Char}
    (hl : (argsOf "boundary-type" args).getLast? = some arg) :
    ∃ b, (b, arg.map Char.toLower) ∈ env.names "boundary-type" ∧ c'.value "boundary-type" = .opts [b, b, b] := by
  obtain ⟨v, hv, h1⟩ := given h (kind := .boundary) (by simp [cliTable, List.lookup]) (by simp) hl
  obtain ⟨b, h2, h3⟩ := outcome_bind_eq_ok hv
  cases h3
  exact ⟨b, exact_some h2, h1⟩

/-- An option that takes one name refuses several different ones. -/
theorem C133_one {env : CliEnv} {args : List CliArg} {c c' : CliConfig} (h : cliParseInput env args c = .ok (c', .success)) {o : String} (ho : o ∈ choiceOptions)
    (hd : ((env.names o).map fun x => x.2.map Char.toLower).Nodup) {arg : List Char} (hl : (argsOf o args).getLast? = some arg)
    {chosen : List (Nat × List Char)} (hc : ∀ x ∈ chosen, x ∈ env.names o)
    (hs : (tokenize defaultDelim (arg.map Char.toLower)).map (List.map Char.toLower) = chosen.map fun x => x.2.map Char.toLower)
    (hall : tokenize defaultDelim (arg.map Char.toLower) ≠ ["all".toList]) : ∃ x, c'.value o = .opts [x] ∧ ∀ y ∈ chosen, y.1 = x := by
  have hk : cliTable.lookup o = some .oneOption := by
    simp only [choiceOptions, List.mem_cons, List.not_mem_nil, or_false] at ho
    rcases ho with rfl | rfl | rfl | rfl | rfl <;> simp [cliTable, List.lookup]
  obtain ⟨v, hv, h1⟩ := given h hk (by simp) hl
  rw [cliCase, C46_option_list _ hd _ chosen hc hs hall] at hv
  simp only [Outcome.bind] at hv
  split at hv
  · cases hv
  · rename_i x he
    cases hv
    refine ⟨x, h1, fun y hy => ?_⟩
    have : y.1 ∈ (chosen.map Prod.fst).eraseDups := List.mem_eraseDups.2 (List.mem_map_of_mem hy)
    rw [he] at this
    simpa using this
  · simp at hv

/-- The strategies in the order they were typed; the cell sizes are the numbers of the argument, at least one. -/
theorem C133_lists {env : CliEnv} {args : List CliArg} {c c' : CliConfig} (h : cliParseInput env args c = .ok (c', .success)) {arg : List Char} :
    ((argsOf "tuning-strategies" args).getLast? = some arg → ((env.names "tuning-strategies").map fun x => x.2.map Char.toLower).Nodup →
      ∀ chosen : List (Nat × List Char), (∀ x ∈ chosen, x ∈ env.names "tuning-strategies") →
        (tokenize defaultDelim (arg.map Char.toLower)).map (List.map Char.toLower) = chosen.map (fun x => x.2.map Char.toLower) →
        tokenize defaultDelim (arg.map Char.toLower) ≠ ["all".toList] → c'.value "tuning-strategies" = .opts (chosen.map Prod.fst)) ∧
    ((argsOf "cell-size" args).getLast? = some arg →
      c'.value "cell-size" = .numbers (env.numberSet (arg.map Char.toLower)) ∧ (env.numberSet (arg.map Char.toLower)).isEmpty = false) := by
  refine ⟨fun hl hd chosen hc hs hall => ?_, fun hl => ?_⟩
  · obtain ⟨v, hv, h1⟩ := given h (kind := .optionList) (by simp [cliTable, List.lookup]) (by simp) hl
    rw [cliCase, C46_option_list _ hd _ chosen hc hs hall] at hv
    cases hv
    exact h1
  · obtain ⟨v, hv, h1⟩ := given h (kind := .numberSet) (by simp [cliTable, List.lookup]) (by simp) hl
    simp only [cliCase, Outcome.ok.injEq, Prod.mk.injEq, Option.some.injEq] at hv
    exact ⟨h1.trans hv.1.symm, hv.2⟩

/-- Words for a Boolean, in any case of the letters: the documented ones are understood, others are not. -/
theorem C133_booleans (env : CliEnv) (c : CliConfig) {arg : List Char} :
    (∀ w ∈ ["on", "true", "enabled", "off", "false", "disabled"],
      arg.map Char.toLower = w.toList → ∃ c', cliParseInput env [.opt "thermostat" arg] c = .ok (c', .success) ∧
        c'.value "thermostat" = .bool (decide (w ∈ ["on", "true", "enabled"]))) ∧
    (∀ w ∈ ["true", "false"], arg.map Char.toLower = w.toList → ∃ c', cliParseInput env [.opt "use-tuning-logger" arg] c = .ok (c', .success) ∧
      c'.value "use-tuning-logger" = .bool (decide (w = "true"))) ∧
    (∀ args c₁ c', cliParseInput env args c₁ = .ok (c', .success) →
      ((argsOf "thermostat" args).getLast? = some arg → ∃ w ∈ ["on", "true", "enabled", "off", "false", "disabled"], arg.map Char.toLower = w.toList) ∧
      ((argsOf "use-tuning-logger" args).getLast? = some arg → ∃ w ∈ ["true", "false"], arg.map Char.toLower = w.toList)) := by
  refine ⟨fun w hw ha => ?_, fun w hw ha => ?_, fun args c₁ c' h => ⟨fun hl => ?_, fun hl => ?_⟩⟩
  · have hk : cliTable.lookup "thermostat" = some .boolOption := by simp [cliTable, List.lookup]
    have hb : cliCase env "thermostat" arg (arg.map Char.toLower) .boolOption = .ok (some (.bool (decide (w ∈ ["on", "true", "enabled"]))), false) := by
      rw [ha]
      simp only [List.mem_cons, List.not_mem_nil, or_false] at hw
      rcases hw with rfl | rfl | rfl | rfl | rfl | rfl <;> simp only [cliCase] <;> first | rw [if_pos (by decide +kernel)]; rfl | rw [if_neg (by decide +kernel), if_pos (by decide +kernel)]; rfl
    refine single_ok hk hb
  · have hk : cliTable.lookup "use-tuning-logger" = some .trueFalse := by simp [cliTable, List.lookup]
    have hb : cliCase env "use-tuning-logger" arg (arg.map Char.toLower) .trueFalse = .ok (some (.bool (decide (w = "true"))), false) := by
      rw [ha]
      simp only [List.mem_cons, List.not_mem_nil, or_false] at hw
      rcases hw with rfl | rfl <;> simp only [cliCase] <;> first | rw [if_pos (by decide +kernel)]; rfl | rw [if_neg (by decide +kernel), if_pos (by decide +kernel)]; rfl
    refine single_ok hk hb
  · obtain ⟨v, hv, h1⟩ := given h (kind := .boolOption) (by simp [cliTable, List.lookup]) (by simp) hl
    simp only [cliCase] at hv
    split at hv
    · rename_i hm
      obtain ⟨w, hw, he⟩ := List.mem_map.1 hm
      exact ⟨w, List.mem_append_left ["off", "false", "disabled"] hw, he.symm⟩
    · split at hv
      · rename_i hm
        obtain ⟨w, hw, he⟩ := List.mem_map.1 hm
        exact ⟨w, List.mem_append_right ["on", "true", "enabled"] hw, he.symm⟩
      · cases hv
  · obtain ⟨v, hv, h1⟩ := given h (kind := .trueFalse) (by simp [cliTable, List.lookup]) (by simp) hl
    simp only [cliCase] at hv
    split at hv
    · rename_i hm; exact ⟨_, by simp, hm⟩
    · split at hv
      · rename_i hm; exact ⟨_, by simp, hm⟩
      · simp at hv

/-- `--log-level Warn`, `--thermostat Disabled` and two names for an option that takes one. -/
example : ("Warn".toList.map Char.toLower).head? = "warn".toList.head? ∧ "Disabled".toList.map Char.toLower = "disabled".toList ∧
    tokenize defaultDelim ("fastest-abs, fastest-mean".toList.map Char.toLower) = ["fastest-abs".toList, "fastest-mean".toList] := by
  decide +kernel

/-! ### Interaction types and objects -/

theorem cliLoop_interactions {env : CliEnv} : ∀ {args : List CliArg} {c c' : CliConfig} {b : Bool}, cliLoop env args c b = .ok (c', .success) →
    (∀ i, i ∈ c'.interactionTypes ↔ i ∈ c.interactionTypes ∨ ∃ name arg kind, CliArg.opt name arg ∈ args ∧ cliTable.lookup name = some kind ∧ kind.interaction = some i) ∧
    c'.objects = c.objects := by
  intro args
  induction args with
  | nil => intro c c' b h; cases b <;> cases h; simp
  | cons a args ih =>
    intro c c' b h
    cases a with
    | help => simp [cliLoop] at h
    | zsh => simp [cliLoop] at h
    | unknown => exact absurd (cliLoop_success (args := args) (b := true) h).1 (by simp)
    | opt name arg =>
      simp only [cliLoop] at h
      split at h
      · exact absurd (cliLoop_success (b := true) h).1 (by simp)
      · rename_i kind hk
        obtain ⟨⟨v, help⟩, hr, h⟩ := outcome_bind_eq_ok h
        obtain ⟨h1, h2⟩ := ih h
        have hu : (c.update name kind v).interactionTypes = c.interactionTypes ++ kind.interaction.toList := by cases v <;> rfl
        have ho : (c.update name kind v).objects = c.objects := by cases v <;> rfl
        refine ⟨fun i => (h1 i).trans ?_, h2.trans ho⟩
        rw [hu, List.mem_append, Option.mem_toList]
        constructor
        · rintro ((h3 | h3) | ⟨n, a, k, h3, h4, h5⟩)
          · exact .inl h3
          · exact .inr ⟨name, arg, kind, List.mem_cons_self, hk, h3⟩
          · exact .inr ⟨n, a, k, List.mem_cons_of_mem _ h3, h4, h5⟩
        · rintro (h3 | ⟨n, a, k, h3, h4, h5⟩)
          · exact .inl (.inl h3)
          · rcases List.mem_cons.1 h3 with h3 | h3
            · cases h3
              rw [hk] at h4; cases h4
              exact .inl (.inr h5)
            · exact .inr ⟨n, a, k, h3, h4, h5⟩

theorem interaction_names : ∀ e ∈ cliTable, e.2.interaction = (if e.1 = "functor" then some "pairwise" else if e.1 = "functor-3b" then some "triwise" else none) := by
  simp [cliTable, CliKind.interaction]

theorem lookup_mem {α : Type} {o : String} {x : α} : ∀ {l : List (String × α)}, l.lookup o = some x → (o, x) ∈ l := by
  intro l
  induction l with
  | nil => intro h; cases h
  | cons e l ih =>
    intro h
    rw [List.lookup_cons] at h
    split at h
    · rename_i he
      cases h
      rw [beq_iff_eq] at he
      rw [he]; exact List.mem_cons_self
    · exact List.mem_cons_of_mem _ (ih h)

theorem argsOf_ne {o : String} : ∀ {args : List CliArg}, argsOf o args ≠ [] ↔ ∃ arg, CliArg.opt o arg ∈ args := by
  intro args
  induction args with
  | nil => simp [argsOf]
  | cons a args ih =>
    cases a with
    | opt name arg =>
      by_cases hn : name = o
      · subst hn; simp [argsOf]
      · simp only [argsOf, if_neg hn, ih, List.mem_cons, CliArg.opt.injEq]
        exact ⟨fun ⟨x, hx⟩ => ⟨x, .inr hx⟩, fun ⟨x, hx⟩ => ⟨x, hx.resolve_left fun h => hn h.1.symm⟩⟩
    | help => simpa [argsOf] using ih
    | zsh => simpa [argsOf] using ih
    | unknown => simpa [argsOf] using ih

theorem containsText_iff (t : List Char) : ∀ s : List Char, containsText s t = true ↔ t <:+: s
  | [] => by simp [containsText]
  | c :: r => by rw [containsText, Bool.or_eq_true, containsText_iff t r, List.isPrefixOf_iff_prefix, List.infix_cons_iff]

/-- The functor is found by a part of its name, in any case of the letters: `avx` before `sve` before the name of the potential. -/
theorem C133_functors {env : CliEnv} {args : List CliArg} {c c' : CliConfig} (h : cliParseInput env args c = .ok (c', .success)) {arg : List Char} :
    ((argsOf "functor" args).getLast? = some arg →
      ("avx".toList <:+: arg.map Char.toLower → c'.value "functor" = .enum "lj12_6_AVX") ∧
      (¬ "avx".toList <:+: arg.map Char.toLower → "sve".toList <:+: arg.map Char.toLower → c'.value "functor" = .enum "lj12_6_SVE") ∧
      (¬ "avx".toList <:+: arg.map Char.toLower → ¬ "sve".toList <:+: arg.map Char.toLower →
        c'.value "functor" = .enum "lj12_6" ∧ ("lj".toList <:+: arg.map Char.toLower ∨ "lennard-jones".toList <:+: arg.map Char.toLower))) ∧
    ((argsOf "functor-3b" args).getLast? = some arg →
      c'.value "functor-3b" = .enum "at" ∧ ("at".toList <:+: arg.map Char.toLower ∨ "axi".toList <:+: arg.map Char.toLower)) := by
  refine ⟨fun hl => ?_, fun hl => ?_⟩
  · obtain ⟨v, hv, h1⟩ := given h (o := "functor") (by simp [cliTable, List.lookup]; rfl) (by simp) hl
    simp only [← containsText_iff]
    simp only [cliCase, List.find?_cons, List.any_cons, List.any_nil, Bool.or_false, List.find?_nil] at hv
    rw [h1]
    generalize containsText (arg.map Char.toLower) "avx".toList = a at *
    generalize containsText (arg.map Char.toLower) "sve".toList = b at *
    generalize containsText (arg.map Char.toLower) "lj".toList = d at *
    generalize containsText (arg.map Char.toLower) "lennard-jones".toList = e at *
    cases a <;> cases b <;> cases d <;> cases e <;> simp_all
  · obtain ⟨v, hv, h1⟩ := given h (o := "functor-3b") (by simp [cliTable, List.lookup]; rfl) (by simp) hl
    simp only [← containsText_iff]
    simp only [cliCase, List.find?_cons, List.any_cons, List.any_nil, Bool.or_false, List.find?_nil] at hv
    rw [h1]
    generalize containsText (arg.map Char.toLower) "at".toList = a at *
    generalize containsText (arg.map Char.toLower) "axi".toList = b at *
    cases a <;> cases b <;> simp_all

/-- The name in the documentation of the AVX functor, which contains the name of the plain one. -/
example : "avx".toList <:+: "Lennard-Jones-AVX".toList.map Char.toLower ∧ "lennard-jones".toList <:+: "Lennard-Jones-AVX".toList.map Char.toLower := by
  decide +kernel

/-- The documented names of the functors and of the generators are understood, in any case of the letters. -/
theorem C133_names (env : CliEnv) (c : CliConfig) {arg : List Char} : ∀ e ∈ namedValues, arg.map Char.toLower = e.2.1.toList →
    ∃ c', cliParseInput env [.opt e.1 arg] c = .ok (c', .success) ∧ c'.value e.1 = .enum e.2.2 := by
  have key : ∀ e ∈ namedValues, ∃ t i, cliTable.lookup e.1 = some (.contains t i) ∧
      (t.find? fun x => x.1.any fun s => containsText e.2.1.toList s.toList).map Prod.snd = some e.2.2 := by
    simp only [namedValues, List.forall_mem_cons, List.not_mem_nil, false_implies, implies_true, and_true]
    refine ⟨?_, ?_, ?_, ?_, ?_, ?_, ?_, ?_, ?_, ?_⟩ <;> exact ⟨_, _, by simp [cliTable, List.lookup]; exact ⟨rfl, rfl⟩, by decide +kernel⟩
  intro e he ha
  obtain ⟨t, i, hk, hf⟩ := key e he
  refine single_ok hk ?_
  rw [ha]
  simp only [cliCase]
  cases hx : t.find? fun x => x.1.any fun s => containsText e.2.1.toList s.toList with
  | none => rw [hx] at hf; cases hf
  | some x =>
    rw [hx, Option.map_some, Option.some.injEq] at hf
    simp only [hf]

/-- A functor on the command line adds its interaction type, nothing removes one. -/
theorem C133_interactions {env : CliEnv} {args : List CliArg} {c c' : CliConfig} (h : cliParseInput env args c = .ok (c', .success)) (i : String) :
    i ∈ c'.interactionTypes ↔ i ∈ c.interactionTypes ∨ (i = "pairwise" ∧ argsOf "functor" args ≠ []) ∨ (i = "triwise" ∧ argsOf "functor-3b" args ≠ []) := by
  obtain ⟨d, h1, -, h2, -⟩ := parseInput_success h
  rw [h2, (cliLoop_interactions h1).1 i, argsOf_ne, argsOf_ne]
  refine or_congr Iff.rfl ⟨?_, ?_⟩
  · rintro ⟨name, arg, kind, hm, hk, hi⟩
    have := interaction_names _ (lookup_mem hk)
    simp only at this
    rw [hi] at this
    split at this
    · rename_i hn; subst hn; cases this; exact .inl ⟨rfl, arg, hm⟩
    · split at this
      · rename_i hn; subst hn; cases this; exact .inr ⟨rfl, arg, hm⟩
      · cases this
  · rintro (⟨rfl, arg, hm⟩ | ⟨rfl, arg, hm⟩)
    · exact ⟨_, arg, _, hm, by simp [cliTable, List.lookup] <;> rfl, rfl⟩
    · exact ⟨_, arg, _, hm, by simp [cliTable, List.lookup] <;> rfl, rfl⟩

/-- Objects of the input file are kept; if there are none and no checkpoint is loaded, one object is created from the options after they were parsed. -/
theorem C133_objects {env : CliEnv} {args : List CliArg} {c c' : CliConfig} (h : cliParseInput env args c = .ok (c', .success)) :
    ((c.objects ≠ [] ∨ c.value "checkpoint" ≠ .text []) → c'.objects = c.objects) ∧
    (c.objects = [] → c.value "checkpoint" = .text [] →
      ∀ e ∈ generatedObjects, c'.value "particle-generator" = .enum e.1 → c'.objects = [(e.2.1, e.2.2.map c'.value)]) := by
  obtain ⟨d, h1, h2, -, h3⟩ := parseInput_success h
  have ho := (cliLoop_interactions h1).2
  have hc : d.value "checkpoint" = c.value "checkpoint" := by
    have := (cliLoop_success h1).2 "checkpoint"
    unfold Overridden at this
    split at this
    · exact this
    · obtain ⟨kind, hk, h4⟩ := this
      have : cliTable.lookup "checkpoint" = some .skip := by simp [cliTable, List.lookup]
      rw [this] at hk; cases hk
      rcases h4 with h4 | h4
      · exact h4.2
      · exact absurd rfl h4.1
  rw [hc, ho] at h3
  constructor
  · intro h4
    rw [h3, if_neg]
    rintro ⟨h5, h6⟩
    rcases h4 with h4 | h4
    · exact h4 h6
    · exact h4 h5
  · intro h4 h5 e he hg
    rw [h3, if_pos ⟨h5, h4⟩]
    rw [h2] at hg ⊢
    unfold cliObject
    simp only [generatedObjects, List.mem_cons, List.not_mem_nil, or_false] at he
    rcases he with rfl | rfl | rfl | rfl | rfl <;> simp only at hg <;> rw [hg] <;> rfl

/-! ### With an input file -/

/-- The command line has the last word: options that are not given have the value of the input file (or the default, without a file), other options that of the
command line alone. -/
theorem C133_input_file {env : CliEnv} {yaml : CliConfig → Outcome (Bool × CliConfig)} {args : List CliArg} {c c' : CliConfig}
    (h : mdFlexParse env yaml args c = .ok (c', .success)) :
    ∃ c₀ c₁, cliInputFiles env args c = .ok c₀ ∧ (if c₀.value "yaml-filename" = .text [] then c₁ = c₀ else yaml c₀ = .ok (true, c₁)) ∧
      (∀ o, argsOf o args = [] → c'.value o = c₁.value o) ∧
      (∀ o ∈ cliOptions, ∀ arg, (argsOf o args).getLast? = some arg → ∃ c₂, cliParseInput env [.opt o arg] c₁ = .ok (c₂, .success) ∧ c'.value o = c₂.value o) := by
  obtain ⟨c₀, h0, h⟩ := outcome_bind_eq_ok h
  split at h
  · rename_i hy
    obtain ⟨⟨ok, c₁⟩, h1, h⟩ := outcome_bind_eq_ok h
    cases ok with
    | false => simp at h
    | true => exact ⟨c₀, c₁, h0, by rw [if_neg hy]; exact h1, C133_override h⟩
  · rename_i hy
    exact ⟨c₀, c₀, h0, by rw [if_pos (not_not.1 hy)], C133_override h⟩

/-- Files that are named on the command line are used as typed, and exist. -/
theorem C133_input_names {env : CliEnv} {args : List CliArg} {c c' : CliConfig} (h : cliInputFiles env args c = .ok c') {o : String} (ho : o = "checkpoint" ∨ o = "yaml-filename") :
    (argsOf o args = [] → c'.value o = c.value o) ∧ ∀ arg, (argsOf o args).getLast? = some arg → c'.value o = .text arg ∧ env.fileExists arg = true := by
  induction args generalizing c with
  | nil => cases h; exact ⟨fun _ => rfl, fun arg h => (by cases h)⟩
  | cons a args ih =>
    cases a with
    | help => exact ih h
    | zsh => exact ih h
    | unknown => exact ih h
    | opt name arg =>
      simp only [cliInputFiles] at h
      split at h
      · split at h
        · rename_i he
          obtain ⟨h1, h2⟩ := ih h
          by_cases hn : name = o
          · subst hn
            simp only [argsOf, if_true]
            refine ⟨fun h => (by cases h), fun arg' hl => ?_⟩
            cases hr : (argsOf name args).getLast? with
            | none =>
              have hnil : argsOf name args = [] := List.getLast?_eq_none_iff.1 hr
              rw [hnil] at hl
              cases hl
              rw [h1 hnil]
              exact ⟨by simp [CliConfig.set], he⟩
            | some a' =>
              rw [List.getLast?_cons, hr] at hl
              cases hl
              exact h2 a' hr
          · simp only [argsOf, if_neg hn]
            refine ⟨fun h3 => ?_, h2⟩
            rw [h1 h3]
            simp [CliConfig.set, Ne.symm hn]
        · cases h
      · rename_i hnn
        have hn : name ≠ o := by rintro rfl; exact hnn ho
        simp only [argsOf, if_neg hn]
        exact ih h

/-! ### Violations -/

theorem one_option (env : CliEnv) (c : CliConfig) {o : String} {arg : List Char} {kind : CliKind} (hk : cliTable.lookup o = some kind) {v : CliVal}
    (hv : cliCase env o arg (arg.map Char.toLower) kind = .ok (some v, false)) : ∃ c', cliParseInput env [.opt o arg] c = .ok (c', .success) ∧ c'.value o = v := by
  have hloop : cliLoop env [.opt o arg] c false = .ok (c.update o kind (some v), .success) := by
    simp only [cliLoop, hk, hv, Outcome.bind]; rfl
  unfold cliParseInput
  rw [hloop]
  simp only [Outcome.bind]
  refine ⟨_, rfl, ?_⟩
  split
  · exact update_same c o kind v
  · exact update_same c o kind v

/-- `--use-LOESS-smoothening true` switches smoothing off. -/
theorem C133_violated_loess (env : CliEnv) (arg : List Char) (c : CliConfig) :
    ∃ c', cliParseInput env [.opt "use-LOESS-smoothening" arg] c = .ok (c', .success) ∧ c'.value "use-LOESS-smoothening" = .bool false :=
  one_option env c (kind := .flag false) (by simp [cliTable, List.lookup]) rfl

/-- Names of folders and files with upper case letters are changed: output goes to another folder than the one typed. -/
theorem C133_violated_texts (env : CliEnv) (c : CliConfig) {o : String} (ho : o ∈ textOptions) {arg : List Char} (hup : ∃ ch ∈ arg, ch.toLower ≠ ch) :
    ∃ c', cliParseInput env [.opt o arg] c = .ok (c', .success) ∧ c'.value o ≠ .text arg := by
  have hk : cliTable.lookup o = some .lowerText := by
    simp only [textOptions, List.mem_cons, List.not_mem_nil, or_false] at ho
    rcases ho with rfl | rfl | rfl | rfl <;> simp [cliTable, List.lookup]
  obtain ⟨c', h1, h2⟩ := one_option env c hk (arg := arg) (v := .text (arg.map Char.toLower)) rfl
  refine ⟨c', h1, ?_⟩
  rw [h2]
  intro h3
  simp only [CliVal.text.injEq] at h3
  obtain ⟨ch, hc, hne⟩ := hup
  exact hne (List.map_inj_left.1 (h3.trans (List.map_id arg).symm) ch hc)

/-- Numbers that make no sense are accepted: a negative number of iterations, a number followed by other characters, a number of samples that is taken modulo 2^32. -/
theorem C133_violated_numbers (env : CliEnv) (c : CliConfig) :
    (∃ c', cliParseInput env [.opt "iterations" "-1".toList] c = .ok (c', .success) ∧ c'.value "iterations" = .num (2 ^ 64 - 1)) ∧
    (∃ c', cliParseInput env [.opt "iterations" "1e6".toList] c = .ok (c', .success) ∧ c'.value "iterations" = .num 1) ∧
    (∃ c', cliParseInput env [.opt "tuning-samples" "4294967297".toList] c = .ok (c', .success) ∧ c'.value "tuning-samples" = .num 1) := by
  have h1 : stoul ("-1".toList.map Char.toLower) = some (2 ^ 64 - 1) := by decide
  have h2 : stoul ("1e6".toList.map Char.toLower) = some 1 := by decide
  have h3 : stoul ("4294967297".toList.map Char.toLower) = some 4294967297 := by decide
  refine ⟨one_option env c (kind := .natural 64 1) (by simp [cliTable, List.lookup]) ?_, one_option env c (kind := .natural 64 1) (by simp [cliTable, List.lookup]) ?_,
    one_option env c (kind := .natural 32 1) (by simp [cliTable, List.lookup]) ?_⟩
  · simp only [cliCase, h1]; rfl
  · simp only [cliCase, h2]; rfl
  · simp only [cliCase, h3]; rfl

/-- A load balancing interval that is not a number ends the program with an exception instead of an error message; for all other numbers there is a message. -/
theorem C133_violated_interval (env : CliEnv) (c : CliConfig) :
    cliParseInput env [.opt "load-balancing-interval" "often".toList] c = .throws ∧
    ∀ e ∈ naturalOptions, ∃ c', cliParseInput env [.opt e.1 "often".toList] c = .ok (c', .parsingError) := by
  have h1 : stoul ("often".toList.map Char.toLower) = none := by decide
  constructor
  · have hk : cliTable.lookup "load-balancing-interval" = some .naturalNoCatch := by simp [cliTable, List.lookup]
    simp only [cliParseInput, cliLoop, hk, cliCase, h1, Outcome.bind]
  · intro e he
    obtain ⟨hk, -⟩ := natural_lookup e he
    simp only [cliParseInput, cliLoop, hk, cliCase, h1, Outcome.bind]
    exact ⟨_, rfl⟩

/-- An argument that consists of delimiters is undefined behaviour for options that take one name. -/
theorem C133_violated_blank (env : CliEnv) (c : CliConfig) {o : String} (ho : o ∈ choiceOptions) {arg : List Char} (hb : ∀ ch ∈ arg, defaultDelim ch = true) :
    cliParseInput env [.opt o arg] c = .ub := by
  have hk : cliTable.lookup o = some .oneOption := by
    simp only [choiceOptions, List.mem_cons, List.not_mem_nil, or_false] at ho
    rcases ho with rfl | rfl | rfl | rfl | rfl <;> simp [cliTable, List.lookup]
  have hlow : ∀ ch, defaultDelim ch = true → ch.toLower = ch := by
    intro ch h
    simp [defaultDelim] at h
    rcases h with rfl | rfl | rfl | rfl | rfl <;> decide
  have hm : arg.map Char.toLower = arg := by
    conv_rhs => rw [← List.map_id arg]
    exact List.map_congr_left fun ch hc => hlow ch (hb ch hc)
  have ht : ∀ s : List Char, (∀ ch ∈ s, defaultDelim ch = true) → tokenizeFrom defaultDelim s [] = [] := by
    intro s
    induction s with
    | nil => intro _; rfl
    | cons ch s ih =>
      intro h
      simp only [tokenizeFrom, h ch List.mem_cons_self, if_true, List.nil_append]
      exact ih fun x hx => h x (List.mem_cons_of_mem _ hx)
  have hp : parseOptions (env.names o) arg = .ok [] := by
    unfold parseOptions tokenize
    rw [ht arg hb]
    rfl
  simp only [cliParseInput, cliLoop, hk, hm, cliCase, hp, Outcome.bind, List.eraseDups_nil]

/-! ### Examples -/

private def exampleEnv : CliEnv where
  stod t := if t = "2.5".toList then some (5 / 2) else none
  numberSet _ := []
  names _ := [(0, "time".toList), (1, "energy".toList)]
  fileExists _ := true

example (c : CliConfig) : ∃ c', cliParseInput exampleEnv [.opt "iterations" "100".toList, .opt "cutoff" "2.5".toList, .opt "iterations" "200".toList] c = .ok (c', .success) ∧
    argsOf "iterations" [.opt "iterations" "100".toList, .opt "cutoff" "2.5".toList, .opt "iterations" "200".toList] = ["100".toList, "200".toList] := by
  have hi : cliTable.lookup "iterations" = some (.natural 64 1) := by simp [cliTable, List.lookup]
  have hc : ∃ f : Rat → Bool, cliTable.lookup "cutoff" = some (.real f) ∧ ∀ x, f x = true := ⟨_, by simp [cliTable, List.lookup] <;> rfl, fun _ => rfl⟩
  obtain ⟨f, hc, hf⟩ := hc
  have h1 : stoul ("100".toList.map Char.toLower) = some 100 := by decide
  have h2 : stoul ("200".toList.map Char.toLower) = some 200 := by decide
  have h3 : exampleEnv.stod ("2.5".toList.map Char.toLower) = some (5 / 2) := by
    have : "2.5".toList.map Char.toLower = "2.5".toList := by decide
    rw [this]; rfl
  refine ⟨?_, ?_, by decide⟩
  rotate_left
  · simp only [cliParseInput, cliLoop, hi, hc, cliCase, h1, h2, h3, Outcome.bind, hf]; rfl
example : Numeral "200".toList 200 := ⟨by decide, by decide, by decide⟩
/-- A choice in any case. -/
example : (tokenize defaultDelim ("Energy".toList.map Char.toLower)).map (List.map Char.toLower) = ["energy".toList.map Char.toLower] ∧
    ((exampleEnv.names "tuning-metric").map fun x => x.2.map Char.toLower).Nodup ∧ (1, "energy".toList) ∈ exampleEnv.names "tuning-metric" ∧ "tuning-metric" ∈ choiceOptions := by
  refine ⟨by decide, by simp only [exampleEnv]; decide, by simp [exampleEnv], by decide⟩
example : ∀ ch ∈ "output/run1".toList, ch.toLower = ch := by decide
example : ∃ ch ∈ "Output".toList, ch.toLower ≠ ch := ⟨'O', by decide, by decide⟩
example : ∀ ch ∈ " , ".toList, defaultDelim ch = true := by decide

end Verif
