import Verif.Lemmas.CheckpointBorder
import Verif.Lemmas.MDObjectsPacked
/-! Reading the file of one rank. -/
namespace Verif

open Spec.Checkpoint

theorem findWordGo_append {w : List Char} (t : List Char) : ∀ {l cur r : List Char}, findWordGo w cur l = .good r →
    findWordGo w cur (l ++ t) = .good (r ++ t) := by
  intro l
  induction l with
  | nil => intro cur r h; simp [findWordGo] at h
  | cons c l ih =>
    intro cur r h
    rw [List.cons_append, findWordGo]
    rw [findWordGo] at h
    split_ifs at h ⊢ with h1 h2
    all_goals first
      | exact ih h
      | (rw [InStream.good.injEq] at h; rw [h])

theorem ignoreUntil_append {d : Char} (t : List Char) {l r : List Char} {c : Char} (h : l.dropWhile (· ≠ d) = c :: r) :
    ignoreUntil d (.good (l ++ t)) = .good (r ++ t) := by
  have : (l ++ t).dropWhile (· ≠ d) = c :: (r ++ t) := by
    rw [List.dropWhile_append, h]
    simp
  simp only [ignoreUntil, this]

/-- The reader yields the value from the text, which ends at a newline. -/
def Reads {α : Type} (rd : InStream → α × InStream) (txt : List Char) (v : α) : Prop :=
  ∀ ws : List Char, (∀ c ∈ ws, isSpaceChar c = true) → ∀ rest, rd (.good (ws ++ txt ++ '\n' :: rest)) = (v, .good ('\n' :: rest))

/-- A line with a given content. -/
def lineOf (txt : List Char) : List Char := lineIndent ++ txt ++ ['\n']

theorem readPayload_lines {α : Type} {rd : InStream → α × InStream} (rest : List Char) : ∀ {items : List (List Char × α)}, items ≠ [] →
    (∀ i ∈ items, Reads rd i.1 i.2) → ∀ pre : List Char, (∀ c ∈ pre, isSpaceChar c = true) →
    readPayload rd items.length (.good (pre ++ (items.flatMap (fun i => lineOf i.1) ++ rest))) = (items.map (·.2), .good ('\n' :: rest)) := by
  intro items
  induction items with
  | nil => intro h; exact absurd rfl h
  | cons i items ih =>
    intro _ hi pre hpre
    have h1 := hi i List.mem_cons_self (pre ++ lineIndent) (by
      intro c hc
      rcases List.mem_append.1 hc with h | h
      · exact hpre c h
      · exact (by decide : ∀ c ∈ lineIndent, isSpaceChar c = true) c h) (items.flatMap (fun i => lineOf i.1) ++ rest)
    have heq : pre ++ ((i :: items).flatMap (fun i => lineOf i.1) ++ rest) =
        pre ++ lineIndent ++ i.1 ++ '\n' :: (items.flatMap (fun i => lineOf i.1) ++ rest) := by
      simp [lineOf, List.append_assoc]
    rw [heq, List.length_cons, readPayload, h1]
    by_cases hn : items = []
    · subst hn
      simp [readPayload]
    · have := ih hn (fun j hj => hi j (List.mem_cons_of_mem _ hj)) ['\n'] (by decide)
      rw [List.singleton_append] at this
      rw [this]
      rfl

theorem reads_double {P : Nat} (hP : 1 ≤ P) (q : Rat) {ws : List Char} (hws : ∀ c ∈ ws, isSpaceChar c = true) {c : Char}
    (hc : isSpaceChar c = true) (rest : List Char) :
    readDouble (.good (ws ++ (ratText P q ++ c :: rest))) = (roundSig P q, .good (c :: rest)) := by
  rw [← List.append_assoc]
  exact readDouble_ratText hP q hws hc rest

theorem reads_v3 {P1 P2 P3 : Nat} (h1 : 1 ≤ P1) (h2 : 1 ≤ P2) (h3 : 1 ≤ P3) (x y z : Rat) :
    Reads readV3 ([' '].intercalate [ratText P1 x, ratText P2 y, ratText P3 z])
      ⟨.num (roundSig P1 x), .num (roundSig P2 y), .num (roundSig P3 z)⟩ := by
  intro ws hws rest
  have heq : ws ++ [' '].intercalate [ratText P1 x, ratText P2 y, ratText P3 z] ++ '\n' :: rest =
      ws ++ (ratText P1 x ++ ' ' :: (ratText P2 y ++ ' ' :: (ratText P3 z ++ '\n' :: rest))) := by
    simp [List.intercalate, List.append_assoc]
  have hsp : ∀ c ∈ [' '], isSpaceChar c = true := by decide
  rw [heq]
  simp only [readV3]
  rw [reads_double h1 x hws (by decide)]
  have a := reads_double h2 y hsp (c := ' ') (by decide) (ratText P3 z ++ '\n' :: rest)
  have b := reads_double h3 z hsp (c := '\n') (by decide) rest
  rw [List.singleton_append] at a b
  simp only [a, b]

theorem reads_quat (a b c d : Rat) :
    Reads readQuat ([' '].intercalate [ratText 6 a, ratText 6 b, ratText 6 c, ratText 6 d])
      (.num (roundSig 6 a), .num (roundSig 6 b), .num (roundSig 6 c), .num (roundSig 6 d)) := by
  intro ws hws rest
  have heq : ws ++ [' '].intercalate [ratText 6 a, ratText 6 b, ratText 6 c, ratText 6 d] ++ '\n' :: rest =
      ws ++ (ratText 6 a ++ ' ' :: (ratText 6 b ++ ' ' :: (ratText 6 c ++ ' ' :: (ratText 6 d ++ '\n' :: rest)))) := by
    simp [List.intercalate, List.append_assoc]
  have hsp : ∀ c ∈ [' '], isSpaceChar c = true := by decide
  have h6 : 1 ≤ 6 := by norm_num
  rw [heq]
  simp only [readQuat]
  rw [reads_double h6 a hws (by decide)]
  have h1 := reads_double h6 b hsp (c := ' ') (by decide) (ratText 6 c ++ ' ' :: (ratText 6 d ++ '\n' :: rest))
  have h2 := reads_double h6 c hsp (c := ' ') (by decide) (ratText 6 d ++ '\n' :: rest)
  have h3 := reads_double h6 d hsp (c := '\n') (by decide) rest
  rw [List.singleton_append] at h1 h2 h3
  simp only [h1, h2, h3]

theorem readNat_text {n : Nat} (hn : n < 2 ^ 64) {ws : List Char} (hws : ∀ c ∈ ws, isSpaceChar c = true) {c : Char}
    (hc : isDigitChar c = false) (rest : List Char) : readNat (.good (ws ++ natText n ++ c :: rest)) = (n, .good (c :: rest)) := by
  obtain ⟨d, l, hl⟩ : ∃ d l, natText n = d :: l := by
    cases h : natText n with
    | nil => exact absurd h (natText_ne_nil n)
    | cons d l => exact ⟨d, l, rfl⟩
  have hd : isDigitChar d = true := natText_digits n d (by rw [hl]; exact List.mem_cons_self)
  have h0 : (ws ++ natText n ++ c :: rest).dropWhile isSpaceChar = natText n ++ c :: rest := by
    have := dropWhile_spaces hws (digit_not_space hd) (l ++ c :: rest)
    rw [hl, List.append_assoc]
    exact this
  have hs : scanSign (natText n ++ c :: rest) = (false, natText n ++ c :: rest) := by
    rw [hl]
    exact scanSign_digit hd _
  obtain ⟨h1, h2⟩ := takeWhile_digits (natText_digits n) (rest := c :: rest) (by rintro _ _ h; rw [← (List.cons.inj h).1]; exact hc)
  simp only [readNat, h0, hs, h1, h2, digitsVal_natText]
  rw [if_neg (natText_ne_nil n), if_neg (by omega)]
  rfl

theorem reads_nat {n : Nat} (hn : n < 2 ^ 64) : Reads readNat ([' '].intercalate [natText n]) n := by
  intro ws hws rest
  have : [' '].intercalate [natText n] = natText n := by simp [List.intercalate]
  rw [this]
  exact readNat_text hn hws (by decide) rest

/-- Looking for a data array in literal text and reading it. -/
theorem readArray_lines {α : Type} {rd : InStream → α × InStream} {name : String} {pre r : List Char}
    (h1 : findWordGo name.toList [] pre = .good r) (h2 : r.dropWhile (· ≠ '\n') = ['\n']) {items : List (List Char × α)} (hne : items ≠ [])
    (hi : ∀ i ∈ items, Reads rd i.1 i.2) (rest : List Char) :
    readArray name rd items.length (.good (pre ++ (items.flatMap (fun i => lineOf i.1) ++ rest))) =
      .ok (items.map (·.2), .good ('\n' :: rest)) := by
  have hfw : findWord name (.good (pre ++ (items.flatMap (fun i => lineOf i.1) ++ rest))) =
      .ok (.good (r ++ (items.flatMap (fun i => lineOf i.1) ++ rest))) := by
    rw [findWord, findWordGo_append _ h1]
  rw [readArray, hfw, ok_bind_eq, ignoreUntil_append _ h2]
  have := readPayload_lines rest hne hi [] (by intro c hc; cases hc)
  simp only [List.nil_append] at this ⊢
  rw [this]

/-! ### The particle that is read back -/

/-- The value read back for six digits. -/
def storedDbl : Dbl → Dbl
  | .num q => .num (roundSig 6 q)
  | d => d

/-- The vector read back. -/
def storedVec (v : V3 Dbl) : V3 Dbl := ⟨storedDbl v.x, storedDbl v.y, storedDbl v.z⟩

/-- The component of a position read back. -/
def storedPosDbl (d : Dbl) (border : Rat) : Dbl :=
  match d with
  | .num q => match positionPrecision q border with
    | .ok P => .num (roundSig P q)
    | _ => .num 0
  | d => d

/-- The position read back. -/
def storedPosition (v : V3 Dbl) (b : V3 Rat) : V3 Dbl := ⟨storedPosDbl v.x b.x, storedPosDbl v.y b.y, storedPosDbl v.z b.z⟩

/-- The particle read back. -/
def storedParticle (multisite : Bool) (boxMax : V3 Rat) (p : CkParticle) : CkParticle :=
  { pos := storedPosition p.pos boxMax
    vel := storedVec p.vel
    force := storedVec p.force
    typeId := p.typeId
    id := p.id
    quat := if multisite then (storedDbl p.quat.1, storedDbl p.quat.2.1, storedDbl p.quat.2.2.1, storedDbl p.quat.2.2.2)
      else (.num 0, .num 0, .num 0, .num 0)
    angVel := if multisite then storedVec p.angVel else zeroV3
    torque := if multisite then storedVec p.torque else zeroV3 }

theorem reads_vec {v : V3 Dbl} (h : FiniteV3 v) : Reads readV3 ([' '].intercalate (v3Text v)) (storedVec v) := by
  obtain ⟨x, y, z, rfl⟩ := h
  exact reads_v3 (by norm_num) (by norm_num) (by norm_num) x y z

/-- The items of an array. -/
theorem array_items {α : Type} (ps : List CkParticle) (row : CkParticle → List (List Char)) (v : CkParticle → α) :
    (ps.map row).flatMap dataLine = (ps.map fun p => ([' '].intercalate (row p), v p)).flatMap (fun i => lineOf i.1) := by
  simp only [List.flatMap_map]
  rfl

theorem position_items {boxMax : V3 Rat} : ∀ {ps : List CkParticle} {txt : List Char}, (∀ p ∈ ps, FiniteV3 p.pos) →
    positionLines boxMax ps = .ok txt → ∃ items : List (List Char × V3 Dbl), txt = items.flatMap (fun i => lineOf i.1) ∧
      items.map (·.2) = ps.map (fun p => storedPosition p.pos boxMax) ∧ ∀ i ∈ items, Reads readV3 i.1 i.2 := by
  intro ps
  induction ps with
  | nil =>
    intro txt _ h
    refine ⟨[], ?_, rfl, by intro i hi; cases hi⟩
    obtain rfl := Outcome.ok.inj h
    rfl
  | cons p ps ih =>
    intro txt hf h
    rw [positionLines, Outcome.bind_ok] at h
    obtain ⟨l, hl, h⟩ := h
    rw [Outcome.bind_ok] at h
    obtain ⟨ls, hls, h⟩ := h
    obtain rfl := Outcome.ok.inj h
    obtain ⟨items, rfl, hm, hr⟩ := ih (fun q hq => hf q (List.mem_cons_of_mem _ hq)) hls
    obtain ⟨x, y, z, hp⟩ := hf p List.mem_cons_self
    rw [positionLine, hp] at hl
    simp only [positionText, Outcome.bind_ok] at hl
    obtain ⟨tx, ⟨Px, hx, htx⟩, ty, ⟨Py, hy, hty⟩, tz, ⟨Pz, hz, htz⟩, hl⟩ := hl
    obtain rfl := Outcome.ok.inj htx
    obtain rfl := Outcome.ok.inj hty
    obtain rfl := Outcome.ok.inj htz
    obtain rfl := Outcome.ok.inj hl
    refine ⟨([' '].intercalate [ratText Px x, ratText Py y, ratText Pz z],
      ⟨.num (roundSig Px x), .num (roundSig Py y), .num (roundSig Pz z)⟩) :: items, rfl, ?_, ?_⟩
    · rw [List.map_cons, List.map_cons, hm, hp]
      simp only [storedPosition, storedPosDbl, hx, hy, hz]
    · intro i hi
      rcases List.mem_cons.1 hi with rfl | hi
      · exact reads_v3 (by have := positionPrecision_range hx; omega) (by have := positionPrecision_range hy; omega)
          (by have := positionPrecision_range hz; omega) x y z
      · exact hr i hi

/-- One data array of the file. -/
theorem readArray_dataArray {α : Type} {rd : InStream → α × InStream} {name comps type : String} {pre r : List Char}
    (h1 : findWordGo name.toList [] (pre ++ arrayOpen name comps type) = .good r) (h2 : r.dropWhile (· ≠ '\n') = ['\n'])
    {ps : List CkParticle} (hne : ps ≠ []) {row : CkParticle → List (List Char)} {v : CkParticle → α}
    (hr : ∀ p ∈ ps, Reads rd ([' '].intercalate (row p)) (v p)) (rest : List Char) :
    readArray name rd ps.length (.good (pre ++ (dataArray name comps type (ps.map row) ++ rest))) =
      .ok (ps.map v, .good ('\n' :: (arrayClose ++ rest))) := by
  have := readArray_lines h1 h2 (items := ps.map fun p => ([' '].intercalate (row p), v p)) (by simpa using hne)
    (by intro i hi; obtain ⟨p, hp, rfl⟩ := List.mem_map.1 hi; exact hr p hp) (arrayClose ++ rest)
  rw [List.length_map, List.map_map] at this
  rw [dataArray, array_items ps row v]
  simp only [List.append_assoc] at this ⊢
  exact this

theorem range_map_getD {α : Type} {f : CkParticle → α} {ps : List CkParticle} (d : α) {i : Nat} (hi : i < ps.length) :
    (ps.map f).getD i d = f ps[i] := by
  simp [List.getD, hi]

/-- The file of a rank is read back. -/
theorem loadVtu_vtuFile {multisite : Bool} {boxMax : V3 Rat} {ps : List CkParticle} (hne : ps ≠ []) (hlen : ps.length < 2 ^ 64)
    (hreg : ∀ p ∈ ps, Regular p) {f : List Char} (h : vtuFile multisite boxMax ps = .ok f) :
    loadVtu multisite f = .ok (ps.map (storedParticle multisite boxMax)) := by
  rw [vtuFile, Outcome.bind_ok] at h
  obtain ⟨pt, hpt, h⟩ := h
  obtain rfl := Outcome.ok.inj h
  obtain ⟨items, rfl, hm, hr⟩ := position_items (fun p hp => (hreg p hp).pos) hpt
  have hlen' : items.length = ps.length := by
    have := congrArg List.length hm
    simpa using this
  have hine : items ≠ [] := by
    intro h0
    rw [h0] at hlen'
    exact hne (List.eq_nil_of_length_eq_zero hlen'.symm)
  -- the number of particles
  have hfw : ∃ r, findWordGo "NumberOfPoints".toList [] vtuHead = .good r ∧ r.dropWhile (· ≠ '"') = ['"'] := by
    refine ⟨"=\"".toList, ?_, ?_⟩ <;> decide +kernel
  obtain ⟨r, hr1, hr2⟩ := hfw
  rw [loadVtu, findWord, findWordGo_append _ hr1, ok_bind_eq]
  dsimp only
  rw [ignoreUntil_append _ hr2, List.nil_append]
  have hq : ∀ rest : List Char, readNat (.good (natText ps.length ++ (vtuPoints ++ rest))) = (ps.length, .good (vtuPoints ++ rest)) := by
    intro rest
    have hv : vtuPoints = '"' :: vtuPoints.tail := by decide
    have := readNat_text hlen (ws := []) (by intro c hc; cases hc) (c := '"') (by decide) (vtuPoints.tail ++ rest)
    rw [List.nil_append] at this
    rw [hv]
    exact this
  rw [hq]
  have hn0 : ps.length ≠ 0 := fun h0 => hne (List.eq_nil_of_length_eq_zero h0)
  dsimp only
  rw [if_neg hn0]
  -- velocities
  rw [readArray_dataArray (r := "\" NumberOfComponents=\"3\" format=\"ascii\" type=\"Float32\">\n".toList) (by decide +kernel) (by decide +kernel) hne
    (fun p hp => reads_vec (hreg p hp).vel) _, ok_bind_eq]
  dsimp only
  rw [← List.cons_append, readArray_dataArray (r := "\" NumberOfComponents=\"3\" format=\"ascii\" type=\"Float32\">\n".toList) (by decide +kernel)
    (by decide +kernel) hne (fun p hp => reads_vec (hreg p hp).force) _, ok_bind_eq]
  dsimp only
  have hquat : ∀ p ∈ ps, Reads readQuat ([' '].intercalate [dblText 6 p.quat.1, dblText 6 p.quat.2.1, dblText 6 p.quat.2.2.1,
      dblText 6 p.quat.2.2.2]) (storedDbl p.quat.1, storedDbl p.quat.2.1, storedDbl p.quat.2.2.1, storedDbl p.quat.2.2.2) := by
    intro p hp
    obtain ⟨a, b, c, d, hq⟩ := (hreg p hp).quat
    rw [hq]
    exact reads_quat a b c d
  have finish : ∀ (ms : List (Dbl × Dbl × Dbl × Dbl) × List (V3 Dbl) × List (V3 Dbl) × InStream) (rest : List Char),
      ms.2.2.2 = .good ('\n' :: (arrayClose ++ (dataArray "typeIds" "1" "Int32" (ps.map fun p => [natText p.typeId]) ++
              (dataArray "ids" "1" "Int32" (ps.map fun p => [natText p.id]) ++
                (vtuMid ++ (arrayOpen "positions" "3" "Float32" ++ (items.flatMap (fun i => lineOf i.1) ++ rest))))))) →
      (∀ i (hi : i < ps.length), ms.1.getD i (.num 0, .num 0, .num 0, .num 0) = (storedParticle multisite boxMax ps[i]).quat ∧
        ms.2.1.getD i zeroV3 = (storedParticle multisite boxMax ps[i]).angVel ∧
        ms.2.2.1.getD i zeroV3 = (storedParticle multisite boxMax ps[i]).torque) →
      ((readArray "typeIds" readNat ps.length ms.2.2.2).bind fun typeIds =>
        (readArray "ids" readNat ps.length typeIds.2).bind fun ids =>
        (readArray "positions" readV3 ps.length ids.2).bind fun pos =>
        .ok ((List.range ps.length).map fun i =>
          ({ pos := pos.1.getD i zeroV3
             vel := (ps.map fun p => storedVec p.vel).getD i zeroV3
             force := (ps.map fun p => storedVec p.force).getD i zeroV3
             typeId := typeIds.1.getD i 0
             id := ids.1.getD i 0
             quat := ms.1.getD i (.num 0, .num 0, .num 0, .num 0)
             angVel := ms.2.1.getD i zeroV3
             torque := ms.2.2.1.getD i zeroV3 } : CkParticle))) = .ok (ps.map (storedParticle multisite boxMax)) := by
    intro ms rest hs hms
    rw [hs, ← List.cons_append, readArray_dataArray (r := "\" NumberOfComponents=\"1\" format=\"ascii\" type=\"Int32\">\n".toList) (by decide +kernel)
      (by decide +kernel) hne (v := fun p => p.typeId) (fun p hp => reads_nat (hreg p hp).typeId) _, ok_bind_eq]
    dsimp only
    rw [← List.cons_append, readArray_dataArray (r := "\" NumberOfComponents=\"1\" format=\"ascii\" type=\"Int32\">\n".toList) (by decide +kernel)
      (by decide +kernel) hne (v := fun p => p.id) (fun p hp => reads_nat (hreg p hp).id) _, ok_bind_eq]
    dsimp only
    have hpos := readArray_lines (name := "positions") (pre := '\n' :: (arrayClose ++ (vtuMid ++ arrayOpen "positions" "3" "Float32")))
      (r := "\" NumberOfComponents=\"3\" format=\"ascii\" type=\"Float32\">\n".toList) (by decide +kernel) (by decide +kernel) hine hr rest
    rw [hlen'] at hpos
    simp only [List.append_assoc, List.cons_append] at hpos ⊢
    rw [hpos, ok_bind_eq, hm]
    refine congrArg Outcome.ok ?_
    apply List.ext_getElem
    · simp
    · intro i h1 h2
      have hi : i < ps.length := by simpa using h2
      obtain ⟨m1, m2, m3⟩ := hms i hi
      simp only [List.getElem_map, List.getElem_range]
      rw [m1, m2, m3, range_map_getD _ hi, range_map_getD _ hi, range_map_getD _ hi, range_map_getD _ hi, range_map_getD _ hi]
      rfl
  cases multisite with
  | true =>
    simp only [if_true, multisiteArrays, List.append_assoc]
    rw [← List.cons_append, readArray_dataArray (r := "\" NumberOfComponents=\"4\" format=\"ascii\" type=\"Float32\">\n".toList) (by decide +kernel)
      (by decide +kernel) hne hquat _, ok_bind_eq]
    dsimp only
    rw [← List.cons_append, readArray_dataArray (r := "\" NumberOfComponents=\"3\" format=\"ascii\" type=\"Float32\">\n".toList) (by decide +kernel)
      (by decide +kernel) hne (fun p hp => reads_vec (hreg p hp).angVel) _, ok_bind_eq]
    dsimp only
    rw [← List.cons_append, readArray_dataArray (r := "\" NumberOfComponents=\"3\" format=\"ascii\" type=\"Float32\">\n".toList) (by decide +kernel)
      (by decide +kernel) hne (fun p hp => reads_vec (hreg p hp).torque) _, ok_bind_eq, ok_bind_eq]
    refine finish (_, _, _, _) _ rfl ?_
    intro i hi
    refine ⟨?_, ?_, ?_⟩ <;> simp only [range_map_getD _ hi] <;> rfl
  | false =>
    simp only [Bool.false_eq_true, if_false, List.nil_append]
    rw [ok_bind_eq]
    refine finish ([], [], [], _) _ rfl ?_
    intro i hi
    exact ⟨rfl, rfl, rfl⟩

end Verif
