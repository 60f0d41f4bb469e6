import Verif.Lemmas.LCReferences
/-! The container `linkedCellsReferences`: cleaning the cells and `updateContainer(false)`. -/
namespace Verif
open Spec

variable {c : LHParams}

theorem lrLook_length (arr : List Particle) (l : List LRPtr) : (lrLook arr l).length = l.length := by unfold lrLook; simp

theorem lrLook_congr {a b : List Particle} {l : List LRPtr} (h : ∀ q ∈ l, lrAt a q.idx = lrAt b q.idx) : lrLook a l = lrLook b l := by
  unfold lrLook; exact List.map_congr_left h

/-- The loop over a cell does to what the cell shows what swap-delete on a list does. -/
theorem lrPurge_spec (b : CellBlock) (k gen : Nat) (n : Nat) : ∀ (arr : List Particle) (l : List LRPtr) (i : Nat), l.length - i = n →
    LRGood gen arr.length l → (l.map LRPtr.idx).Nodup →
    ∃ arr' l', lrPurge b k gen arr l i = some (arr', l', (purge (lrVerdict b k) (lrLook arr l) i).2) ∧
      lrLook arr' l' = (purge (lrVerdict b k) (lrLook arr l) i).1 ∧
      arr'.length = arr.length ∧ l' <+: l ∧ (∀ j, j ∉ l.map LRPtr.idx → lrAt arr' j = lrAt arr j) ∧
      (∀ q ∈ l, q ∉ l' → (lrAt arr' q.idx).own = .dummy) := by
  induction n using Nat.strong_induction_on with
  | _ n ih =>
  intro arr l i hn hgood hnd
  by_cases h : i < l.length
  · have hne : l ≠ [] := by rintro rfl; simp at h
    set z := l.getLast hne with hz
    have hzm : z ∈ l := List.getLast_mem hne
    have hqm : l[i] ∈ l := List.getElem_mem h
    have gq := hgood _ hqm
    have gz := hgood _ hzm
    have hlook : i < (lrLook arr l).length := by rw [lrLook_length]; exact h
    have hat : (lrLook arr l)[i] = lrAt arr l[i].idx := by simp only [lrLook, List.getElem_map]
    rw [lrPurge, dif_pos h]
    simp only [← hz, if_pos gq.1, if_pos gz.1, lrAt_some gq.2, lrAt_some gz.2]
    rw [purge, dif_pos hlook, hat]
    have hv : lrVerdict b k (lrAt arr l[i].idx) = .take ∨ lrVerdict b k (lrAt arr l[i].idx) = .keep := by
      unfold lrVerdict; split <;> simp
    rcases hv with hv | hv
    · rw [hv]
      dsimp only
      set p := lrAt arr l[i].idx with hp
      set w := lrAt arr z.idx with hw
      set arr1 := arr.set l[i].idx w with harr1
      set arr2 := arr1.set z.idx { w with own := .dummy } with harr2
      have hl1 : arr1.length = arr.length := by rw [harr1, List.length_set]
      have hl2 : arr2.length = arr.length := by rw [harr2, List.length_set, hl1]
      have hsplit : l = l.dropLast ++ [z] := (List.dropLast_append_getLast hne).symm
      have hat2 : ∀ j, lrAt arr2 j = if j = z.idx then { w with own := .dummy } else if j = l[i].idx then w else lrAt arr j := by
        intro j
        rw [harr2, lrAt_set (by rw [hl1]; exact gz.2), harr1, lrAt_set gq.2]
      have hnd' : (l.dropLast.map LRPtr.idx).Nodup := by
        exact hnd.sublist ((List.dropLast_sublist _).map _)
      have hzn : z.idx ∉ l.dropLast.map LRPtr.idx := by
        have h2 := hnd
        rw [hsplit, List.map_append, List.nodup_append] at h2
        intro hmem
        exact h2.2.2 _ hmem z.idx (by simp) rfl
      have hsw : lrLook arr2 l.dropLast = swapDelete (lrLook arr l) i := by
        unfold swapDelete
        have hlast : (lrLook arr l).getLast? = some w := by
          unfold lrLook
          rw [List.getLast?_map, List.getLast?_eq_some_getLast hne]; rfl
        rw [hlast]
        simp only [if_pos hlook]
        apply List.ext_getElem?
        intro j
        by_cases hj : j < l.length - 1
        · have hjl : j < l.length := by omega
          have hjd : j < l.dropLast.length := by rw [List.length_dropLast]; exact hj
          rw [List.getElem?_dropLast, if_pos (by rw [List.length_set, lrLook_length]; exact hj)]
          unfold lrLook
          rw [List.getElem?_map, List.getElem?_eq_getElem hjd, List.getElem_dropLast]
          simp only [Option.map_some, hat2]
          have hjz : l[j].idx ≠ z.idx := by
            intro he
            apply hzn
            rw [← he]
            refine List.mem_map.2 ⟨l[j], ?_, rfl⟩
            have := List.getElem_mem hjd
            rwa [List.getElem_dropLast] at this
          rw [if_neg hjz]
          by_cases hji : j = i
          · subst hji
            rw [if_pos rfl, List.getElem?_set_self (by simpa using h)]
          · rw [List.getElem?_set_ne (Ne.symm hji), List.getElem?_map, List.getElem?_eq_getElem hjl, if_neg]
            · rfl
            · intro he
              apply hji
              have := List.Nodup.getElem_inj_iff hnd (i := j) (j := i) (hi := by simpa using hjl) (hj := by simpa using h)
              rw [List.getElem_map, List.getElem_map] at this
              exact this.1 he
        · rw [List.getElem?_eq_none (by rw [lrLook_length, List.length_dropLast]; omega),
            List.getElem?_eq_none (by rw [List.length_dropLast, List.length_set, lrLook_length]; omega)]
      obtain ⟨arr3, l3, e1, e2, e3, e4, e5, e6⟩ := ih (l.dropLast.length - i) (by rw [List.length_dropLast]; omega) arr2 l.dropLast i rfl
        (fun q hq => by rw [hl2]; exact hgood q (List.dropLast_subset _ hq)) hnd'
      rw [hsw] at e1 e2
      refine ⟨arr3, l3, by rw [e1]; rfl, e2, by rw [e3, hl2], e4.trans (List.dropLast_prefix _), ?_, ?_⟩
      · intro j hj
        have hj1 : j ∉ l.dropLast.map LRPtr.idx := fun hm => hj (by
          obtain ⟨q, hq, rfl⟩ := List.mem_map.1 hm
          exact List.mem_map.2 ⟨q, List.dropLast_subset _ hq, rfl⟩)
        rw [e5 j hj1, hat2, if_neg (fun he => hj (by rw [he]; exact List.mem_map.2 ⟨z, hzm, rfl⟩)),
          if_neg (fun he => hj (by rw [he]; exact List.mem_map.2 ⟨_, hqm, rfl⟩))]
      · intro q hq hq3
        rw [hsplit] at hq
        rcases List.mem_append.1 hq with hq | hq
        · exact e6 q hq hq3
        · rw [List.mem_singleton.1 hq, e5 _ hzn, hat2, if_pos rfl]
    · rw [hv]
      dsimp only
      exact ih (l.length - (i + 1)) (by omega) arr l (i + 1) rfl hgood hnd
  · rw [lrPurge, dif_neg h, purge, dif_neg (by rw [lrLook_length]; exact h)]
    exact ⟨arr, l, rfl, rfl, rfl, List.prefix_refl _, fun _ _ => rfl, fun q hq hq' => absurd hq hq'⟩

/-- A cell without its dummies, after the loop. -/
def lrCleaned (b : CellBlock) (k : Nat) (l : List Particle) : List Particle × List Particle :=
  purge (lrVerdict b k) (l.filter fun p => decide (p.own ≠ .dummy)) 0

theorem zip_filter_look (arr : List Particle) (l : List LRPtr) (f : Particle → Bool) :
    ((l.zip (lrLook arr l)).filter fun x => f x.2).map Prod.fst = l.filter fun q => f (lrAt arr q.idx) := by
  unfold lrLook
  induction l with
  | nil => rfl
  | cons q l ih =>
    rw [List.map_cons, List.zip_cons_cons]
    cases h : f (lrAt arr q.idx) with
    | true => simp only [List.filter_cons, h, if_true, List.map_cons, ih]
    | false => simp only [List.filter_cons, h, Bool.false_eq_true, if_false, ih]

theorem idx_disjoint {cells : List (List LRPtr)} (h : (cells.flatten.map LRPtr.idx).Nodup) {j k : Nat} (hjk : j ≠ k) {q r : LRPtr}
    (hq : q ∈ cells.getD j []) (hr : r ∈ cells.getD k []) : q.idx ≠ r.idx := by
  rw [List.map_flatten, List.nodup_flatten] at h
  have hj : j < cells.length := by
    by_contra hc; rw [List.getD, List.getElem?_eq_none (by omega)] at hq; cases hq
  have hk : k < cells.length := by
    by_contra hc; rw [List.getD, List.getElem?_eq_none (by omega)] at hr; cases hr
  rw [List.getD, List.getElem?_eq_getElem hj, Option.getD_some] at hq
  rw [List.getD, List.getElem?_eq_getElem hk, Option.getD_some] at hr
  have hp := h.2
  rw [List.pairwise_map, List.pairwise_iff_getElem] at hp
  intro he
  rcases Nat.lt_or_gt_of_ne hjk with hlt | hgt
  · exact hp j k hj hk hlt (List.mem_map.2 ⟨q, hq, rfl⟩) (List.mem_map.2 ⟨r, hr, he.symm⟩)
  · exact hp k j hk hj hgt (List.mem_map.2 ⟨r, hr, rfl⟩) (List.mem_map.2 ⟨q, hq, he⟩)

theorem nodup_at {cells : List (List LRPtr)} (h : (cells.flatten.map LRPtr.idx).Nodup) (k : Nat) : ((cells.getD k []).map LRPtr.idx).Nodup := by
  rw [List.map_flatten, List.nodup_flatten] at h
  by_cases hk : k < cells.length
  · rw [List.getD, List.getElem?_eq_getElem hk, Option.getD_some]
    exact h.1 _ (List.mem_map.2 ⟨_, List.getElem_mem hk, rfl⟩)
  · rw [List.getD, List.getElem?_eq_none (by omega)]; simp

theorem flatten_set_sublist {cells : List (List LRPtr)} {k : Nat} {l : List LRPtr} (h : l.Sublist (cells.getD k [])) :
    (cells.set k l).flatten.Sublist cells.flatten := by
  induction cells generalizing k with
  | nil => simp
  | cons x cells ih =>
    cases k with
    | zero => rw [List.set_cons_zero, List.flatten_cons, List.flatten_cons]; exact List.Sublist.append (by simpa using h) (List.Sublist.refl _)
    | succ k =>
      rw [List.set_cons_succ, List.flatten_cons, List.flatten_cons]
      exact List.Sublist.append (List.Sublist.refl _) (ih (by simpa using h))

/-- One cell. -/
theorem lrCleanCell_spec (b : CellBlock) {k : Nat} {st : LRState} (acc : List Particle) (h : LRInv c st) (hk : k < st.cells.length) :
    ∃ st', lrCleanCell b k (st, acc) = some (st', acc ++ (lrCleaned b k (st.look.getD k [])).2) ∧ LRInv c st' ∧
      st'.look = st.look.set k (lrCleaned b k (st.look.getD k [])).1 := by
  set l := st.cells.getD k [] with hl
  have hg := h.goodAt k
  rw [← hl] at hg
  have hlk : st.look.getD k [] = lrLook st.arr l := look_getD st k
  unfold lrCleanCell
  simp only [← hl, viewCell_eq hg, Option.bind_some]
  rw [zip_filter_look st.arr l fun p => decide (p.own ≠ .dummy)]
  set l0 := l.filter fun q => decide ((lrAt st.arr q.idx).own ≠ .dummy) with hl0
  have hl0s : l0.Sublist l := List.filter_sublist
  have hlook0 : lrLook st.arr l0 = (lrLook st.arr l).filter fun p => decide (p.own ≠ .dummy) := by
    unfold lrLook; rw [hl0, List.filter_map]; rfl
  have hndl := nodup_at h.nodup k
  rw [← hl] at hndl
  obtain ⟨arr', l', e1, e2, e3, e4, e5, e6⟩ := lrPurge_spec b k st.gen _ st.arr l0 0 rfl
    (fun q hq => hg q (hl0s.subset hq)) (hndl.sublist (hl0s.map _))
  rw [hlook0] at e1 e2
  rw [e1]
  have hl's : l'.Sublist l := e4.sublist.trans hl0s
  have hsub : (st.cells.set k l').flatten.Sublist st.cells.flatten := flatten_set_sublist (by rw [← hl]; exact hl's)
  have hother : ∀ j, j ≠ k → ∀ q ∈ st.cells.getD j [], lrAt arr' q.idx = lrAt st.arr q.idx := by
    intro j hj q hq
    apply e5
    intro hm
    obtain ⟨r, hr, he⟩ := List.mem_map.1 hm
    exact idx_disjoint h.nodup hj hq (hl0s.subset hr) he.symm
  refine ⟨{ st with arr := arr', cells := st.cells.set k l' }, by rw [hlk]; rfl, ⟨h.clean, by rw [e3]; exact h.index, by rw [e3]; exact h.fit, by rw [List.length_set]; exact h.len, ?_, ?_, ?_⟩, ?_⟩
  · intro l1 hl1 q hq
    rw [e3]
    have hqf : q ∈ st.cells.flatten := hsub.subset (List.mem_flatten.2 ⟨l1, hl1, hq⟩)
    obtain ⟨l2, hl2, hq2⟩ := List.mem_flatten.1 hqf
    exact h.good l2 hl2 q hq2
  · exact h.nodup.sublist (hsub.map _)
  · intro i hi hnd
    dsimp only at hi hnd ⊢
    rw [e3] at hi
    by_cases hil : i ∈ l0.map LRPtr.idx
    · obtain ⟨q, hq, rfl⟩ := List.mem_map.1 hil
      by_cases hq' : q ∈ l'
      · refine List.mem_map.2 ⟨q, mem_flatten_getD'.2 ⟨k, ?_⟩, rfl⟩
        rw [getD_set_self' hk]; exact hq'
      · exact absurd (e6 q hq hq') hnd
    · rw [e5 i hil] at hnd
      obtain ⟨q, hq, rfl⟩ := List.mem_map.1 (h.cover i hi hnd)
      obtain ⟨j, hj⟩ := mem_flatten_getD'.1 hq
      by_cases hjk : j = k
      · subst hjk
        exfalso
        apply hil
        refine List.mem_map.2 ⟨q, ?_, rfl⟩
        rw [hl0, List.mem_filter]
        exact ⟨hj, by simpa using hnd⟩
      · refine List.mem_map.2 ⟨q, mem_flatten_getD'.2 ⟨j, ?_⟩, rfl⟩
        rw [getD_set_ne' (Ne.symm hjk)]; exact hj
  · apply List.ext_getElem?
    intro j
    unfold LRState.look
    dsimp only
    rw [List.getElem?_map]
    by_cases hj : j = k
    · subst hj
      rw [List.getElem?_set_self hk, List.getElem?_set_self (by simpa using hk)]
      have := hlk
      unfold LRState.look at this
      rw [this]
      exact congrArg some e2
    · rw [List.getElem?_set_ne (Ne.symm hj), List.getElem?_set_ne (Ne.symm hj), List.getElem?_map]
      cases hc : st.cells[j]? with
      | none => rfl
      | some lj =>
        refine congrArg some (lrLook_congr fun q hq => hother j hj q ?_)
        rw [List.getD, hc]; exact hq

/-- All cells. -/
theorem lrCleanCells_spec (b : CellBlock) (ks : List Nat) (hks : ks.Nodup) : ∀ {st : LRState} (acc : List Particle), LRInv c st →
    (∀ k ∈ ks, k < st.cells.length) →
    ∃ st', lrCleanCells b ks (st, acc) = some (st', acc ++ ks.flatMap fun k => (lrCleaned b k (st.look.getD k [])).2) ∧ LRInv c st' ∧
      ∀ j, st'.look.getD j [] = if j ∈ ks then (lrCleaned b j (st.look.getD j [])).1 else st.look.getD j [] := by
  induction ks with
  | nil => intro st acc h _; exact ⟨st, by simp [lrCleanCells], h, fun j => by simp⟩
  | cons k ks ih =>
    intro st acc h hlt
    rw [List.nodup_cons] at hks
    have hk := hlt k (List.mem_cons_self ..)
    obtain ⟨st1, e1, h1, l1⟩ := lrCleanCell_spec b acc h hk
    have hkl : k < st.look.length := by unfold LRState.look; simpa using hk
    have hget : ∀ j, st1.look.getD j [] = if j = k then (lrCleaned b k (st.look.getD k [])).1 else st.look.getD j [] := by
      intro j
      rw [l1]
      by_cases hj : j = k
      · subst hj; rw [if_pos rfl, getD_set_self' hkl]
      · rw [if_neg hj, getD_set_ne' (Ne.symm hj)]
    obtain ⟨st2, e2, h2, l2⟩ := ih hks.2 (st := st1) (acc ++ (lrCleaned b k (st.look.getD k [])).2) h1
      (fun j hj => by rw [h1.len, ← h.len]; exact hlt j (List.mem_cons_of_mem _ hj))
    refine ⟨st2, ?_, h2, ?_⟩
    · unfold lrCleanCells
      rw [e1]
      show lrCleanCells b ks (st1, _) = _
      rw [e2, List.flatMap_cons, List.append_assoc]
      have e : (ks.flatMap fun j => (lrCleaned b j (st1.look.getD j [])).2) = ks.flatMap fun j => (lrCleaned b j (st.look.getD j [])).2 := by
        apply List.flatMap_congr
        intro j hj
        rw [hget j, if_neg (fun he : j = k => hks.1 (he ▸ hj))]
      rw [e]
    · intro j
      rw [l2 j, hget j]
      by_cases hj : j = k
      · subst hj; rw [if_neg hks.1, if_pos rfl, if_pos (List.mem_cons_self ..)]
      · rw [if_neg hj]
        by_cases hjs : j ∈ ks
        · rw [if_pos hjs, if_pos (List.mem_cons_of_mem _ hjs)]
        · rw [if_neg hjs, if_neg (by simp [hj, hjs])]

/-- The second loop never throws if everything stored is where it belongs. -/
theorem lrReadd_spec (h : LHParamsOk c) {grow : Nat → Nat} (hg : ∀ n, n < grow n) (m : Nat) (ps : List Particle) :
    ∀ {st : LRState} (out : List Particle), LRInv c st → (∀ k, ∀ p ∈ st.look.getD k [], PlaceOk c m k p) →
    (∀ p ∈ st.arr, p.own ≠ .dummy → LRFitting c p) → (∀ p ∈ ps, p.own = .owned) →
    ∃ st', lrReadd c grow ps (st, out) = .ok (st', out ++ ps.filter fun p => !inBoxB p.pos c.bMin c.bMax) ∧ LRInv c st' ∧
      st'.arr = st.arr ++ ps.filter fun p => inBoxB p.pos c.bMin c.bMax := by
  induction ps with
  | nil => intro st out hi _ _ _; exact ⟨st, by simp [lrReadd], hi, by simp⟩
  | cons p ps ih =>
    intro st out hi hp hf ho
    have hpo := ho p (List.mem_cons_self ..)
    have hps : ∀ q ∈ ps, q.own = .owned := fun q hq => ho q (List.mem_cons_of_mem _ hq)
    unfold lrReadd
    cases hin : inBoxB p.pos c.bMin c.bMax with
    | true =>
      have hfit : LRFitting c p := (fitting_iff h p).2 (Or.inl ⟨hpo, hin⟩)
      rcases lrAdd_spec h hg hi hp hfit (by rw [hpo]; decide) with ⟨⟨q, hq, h1, h2⟩, -⟩ | ⟨st1, e1, e2, e3, e4⟩
      · exact absurd (hf q hq h1) h2
      · obtain ⟨st2, f1, f2, f3⟩ := ih (st := st1) out e3 e4 (by
          intro q hq hnd
          rw [e2] at hq
          rcases List.mem_append.1 hq with hq | hq
          · exact hf q hq hnd
          · rw [List.mem_singleton.1 hq]; exact hfit) hps
        refine ⟨st2, ?_, f2, ?_⟩
        · simp only [if_true, e1]
          show lrReadd c grow ps (st1, out) = _
          rw [f1, List.filter_cons_of_neg (by simp [hin])]
        · rw [f3, e2, List.filter_cons_of_pos (by simpa using hin), List.append_assoc]; rfl
    | false =>
      obtain ⟨st2, f1, f2, f3⟩ := ih (out ++ [p]) hi hp hf hps
      refine ⟨st2, ?_, f2, ?_⟩
      · simp only [Bool.false_eq_true, if_false]
        rw [f1, List.filter_cons_of_pos (by simp [hin]), List.append_assoc]; rfl
      · rw [f3, List.filter_cons_of_neg (by simp [hin])]

/-- `updateContainer(false)`. -/
theorem lrUpdateRebuild_spec (h : LHParamsOk c) {grow : Nat → Nat} (hg : ∀ n, n < grow n) {sched : List Particle → List Particle}
    (hs : ∀ l, (sched l).Perm l) {st : LRState} (hi : LRInv c st) {m : Nat} (hp : ∀ k, ∀ p ∈ st.look.getD k [], PlaceOk c m k p) :
    ∃ st' out, st.updateRebuild c grow sched = .ok (st', out) ∧ LRInv c st' ∧
      (∀ k, ∀ p ∈ st'.look.getD k [], p.own = .owned ∧ c.block.flatIndexOfPosition p.pos = k ∧ PlaceOk c 0 k p) ∧
      st'.arr.Perm ((st.arr.filter isOwned).filter fun p => inBoxB p.pos c.bMin c.bMax) ∧
      out.Perm ((st.arr.filter isOwned).filter fun p => !inBoxB p.pos c.bMin c.bMax) := by
  obtain ⟨st1, e1, h1, l1⟩ := lrCleanCells_spec (c := c) c.block (List.range st.cells.length) List.nodup_range (st := st) [] hi (by simp)
  rw [List.nil_append] at e1
  set taken := (List.range st.cells.length).flatMap fun k => (lrCleaned c.block k (st.look.getD k [])).2 with htaken
  have l1' : ∀ j, st1.look.getD j [] = (lrCleaned c.block j (st.look.getD j [])).1 := by
    intro j
    rw [l1 j]
    by_cases hj : j < st.cells.length
    · rw [if_pos (List.mem_range.2 hj)]
    · rw [if_neg (by simpa using hj), look_getD, List.getD, List.getElem?_eq_none (by omega)]
      simp [lrLook, lrCleaned, purge]
  have hkeep : ∀ k l, (lrCleaned c.block k l).1.Perm ((l.filter fun p => decide (p.own ≠ .dummy)).filter fun p =>
      decide (lrVerdict c.block k p = .keep)) := fun k l => (purge_zero _ _).1
  have htake : ∀ k l, (lrCleaned c.block k l).2.Perm ((l.filter fun p => decide (p.own ≠ .dummy)).filter fun p =>
      decide (lrVerdict c.block k p = .take)) := fun k l => (purge_zero _ _).2
  have hboth : ∀ k l, ((lrCleaned c.block k l).1 ++ (lrCleaned c.block k l).2).Perm (l.filter fun p => decide (p.own ≠ .dummy)) := by
    intro k l
    refine ((hkeep k l).append (htake k l)).trans ?_
    have : (fun p => decide (lrVerdict c.block k p = Fate.take)) = fun p => !decide (lrVerdict c.block k p = Fate.keep) := by
      funext p; unfold lrVerdict; split <;> rfl
    rw [this]
    exact List.filter_append_perm _ _
  -- where things are after the first loop
  have hp1 : ∀ k, ∀ p ∈ st1.look.getD k [], PlaceOk c m k p ∧ p.own ≠ .dummy ∧ (p.own = .owned → c.block.flatIndexOfPosition p.pos = k) := by
    intro k p hpk
    rw [l1' k] at hpk
    have := (hkeep k _).subset hpk
    rw [List.mem_filter, List.mem_filter, decide_eq_true_eq, decide_eq_true_eq] at this
    refine ⟨hp k p this.1.1, this.1.2, ?_⟩
    intro ho
    have hk : k < c.block.numCells := by
      by_contra hc
      have h2 := this.1.1
      rw [look_getD, List.getD, List.getElem?_eq_none (by rw [hi.len]; omega)] at h2
      cases h2
    have hv := this.2
    unfold lrVerdict at hv
    cases hb : inBoxB p.pos (c.block.cellBox k).1 (c.block.cellBox k).2 with
    | true => exact flat_of_cellBox h hk hb
    | false => rw [if_pos ⟨ho, hb⟩] at hv; cases hv
  have hfit1 : ∀ p ∈ st1.arr, p.own ≠ .dummy → LRFitting c p := by
    intro p hpa hnd
    have hmem : p ∈ st1.look.flatten.filter fun p => decide (p.own ≠ .dummy) :=
      h1.live.symm.subset (List.mem_filter.2 ⟨hpa, by simpa using hnd⟩)
    obtain ⟨k, hk⟩ := mem_flatten_getD'.1 (List.mem_filter.1 hmem).1
    obtain ⟨q1, -, q3⟩ := hp1 k p hk
    rw [fitting_iff h]
    cases ho : p.own with
    | dummy => exact absurd ho hnd
    | halo => exact Or.inr ⟨rfl, q1.haloOut ho⟩
    | owned =>
      left
      refine ⟨rfl, ?_⟩
      have e := halo_iff_outside h p.pos
      rw [q3 ho, q1.ownedIn ho] at e
      cases hb : inBoxB p.pos c.bMin c.bMax with
      | true => rfl
      | false => rw [hb] at e; cases e
  have htk : ∀ p ∈ taken, p.own = .owned := by
    intro p hpt
    obtain ⟨k, -, hk⟩ := List.mem_flatMap.1 hpt
    have := (htake k _).subset hk
    rw [List.mem_filter, decide_eq_true_eq] at this
    have hv := this.2
    unfold lrVerdict at hv
    by_contra ho
    rw [if_neg (fun hx => ho hx.1)] at hv
    cases hv
  obtain ⟨st2, e2, h2, a2⟩ := lrReadd_spec h hg m (sched taken) (st := st1) [] h1 (fun k p hk => (hp1 k p hk).1) hfit1
    (fun p hpt => htk p ((hs taken).subset hpt))
  rw [List.nil_append] at e2
  -- what was stored
  have hlive : (st1.arr.filter isOwned ++ taken).Perm (st.arr.filter isOwned) := by
    have q1 : st1.look = (List.range st.cells.length).map fun k => (lrCleaned c.block k (st.look.getD k [])).1 := by
      apply List.ext_getElem?
      intro j
      have hlen : st1.look.length = st.cells.length := by unfold LRState.look; rw [List.length_map, h1.len, hi.len]
      by_cases hj : j < st.cells.length
      · rw [List.getElem?_map, List.getElem?_range hj]
        have := l1' j
        rw [List.getD, List.getElem?_eq_getElem (by omega)] at this
        rw [List.getElem?_eq_getElem (by omega)]
        exact congrArg some this
      · rw [List.getElem?_eq_none (by omega), List.getElem?_eq_none (by simpa using hj)]
    have q2 : (st1.look.flatten ++ taken).Perm (st.look.flatten.filter fun p => decide (p.own ≠ .dummy)) := by
      rw [q1, ← List.flatMap_def, htaken]
      refine (List.flatMap_append_perm _ _ _).trans ?_
      refine (flatMap_perm_congr fun k _ => hboth k _).trans ?_
      rw [flatMap_filter]
      have : st.look.flatten = (List.range st.cells.length).flatMap fun k => st.look.getD k [] := by
        have hl : st.cells.length = st.look.length := by unfold LRState.look; simp
        rw [hl, flatten_range]
      rw [this]
    have q3 := (q2.filter isOwned)
    rw [List.filter_append, filter_owned_self htk] at q3
    have q4 : (st1.arr.filter isOwned ++ taken).Perm (st1.look.flatten.filter isOwned ++ taken) := (h1.owned.symm).append_right _
    refine q4.trans (q3.trans ?_)
    refine (hi.live.filter isOwned).trans ?_
    rw [List.filter_filter]
    have e : (fun p : Particle => isOwned p && decide (p.own ≠ .dummy)) = isOwned := by
      funext p; unfold isOwned; cases p.own <;> rfl
    rw [e]
  have hinbox : ∀ p ∈ st1.arr.filter isOwned, inBoxB p.pos c.bMin c.bMax = true := by
    intro p hpa
    rw [List.mem_filter] at hpa
    have ho : p.own = .owned := by simpa [isOwned] using hpa.2
    rcases (fitting_iff h p).1 (hfit1 p hpa.1 (by rw [ho]; decide)) with ⟨-, hb⟩ | ⟨hh, -⟩
    · exact hb
    · rw [ho] at hh; cases hh
  -- the last step
  set st3 := st2.dropHaloAndDummies c with hst3
  have harr3 : st3.arr = st2.arr.filter isOwned := by
    rw [hst3]; unfold LRState.dropHaloAndDummies
    dsimp only
    rw [List.filter_filter]
    congr 1
    funext p; unfold isOwned; cases p.own <;> rfl
  have harr3p : st3.arr.Perm ((st.arr.filter isOwned).filter fun p => inBoxB p.pos c.bMin c.bMax) := by
    rw [harr3, a2, List.filter_append]
    have q5 := hlive.filter (fun p => inBoxB p.pos c.bMin c.bMax)
    rw [List.filter_append, List.filter_eq_self.2 hinbox] at q5
    refine List.Perm.trans ?_ q5
    refine List.Perm.append_left _ ?_
    rw [filter_owned_self (fun p hpf => htk p ((hs taken).subset (List.mem_filter.1 hpf).1))]
    exact (hs taken).filter _
  have hfit3 : ∀ p ∈ st3.arr, p.own = .owned ∧ LRFitting c p := by
    intro p hp3
    have := harr3p.subset hp3
    rw [List.mem_filter, List.mem_filter] at this
    have ho : p.own = .owned := by simpa [isOwned] using this.1.2
    exact ⟨ho, (fitting_iff h p).2 (Or.inl ⟨ho, this.2⟩)⟩
  have hcap3 : st3.arr.length ≤ st3.cap := by
    have : st3.cap = st2.cap := rfl
    rw [this, harr3]
    exact le_trans (List.length_filter_le _ _) h2.fit
  have hlen3 : st3.cells.length = c.block.numCells := by
    rw [hst3]; unfold LRState.dropHaloAndDummies; simp [h2.len]
  have hres : st.updateRebuild c grow sched =
      (st3.updateDirty c).bind fun s => .ok (s, (sched taken).filter fun p => !inBoxB p.pos c.bMin c.bMax) := by
    unfold LRState.updateRebuild
    rw [e1]
    dsimp only
    rw [e2]
    rfl
  rcases resort_spec h (st := st3) rfl rfl hcap3 hlen3 with ⟨⟨p, hpa, hnd, hnf⟩, -⟩ | ⟨-, st4, f1, f2, f3, f4⟩
  · exact absurd (hfit3 p hpa).2 hnf
  · refine ⟨st4, _, by rw [hres, f1]; rfl, f3, ?_, by rw [f2]; exact harr3p, ?_⟩
    · intro k p hpk
      obtain ⟨g1, g2, g3⟩ := f4 k p hpk
      have hpa : p ∈ st4.arr.filter fun p => decide (p.own ≠ .dummy) :=
        f3.live.subset (List.mem_filter.2 ⟨mem_flatten_getD'.2 ⟨k, hpk⟩, by simpa using g1⟩)
      rw [f2] at hpa
      have := hfit3 p (List.mem_filter.1 hpa).1
      exact ⟨this.1, g3, g3 ▸ g2.place h 0⟩
    · have q5 := hlive.filter (fun p => !inBoxB p.pos c.bMin c.bMax)
      rw [List.filter_append] at q5
      have : (st1.arr.filter isOwned).filter (fun p => !inBoxB p.pos c.bMin c.bMax) = [] := by
        rw [List.filter_eq_nil_iff]; intro p hpa; simp [hinbox p hpa]
      rw [this, List.nil_append] at q5
      exact ((hs taken).filter _).trans q5

end Verif
