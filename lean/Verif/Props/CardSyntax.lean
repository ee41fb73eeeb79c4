/- Properties C213-C217: surface, material and tally cards in the forms that MCNP allows (mcnp_input_reader.py). -/
import Verif.Props.CellSyntax
import Verif.Props.McnpSurfaces
import Verif.Props.McnpInput4

set_option linter.unusedSectionVars false
set_option linter.unusedSimpArgs false

namespace Props
open Py NeutUtilities McnpInput Spec.Mcnp
variable {F : Type}

/-! ### C213: default bins of tallies -/

/-- An energy or time card for all tallies, `e0` or `t0`, is not recorded for any tally that has no card of its own. -/
theorem C213_default_bins_violated (n : Nat) (lines : List Str) (_h0 : HasCard lines p!"e0" ∧ HasCard lines p!"t0")
    (he : ¬ HasCard lines (p!"e" ++ natStr n)) (ht : ¬ HasCard lines (p!"t" ++ natStr n)) :
    (readTallyLines n lines).hasEbins = false ∧ (readTallyLines n lines).hasTbins = false := by
  obtain ⟨_, _, _, h1, h2, _⟩ := C90_tally_partial n lines splitWs isWords_splitWs
  constructor
  · rw [Bool.eq_false_iff]; exact fun h => he (h1.1 h)
  · rw [Bool.eq_false_iff]; exact fun h => ht (h2.1 h)

/-- Without such cards the flags are right: a tally has bins exactly if it has a card of its own. -/
theorem C213_partial (n : Nat) (lines : List Str) (he0 : ¬ HasCard lines p!"e0") (ht0 : ¬ HasCard lines p!"t0") :
    ((readTallyLines n lines).hasEbins = true ↔ HasCard lines (p!"e" ++ natStr n) ∨ HasCard lines p!"e0") ∧
    ((readTallyLines n lines).hasTbins = true ↔ HasCard lines (p!"t" ++ natStr n) ∨ HasCard lines p!"t0") := by
  obtain ⟨_, _, _, h1, h2, _⟩ := C90_tally_partial n lines splitWs isWords_splitWs
  exact ⟨by rw [h1]; tauto, by rw [h2]; tauto⟩

example : (readTallyLines 4 [p!"f4:n 1", p!"e0 1 2", p!"t0 1 2"]).hasEbins = false ∧
    HasCard [p!"f4:n 1", p!"e0 1 2", p!"t0 1 2"] p!"e0" ∧ HasCard [p!"f4:n 1", p!"e0 1 2", p!"t0 1 2"] p!"t0" :=
  ⟨by decide +kernel, ⟨p!"e0 1 2", by simp, p!"e0", p!"1 2", rfl, rfl⟩, ⟨p!"t0 1 2", by simp, p!"t0", p!"1 2", rfl, rfl⟩⟩
example : (readTallyLines 4 [p!"f4:n 1", p!"E4 1 2"]).hasEbins = true := by decide +kernel

/-! ### C214: surface cards -/

/-- The text of a card continues the text `t`. -/
private def Continues (t u : Str) : Prop := ∃ tail, u = t ++ tail ∧ (tail = [] ∨ ∃ r, tail = ' ' :: r)

private theorem surf_pending (post : List Str) : ∀ (st : Dict Int Surface × Str) (t : Str) (d : Dict Int Surface), Continues t st.2 → st.2 ≠ [] →
    (do
      let st ← post.foldlM surfStep st
      if st.2.length > 0 then
        let s ← processSurfaceLine st.2
        pure (st.1.set s.number s)
      else pure st.1 : Except Err (Dict Int Surface)) = .ok d →
    ∃ u s, Continues t u ∧ processSurfaceLine u = .ok s := by
  induction post with
  | nil =>
    intro st t d hc hne h
    have hlen : st.2.length > 0 := List.length_pos_iff.2 hne
    rw [List.foldlM_nil, ex_pure, ex_ok_bind, if_pos hlen] at h
    simp only [ex_bind_ok] at h
    obtain ⟨s, h1, _⟩ := h
    exact ⟨st.2, s, hc, h1⟩
  | cons l ls ih =>
    intro st t d hc hne h
    have hlen : st.2.length > 0 := List.length_pos_iff.2 hne
    rw [List.foldlM_cons] at h
    simp only [ex_bind_ok] at h
    obtain ⟨st2, ⟨st1, hs, hf⟩, hfin⟩ := h
    have hrest : (do
      let st ← ls.foldlM surfStep st1
      if st.2.length > 0 then
        let s ← processSurfaceLine st.2
        pure (st.1.set s.number s)
      else pure st.1 : Except Err (Dict Int Surface)) = .ok d := by rw [hf, ex_ok_bind]; exact hfin
    unfold surfStep at hs
    split at hs
    · simp only [Except.ok.injEq] at hs
      subst hs
      refine ih _ t d ?_ (by simp) hrest
      obtain ⟨tail, h1, h2⟩ := hc
      refine ⟨tail ++ p!" " ++ stringCleaner l, by rw [h1]; simp, ?_⟩
      right
      rcases h2 with rfl | ⟨r, rfl⟩
      · exact ⟨stringCleaner l, by simp⟩
      · exact ⟨r ++ p!" " ++ stringCleaner l, by simp⟩
    · split at hs
      · simp only [Except.ok.injEq] at hs
        subst hs
        exact ih _ t d hc hne hrest
      · split at hs
        · simp only [Except.ok.injEq] at hs
          subst hs
          exact ih _ t d hc hne hrest
        · simp only [ex_bind_ok] at hs
          obtain ⟨s, h1, _⟩ := hs
          exact ⟨st.2, s, hc, h1⟩

/-- The text of a card in a block that was read can be read itself. -/
private theorem surf_in_block {pre : List Str} {line : Str} {post : List Str} (hl : SurfHead line) {d : Dict Int Surface}
    (h : processSurfaceBlock (pre ++ line :: post) = .ok d) : ∃ u s, Continues (stringCleaner line) u ∧ processSurfaceLine u = .ok s := by
  unfold processSurfaceBlock at h
  rw [List.foldlM_append] at h
  simp only [ex_bind_ok] at h
  obtain ⟨st3, ⟨st1, _, h2⟩, h3⟩ := h
  rw [List.foldlM_cons] at h2
  simp only [ex_bind_ok] at h2
  obtain ⟨st2, h4, h5⟩ := h2
  have hst2 : st2.2 = stringCleaner line := by
    rw [surfStep_head hl (isWords_splitWs line)] at h4
    split at h4
    · simp only [ex_bind_ok, ex_pure, Except.ok.injEq] at h4
      obtain ⟨_, _, rfl⟩ := h4
      exact (clean_txt (isWords_splitWs line)).symm
    · simp only [Except.ok.injEq] at h4
      subst h4
      exact (clean_txt (isWords_splitWs line)).symm
  refine surf_pending post st2 (stringCleaner line) d ⟨[], by rw [hst2]; simp, .inl rfl⟩ ?_ ?_
  · rw [hst2, clean_txt (isWords_splitWs line)]
    intro he
    have := txt_pos (isWords_noSp hl.2.1 (isWords_splitWs line))
    rw [he] at this; simp at this
  · rw [h5, ex_ok_bind]; exact h3

private theorem line_ok {u : Str} {s : Surface} (h : processSurfaceLine u = .ok s) :
    (∃ w, (splitOn ' ' (lower u))[0]? = some w ∧ pyInt w ≠ none) ∧
    ∃ w, (splitOn ' ' (lower u))[1]? = some w ∧ (strIsDigit w = true ∨ w ∈ surfaceTypes) := by
  unfold processSurfaceLine checkSurfTransform at h
  simp only [ex_bind_ok, orErr_ok_iff, ex_pure, Except.ok.injEq] at h
  obtain ⟨w0, h0, n, hn, tr, ⟨w1, h1, rfl⟩, h2⟩ := h
  refine ⟨⟨w0, h0, by rw [hn]; simp⟩, w1, h1, ?_⟩
  by_cases hd : strIsDigit w1 = true
  · exact .inl hd
  · rw [if_neg hd] at h2
    simp only [ex_bind_ok, orErr_ok_iff, ex_pure, Except.ok.injEq] at h2
    obtain ⟨ty, h4, s', rfl, h3⟩ := h2
    rw [h1] at h4
    simp only [Option.some.injEq] at h4
    subst h4
    split at h3
    · rename_i hv; exact .inr ((types_iff _).1 hv)
    · cases h3

private theorem no_blank_lower {w : Str} (h : ∀ c ∈ w, isSpace c = false) : ' ' ∉ lower w := by
  intro hm
  unfold lower at hm
  obtain ⟨c, hc, he⟩ := List.mem_map.1 hm
  have := h c hc
  rw [← isSpace_toLower, he] at this
  exact absurd this (by decide)

private theorem first_word {line u w0 : Str} {ws : List Str} (hw : Spec.IsWords line (w0 :: ws)) (hu : Continues (stringCleaner line) u) :
    (splitOn ' ' (lower u))[0]? = some (lower w0) := by
  have hs := splitWs_of_isWords hw
  have hm : w0 ∈ splitWs line := by rw [hs]; simp
  rw [splitOn_zero]
  refine ⟨no_blank_lower (mem_splitWs hm).2, ?_⟩
  obtain ⟨tail, rfl, ht⟩ := hu
  rw [stringCleaner_eq, hs]
  cases ws with
  | nil =>
    rw [show join [' '] [w0] = w0 by simp [join]]
    rcases ht with rfl | ⟨r, rfl⟩
    · left; simp
    · right; exact ⟨lower r, by simp [lower]⟩
  | cons w1 ws =>
    right
    rw [join_cons (by simp)]
    exact ⟨lower (join [' '] (w1 :: ws) ++ tail), by simp [lower]⟩

private theorem second_word {line u w0 w1 : Str} {ws : List Str} (hw : Spec.IsWords line (w0 :: w1 :: ws))
    (hu : Continues (stringCleaner line) u) : (splitOn ' ' (lower u))[1]? = some (lower w1) := by
  have hs := splitWs_of_isWords hw
  have hm : w0 ∈ splitWs line := by rw [hs]; simp
  have hm1 : w1 ∈ splitWs line := by rw [hs]; simp
  rw [splitOn_one]
  obtain ⟨tail, rfl, ht⟩ := hu
  rw [stringCleaner_eq, hs, join_cons (by simp)]
  refine ⟨lower w0, lower (join [' '] (w1 :: ws) ++ tail), by simp [lower], no_blank_lower (mem_splitWs hm).2,
    no_blank_lower (mem_splitWs hm1).2, ?_⟩
  cases ws with
  | nil =>
    rw [show join [' '] [w1] = w1 by simp [join]]
    rcases ht with rfl | ⟨r, rfl⟩
    · left; simp
    · right; exact ⟨lower r, by simp [lower]⟩
  | cons w2 ws =>
    right
    rw [join_cons (by simp)]
    exact ⟨lower (join [' '] (w2 :: ws) ++ tail), by simp [lower]⟩

/-- A reflecting surface, whose number has a star in front, makes the whole surface block unreadable. -/
theorem C214_reflecting_violated {pre : List Str} {line : Str} {post : List Str} (hl : SurfHead line) {w : Str} {ws : List Str}
    (hw : Spec.IsWords line (('*' :: w) :: ws)) (d : Dict Int Surface) : processSurfaceBlock (pre ++ line :: post) ≠ .ok d := by
  intro h
  obtain ⟨u, s, hu, hs⟩ := surf_in_block hl h
  obtain ⟨⟨w', h1, h2⟩, _⟩ := line_ok hs
  rw [first_word hw hu, Option.some.injEq] at h1
  subst h1
  apply h2
  have hsp := (isWords_words hw ('*' :: w) (by simp)).2
  show pyInt ('*' :: lower w) = none
  refine pyInt_none_of_head ?_ (by decide) (by decide) (by decide)
  intro c hc
  rcases List.mem_cons.1 hc with rfl | hc
  · decide
  · unfold lower at hc
    obtain ⟨x, hx, rfl⟩ := List.mem_map.1 hc
    rw [isSpace_toLower]; exact hsp x (by simp [hx])

/-- A surface whose second entry is neither a number without sign nor one of the known types makes the block unreadable. -/
theorem C214_second_entry_violated {pre : List Str} {line : Str} {post : List Str} (hl : SurfHead line) {w0 w1 : Str} {ws : List Str}
    (hw : Spec.IsWords line (w0 :: w1 :: ws)) (h1 : lower w1 ∉ surfaceTypes) (h2 : ∃ c ∈ w1, c.isDigit = false)
    (d : Dict Int Surface) : processSurfaceBlock (pre ++ line :: post) ≠ .ok d := by
  intro h
  obtain ⟨u, s, hu, hs⟩ := surf_in_block hl h
  obtain ⟨_, w', h3, h4⟩ := line_ok hs
  rw [second_word hw hu, Option.some.injEq] at h3
  subst h3
  rcases h4 with h4 | h4
  · obtain ⟨c, hc, hd⟩ := h2
    unfold strIsDigit at h4
    simp only [Bool.and_eq_true, List.all_eq_true] at h4
    have := h4.2 c.toLower (List.mem_map_of_mem hc)
    have hdd : c.toLower.isDigit = true := this
    have : c = c.toLower := by
      have hlt : c.toLower.toNat < 65 := by
        simp only [Char.isDigit, Bool.and_eq_true, decide_eq_true_eq] at hdd
        have h57 : c.toLower.val.toNat ≤ 57 := hdd.2
        show c.toLower.val.toNat < 65
        omega
      exact (toLower_eq_low hlt).1 rfl
    rw [← this, hd] at hdd
    cases hdd
  · exact h1 h4

/-- Periodic surfaces, whose second entry is the negative number of another surface, make the block unreadable. -/
theorem C214_periodic_violated {pre : List Str} {line : Str} {post : List Str} (hl : SurfHead line) {w0 w1 : Str} {ws : List Str}
    (hw : Spec.IsWords line (w0 :: ('-' :: w1) :: ws)) (d : Dict Int Surface) : processSurfaceBlock (pre ++ line :: post) ≠ .ok d := by
  refine C214_second_entry_violated hl hw ?_ ⟨'-', by simp, by decide⟩ d
  intro h
  have key : ∀ t ∈ surfaceTypes, t.head? ≠ some '-' := by decide
  exact key _ h (by simp [lower])

/-- The surfaces `x`, `y` and `z`, given by points, make the block unreadable. -/
theorem C214_points_violated {pre : List Str} {line : Str} {post : List Str} (hl : SurfHead line) {w0 w1 : Str} {ws : List Str}
    (hw : Spec.IsWords line (w0 :: w1 :: ws)) (h1 : lower w1 ∈ [p!"x", p!"y", p!"z"]) (d : Dict Int Surface) :
    processSurfaceBlock (pre ++ line :: post) ≠ .ok d := by
  refine C214_second_entry_violated hl hw ?_ ?_ d
  · have key : ∀ t ∈ [p!"x", p!"y", p!"z"], t ∉ surfaceTypes := by decide
    exact key _ h1
  · obtain ⟨hne, _⟩ := isWords_words hw w1 (by simp)
    obtain ⟨c, cs, rfl⟩ := List.exists_cons_of_ne_nil hne
    refine ⟨c, by simp, ?_⟩
    cases hd : c.isDigit with
    | false => rfl
    | true =>
      have : lower (c :: cs) = c :: lower cs := by simp [lower, digit_toLower_self hd]
      rw [this] at h1
      have key : ∀ t ∈ [p!"x", p!"y", p!"z"], ∀ c ∈ t.head?, c.isDigit = false := by decide
      rw [← hd]; exact key _ h1 c (by simp)

/-- Cards with a number, maybe a transform, one of the 37 types and parameters are read; a plus sign in front of the number, which
    marks a white boundary, is dropped. -/
theorem C214_partial {w0 ty : Str} {n : Nat} (hw0 : w0 = natStr n ∨ w0 = '+' :: natStr n) (hty : ty ∈ surfaceTypes)
    {tr ps : List Str} (htr : tr = [] ∨ ∃ k, tr = [natStr k]) {line : Str} (hl : SurfHead line)
    (hw : Spec.IsWords line (w0 :: tr ++ ty :: ps)) :
    ∃ d s, processSurfaceBlock [line] = .ok d ∧ d.get n = some s ∧ s.number = n ∧ s.surfType = ty ∧ s.params = ps.map lower ∧
      s.transform = tr.head? := by
  have hlow : ∀ k, lower (natStr k) = natStr k := natStr_lower
  have htl : lower ty = ty := by
    have key : ∀ t ∈ surfaceTypes, lower t = t := by decide
    exact key _ hty
  have hn : pyInt (lower w0) = some (n : Int) := by
    rcases hw0 with rfl | rfl
    · rw [hlow, pyInt_natStr]
    · have h1 : lower ('+' :: natStr n) = '+' :: natStr n := by
        show '+' :: lower (natStr n) = _
        rw [hlow]
      rw [h1]
      have h2 := pyInt_natStr n
      have h3 : strip ('+' :: natStr n) = '+' :: natStr n := by
        refine strip_word ?_
        intro c hc
        rcases List.mem_cons.1 hc with rfl | hc
        · decide
        · exact isDigit_not_space (natStr_isDigit hc)
      have h4 : strip (natStr n) = natStr n := strip_word fun c hc => isDigit_not_space (natStr_isDigit hc)
      unfold pyInt at h2 ⊢
      rw [h3]
      rw [h4] at h2
      split at h2
      · rename_i cs heq
        exact absurd (natStr_isDigit (n := n) (c := '-') (by rw [heq]; simp)) (by decide)
      · rename_i cs heq
        exact absurd (natStr_isDigit (n := n) (c := '+') (by rw [heq]; simp)) (by decide)
      · exact h2
  have hsurf : SurfOf ((w0 :: tr ++ ty :: ps).map lower) ⟨n, ty, ps.map lower, tr.head?⟩ := by
    refine ⟨hty, lower w0, hn, ?_⟩
    rcases htr with rfl | ⟨k, rfl⟩
    · left; simp [htl]
    · right
      refine ⟨natStr k, rfl, natStr_ne_nil k, fun c hc => natStr_isDigit hc, by simp [htl, hlow]⟩
  obtain ⟨d, h1, _, h2⟩ := C88_surfaces_partial [] [(line, [])] [⟨n, ty, ps.map lower, tr.head?⟩] (by simp)
    (.cons ⟨_, ⟨hl, by simp, _, [], hw, by simp, by simp⟩, hsurf⟩ .nil)
  refine ⟨d, ⟨n, ty, ps.map lower, tr.head?⟩, by simpa using h1, (h2 _ _).2 ⟨[], [], rfl, by simp⟩, rfl, rfl, rfl, rfl⟩

example : processSurfaceBlock [p!"1 px 3", p!"*5 px 0"] = .error .ValueError ∧ processSurfaceBlock [p!"5 -6 px 0", p!"6 -5 px 1"] = .error .ValueError ∧
    processSurfaceBlock [p!"7 X 1 2 3 4"] = .error .ValueError := by decide +kernel
example : processSurfaceBlock [p!"+5 3 PX 0"] = .ok [(5, ⟨5, p!"px", [p!"0"], some p!"3"⟩)] := by decide +kernel
example : SurfHead p!"*5 px 0" ∧ Spec.IsWords p!"*5 px 0" [p!"*5", p!"px", p!"0"] :=
  ⟨⟨by decide, by intro h; exact absurd (h '*' (by simp)) (by decide), by intro c hc; simp at hc; subst hc; decide⟩,
    isWords_iff.2 (by decide +kernel)⟩

/-! ### C211 and C212 for data cards -/

/-- A data card that starts with a blank is not seen: not by the lists of materials and tallies, and not as the mode card. -/
theorem C211_data_card_violated (pre post : List Str) (cs : Str) :
    getMaterialNumbers (pre ++ (' ' :: cs) :: post) = getMaterialNumbers (pre ++ post) ∧
    getTallyNumbers (pre ++ (' ' :: cs) :: post) = getTallyNumbers (pre ++ post) ∧
    ((∀ l ∈ pre ++ post, ¬ CardHead p!"mode" l) → readModeCard (pre ++ (' ' :: cs) :: post) = none) := by
  have h1 : ∀ x : Char, x ≠ ' ' → letterDigit x (' ' :: cs) = false := by
    intro x hx
    cases cs with
    | nil => rfl
    | cons c cs =>
      have : (' '.toLower == x) = false := by
        rw [beq_eq_false_iff_ne]; exact fun h => hx h.symm
      change ((' '.toLower == x) && isDigit c) = false
      rw [this]; rfl
  refine ⟨?_, ?_, ?_⟩
  · unfold getMaterialNumbers
    rw [List.filter_append, List.filter_cons_of_neg (by rw [h1 _ (by decide)]; simp), ← List.filter_append]
  · unfold getTallyNumbers
    rw [List.filter_append, List.filter_cons_of_neg (by rw [h1 _ (by decide)]; simp), ← List.filter_append]
  · intro h
    rw [C82_mode_none]
    intro l hl
    simp only [List.mem_append, List.mem_cons] at hl
    rcases hl with hl | rfl | hl
    · exact h l (by simp [hl])
    · rintro ⟨name, c, rest, he, hn, _⟩
      cases name with
      | nil => simp [lower] at hn
      | cons a as =>
        simp only [List.cons_append, List.cons.injEq] at he
        rw [← he.1] at hn
        simp [lower] at hn
    · exact h l (by simp [hl])

/-- A surface card that starts with one to four blanks is read like one that starts in column 1. -/
theorem C211_surface_partial (k : Nat) (hk : k < 5) (c : Char) (cs : Str) (hc : isSpace c = false) (hcc : c ≠ 'c' ∧ c ≠ 'C') (pre post : List Str) :
    processSurfaceBlock (pre ++ (List.replicate k ' ' ++ c :: cs) :: post) = processSurfaceBlock (pre ++ (c :: cs) :: post) := by
  have hc1 : c ≠ ' ' := by rintro rfl; exact absurd hc (by decide)
  have head : ∀ j, j < 5 → SurfHead (List.replicate j ' ' ++ c :: cs) := by
    intro j hj
    refine ⟨?_, ?_, ?_⟩
    · intro h
      have h2 := List.prefix_iff_eq_take.1 h
      have : (p!"     ")[j]? = (List.replicate j ' ' ++ c :: cs)[j]? := by
        rw [h2]; simp [List.getElem?_take, hj]
      rw [List.getElem?_append_right (by simp)] at this
      simp only [List.length_replicate, Nat.sub_self, List.getElem?_cons_zero] at this
      clear h h2
      interval_cases j <;> simp at this <;> exact hc1 this.symm
    · intro h
      have := h c (by simp)
      rw [hc] at this; cases this
    · intro x hx
      cases j with
      | zero => simp at hx; subst hx; exact hcc
      | succ j => simp [List.replicate_succ] at hx; subst hx; decide
  have hw : splitWs (List.replicate k ' ' ++ c :: cs) = splitWs (c :: cs) :=
    splitWs_blank_append (by intro x hx; rw [List.eq_of_mem_replicate hx]; decide)
  have hstep : ∀ st, surfStep st (List.replicate k ' ' ++ c :: cs) = surfStep st (c :: cs) := by
    intro st
    have h0 : SurfHead (c :: cs) := by simpa using head 0 (by omega)
    rw [surfStep_head (head k hk) (isWords_splitWs _), surfStep_head h0 (isWords_splitWs _), hw]
  unfold processSurfaceBlock
  rw [List.foldlM_append, List.foldlM_append]
  simp only [List.foldlM_cons, hstep]

example : processSurfaceBlock [p!"   5 px 0"] = .ok [(5, ⟨5, p!"px", [p!"0"], none⟩)] ∧ getMaterialNumbers [p!" m1 1001 1"] = .ok [] ∧
    readModeCard [p!" mode n"] = none := by decide +kernel

/-- A material card that is continued with `&` behind complete pairs cannot be read. -/
theorem C212_material_violated (flt : Str → Option F) (n : Nat) (lines : List Str) (first : Str) (body : List Str)
    (f : Str → List Str) (hf : ∀ s, Spec.IsWords s (f s)) (h : Card (MatHead n) lines first body)
    (es : List (Str × Str × F)) (hes : ∀ e ∈ es, flt e.2.1 = some e.2.2 ∧ '=' ∉ e.1 ∧ '=' ∉ e.2.1)
    (hw : cardWords f first body = es.flatMap (fun e => [e.1, e.2.1]) ++ [p!"&"]) :
    readMaterialLines flt n lines = .error .IndexError := by
  have hno : ∀ w ∈ cardWords f first body, '=' ∉ w := by
    intro w hm
    rw [hw] at hm
    rcases List.mem_append.1 hm with hm | hm
    · obtain ⟨e, he, hm⟩ := List.mem_flatMap.1 hm
      simp only [List.mem_cons, List.not_mem_nil, or_false] at hm
      rcases hm with rfl | rfl
      · exact (hes e he).2.1
      · exact (hes e he).2.2
    · simp at hm; subst hm; decide
  refine ((C83_errors flt n lines first body f hf h).2 (fun w hm he => absurd he (hno w hm)) es (fun e he => (hes e he).1)).1 p!"&" ?_
  rw [List.filter_eq_self.2 (by intro w hm; simpa using hno w hm), hw]

example : readMaterialLines (fun s => pyInt s) 1 [p!"m1 1001 2 &", p!"8016 1"] = .error .IndexError := by decide +kernel

/-! ### C215: importances on data cards -/

/-- No text of the list holds the letters `imp`. -/
def NoImp (ls : List Str) : Prop := ∀ l ∈ ls, ¬ p!"imp" <:+: lower l

private theorem lower_infix {a b : Str} (h : a <:+: b) : lower a <:+: lower b := by
  obtain ⟨x, y, rfl⟩ := h
  exact ⟨lower x, lower y, by simp [lower]⟩

private theorem geomPart_imp (flt : Str → Option F) {st st' : GeomSt F} {t : Str} (ht : ¬ p!"imp" <:+: lower t)
    (h : geomPart flt st t = .ok st') : st'.imp = st.imp := by
  unfold geomPart at h
  split at h
  · cases h; rfl
  · have hin : stripChars p!"()-" t <:+: t := by
      unfold stripChars
      exact (List.rdropWhile_prefix _ _).isInfix.trans (List.dropWhile_suffix _).isInfix
    have hno : hasSub p!"imp" (lower (stripChars p!"()-" t)) = false := by
      rw [hasSub_false_iff]; exact fun h => ht (h.trans (lower_infix hin))
    simp only [hno, Bool.false_eq_true, if_false, ex_bind_ok] at h
    obtain ⟨_, _, h⟩ := h
    split at h
    · simp only [ex_bind_ok, ex_pure, Except.ok.injEq] at h
      obtain ⟨_, _, rfl⟩ := h; rfl
    · simp only [ex_pure, Except.ok.injEq] at h
      subst h; rfl

private theorem geomStep_imp (flt : Str → Option F) {st st' : GeomSt F} {t : Str} (ht : ¬ p!"imp" <:+: lower t)
    (h : geomStep flt st t = .ok st') : st'.imp = st.imp := by
  unfold geomStep at h
  split at h
  · have hin : (splitOn '$' t).headD [] <:+: t := by
      rw [splitOn_headD]; exact (List.takeWhile_prefix _).isInfix
    have := geomPart_imp flt (fun h => ht (h.trans (lower_infix hin))) h
    exact this
  · exact geomPart_imp flt ht h

private theorem geomFold_imp (flt : Str → Option F) (ws : List Str) : ∀ {st st' : GeomSt F}, NoImp ws →
    ws.foldlM (geomStep flt) st = .ok st' → st'.imp = st.imp := by
  induction ws with
  | nil => intro st st' _ h; simp only [List.foldlM_nil, ex_pure, Except.ok.injEq] at h; subst h; rfl
  | cons w ws ih =>
    intro st st' hno h
    rw [List.foldlM_cons] at h
    simp only [ex_bind_ok] at h
    obtain ⟨s1, h1, h2⟩ := h
    rw [ih (fun l hl => hno l (by simp [hl])) h2, geomStep_imp flt (hno w (by simp)) h1]

/-- All cells so far are without importances, and the words of the current one hold none. -/
private def Clean (st : CellSt F) : Prop :=
  (∀ n c, st.dict.get n = some c → c.imp = []) ∧ ∀ cur ∈ st.cur, cur.1.imp = [] ∧ NoImp cur.2

private theorem finish_clean (flt : Str → Option F) {dict dict' : Dict Int (Cell F)} {cur : Cell F × List Str}
    (hd : ∀ n c, dict.get n = some c → c.imp = []) (h1 : cur.1.imp = []) (h2 : NoImp cur.2)
    (h : finishCell flt dict cur = .ok dict') : ∀ n c, dict'.get n = some c → c.imp = [] := by
  simp only [finishCell, processGeom, ex_bind_ok, ex_pure, Except.ok.injEq] at h
  obtain ⟨c', ⟨st, h3, rfl⟩, rfl⟩ := h
  have := geomFold_imp flt _ h2 h3
  intro n c hc
  rw [Dict.get_set] at hc
  split at hc
  · simp only [Option.some.injEq] at hc
    rw [← hc]
    simp only
    rw [this]; exact h1
  · exact hd n c hc

private theorem startCell_words (flt : Str → Option F) {ws : List Str} {cell : Cell F} {g : List Str}
    (h : startCell flt ws = .ok (cell, g)) : cell.imp = [] ∧ ∀ w ∈ g, w ∈ ws := by
  simp only [startCell, ex_bind_ok] at h
  obtain ⟨_, _, _, _, _, _, _, _, h⟩ := h
  split at h
  · simp only [ex_bind_ok, ex_pure, Except.ok.injEq, Prod.mk.injEq] at h
    obtain ⟨_, _, _, _, rfl, rfl⟩ := h
    exact ⟨rfl, fun w hw => List.mem_of_mem_drop hw⟩
  · simp only [ex_pure, Except.ok.injEq, Prod.mk.injEq] at h
    obtain ⟨rfl, rfl⟩ := h
    exact ⟨rfl, fun w hw => List.mem_of_mem_drop hw⟩

private theorem word_infix {l w : Str} (hw : w ∈ splitOn ' ' (stringCleaner l)) : w <:+: l ∨ w = [] := by
  by_cases hne : splitWs l = []
  · right
    rw [stringCleaner_eq, hne] at hw
    simpa [join, splitOn, splitP] using hw
  · left
    rw [splitOn_stringCleaner hne] at hw
    have := isWords_splitWs l
    generalize splitWs l = ws at this hw
    clear hne
    induction this with
    | blank _ => simp at hw
    | word _ _ _ _ ih =>
      rename_i pre w' rest ws' _ _ _ _
      rcases List.mem_cons.1 hw with rfl | hw
      · exact ⟨pre, rest, rfl⟩
      · exact (ih hw).trans (List.suffix_append _ _).isInfix

private theorem cellStep_clean (flt : Str → Option F) {st st' : CellSt F} {l : Str} (hc : Clean st) (hl : ¬ p!"imp" <:+: lower l)
    (h : cellStep flt st l = .ok st') : Clean st' := by
  obtain ⟨hd, hcur⟩ := hc
  unfold cellStep at h
  simp only [ex_bind_ok] at h
  obtain ⟨c0, _, h⟩ := h
  split at h
  · have key : ∀ dict cell g, startCell flt (splitOn ' ' (stringCleaner l)) = .ok (cell, g) →
        (∀ n c, dict.get n = some c → c.imp = []) → (⟨dict, some (cell, g)⟩ : CellSt F) = st' → Clean st' := by
      intro dict cell g h1 h2 h3
      subst h3
      refine ⟨h2, ?_⟩
      intro cur hcur
      simp only [Option.mem_some_iff] at hcur
      subst hcur
      obtain ⟨h4, h5⟩ := startCell_words flt h1
      refine ⟨h4, ?_⟩
      intro w hw hi
      rcases word_infix (h5 w hw) with h6 | rfl
      · exact hl (hi.trans (lower_infix h6))
      · exact absurd hi (by rw [← hasSub_iff]; decide)
    cases hcs : st.cur with
    | none =>
      simp only [hcs, ex_pure, ex_ok_bind, ex_bind_ok, Except.ok.injEq] at h
      obtain ⟨⟨cell, g⟩, h1, h2⟩ := h
      exact key st.dict cell g h1 hd h2
    | some cur =>
      simp only [hcs, ex_pure, ex_bind_ok, Except.ok.injEq] at h
      obtain ⟨dict, h0, ⟨cell, g⟩, h1, h2⟩ := h
      have := hcur cur (by simp [hcs])
      exact key dict cell g h1 (finish_clean flt hd this.1 this.2 h0) h2
  · split at h
    · cases hcs : st.cur with
      | none =>
        simp only [hcs, ex_pure, Except.ok.injEq] at h
        subst h
        exact ⟨hd, hcur⟩
      | some cur =>
        simp only [hcs, ex_pure, Except.ok.injEq] at h
        subst h
        refine ⟨hd, ?_⟩
        intro cur' h'
        simp only [Option.mem_some_iff] at h'
        subst h'
        have := hcur cur (by simp [hcs])
        refine ⟨this.1, ?_⟩
        intro w hw
        rcases List.mem_append.1 hw with hw | hw
        · exact this.2 w hw
        · simp at hw; subst hw; exact hl
    · simp only [ex_pure, Except.ok.injEq] at h
      subst h
      exact ⟨hd, hcur⟩

private theorem block_clean (flt : Str → Option F) {block : List Str} (hno : NoImp block) {d : Dict Int (Cell F)}
    (h : processCellBlock flt block = .ok d) : ∀ n c, d.get n = some c → c.imp = [] := by
  have key : ∀ (ls : List Str) (st : CellSt F), NoImp ls → Clean st → runCells flt st ls = .ok d → ∀ n c, d.get n = some c → c.imp = [] := by
    intro ls
    induction ls with
    | nil =>
      intro st _ hc h
      unfold runCells at h
      rw [List.foldlM_nil, ex_pure, ex_ok_bind] at h
      cases hcs : st.cur with
      | none => rw [hcs] at h; cases h
      | some cur =>
        rw [hcs] at h
        have := hc.2 cur (by simp [hcs])
        exact finish_clean flt hc.1 this.1 this.2 h
    | cons l ls ih =>
      intro st hn hc h
      unfold runCells at h
      rw [List.foldlM_cons] at h
      simp only [ex_bind_ok] at h
      obtain ⟨st2, ⟨st1, hs, hf⟩, hfin⟩ := h
      refine ih st1 (fun l hl => hn l (by simp [hl])) (cellStep_clean flt hc (hn l (by simp)) hs) ?_
      unfold runCells
      rw [hf, ex_ok_bind]; exact hfin
  exact key block ⟨[], none⟩ hno ⟨by simp [Dict.get], by simp⟩ h

/-- An importance card in the data block is not used: if the cell cards hold no importances, all cells are stored without any. -/
theorem C215_data_card_violated {flt : Str → Option F} {path : Str} {fs fs' : FS} {i : Input F}
    (h : readMcnpInput flt path fs = (.ok i, fs')) (hno : NoImp i.cellBlock) (_hd : StartsCard i.dataBlock p!"imp:") :
    ∀ n c, i.cells.get n = some c → c.imp = [] := by
  obtain ⟨_, _, _, _, _, _, _, _, _, _, hc, _⟩ := C168_file h
  exact block_clean flt hno hc

/-- The importances on the cell cards are those of the cells. -/
theorem C215_partial {flt : Str → Option F} {path : Str} {fs fs' : FS} {i : Input F}
    (h : readMcnpInput flt path fs = (.ok i, fs')) {pre : List Str} {line : Str} {body rest : List Str} {n m : Int} {dn : Option F}
    {geom : List Str} (hi : i.cellBlock = pre ++ line :: (body ++ rest)) (hh : CellHead flt line n m dn geom) (hb : Behind n body rest)
    {rs : List (List F × List (Char × F) × List Str)} (hg : GeomWords flt (geom ++ body.filter (fun l => decide (Cont l))) rs) :
    ∃ c, i.cells.get n = some c ∧ ∀ p x, c.imp.get p = some x ↔ LastWins (rs.flatMap (·.2.1)) p x := by
  obtain ⟨_, _, _, _, _, _, _, _, _, _, hc, _⟩ := C168_file h
  rw [hi] at hc
  exact C208_partial flt hh hb hg hc

private def exH (s : Str) : Option Int := pyInt s
private def impFile : Str := p!"1 0 -1\n2 0 1\n\n1 so 5\n\nimp:n 1 0\n"

example : ∃ i : Input Int, (readMcnpInput exH p!"in" ⟨fun q => if q = p!"in" then some (.file impFile) else none, fun _ => true⟩).1 = .ok i ∧ i.cells.values.map (·.imp) = [[], []] ∧
    NoImp i.cellBlock ∧ StartsCard i.dataBlock p!"imp:" := by
  refine ⟨_, rfl, ?_, ?_, ?_⟩
  · decide +kernel
  · intro l hl
    rw [← hasSub_iff]
    revert l
    decide +kernel
  · exact ⟨p!"imp:n 1 0", by decide +kernel, p!"imp:", p!"n 1 0", rfl, by decide⟩

/-! ### C216: particles of the mode card -/

/-- The particles of MCNP6. -/
def mcnpParticles : List Str :=
  ["n", "p", "e", "|", "q", "u", "v", "f", "h", "l", "+", "-", "x", "y", "o", "!", "<", ">", "g", "/", "z", "k", "%", "^", "b", "_",
   "~", "c", "w", "@", "d", "t", "s", "a", "*", "?", "#"].map String.toList

/-- A mode card with a deuteron, triton, helion or alpha particle counts as invalid, and so does one with any other particle
    outside a list of nine. -/
theorem C216_particles_violated (mode : List Str) (p : Str) (hp : p ∈ mode)
    (hl : lower p ∈ (mcnpParticles.filter (fun q => decide (q ∉ [p!"n", p!"p", p!"h", p!"e", p!"|", p!"q", p!"u", p!"v", p!"!"])))) :
    isModeValid mode = false ∧ lower p ∈ mcnpParticles := by
  rw [List.mem_filter] at hl
  refine ⟨?_, hl.1⟩
  rw [Bool.eq_false_iff]
  intro h
  have := (C82_valid mode).1 h p hp
  simp only [decide_eq_true_eq] at hl
  exact hl.2 this

/-- A mode card that counts as valid holds particles of MCNP only. -/
theorem C216_partial (mode : List Str) (h : isModeValid mode = true) : ∀ p ∈ mode, lower p ∈ mcnpParticles := by
  intro p hp
  have key : ∀ q ∈ [p!"n", p!"p", p!"h", p!"e", p!"|", p!"q", p!"u", p!"v", p!"!"], q ∈ mcnpParticles := by decide
  exact key _ ((C82_valid mode).1 h p hp)

example : isModeValid [p!"n", p!"h", p!"d", p!"t", p!"s", p!"a"] = false ∧ isModeValid [p!"N", p!"P"] = true := by decide
example : (mcnpParticles.filter (fun q => decide (q ∉ [p!"n", p!"p", p!"h", p!"e", p!"|", p!"q", p!"u", p!"v", p!"!"]))).length = 28 := by decide

/-! ### C217: tallies with letters and signs -/

/-- A tally with a star or plus sign in front, for energy or collision heating, is missing in the list of tallies. -/
theorem C217_starred_violated (pre post : List Str) (s : Char) (hs : s = '*' ∨ s = '+') (cs : Str) :
    getTallyNumbers (pre ++ (s :: cs) :: post) = getTallyNumbers (pre ++ post) := by
  have h1 : letterDigit 'f' (s :: cs) = false := by
    cases cs with
    | nil => rfl
    | cons c cs =>
      have : (s.toLower == 'f') = false := by rcases hs with rfl | rfl <;> decide
      simp [letterDigit, this]
  unfold getTallyNumbers
  rw [List.filter_append, List.filter_cons_of_neg (by rw [h1]; simp), ← List.filter_append]

private theorem forall₂_left {α β : Type} {R : α → β → Prop} {xs : List α} {ys : List β} (h : List.Forall₂ R xs ys) {a : α}
    (ha : a ∈ xs) : ∃ b, R a b := by
  induction h with
  | nil => simp at ha
  | cons hr _ ih =>
    rcases List.mem_cons.1 ha with rfl | ha
    · exact ⟨_, hr⟩
    · exact ih ha

private theorem pyInt_letter {s : Str} (hs : ∀ c ∈ s, isSpace c = false) {a : Char} (ha : a ∈ s) (hl : a.isAlpha = true) : pyInt s = none := by
  have hd : a.isDigit = false := by
    cases h : a.isDigit with
    | false => rfl
    | true =>
      simp only [Char.isAlpha, Char.isUpper, Char.isLower, Char.isDigit, ge_iff_le, Bool.or_eq_true, Bool.and_eq_true, decide_eq_true_eq] at hl h
      simp only [UInt32.le_iff_toNat_le] at hl h
      simp only [show ('0'.val).toNat = 48 from rfl, show ('9'.val).toNat = 57 from rfl, show ('A'.val).toNat = 65 from rfl,
        show ('Z'.val).toNat = 90 from rfl, show ('a'.val).toNat = 97 from rfl, show ('z'.val).toNat = 122 from rfl] at hl h
      omega
  have h1 : a ≠ '-' := by rintro rfl; exact absurd hl (by decide)
  have h2 : a ≠ '+' := by rintro rfl; exact absurd hl (by decide)
  unfold pyInt
  rw [strip_word hs]
  have key : ∀ cs : Str, a ∈ cs → pyNat cs = none := by
    intro cs hc
    cases h : pyNat cs with
    | none => rfl
    | some n =>
      rcases pyNat_some h a hc with h | rfl
      · rw [h] at hd; cases hd
      · exact absurd hl (by decide)
  split
  · rw [key _ (by simpa [h1] using ha)]; rfl
  · rw [key _ (by simpa [h2] using ha)]; rfl
  · rw [key _ ha]; rfl

/-- A tally whose number is followed by a letter, as that of a ring detector in `f15x:n`, stops the reading of the tally numbers. -/
theorem C217_ring_violated (pre post : List Str) (x a : Char) (n : Nat) (rest : Str) (hx : x = 'f' ∨ x = 'F') (ha : a.isAlpha = true) :
    getTallyNumbers (pre ++ (x :: (natStr n ++ a :: rest)) :: post) = .error .ValueError := by
  cases h : getTallyNumbers (pre ++ (x :: (natStr n ++ a :: rest)) :: post) with
  | error e => rw [(C91_error _ e).2 h]
  | ok ns =>
    exfalso
    unfold getTallyNumbers at h
    rw [mapM_except_ok_iff] at h
    have hld : letterDigit 'f' (x :: (natStr n ++ a :: rest)) = true := by
      cases hn : natStr n with
      | nil => exact absurd hn (natStr_ne_nil n)
      | cons d ds =>
        have hdig : d.isDigit = true := natStr_isDigit (n := n) (by rw [hn]; simp)
        simp only [letterDigit, List.cons_append, Bool.and_eq_true, beq_iff_eq]
        exact ⟨by rcases hx with rfl | rfl <;> decide, hdig⟩
    obtain ⟨i, hi⟩ := forall₂_left h (show (x :: (natStr n ++ a :: rest)) ∈ _ from List.mem_filter.2 ⟨by simp, hld⟩)
    rw [orErr_ok_iff, splitOn_stringCleaner_headD, splitOn_headD, splitWs_headD (by rcases hx with rfl | rfl <;> decide)] at hi
    have hspace : isSpace a = false := by
      cases h : isSpace a with
      | false => rfl
      | true =>
        simp only [Char.isAlpha, Char.isUpper, Char.isLower, ge_iff_le, Bool.or_eq_true, Bool.and_eq_true, decide_eq_true_eq,
          UInt32.le_iff_toNat_le, show ('A'.val).toNat = 65 from rfl, show ('Z'.val).toNat = 90 from rfl,
          show ('a'.val).toNat = 97 from rfl, show ('z'.val).toNat = 122 from rfl] at ha
        simp only [isSpace, Bool.or_eq_true, Bool.and_eq_true, decide_eq_true_eq, beq_iff_eq, Char.toNat] at h
        omega
    rw [pyInt_letter ?_ ?_ ha] at hi
    · cases hi
    · intro c hc
      have := List.mem_of_mem_drop hc
      have := (List.takeWhile_prefix _).subset this
      simpa using List.mem_takeWhile_imp this
    · have h1 : ∀ c ∈ x :: natStr n, (!isSpace c) = true := by
        simp only [List.mem_cons, forall_eq_or_imp]
        exact ⟨by rcases hx with rfl | rfl <;> decide, fun c hc => by simp [isDigit_not_space (natStr_isDigit hc)]⟩
      have h2 : ∀ c ∈ x :: natStr n, decide (c ≠ ':') = true := by
        simp only [List.mem_cons, forall_eq_or_imp]
        refine ⟨by rcases hx with rfl | rfl <;> decide, fun c hc => ?_⟩
        rw [decide_eq_true_eq]
        rintro rfl
        exact absurd (natStr_isDigit hc) (by decide)
      have h3 : a ≠ ':' := by rintro rfl; exact absurd ha (by decide)
      rw [show x :: (natStr n ++ a :: rest) = (x :: natStr n) ++ a :: rest from rfl, List.takeWhile_append_of_pos h1,
        List.takeWhile_append_of_pos h2, List.takeWhile_cons_of_pos (by simp [hspace]), List.takeWhile_cons_of_pos (by simpa using h3)]
      simp

/-- No input with such a card is read. -/
theorem C217_file_violated {flt : Str → Option F} {path : Str} {fs fs' : FS} {i : Input F} (h : readMcnpInput flt path fs = (.ok i, fs'))
    (x a : Char) (n : Nat) (rest : Str) (hx : x = 'f' ∨ x = 'F') (ha : a.isAlpha = true) : x :: (natStr n ++ a :: rest) ∉ i.dataBlock := by
  intro hm
  obtain ⟨_, _, _, _, _, _, _, _, _, _, _, _, ht, _⟩ := C168_file h
  obtain ⟨pre, post, he⟩ := List.append_of_mem hm
  rw [he, C217_ring_violated pre post x a n rest hx ha] at ht
  cases ht

/-- Tallies `f<n>` followed by a blank, a colon or nothing are listed in their order. -/
theorem C217_partial (lines cards : List Str) (ns : List Nat)
    (hc : ∃ p : Str → Bool, (∀ l, p l = true ↔ Numbered 'f' 'F' l) ∧ lines.filter p = cards)
    (h : List.Forall₂ (NumberedBy 'f' 'F' (fun c => isSpace c = true ∨ c = ':')) cards ns) :
    getTallyNumbers lines = .ok (ns.map (fun (n : Nat) => (n : Int))) := C91_tally_numbers lines cards ns hc h

example : getTallyNumbers [p!"*f4:n 1", p!"f6:n 1", p!"+f16 1"] = .ok [6] ∧ getTallyNumbers [p!"f5x:n 0 1 2"] = .error .ValueError := by
  decide +kernel

end Props
