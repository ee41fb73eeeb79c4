/- Properties C206-C212: cell cards in the forms that MCNP allows (mcnp_input_reader.py, process_cell_block). -/
import Verif.Props.McnpCells

set_option linter.unusedSectionVars false
set_option linter.unusedSimpArgs false

namespace Props
open Py NeutUtilities McnpInput Spec.Mcnp
variable {F : Type}

/-! ### Which geometry the cell of a card gets -/

private theorem runCells_cur (flt : Str → Option F) (post : List Str) : ∀ (st : CellSt F) (cell : Cell F) (g : List Str) (d : Dict Int (Cell F)),
    st.cur = some (cell, g) → runCells flt st post = .ok d →
    ∃ more c, (∀ l ∈ more, Cont l) ∧ processGeom flt (g ++ more) cell = .ok c := by
  induction post with
  | nil =>
    intro st cell g d hc h
    unfold runCells at h
    rw [List.foldlM_nil, ex_pure, ex_ok_bind, hc] at h
    simp only [finishCell, ex_bind_ok] at h
    obtain ⟨c, h1, _⟩ := h
    exact ⟨[], c, by simp, by simpa using h1⟩
  | cons l ls ih =>
    intro st cell g d hc h
    unfold runCells at h
    rw [List.foldlM_cons] at h
    simp only [ex_bind_ok] at h
    obtain ⟨st2, ⟨st1, hs, hf⟩, hfin⟩ := h
    have hrun : runCells flt st1 ls = .ok d := by
      unfold runCells; rw [hf, ex_ok_bind]; exact hfin
    unfold cellStep at hs
    simp only [ex_bind_ok, orErr_ok_iff, hc] at hs
    obtain ⟨c0, _, hs⟩ := hs
    split at hs
    · simp only [ex_bind_ok] at hs
      obtain ⟨dd, hdd, _⟩ := hs
      simp only [finishCell, ex_bind_ok] at hdd
      obtain ⟨c, h1, _⟩ := hdd
      exact ⟨[], c, by simp, by simpa using h1⟩
    · split at hs
      · rename_i hcont
        simp only [ex_pure, Except.ok.injEq] at hs
        subst hs
        obtain ⟨more, c, h1, h2⟩ := ih _ cell (g ++ [l]) d rfl hrun
        refine ⟨l :: more, c, ?_, by simpa using h2⟩
        intro x hx
        rcases List.mem_cons.1 hx with rfl | hx
        · exact isContinueLine_iff.1 hcont
        · exact h1 x hx
      · simp only [ex_pure, Except.ok.injEq] at hs
        subst hs
        exact ih st cell g d hc hrun

private theorem step_head (flt : Str → Option F) {line : Str} {n m : Int} {dn : Option F} {geom : List Str}
    (hh : CellHead flt line n m dn geom) {st st' : CellSt F} (h : cellStep flt st line = .ok st') :
    st'.cur = some (({ number := n, mat := m, density := dn } : Cell F), geom) := by
  have hs := startCell_head flt hh
  obtain ⟨c, tl, rfl, hc⟩ := hh.1
  have hc' : isDigit c = true := hc
  unfold cellStep at h
  rw [hs] at h
  simp only [List.getElem?_cons_zero, orErr, ex_ok_bind, hc', if_true] at h
  cases hcur : st.cur with
  | none =>
    simp only [hcur, ex_ok_bind, ex_pure, Except.ok.injEq] at h
    subst h; rfl
  | some cur =>
    simp only [hcur, ex_bind_ok, ex_pure, Except.ok.injEq] at h
    obtain ⟨_, _, rfl⟩ := h
    rfl

private theorem runCells_cons (flt : Str → Option F) {st : CellSt F} {pre : List Str} {line : Str} {post : List Str} {d : Dict Int (Cell F)}
    (h : runCells flt st (pre ++ line :: post) = .ok d) :
    ∃ st1 st2, cellStep flt st1 line = .ok st2 ∧ runCells flt st2 post = .ok d := by
  unfold runCells at h
  rw [List.foldlM_append] at h
  simp only [ex_bind_ok] at h
  obtain ⟨st3, ⟨st1, h1, h2⟩, h3⟩ := h
  rw [List.foldlM_cons] at h2
  simp only [ex_bind_ok] at h2
  obtain ⟨st2, h4, h5⟩ := h2
  refine ⟨st1, st2, h4, ?_⟩
  unfold runCells
  rw [h5, ex_ok_bind]; exact h3

/-- A card of a block that was read: its geometry was processed, whatever stands before and behind it. -/
private theorem card_in_block (flt : Str → Option F) {pre : List Str} {line : Str} {post : List Str} {n m : Int} {dn : Option F}
    {geom : List Str} (hh : CellHead flt line n m dn geom) {d : Dict Int (Cell F)}
    (h : processCellBlock flt (pre ++ line :: post) = .ok d) :
    ∃ more c, (∀ l ∈ more, Cont l) ∧ processGeom flt (geom ++ more) { number := n, mat := m, density := dn } = .ok c := by
  obtain ⟨st1, st2, h1, h2⟩ := runCells_cons flt (st := ⟨[], none⟩) h
  exact runCells_cur flt post st2 _ _ d (step_head flt hh h1) h2

/-- A word that `process_geom` cannot read stops the whole block. -/
private theorem bad_word (flt : Str → Option F) {pre : List Str} {line : Str} {post : List Str} {n m : Int} {dn : Option F}
    {geom : List Str} (hh : CellHead flt line n m dn geom) {w : Str} (hw : w ∈ geom)
    (hbad : ∀ st st', geomStep flt st w ≠ .ok st') (d : Dict Int (Cell F)) :
    processCellBlock flt (pre ++ line :: post) ≠ .ok d := by
  intro h
  obtain ⟨more, c, _, h1⟩ := card_in_block flt hh h
  unfold processGeom at h1
  simp only [ex_bind_ok] at h1
  obtain ⟨st, h2, _⟩ := h1
  obtain ⟨a, b, rfl⟩ := List.append_of_mem hw
  rw [List.append_assoc, List.foldlM_append] at h2
  simp only [ex_bind_ok] at h2
  obtain ⟨s1, _, h3⟩ := h2
  rw [List.cons_append, List.foldlM_cons] at h3
  simp only [ex_bind_ok] at h3
  obtain ⟨s2, h4, _⟩ := h3
  exact hbad _ _ h4

/-- No line of the list starts a card for cell `n`. -/
def NoCard (n : Int) (ls : List Str) : Prop :=
  ∀ l ∈ ls, (∃ c rest, l = c :: rest ∧ c.isDigit = true) → ∀ w ws, Spec.IsWords l (w :: ws) → pyInt w ≠ some n

private theorem startCell_number (flt : Str → Option F) {l : Str} {cell : Cell F} {g : List Str}
    (h : startCell flt (splitOn ' ' (stringCleaner l)) = .ok (cell, g)) (hl : ∃ c rest, l = c :: rest ∧ c.isDigit = true) :
    ∃ w ws, Spec.IsWords l (w :: ws) ∧ pyInt w = some cell.number := by
  have hne : splitWs l ≠ [] := by
    obtain ⟨c, rest, rfl, hc⟩ := hl
    intro he
    have hs := splitWs_eq_nil_iff.1 he c (by simp)
    rw [isDigit_not_space hc] at hs
    exact absurd hs (by simp)
  rw [splitOn_stringCleaner hne] at h
  have hw := isWords_splitWs l
  obtain ⟨w, ws, he⟩ := List.exists_cons_of_ne_nil hne
  rw [he] at h hw
  refine ⟨w, ws, hw, ?_⟩
  simp only [startCell, List.getElem?_cons_zero, orErr, ex_ok_bind] at h
  cases hn : pyInt w with
  | none => rw [hn] at h; simp [orErr, ex_err_bind] at h
  | some k =>
    rw [hn] at h
    simp only [orErr, ex_ok_bind, ex_bind_ok] at h
    obtain ⟨_, _, _, _, h⟩ := h
    split at h
    · simp only [ex_bind_ok, ex_pure, Except.ok.injEq, Prod.mk.injEq] at h
      obtain ⟨_, _, _, _, h, _⟩ := h
      rw [← h]
    · simp only [ex_pure, Except.ok.injEq, Prod.mk.injEq] at h
      rw [← h.1]

private theorem processGeom_number (flt : Str → Option F) {g : List Str} {cell c : Cell F} (h : processGeom flt g cell = .ok c) :
    c.number = cell.number := by
  unfold processGeom at h
  simp only [ex_bind_ok, ex_pure, Except.ok.injEq] at h
  obtain ⟨_, _, rfl⟩ := h; rfl

private theorem runCells_keep (flt : Str → Option F) {n : Int} {c : Cell F} (ls : List Str) : ∀ (st : CellSt F) (d : Dict Int (Cell F)),
    NoCard n ls → st.dict.get n = some c → (∀ cur ∈ st.cur, cur.1.number ≠ n) → runCells flt st ls = .ok d → d.get n = some c := by
  induction ls with
  | nil =>
    intro st d _ hd hc h
    unfold runCells at h
    rw [List.foldlM_nil, ex_pure, ex_ok_bind] at h
    cases hcur : st.cur with
    | none => rw [hcur] at h; simp at h
    | some cur =>
      rw [hcur] at h
      simp only [finishCell, ex_bind_ok, ex_pure, Except.ok.injEq] at h
      obtain ⟨c', h1, rfl⟩ := h
      rw [Dict.get_set_ne]
      · exact hd
      · rw [processGeom_number flt h1]; exact (hc cur (by simp [hcur])).symm
  | cons l ls ih =>
    intro st d hno hd hc h
    unfold runCells at h
    rw [List.foldlM_cons] at h
    simp only [ex_bind_ok] at h
    obtain ⟨st2, ⟨st1, hs, hf⟩, hfin⟩ := h
    have hrun : runCells flt st1 ls = .ok d := by
      unfold runCells; rw [hf, ex_ok_bind]; exact hfin
    have hno' : NoCard n ls := fun x hx => hno x (by simp [hx])
    unfold cellStep at hs
    simp only [ex_bind_ok, orErr_ok_iff] at hs
    obtain ⟨c0, hc0, hs⟩ := hs
    obtain ⟨tl, rfl⟩ : ∃ tl, l = c0 :: tl := by
      cases l with
      | nil => simp at hc0
      | cons a tl => simp at hc0; exact ⟨tl, by rw [hc0]⟩
    split at hs
    · rename_i hdig
      have key : ∀ dict cell g, startCell flt (splitOn ' ' (stringCleaner (c0 :: tl))) = .ok (cell, g) →
          dict.get n = some c → (⟨dict, some (cell, g)⟩ : CellSt F) = st1 → d.get n = some c := by
        intro dict cell g h1 h2 h3
        refine ih st1 d hno' (by rw [← h3]; exact h2) ?_ hrun
        intro cur hcur
        rw [← h3] at hcur
        simp only [Option.mem_some_iff] at hcur
        subst hcur
        obtain ⟨w, ws, hw, hn⟩ := startCell_number flt h1 ⟨c0, tl, rfl, hdig⟩
        intro he
        exact hno (c0 :: tl) (by simp) ⟨c0, tl, rfl, hdig⟩ w ws hw (by rw [hn]; exact congrArg some he)
      cases hcur : st.cur with
      | none =>
        simp only [hcur, ex_pure, ex_ok_bind, ex_bind_ok, Except.ok.injEq] at hs
        obtain ⟨⟨cell, g⟩, h1, h2⟩ := hs
        exact key st.dict cell g h1 hd h2
      | some cur =>
        simp only [hcur, ex_pure, ex_bind_ok, Except.ok.injEq] at hs
        obtain ⟨dict, h0, ⟨cell, g⟩, h1, h2⟩ := hs
        refine key dict cell g h1 ?_ h2
        simp only [finishCell, ex_bind_ok, ex_pure, Except.ok.injEq] at h0
        obtain ⟨c', h3, rfl⟩ := h0
        rw [Dict.get_set_ne]
        · exact hd
        · rw [processGeom_number flt h3]; exact (hc cur (by simp [hcur])).symm
    · split at hs
      · cases hcur : st.cur with
        | none =>
          simp only [hcur, ex_pure, Except.ok.injEq] at hs
          subst hs
          exact ih _ d hno' hd hc hrun
        | some cur =>
          simp only [hcur, ex_pure, Except.ok.injEq] at hs
          subst hs
          refine ih ⟨st.dict, some (cur.1, cur.2 ++ [c0 :: tl])⟩ d hno' hd ?_ hrun
          intro cur' h'
          simp only [Option.mem_some_iff] at h'
          subst h'
          exact hc cur (by simp [hcur])
      · simp only [ex_pure, Except.ok.injEq] at hs
        subst hs
        exact ih _ d hno' hd hc hrun

/-- The cell of a card: its geometry holds the words of the first line and the continuation lines. -/
theorem the_card (flt : Str → Option F) {pre : List Str} {line : Str} {body rest : List Str} {n m : Int} {dn : Option F}
    {geom : List Str} (hh : CellHead flt line n m dn geom) (hbody : ∀ l ∈ body, CellSkip l ∨ Cont l)
    (hrest : ∀ l ∈ rest.head?, ∃ c tl, l = c :: tl ∧ c.isDigit = true) (hno : NoCard n rest) {d : Dict Int (Cell F)}
    (h : processCellBlock flt (pre ++ line :: (body ++ rest)) = .ok d) :
    ∃ c, processGeom flt (geom ++ body.filter (fun l => decide (Cont l))) { number := n, mat := m, density := dn } = .ok c ∧
      d.get n = some c := by
  obtain ⟨st1, st2, h1, h2⟩ := runCells_cons flt (st := ⟨[], none⟩) h
  have hcur := step_head flt hh h1
  obtain ⟨dict, cur⟩ := st2
  simp only at hcur
  subst hcur
  rw [runCells_append flt rest (cell_rest flt body hbody _ _ _)] at h2
  cases rest with
  | nil =>
    unfold runCells at h2
    simp only [List.foldlM_nil, ex_pure, ex_ok_bind, finishCell, ex_bind_ok, Except.ok.injEq] at h2
    obtain ⟨c, h3, rfl⟩ := h2
    refine ⟨c, h3, ?_⟩
    rw [← show c.number = n from processGeom_number flt h3]; exact Dict.get_set_self _ _ _
  | cons l ls =>
    obtain ⟨c0, tl, rfl, hdig⟩ := hrest l (by simp)
    have hdig' : isDigit c0 = true := hdig
    unfold runCells at h2
    rw [List.foldlM_cons] at h2
    simp only [ex_bind_ok] at h2
    obtain ⟨st3, ⟨st4, hs, hf⟩, hfin⟩ := h2
    have hrun : runCells flt st4 ls = .ok d := by
      unfold runCells; rw [hf, ex_ok_bind]; exact hfin
    unfold cellStep at hs
    simp only [List.getElem?_cons_zero, orErr, ex_ok_bind, hdig', if_true, ex_bind_ok, ex_pure, Except.ok.injEq] at hs
    obtain ⟨dict', h3, ⟨cell, g⟩, h4, rfl⟩ := hs
    simp only [finishCell, ex_bind_ok, ex_pure, Except.ok.injEq] at h3
    obtain ⟨c, h5, rfl⟩ := h3
    refine ⟨c, h5, ?_⟩
    refine runCells_keep flt ls _ d (fun x hx => hno x (by simp [hx])) ?_ ?_ hrun
    · rw [← show c.number = n from processGeom_number flt h5]; exact Dict.get_set_self _ _ _
    · intro cur hcur
      simp only [Option.mem_some_iff] at hcur
      subst hcur
      obtain ⟨w, ws, hw, hn⟩ := startCell_number flt h4 ⟨c0, tl, rfl, hdig⟩
      intro he
      exact hno (c0 :: tl) (by simp) ⟨c0, tl, rfl, hdig⟩ w ws hw (by rw [hn]; exact congrArg some he)

/-! ### The words of a geometry -/

/-- Signs and brackets around a text that neither starts nor ends with one. -/
def Framed (t core : Str) : Prop :=
  ∃ pre post, t = pre ++ core ++ post ∧ (∀ c ∈ pre, Deco c) ∧ (∀ c ∈ post, Deco c) ∧ core ≠ [] ∧
    (∀ c ∈ core.head?, ¬ Deco c) ∧ (∀ c ∈ core.getLast?, ¬ Deco c)

/-- A word starting with a digit: numbers separated by colons. The values are those of the texts between the colons. -/
def NumWord (flt : Str → Option F) (t : Str) (xs : List F) : Prop :=
  '$' ∉ t ∧ ∃ core p ps, Framed t core ∧ core = p ++ ps.flatMap (fun q => ':' :: q) ∧ (∃ c rest, p = c :: rest ∧ c.isDigit = true) ∧
    (∀ q ∈ p :: ps, ':' ∉ q) ∧ ¬ p!"imp" <:+: lower core ∧ List.Forall₂ (fun q x => flt q = some x) (p :: ps) xs

/-- A word that starts with something else than a digit and holds no importance. -/
def OtherWord (t : Str) : Prop :=
  '$' ∉ t ∧ ∃ core, Framed t core ∧ (∀ c ∈ core.head?, c.isDigit = false) ∧ ¬ p!"imp" <:+: lower core

private theorem framed_strip {t core : Str} (h : Framed t core) : stripChars p!"()-" t = core := by
  obtain ⟨pre, post, rfl, h1, h2, h3, h4, h5⟩ := h
  exact stripChars_core h1 h2 h3 h4 h5

private theorem framed_len {t core : Str} (h : Framed t core) : t.length ≠ 0 := by
  obtain ⟨pre, post, rfl, _, _, h3, _⟩ := h
  have := List.length_pos_iff.2 h3
  simp only [List.length_append]; omega

private theorem splitOn_colons (p : Str) (ps : List Str) (h : ∀ q ∈ p :: ps, ':' ∉ q) :
    splitOn ':' (p ++ ps.flatMap (fun q => ':' :: q)) = p :: ps := by
  induction ps generalizing p with
  | nil =>
    rw [List.flatMap_nil, List.append_nil, splitOn, splitP_of_not_mem]
    intro d hd; simp only [beq_eq_false_iff_ne, ne_eq]; rintro rfl; exact h p (by simp) hd
  | cons q qs ih =>
    have hp : ∀ c ∈ p, (c == ':') = false := by
      intro d hd; simp only [beq_eq_false_iff_ne, ne_eq]; rintro rfl; exact h p (by simp) hd
    have := ih q (fun r hr => h r (by simp at hr ⊢; tauto))
    unfold splitOn at this ⊢
    rw [List.flatMap_cons, List.cons_append, splitP_append_sep (by simp), this, splitP_of_not_mem hp]
    rfl

private theorem noDollar {t : Str} (h : '$' ∉ t) : hasSub p!"$" t = false := by
  rw [Bool.eq_false_iff, ne_eq, hasSub_singleton]; exact h

private theorem geomPart_num (flt : Str → Option F) (st : GeomSt F) {t core p : Str} {ps : List Str} (hf : Framed t core)
    (hcore : core = p ++ ps.flatMap (fun q => ':' :: q)) (hp : ∃ c rest, p = c :: rest ∧ c.isDigit = true)
    (hq : ∀ q ∈ p :: ps, ':' ∉ q) (hi : ¬ p!"imp" <:+: lower core) :
    geomPart flt st t = (do
      let xs ← (p :: ps).mapM (fun s => orErr Err.ValueError (flt s))
      pure { st with surfaces := st.surfaces ++ xs }) := by
  have himp : hasSub p!"imp" (lower core) = false := by rw [hasSub_false_iff]; exact hi
  obtain ⟨c, rest, rfl, hc⟩ := hp
  have hc' : isDigit c = true := hc
  unfold geomPart
  rw [if_neg (framed_len hf)]
  simp only [framed_strip hf, himp, Bool.false_eq_true, if_false]
  rw [hcore, splitOn_colons _ _ hq]
  simp only [List.cons_append, List.getElem?_cons_zero, orErr, ex_ok_bind, hc', if_true]

private theorem mapM_flt (flt : Str → Option F) {ps : List Str} {xs : List F} (h : List.Forall₂ (fun q x => flt q = some x) ps xs) :
    ps.mapM (fun s => orErr Err.ValueError (flt s)) = .ok xs := by
  induction h with
  | nil => rfl
  | cons h1 _ ih => rw [List.mapM_cons, h1, ih]; rfl

private theorem geomPart_numWord (flt : Str → Option F) (st : GeomSt F) {t : Str} {xs : List F} (h : NumWord flt t xs) :
    geomPart flt st t = .ok { st with surfaces := st.surfaces ++ xs } := by
  obtain ⟨_, core, p, ps, h1, h2, h3, h4, h5, h6⟩ := h
  rw [geomPart_num flt st h1 h2 h3 h4 h5, mapM_flt flt h6]; rfl

private theorem geomPart_otherWord (flt : Str → Option F) (st : GeomSt F) {t : Str} (h : OtherWord t) :
    geomPart flt st t = .ok st := by
  obtain ⟨_, core, h1, h2, h3⟩ := h
  have himp : hasSub p!"imp" (lower core) = false := by rw [hasSub_false_iff]; exact h3
  have hne : core ≠ [] := by obtain ⟨_, _, _, _, _, h, _⟩ := h1; exact h
  obtain ⟨c, rest, rfl⟩ := List.exists_cons_of_ne_nil hne
  have hc' : isDigit c = false := h2 c (by simp)
  unfold geomPart
  rw [if_neg (framed_len h1)]
  simp only [framed_strip h1, himp, Bool.false_eq_true, if_false, List.getElem?_cons_zero, orErr, ex_ok_bind, hc', ex_pure]

/-- What a word of a geometry adds to its cell: surfaces, importances, comments. -/
inductive GeomWord (flt : Str → Option F) : Str → List F → List (Char × F) → List Str → Prop
  | num {t xs} : NumWord flt t xs → GeomWord flt t xs [] []
  | other {t} : OtherWord t → GeomWord flt t [] [] []
  | imp {t p x} : ImpTok flt t p x → GeomWord flt t [] [(p, x)] []
  | noteNum {a b xs} : '$' ∉ b → NumWord flt a xs → GeomWord flt (a ++ '$' :: b) xs [] [b]
  | note {a b} : '$' ∉ b → (a = [] ∨ OtherWord a) → GeomWord flt (a ++ '$' :: b) [] [] [b]

private theorem split_note {a b : Str} (ha : '$' ∉ a) (hb : '$' ∉ b) : splitOn '$' (a ++ '$' :: b) = [a, b] := by
  rw [splitOn, splitP_append_sep (by simp), splitP_of_not_mem (s := a), splitP_of_not_mem (s := b)]
  · rfl
  · intro d hd; simp only [beq_eq_false_iff_ne, ne_eq]; rintro rfl; exact hb hd
  · intro d hd; simp only [beq_eq_false_iff_ne, ne_eq]; rintro rfl; exact ha hd

private theorem geomStep_note (flt : Str → Option F) (st : GeomSt F) {a b : Str} (ha : '$' ∉ a) (hb : '$' ∉ b) :
    geomStep flt st (a ++ '$' :: b) = geomPart flt { st with comments := st.comments ++ [b] } a := by
  have : hasSub p!"$" (a ++ '$' :: b) = true := by rw [hasSub_singleton]; simp
  unfold geomStep
  rw [this, if_pos rfl, split_note ha hb]; rfl

private theorem geomStep_plain (flt : Str → Option F) (st : GeomSt F) {t : Str} (h : '$' ∉ t) :
    geomStep flt st t = geomPart flt st t := by
  unfold geomStep; rw [noDollar h]; rfl

private theorem geomStep_word (flt : Str → Option F) (st : GeomSt F) {t : Str} {xs : List F} {is : List (Char × F)} {cs : List Str}
    (h : GeomWord flt t xs is cs) : geomStep flt st t =
      .ok ⟨st.surfaces ++ xs, is.foldl (fun (d : Dict Char F) e => d.set e.1 e.2) st.imp, st.comments ++ cs⟩ := by
  cases h with
  | num h => rw [geomStep_plain flt st h.1, geomPart_numWord flt st h]; simp
  | other h => rw [geomStep_plain flt st h.1, geomPart_otherWord flt st h]; simp
  | imp h => rw [geomStep_tok flt st t (.inr (_, _)) h]; simp [addPart]
  | noteNum hb h => rw [geomStep_note flt st h.1 hb, geomPart_numWord flt _ h]; simp
  | note hb h =>
    rcases h with rfl | h
    · rw [geomStep_note flt st (by simp) hb]; simp [geomPart]
    · rw [geomStep_note flt st h.1 hb, geomPart_otherWord flt _ h]; simp

/-- The words of a geometry with what each of them adds. -/
def GeomWords (flt : Str → Option F) (ws : List Str) (rs : List (List F × List (Char × F) × List Str)) : Prop :=
  List.Forall₂ (fun w r => GeomWord flt w r.1 r.2.1 r.2.2) ws rs

private theorem geomWords_fold (flt : Str → Option F) {ws : List Str} {rs : List (List F × List (Char × F) × List Str)}
    (h : GeomWords flt ws rs) (st : GeomSt F) : ws.foldlM (geomStep flt) st =
      .ok ⟨st.surfaces ++ rs.flatMap (·.1), (rs.flatMap (·.2.1)).foldl (fun (d : Dict Char F) e => d.set e.1 e.2) st.imp,
        st.comments ++ rs.flatMap (·.2.2)⟩ := by
  induction h generalizing st with
  | nil => simp; rfl
  | cons h1 _ ih =>
    rw [List.foldlM_cons, geomStep_word flt st h1, ex_ok_bind, ih]
    simp

/-- The lines behind a card: first its own lines, then the other cards, none of them for cell `n`. -/
def Behind (n : Int) (body rest : List Str) : Prop :=
  (∀ l ∈ body, CellSkip l ∨ Cont l) ∧ (∀ l ∈ rest.head?, ∃ c tl, l = c :: tl ∧ c.isDigit = true) ∧ NoCard n rest

/-- The cell of a card anywhere in a block, when the words of its geometry are known. -/
theorem C206_cell_partial (flt : Str → Option F) {pre : List Str} {line : Str} {body rest : List Str} {n m : Int} {dn : Option F}
    {geom : List Str} (hh : CellHead flt line n m dn geom) (hb : Behind n body rest)
    {rs : List (List F × List (Char × F) × List Str)} (hg : GeomWords flt (geom ++ body.filter (fun l => decide (Cont l))) rs)
    {d : Dict Int (Cell F)} (h : processCellBlock flt (pre ++ line :: (body ++ rest)) = .ok d) :
    ∃ c, d.get n = some c ∧ c.number = n ∧ c.mat = m ∧ c.density = dn ∧ c.surfaces = rs.flatMap (·.1) ∧
      c.comments = rs.flatMap (·.2.2) ∧ ∀ p x, c.imp.get p = some x ↔ LastWins (rs.flatMap (·.2.1)) p x := by
  obtain ⟨c, h1, h2⟩ := the_card flt hh hb.1 hb.2.1 hb.2.2 h
  unfold processGeom at h1
  rw [geomWords_fold flt hg, ex_ok_bind] at h1
  simp only [ex_pure, Except.ok.injEq, List.nil_append] at h1
  subst h1
  refine ⟨_, h2, rfl, rfl, rfl, rfl, rfl, ?_⟩
  intro p x
  rw [← get_foldl_lastWins]


/-! ### Words that cannot be read, and words that add surfaces -/

private theorem mapM_bad {ps : List Str} {flt : Str → Option F} {q : Str} (hq : q ∈ ps) (hbad : flt q = none) (xs : List F) :
    ps.mapM (fun s => orErr Err.ValueError (flt s)) ≠ .ok xs := by
  induction ps generalizing xs with
  | nil => simp at hq
  | cons p ps ih =>
    intro h
    rw [List.mapM_cons] at h
    simp only [ex_bind_ok, orErr_ok_iff] at h
    obtain ⟨x, hx, ys, hys, _⟩ := h
    rcases List.mem_cons.1 hq with rfl | hq
    · rw [hbad] at hx; cases hx
    · exact ih hq ys hys

private theorem colons (core : Str) : ∃ p ps, core = p ++ ps.flatMap (fun q => ':' :: q) ∧ ∀ q ∈ p :: ps, ':' ∉ q := by
  induction core with
  | nil => exact ⟨[], [], rfl, by simp⟩
  | cons c cs ih =>
    obtain ⟨p, ps, h1, h2⟩ := ih
    by_cases hc : c = ':'
    · refine ⟨[], p :: ps, by simp [hc, h1], ?_⟩
      intro q hq
      rcases List.mem_cons.1 hq with rfl | hq
      · simp
      · exact h2 q hq
    · refine ⟨c :: p, ps, by simp [h1], ?_⟩
      intro q hq
      rcases List.mem_cons.1 hq with rfl | hq
      · have := h2 p (by simp)
        simp only [List.mem_cons, not_or]; exact ⟨Ne.symm hc, this⟩
      · exact h2 q (by simp [hq])

/-- A word starting with a digit that holds, between two colons, a text that is no number. -/
private theorem geomStep_badNum (flt : Str → Option F) {t core : Str} (h0 : '$' ∉ t) (hf : Framed t core)
    (hd : ∃ c rest, core = c :: rest ∧ c.isDigit = true) (hi : ¬ p!"imp" <:+: lower core) {p : Str} {ps : List Str}
    (hcore : core = p ++ ps.flatMap (fun q => ':' :: q)) (hq : ∀ q ∈ p :: ps, ':' ∉ q) {q : Str} (hqm : q ∈ p :: ps)
    (hbad : flt q = none) (st st' : GeomSt F) : geomStep flt st t ≠ .ok st' := by
  rw [geomStep_plain flt st h0]
  have hp : ∃ c rest, p = c :: rest ∧ c.isDigit = true := by
    obtain ⟨c, rest, h1, h2⟩ := hd
    cases p with
    | nil =>
      cases ps with
      | nil => rw [h1] at hcore; simp at hcore
      | cons r rs =>
        rw [h1] at hcore
        simp at hcore
        rw [hcore.1] at h2
        exact absurd h2 (by decide)
    | cons a as =>
      rw [h1] at hcore
      simp at hcore
      exact ⟨a, as, rfl, by rw [← hcore.1]; exact h2⟩
  rw [geomPart_num flt st hf hcore hp hq hi]
  intro h
  simp only [ex_bind_ok] at h
  obtain ⟨xs, h, _⟩ := h
  exact mapM_bad hqm hbad xs h

private theorem geomPart_mono (flt : Str → Option F) {st st' : GeomSt F} {t : Str} (h : geomPart flt st t = .ok st') :
    st.surfaces <+: st'.surfaces := by
  unfold geomPart at h
  split at h
  · cases h; exact List.prefix_rfl
  · simp only at h
    split at h
    · simp only [ex_bind_ok, ex_pure, Except.ok.injEq] at h
      obtain ⟨_, _, rfl⟩ := h; exact List.prefix_rfl
    · simp only [ex_bind_ok] at h
      obtain ⟨_, _, h⟩ := h
      split at h
      · simp only [ex_bind_ok, ex_pure, Except.ok.injEq] at h
        obtain ⟨_, _, rfl⟩ := h; exact List.prefix_append _ _
      · simp only [ex_pure, Except.ok.injEq] at h
        subst h; exact List.prefix_rfl

private theorem geomStep_mono (flt : Str → Option F) {st st' : GeomSt F} {t : Str} (h : geomStep flt st t = .ok st') :
    st.surfaces <+: st'.surfaces := by
  unfold geomStep at h
  split at h
  · have := geomPart_mono flt h
    exact this
  · exact geomPart_mono flt h

private theorem geomFold_mono (flt : Str → Option F) (ws : List Str) : ∀ {st st' : GeomSt F},
    ws.foldlM (geomStep flt) st = .ok st' → st.surfaces <+: st'.surfaces := by
  induction ws with
  | nil => intro st st' h; simp only [List.foldlM_nil, ex_pure, Except.ok.injEq] at h; subst h; exact List.prefix_rfl
  | cons w ws ih =>
    intro st st' h
    rw [List.foldlM_cons] at h
    simp only [ex_bind_ok] at h
    obtain ⟨s1, h1, h2⟩ := h
    exact (geomStep_mono flt h1).trans (ih h2)

/-- A number among the words of a card becomes a surface of its cell, whatever the other words are. -/
private theorem word_surfaces (flt : Str → Option F) {pre : List Str} {line : Str} {body rest : List Str} {n m : Int} {dn : Option F}
    {geom : List Str} (hh : CellHead flt line n m dn geom) (hb : Behind n body rest) {w : Str} (hw : w ∈ geom) {xs : List F}
    (hx : NumWord flt w xs) {d : Dict Int (Cell F)} (h : processCellBlock flt (pre ++ line :: (body ++ rest)) = .ok d) :
    ∃ c, d.get n = some c ∧ ∀ x ∈ xs, x ∈ c.surfaces := by
  obtain ⟨c, h1, h2⟩ := the_card flt hh hb.1 hb.2.1 hb.2.2 h
  refine ⟨c, h2, ?_⟩
  unfold processGeom at h1
  simp only [ex_bind_ok, ex_pure, Except.ok.injEq] at h1
  obtain ⟨st, h3, rfl⟩ := h1
  obtain ⟨a, b, rfl⟩ := List.append_of_mem hw
  rw [List.append_assoc, List.foldlM_append] at h3
  simp only [ex_bind_ok] at h3
  obtain ⟨s1, _, h4⟩ := h3
  rw [List.cons_append, List.foldlM_cons, geomStep_word flt _ (.num hx), ex_ok_bind] at h4
  have := geomFold_mono flt _ h4
  intro x hx'
  exact this.subset (by simp [hx'])

/-! ### C206: the surfaces of a cell -/

/-- Brackets may stand alone in MCNP. One bracket between blanks makes the whole block unreadable. -/
theorem C206_lone_bracket_violated (flt : Str → Option F) {pre : List Str} {line : Str} {post : List Str} {n m : Int} {dn : Option F}
    {geom : List Str} (hh : CellHead flt line n m dn geom) {w : Str} (hw : w ∈ geom) (hne : w ≠ []) (hd : ∀ c ∈ w, Deco c)
    (d : Dict Int (Cell F)) : processCellBlock flt (pre ++ line :: post) ≠ .ok d := by
  refine bad_word flt hh hw ?_ d
  intro st st' h
  have h0 : '$' ∉ w := fun h => absurd (hd _ h) (by decide)
  rw [geomStep_plain flt st h0] at h
  have hs : stripChars p!"()-" w = [] := by
    unfold stripChars
    have : w.dropWhile (fun c => (p!"()-").contains c) = [] := by
      rw [List.dropWhile_eq_nil_iff]; exact fun c hc => deco_contains.2 (hd c hc)
    rw [this]; rfl
  unfold geomPart at h
  have hlen : w.length ≠ 0 := by have := List.length_pos_iff.2 hne; omega
  rw [if_neg hlen, hs] at h
  have hi : hasSub p!"imp" (lower []) = false := by decide
  simp only [hi, Bool.false_eq_true, if_false, List.getElem?_nil, orErr, ex_err_bind] at h
  cases h

/-- Brackets that meet without a blank, as in `(1:2)(3:4)`, make the whole block unreadable. -/
theorem C206_adjoining_brackets_violated (flt : Str → Option F) (hflt : ∀ t, ')' ∈ t → flt t = none) {pre : List Str} {line : Str}
    {post : List Str} {n m : Int} {dn : Option F} {geom : List Str} (hh : CellHead flt line n m dn geom) {w core : Str}
    (hw : w ∈ geom) (hf : Framed w core) (hd : ∃ c rest, core = c :: rest ∧ c.isDigit = true)
    (hc : ∀ c ∈ core, c.isDigit = true ∨ Deco c ∨ c = ':') (hb : ')' ∈ core) (d : Dict Int (Cell F)) :
    processCellBlock flt (pre ++ line :: post) ≠ .ok d := by
  refine bad_word flt hh hw ?_ d
  have h0 : '$' ∉ w := by
    obtain ⟨a, b, rfl, ha, hb', _⟩ := hf
    intro h
    rcases List.mem_append.1 h with h | h
    · rcases List.mem_append.1 h with h | h
      · exact absurd (ha _ h) (by decide)
      · exact absurd (hc _ h) (by decide)
    · exact absurd (hb' _ h) (by decide)
  have hi : ¬ p!"imp" <:+: lower core := by
    intro hin
    have hi : 'i' ∈ lower core := hin.subset (by simp)
    unfold lower at hi
    obtain ⟨c, hc', hci⟩ := List.mem_map.1 hi
    rcases hc c hc' with h | (rfl | rfl | rfl) | rfl
    · rw [digit_toLower_self h] at hci; subst hci; exact absurd h (by decide)
    all_goals exact absurd hci (by decide)
  obtain ⟨p, ps, h1, h2⟩ := colons core
  obtain ⟨q, hq, hq'⟩ : ∃ q ∈ p :: ps, ')' ∈ q := by
    rw [h1] at hb
    rcases List.mem_append.1 hb with h | h
    · exact ⟨p, by simp, h⟩
    · obtain ⟨q, hq, h⟩ := List.mem_flatMap.1 h
      rcases List.mem_cons.1 h with h | h
      · exact absurd h (by decide)
      · exact ⟨q, by simp [hq], h⟩
  exact geomStep_badNum flt h0 hf hd hi h1 h2 hq (hflt q hq')

/-- The sign is removed at the ends of a word only: in `a:-b` the second surface is stored with its sign, and a search for
    its number does not find the cell. -/
theorem C206_union_sign_violated [InvolutiveNeg F] (flt : Str → Option F) {pre : List Str} {line : Str} {body rest : List Str} {n m : Int}
    {dn : Option F} {a b : Str} (hh : CellHead flt line n m dn [a ++ ':' :: '-' :: b]) (hb : Behind n body rest)
    (hbody : ∀ l ∈ body, ¬ Cont l) (ha : a ≠ [] ∧ ∀ c ∈ a, c.isDigit = true) (hb' : b ≠ [] ∧ ∀ c ∈ b, c.isDigit = true) {x y : F}
    (hx : flt a = some x) (hy : flt ('-' :: b) = some (-y)) (hxy : x ≠ y) (hyy : y ≠ -y)
    {d : Dict Int (Cell F)} (h : processCellBlock flt (pre ++ line :: (body ++ rest)) = .ok d) :
    ∃ c, d.get n = some c ∧ c.surfaces = [x, -y] ∧ y ∉ c.surfaces := by
  have hno : ∀ c ∈ a ++ ':' :: '-' :: b, c.isDigit = true ∨ c = ':' ∨ c = '-' := by
    intro c hc
    simp only [List.mem_append, List.mem_cons] at hc
    rcases hc with h | h | h | h
    · exact .inl (ha.2 c h)
    · exact .inr (.inl h)
    · exact .inr (.inr h)
    · exact .inl (hb'.2 c h)
  have hnum : NumWord flt (a ++ ':' :: '-' :: b) [x, -y] := by
    refine ⟨fun h => absurd (hno _ h) (by decide), a ++ ':' :: '-' :: b, a, ['-' :: b], ⟨[], [], by simp, by simp, by simp, by simp, ?_, ?_⟩,
      by simp, ?_, ?_, ?_, .cons hx (.cons hy .nil)⟩
    · intro c hc
      obtain ⟨a0, as, rfl⟩ := List.exists_cons_of_ne_nil ha.1
      simp at hc; subst hc
      exact digit_not_deco (.inl (ha.2 _ (by simp)))
    · intro c hc
      have : a ++ ':' :: '-' :: b = (a ++ [':', '-']) ++ b := by simp
      rw [this, List.getLast?_append_of_ne_nil _ hb'.1] at hc
      exact digit_not_deco (.inl (hb'.2 c (List.mem_of_getLast? hc)))
    · obtain ⟨a0, as, rfl⟩ := List.exists_cons_of_ne_nil ha.1
      exact ⟨a0, as, rfl, ha.2 _ (by simp)⟩
    · intro q hq
      simp only [List.mem_cons, List.not_mem_nil, or_false] at hq
      rcases hq with rfl | rfl
      · exact fun h => absurd (ha.2 _ h) (by decide)
      · intro h
        rcases List.mem_cons.1 h with h | h
        · exact absurd h (by decide)
        · exact absurd (hb'.2 _ h) (by decide)
    · intro hin
      have hi : 'i' ∈ lower (a ++ ':' :: '-' :: b) := hin.subset (by simp)
      unfold lower at hi
      obtain ⟨c, hc', hci⟩ := List.mem_map.1 hi
      rcases hno c hc' with h | rfl | rfl
      · rw [digit_toLower_self h] at hci; subst hci; exact absurd h (by decide)
      all_goals exact absurd hci (by decide)
  have hf : body.filter (fun l => decide (Cont l)) = [] := by
    rw [List.filter_eq_nil_iff]; intro l hl; simpa using hbody l hl
  obtain ⟨c, h1, _, _, _, h2, _⟩ := C206_cell_partial flt hh hb (rs := [([x, -y], [], [])])
    (by rw [hf]; exact .cons (.num hnum) .nil) h
  refine ⟨c, h1, by simpa using h2, ?_⟩
  rw [h2]
  simp only [List.flatMap_cons, List.flatMap_nil, List.append_nil, List.mem_cons, List.not_mem_nil, or_false, not_or]
  exact ⟨Ne.symm hxy, hyy⟩

/-! ### C207: inline comments -/

/-- A number behind the dollar sign becomes a surface of the cell. -/
theorem C207_comment_number_violated (flt : Str → Option F) {pre : List Str} {line : Str} {body rest : List Str} {n m : Int}
    {dn : Option F} {g1 g2 : List Str} {w t : Str} (hh : CellHead flt line n m dn (g1 ++ w :: g2)) (hb : Behind n body rest)
    (_hw : '$' ∈ w) (ht : t ∈ g2) {xs : List F} (hx : NumWord flt t xs)
    {d : Dict Int (Cell F)} (h : processCellBlock flt (pre ++ line :: (body ++ rest)) = .ok d) :
    ∃ c, d.get n = some c ∧ ∀ x ∈ xs, x ∈ c.surfaces :=
  word_surfaces flt hh hb (by simp [ht]) hx h

/-- A word of the comment that starts with a digit without being a number, as in `$ 2mm steel`, makes the block unreadable. -/
theorem C207_comment_word_violated (flt : Str → Option F) {pre : List Str} {line : Str} {post : List Str} {n m : Int}
    {dn : Option F} {g1 g2 : List Str} {w t : Str} (hh : CellHead flt line n m dn (g1 ++ w :: g2))
    (_hw : '$' ∈ w) (ht : t ∈ g2) (h0 : '$' ∉ t) (hc : ':' ∉ t) {core : Str} (hf : Framed t core)
    (hd : ∃ c rest, core = c :: rest ∧ c.isDigit = true) (hi : ¬ p!"imp" <:+: lower core) (hbad : flt core = none)
    (d : Dict Int (Cell F)) : processCellBlock flt (pre ++ line :: post) ≠ .ok d := by
  refine bad_word flt hh (w := t) (by simp [ht]) ?_ d
  have hcc : ':' ∉ core := by
    obtain ⟨a, b, rfl, _⟩ := hf
    intro h; exact hc (by simp [h])
  exact geomStep_badNum flt h0 hf hd hi (p := core) (ps := []) (by simp) (by simpa using hcc) (by simp) hbad

/-- A word with the letters `imp` and no colon, as in `$ important`, makes the block unreadable. -/
theorem C207_comment_imp_violated (flt : Str → Option F) {pre : List Str} {line : Str} {post : List Str} {n m : Int}
    {dn : Option F} {g1 g2 : List Str} {w t : Str} (hh : CellHead flt line n m dn (g1 ++ w :: g2))
    (_hw : '$' ∈ w) (ht : t ∈ g2) (h0 : '$' ∉ t) (hc : ':' ∉ t) {core : Str} (hf : Framed t core) (hi : p!"imp" <:+: lower core)
    (d : Dict Int (Cell F)) : processCellBlock flt (pre ++ line :: post) ≠ .ok d := by
  refine bad_word flt hh (w := t) (by simp [ht]) ?_ d
  intro st st' h
  have hcc : ':' ∉ core := by
    obtain ⟨a, b, rfl, _⟩ := hf
    intro h; exact hc (by simp [h])
  have himp : hasSub p!"imp" (lower core) = true := hasSub_iff.2 hi
  have hsp : splitOn ':' core = [core] := by
    have := splitOn_colons core [] (by simpa using hcc)
    simpa using this
  rw [geomStep_plain flt st h0] at h
  unfold geomPart at h
  rw [if_neg (framed_len hf)] at h
  simp only [framed_strip hf, himp, if_true, processImp, hsp, List.getElem?_cons_succ, List.getElem?_nil, orErr, ex_err_bind] at h
  cases h

/-- When the words of the comment start with something else than a digit, they leave the cell alone; of the comment only
    the part of the first word behind the dollar sign is stored. -/
theorem C207_partial (flt : Str → Option F) {pre : List Str} {line : Str} {body rest : List Str} {n m : Int}
    {dn : Option F} {g1 g2 : List Str} {a b : Str} (hh : CellHead flt line n m dn (g1 ++ (a ++ '$' :: b) :: g2)) (hb : Behind n body rest)
    (hbody : ∀ l ∈ body, ¬ Cont l) {rs : List (List F × List (Char × F) × List Str)} (hg : GeomWords flt g1 rs) {xs : List F}
    (ha : ((a = [] ∨ OtherWord a) ∧ xs = []) ∨ NumWord flt a xs) (hd : '$' ∉ b) (ht : ∀ t ∈ g2, OtherWord t)
    {d : Dict Int (Cell F)} (h : processCellBlock flt (pre ++ line :: (body ++ rest)) = .ok d) :
    ∃ c, d.get n = some c ∧ c.surfaces = rs.flatMap (·.1) ++ xs ∧ c.comments = rs.flatMap (·.2.2) ++ [b] ∧
      ∀ p x, c.imp.get p = some x ↔ LastWins (rs.flatMap (·.2.1)) p x := by
  have hf : body.filter (fun l => decide (Cont l)) = [] := by
    rw [List.filter_eq_nil_iff]; intro l hl; simpa using hbody l hl
  have hgw : GeomWord flt (a ++ '$' :: b) xs [] [b] := by
    rcases ha with ⟨ha, rfl⟩ | ha
    · exact .note hd ha
    · exact .noteNum hd ha
  have h2 : GeomWords flt g2 (g2.map (fun _ => (([] : List F), ([] : List (Char × F)), ([] : List Str)))) := by
    clear hh h
    induction g2 with
    | nil => exact .nil
    | cons t ts ih => exact .cons (.other (ht t (by simp))) (ih (fun t h => ht t (by simp [h])))
  have hz : ∀ {β : Type} (f : List F × List (Char × F) × List Str → List β), f ([], [], []) = [] →
      (g2.map (fun _ => (([] : List F), ([] : List (Char × F)), ([] : List Str)))).flatMap f = [] := by
    intro β f hf
    simp [List.flatMap_map, hf]
  obtain ⟨c, h1, _, _, _, h3, h4, h5⟩ := C206_cell_partial flt hh hb
    (rs := rs ++ (xs, [], [b]) :: g2.map (fun _ => ([], [], [])))
    (by rw [hf, List.append_nil]; exact List.rel_append hg (.cons hgw h2)) h
  refine ⟨c, h1, ?_, ?_, ?_⟩
  · rw [h3, List.flatMap_append, List.flatMap_cons, hz _ rfl]; simp
  · rw [h4, List.flatMap_append, List.flatMap_cons, hz _ rfl]; simp
  · intro p x
    rw [h5, List.flatMap_append, List.flatMap_cons, hz _ rfl]; simp

/-- A comment separated from its dollar sign by a blank is lost: an empty text is stored. -/
theorem C207_comment_lost_violated (flt : Str → Option F) {pre : List Str} {line : Str} {body rest : List Str} {n m : Int}
    {dn : Option F} {g1 g2 : List Str} (hh : CellHead flt line n m dn (g1 ++ p!"$" :: g2)) (hb : Behind n body rest)
    (hbody : ∀ l ∈ body, ¬ Cont l) {rs : List (List F × List (Char × F) × List Str)} (hg : GeomWords flt g1 rs)
    (hr : ∀ r ∈ rs, r.2.2 = []) (ht : ∀ t ∈ g2, OtherWord t)
    {d : Dict Int (Cell F)} (h : processCellBlock flt (pre ++ line :: (body ++ rest)) = .ok d) :
    ∃ c, d.get n = some c ∧ c.comments = [[]] := by
  obtain ⟨c, h1, _, h3, _⟩ := C207_partial flt (a := []) (b := []) hh hb hbody hg (.inl ⟨.inl rfl, rfl⟩) (by simp) ht h
  refine ⟨c, h1, ?_⟩
  rw [h3, List.flatMap_eq_nil_iff.2 hr]; rfl

/-! ### C208: importances -/

/-- A blank instead of the equals sign, as in `imp:n 1`, makes the block unreadable. -/
theorem C208_blank_violated (flt : Str → Option F) (hflt : ∀ t, ':' ∈ t → flt t = none) {pre : List Str} {line : Str}
    {post : List Str} {n m : Int} {dn : Option F} {geom : List Str} (hh : CellHead flt line n m dn geom) {t core : Str}
    (ht : t ∈ geom) (h0 : '$' ∉ t) (hf : Framed t core) (hi : p!"imp" <:+: lower core) (he : '=' ∉ core)
    (d : Dict Int (Cell F)) : processCellBlock flt (pre ++ line :: post) ≠ .ok d := by
  refine bad_word flt hh ht ?_ d
  intro st st' h
  have himp : hasSub p!"imp" (lower core) = true := hasSub_iff.2 hi
  have he' : splitOn '=' core = [core] := by
    rw [splitOn, splitP_of_not_mem]
    intro d hd; simp only [beq_eq_false_iff_ne, ne_eq]; rintro rfl; exact he hd
  rw [geomStep_plain flt st h0] at h
  unfold geomPart at h
  rw [if_neg (framed_len hf)] at h
  simp only [framed_strip hf, himp, if_true, processImp, he', ex_bind_ok, orErr_ok_iff] at h
  obtain ⟨_, ⟨r, hr, _, _, x, hx, _⟩, _⟩ := h
  by_cases hc : ':' ∈ core
  · rw [show [core].getLastD [] = core from rfl, hflt core hc] at hx; cases hx
  · have hsp : splitOn ':' core = [core] := by
      have := splitOn_colons core [] (by simpa using hc)
      simpa using this
    rw [hsp] at hr; simp at hr

/-- A blank behind the equals sign, as in `imp:n= 1`, makes the block unreadable. -/
theorem C208_equals_blank_violated (flt : Str → Option F) (hflt : flt [] = none) {pre : List Str} {line : Str}
    {post : List Str} {n m : Int} {dn : Option F} {geom : List Str} (hh : CellHead flt line n m dn geom) {t core : Str}
    (ht : t ∈ geom) (h0 : '$' ∉ t) (hf : Framed t (core ++ ['='])) (hi : p!"imp" <:+: lower core)
    (d : Dict Int (Cell F)) : processCellBlock flt (pre ++ line :: post) ≠ .ok d := by
  refine bad_word flt hh ht ?_ d
  intro st st' h
  have himp : hasSub p!"imp" (lower (core ++ ['='])) = true := by
    rw [hasSub_iff]
    obtain ⟨a, b, hab⟩ := hi
    exact ⟨a, b ++ lower ['='], by rw [← List.append_assoc, hab]; simp [lower]⟩
  have he' : (splitOn '=' (core ++ ['='])).getLastD [] = [] := splitOn_last (v := []) (by simp)
  rw [geomStep_plain flt st h0] at h
  unfold geomPart at h
  rw [if_neg (framed_len hf)] at h
  simp only [framed_strip hf, himp, if_true, processImp, he', hflt, ex_bind_ok, orErr_ok_iff] at h
  obtain ⟨_, ⟨r, hr, _, _, x, hx, _⟩, _⟩ := h
  cases hx

/-- One entry for several particles, as in `imp:n,p=1`: only the first particle gets the importance. -/
theorem C208_shared_violated (flt : Str → Option F) {pre : List Str} {line : Str} {body rest : List Str} {n m : Int}
    {dn : Option F} {i v : Str} {p q : Char} (hh : CellHead flt line n m dn [i ++ ':' :: p :: ',' :: q :: '=' :: v]) (hb : Behind n body rest)
    (hbody : ∀ l ∈ body, ¬ Cont l) (hi : lower i = p!"imp") (hp : p.isAlpha = true) (hq : q.isAlpha = true) (hpq : p ≠ q)
    (hv : v ≠ [] ∧ ∀ c ∈ v, c.isDigit = true ∨ c = '.') {x : F} (hx : flt v = some x)
    {d : Dict Int (Cell F)} (h : processCellBlock flt (pre ++ line :: (body ++ rest)) = .ok d) :
    ∃ c, d.get n = some c ∧ c.imp.get p = some x ∧ c.imp.get q = none := by
  have hf : body.filter (fun l => decide (Cont l)) = [] := by
    rw [List.filter_eq_nil_iff]; intro l hl; simpa using hbody l hl
  obtain ⟨c, h1, h2⟩ := the_card flt hh hb.1 hb.2.1 hb.2.2 h
  refine ⟨c, h2, ?_⟩
  rw [hf, List.append_nil] at h1
  have hik : ∀ c ∈ i, c.toLower ∈ p!"imp" := by
    intro c hc; rw [← hi]; exact List.mem_map_of_mem hc
  have hine : ∀ c ∈ i, c ≠ '$' ∧ c ≠ ':' ∧ ¬ Deco c := by
    intro c hc
    have := hik c hc
    refine ⟨?_, ?_, ?_⟩
    · rintro rfl; exact absurd this (by decide)
    · rintro rfl; exact absurd this (by decide)
    · rintro (rfl | rfl | rfl) <;> exact absurd this (by decide)
  have hi0 : i ≠ [] := by rintro rfl; simp [lower] at hi
  have hvn : ∀ c, c.isDigit = false → c ≠ '.' → c ∉ v := by
    intro c h1 h2 h3
    rcases hv.2 c h3 with h | h
    · rw [h1] at h; cases h
    · exact h2 h
  have hpn : ∀ c : Char, c.isAlpha = false → c ≠ p ∧ c ≠ q := by
    intro c hc
    constructor
    · rintro rfl; rw [hc] at hp; cases hp
    · rintro rfl; rw [hc] at hq; cases hq
  have h0 : '$' ∉ i ++ ':' :: p :: ',' :: q :: '=' :: v := by
    simp only [List.mem_append, List.mem_cons, not_or]
    exact ⟨fun h => (hine _ h).1 rfl, by decide, (hpn _ (by decide)).1, by decide, (hpn _ (by decide)).2, by decide,
      hvn _ (by decide) (by decide)⟩
  have hfr : Framed (i ++ ':' :: p :: ',' :: q :: '=' :: v) (i ++ ':' :: p :: ',' :: q :: '=' :: v) := by
    refine ⟨[], [], by simp, by simp, by simp, by simp, ?_, ?_⟩
    · obtain ⟨a, as, rfl⟩ := List.exists_cons_of_ne_nil hi0
      intro c hc; simp at hc; subst hc; exact (hine _ (by simp)).2.2
    · intro c hc
      have : i ++ ':' :: p :: ',' :: q :: '=' :: v = (i ++ [':', p, ',', q, '=']) ++ v := by simp
      rw [this, List.getLast?_append_of_ne_nil _ hv.1] at hc
      exact digit_not_deco (hv.2 c (List.mem_of_getLast? hc))
  have himp : hasSub p!"imp" (lower (i ++ ':' :: p :: ',' :: q :: '=' :: v)) = true := by
    rw [hasSub_iff]
    refine ⟨[], lower (':' :: p :: ',' :: q :: '=' :: v), ?_⟩
    rw [← hi]; simp [lower]
  have e1 : (splitOn '=' (i ++ ':' :: p :: ',' :: q :: '=' :: v)).getLastD [] = v := by
    rw [show i ++ ':' :: p :: ',' :: q :: '=' :: v = (i ++ [':', p, ',', q]) ++ '=' :: v by simp]
    exact splitOn_last (hvn _ (by decide) (by decide))
  have e2 : splitOn ':' (i ++ ':' :: p :: ',' :: q :: '=' :: v) = [i, p :: ',' :: q :: '=' :: v] := by
    have := splitOn_colons i [p :: ',' :: q :: '=' :: v] (by
      intro r hr
      simp only [List.mem_cons, List.not_mem_nil, or_false] at hr
      rcases hr with rfl | rfl
      · exact fun h => (hine _ h).2.1 rfl
      · simp only [List.mem_cons, not_or]
        exact ⟨(hpn _ (by decide)).1, by decide, (hpn _ (by decide)).2, by decide, hvn _ (by decide) (by decide)⟩)
    simpa using this
  unfold processGeom at h1
  simp only [List.foldlM_cons, List.foldlM_nil] at h1
  rw [geomStep_plain flt _ h0] at h1
  unfold geomPart at h1
  rw [if_neg (framed_len hfr)] at h1
  simp only [framed_strip hfr, himp, if_true, processImp, e1, e2, hx, List.getElem?_cons_succ, List.getElem?_cons_zero, orErr,
    ex_ok_bind, ex_pure, Except.ok.injEq] at h1
  subst h1
  refine ⟨?_, ?_⟩
  · simp only
    exact Dict.get_set_self _ _ _
  simp only
  rw [Dict.get_set_ne _ _ (Ne.symm hpq)]; rfl

/-- Importances written `imp:p=v` in one word are the importances of the cell, the last one for each particle. -/
theorem C208_partial (flt : Str → Option F) {pre : List Str} {line : Str} {body rest : List Str} {n m : Int} {dn : Option F}
    {geom : List Str} (hh : CellHead flt line n m dn geom) (hb : Behind n body rest)
    {rs : List (List F × List (Char × F) × List Str)} (hg : GeomWords flt (geom ++ body.filter (fun l => decide (Cont l))) rs)
    {d : Dict Int (Cell F)} (h : processCellBlock flt (pre ++ line :: (body ++ rest)) = .ok d) :
    ∃ c, d.get n = some c ∧ ∀ p x, c.imp.get p = some x ↔ LastWins (rs.flatMap (·.2.1)) p x := by
  obtain ⟨c, h1, _, _, _, _, _, h2⟩ := C206_cell_partial flt hh hb hg h
  exact ⟨c, h1, h2⟩

/-! ### C209: parameters of cells -/

/-- The values behind the first one of a parameter, as in `trcl=(0 0 5)`, become surfaces of the cell. -/
theorem C209_parameter_values_violated (flt : Str → Option F) {pre : List Str} {line : Str} {body rest : List Str} {n m : Int}
    {dn : Option F} {g1 g2 : List Str} {w t : Str} (hh : CellHead flt line n m dn (g1 ++ w :: g2)) (hb : Behind n body rest)
    (_hw : '=' ∈ w) (ht : t ∈ g2) {xs : List F} (hx : NumWord flt t xs)
    {d : Dict Int (Cell F)} (h : processCellBlock flt (pre ++ line :: (body ++ rest)) = .ok d) :
    ∃ c, d.get n = some c ∧ ∀ x ∈ xs, x ∈ c.surfaces :=
  word_surfaces flt hh hb (by simp [ht]) hx h

theorem otherWord_of {c : Char} {cs : Str} (h0 : '$' ∉ c :: cs) (hd : c.isDigit = false) (hc : ¬ Deco c)
    (hi : ¬ p!"imp" <:+: lower (c :: cs)) : OtherWord (c :: cs) := by
  have hsplit := List.rdropWhile_append_rtakeWhile (p := fun x => (p!"()-").contains x) (l := c :: cs)
  obtain ⟨core, post, h1, h2, h3, h4⟩ : ∃ core post, c :: cs = core ++ post ∧ (∀ x ∈ post, Deco x) ∧ core ≠ [] ∧
      (∀ x ∈ core.getLast?, ¬ Deco x) := by
    refine ⟨_, _, hsplit.symm, ?_, ?_, ?_⟩
    · intro x hx; exact deco_contains.1 (List.mem_rtakeWhile_imp hx)
    · intro he
      rw [List.rdropWhile_eq_nil_iff] at he
      exact hc (deco_contains.1 (he c (by simp)))
    · intro x hx
      by_cases he : (c :: cs).rdropWhile (fun x => (p!"()-").contains x) = []
      · rw [he] at hx; simp at hx
      · have := List.rdropWhile_last_not _ _ he
        rw [List.getLast?_eq_getLast_of_ne_nil he] at hx
        simp only [Option.mem_some_iff] at hx
        rw [hx] at this
        intro hdx; exact this (deco_contains.2 hdx)
  have hh : core.head? = some c := by
    cases core with
    | nil => exact absurd rfl h3
    | cons a as => simp at h1; simp [h1.1]
  refine ⟨h0, core, ⟨[], post, by simpa using h1, by simp, h2, h3, ?_, h4⟩, ?_, ?_⟩
  · intro x hx; rw [hh] at hx; simp only [Option.mem_some_iff] at hx; subst hx; exact hc
  · intro x hx; rw [hh] at hx; simp only [Option.mem_some_iff] at hx; subst hx; exact hd
  · intro hin
    apply hi
    rw [h1]
    obtain ⟨a, b, hab⟩ := hin
    exact ⟨a, b ++ lower post, by rw [← List.append_assoc, hab]; simp [lower]⟩

/-- A parameter of one word, as in `vol=1`, leaves the cell alone: the cell is the one of the card without that word. -/
theorem C209_partial (flt : Str → Option F) {pre : List Str} {line : Str} {body rest : List Str} {n m : Int} {dn : Option F}
    {g1 g2 : List Str} {c0 : Char} {w : Str} (hh : CellHead flt line n m dn (g1 ++ (c0 :: w) :: g2)) (hb : Behind n body rest)
    (hbody : ∀ l ∈ body, ¬ Cont l) (h0 : '$' ∉ c0 :: w) (hd : c0.isDigit = false) (hc : ¬ Deco c0) (hi : ¬ p!"imp" <:+: lower (c0 :: w))
    {rs : List (List F × List (Char × F) × List Str)} (hg : GeomWords flt (g1 ++ g2) rs)
    {d : Dict Int (Cell F)} (h : processCellBlock flt (pre ++ line :: (body ++ rest)) = .ok d) :
    ∃ c, d.get n = some c ∧ c.mat = m ∧ c.density = dn ∧ c.surfaces = rs.flatMap (·.1) ∧
      c.comments = rs.flatMap (·.2.2) ∧ ∀ p x, c.imp.get p = some x ↔ LastWins (rs.flatMap (·.2.1)) p x := by
  have hf : body.filter (fun l => decide (Cont l)) = [] := by
    rw [List.filter_eq_nil_iff]; intro l hl; simpa using hbody l hl
  obtain ⟨r1, r2, hr1, hr2, rfl⟩ : ∃ r1 r2, GeomWords flt g1 r1 ∧ GeomWords flt g2 r2 ∧ rs = r1 ++ r2 := by
    have hg' := hg.flip
    refine ⟨rs.take g1.length, rs.drop g1.length, (List.forall₂_take_append _ _ _ hg').flip, (List.forall₂_drop_append _ _ _ hg').flip, by simp⟩
  obtain ⟨c, h1, _, h2, h3, h4, h5, h6⟩ := C206_cell_partial flt hh hb (rs := r1 ++ ([], [], []) :: r2)
    (by rw [hf, List.append_nil]; exact List.rel_append hr1 (.cons (.other (otherWord_of h0 hd hc hi)) hr2)) h
  refine ⟨c, h1, h2, h3, ?_, ?_, ?_⟩
  · rw [h4]; simp
  · rw [h5]; simp
  · intro p x; rw [h6]; simp

/-! ### C210: cells described by another cell -/

private theorem bad_head (flt : Str → Option F) {pre : List Str} {line : Str} {post : List Str}
    (hl : ∃ c rest, line = c :: rest ∧ c.isDigit = true) (hbad : ∀ r, startCell flt (splitOn ' ' (stringCleaner line)) ≠ .ok r)
    (d : Dict Int (Cell F)) : processCellBlock flt (pre ++ line :: post) ≠ .ok d := by
  intro h
  obtain ⟨st1, st2, h1, _⟩ := runCells_cons flt (st := ⟨[], none⟩) h
  obtain ⟨c, rest, rfl, hc⟩ := hl
  have hc' : isDigit c = true := hc
  unfold cellStep at h1
  simp only [List.getElem?_cons_zero, orErr, ex_ok_bind, hc', if_true] at h1
  cases hcur : st1.cur with
  | none =>
    simp only [hcur, ex_pure, ex_ok_bind, ex_bind_ok] at h1
    obtain ⟨r, h2, _⟩ := h1
    exact hbad r h2
  | some cur =>
    simp only [hcur, ex_bind_ok] at h1
    obtain ⟨_, _, r, h2, _⟩ := h1
    exact hbad r h2

/-- A line that starts with a digit and has no integer as its second word makes the block unreadable. -/
private theorem bad_second (flt : Str → Option F) {pre : List Str} {line : Str} {post : List Str}
    (hl : ∃ c rest, line = c :: rest ∧ c.isDigit = true) {w0 : Str} {ws : List Str} (hw : Spec.IsWords line (w0 :: ws))
    (h1 : ∀ w ∈ ws.head?, pyInt w = none) (d : Dict Int (Cell F)) : processCellBlock flt (pre ++ line :: post) ≠ .ok d := by
  refine bad_head flt hl ?_ d
  intro r h
  have hs := splitWs_of_isWords hw
  rw [splitOn_stringCleaner (by rw [hs]; simp), hs] at h
  simp only [startCell, List.getElem?_cons_zero, List.getElem?_cons_succ, orErr, ex_ok_bind, ex_bind_ok] at h
  obtain ⟨_, _, w1, h2, k, h3, _⟩ := h
  cases ws with
  | nil => simp at h2
  | cons a as =>
    simp only [List.getElem?_cons_zero, Except.ok.injEq] at h2
    subst h2
    rw [h1 a (by simp)] at h3
    simp at h3

theorem isWords_words {s : Str} {ws : List Str} (h : Spec.IsWords s ws) : ∀ w ∈ ws, w ≠ [] ∧ ∀ c ∈ w, isSpace c = false := by
  induction h with
  | blank _ => simp
  | word _ hw _ _ ih =>
    intro w hw'
    rcases List.mem_cons.1 hw' with rfl | h
    · exact hw
    · exact ih w h

theorem pyInt_none_of_head {c : Char} {cs : Str} (h : ∀ x ∈ c :: cs, isSpace x = false) (hd : c.isDigit = false)
    (hm : c ≠ '-') (hp : c ≠ '+') : pyInt (c :: cs) = none := by
  unfold pyInt
  rw [strip_word h]
  split
  · rename_i heq; simp at heq; exact absurd heq.1 hm
  · rename_i heq; simp at heq; exact absurd heq.1 hp
  · simp [pyNat, hd]

/-- A cell described by another one, `n like k but …`: no block with such a card can be read, so no cell of it is stored. -/
theorem C210_like_violated (flt : Str → Option F) {pre : List Str} {line : Str} {post : List Str}
    (hl : ∃ c rest, line = c :: rest ∧ c.isDigit = true) {w0 w1 : Str} {ws : List Str}
    (hw : Spec.IsWords line (w0 :: w1 :: ws)) (h1 : lower w1 = p!"like")
    (d : Dict Int (Cell F)) : processCellBlock flt (pre ++ line :: post) ≠ .ok d := by
  refine bad_second flt hl hw ?_ d
  intro w hw'
  simp only [List.head?_cons, Option.mem_some_iff] at hw'
  subst hw'
  obtain ⟨hne, hsp⟩ := isWords_words hw w1 (by simp)
  obtain ⟨c, cs, rfl⟩ := List.exists_cons_of_ne_nil hne
  have hc : c.toLower = 'l' := by
    simp [lower] at h1; exact h1.1
  refine pyInt_none_of_head hsp ?_ ?_ ?_
  · cases hd : c.isDigit with
    | false => rfl
    | true => rw [digit_toLower_self hd] at hc; subst hc; exact absurd hd (by decide)
  · rintro rfl; exact absurd hc (by decide)
  · rintro rfl; exact absurd hc (by decide)

/-- A title or message that starts with a digit and is not followed by an integer makes the block unreadable. -/
theorem C86_title_digit_any (flt : Str → Option F) {title : Str} {post : List Str}
    (hl : ∃ c rest, title = c :: rest ∧ c.isDigit = true) {w0 : Str} {ws : List Str} (hw : Spec.IsWords title (w0 :: ws))
    (h1 : ∀ w ∈ ws.head?, ∀ c ∈ w.head?, c.isDigit = false ∧ c ≠ '-' ∧ c ≠ '+') (d : Dict Int (Cell F)) :
    processCellBlock flt (title :: post) ≠ .ok d := by
  refine bad_second flt (pre := []) hl hw ?_ d
  intro w hw'
  have hmem : w ∈ ws := List.mem_of_mem_head? hw'
  obtain ⟨hne, hsp⟩ := isWords_words hw w (by simp [hmem])
  obtain ⟨c, cs, rfl⟩ := List.exists_cons_of_ne_nil hne
  obtain ⟨a, b, c'⟩ := h1 _ hw' c (by simp)
  exact pyInt_none_of_head hsp a b c'

/-! ### C211: indented cards -/

private theorem skip_line (flt : Str → Option F) (pre post : List Str) {next : Str} (hs : CellSkip next) :
    processCellBlock flt (pre ++ next :: post) = processCellBlock flt (pre ++ post) := by
  unfold processCellBlock
  rw [List.foldlM_append, List.foldlM_append]
  cases hp : pre.foldlM (cellStep flt) ⟨[], none⟩ with
  | error e => simp only [ex_err_bind]
  | ok st =>
    simp only [ex_ok_bind]
    rw [List.foldlM_cons, cellStep_skip flt st hs, ex_ok_bind]

/-- MCNP cards may start in columns 1 to 5. A line that starts with one to four blanks is dropped without a message. -/
theorem C211_indented_lost_violated (flt : Str → Option F) (pre post : List Str) (k : Nat) (hk : 0 < k ∧ k < 5) (c : Char) (cs : Str)
    (hc : c ≠ ' ') : processCellBlock flt (pre ++ (List.replicate k ' ' ++ c :: cs) :: post) = processCellBlock flt (pre ++ post) := by
  have hskip : CellSkip (List.replicate k ' ' ++ c :: cs) := by
    refine ⟨by simp, ?_, ?_⟩
    · intro x hx
      obtain ⟨j, rfl⟩ : ∃ j, k = j + 1 := ⟨k - 1, by omega⟩
      simp [List.replicate_succ] at hx
      subst hx; decide
    · intro h
      have h2 := List.prefix_iff_eq_take.1 h
      have : (p!"     ")[k]? = (List.replicate k ' ' ++ c :: cs)[k]? := by
        rw [h2]; simp [List.getElem?_take, hk.2]
      rw [List.getElem?_append_right (by simp)] at this
      simp only [List.length_replicate, Nat.sub_self, List.getElem?_cons_zero] at this
      obtain ⟨hk1, hk2⟩ := hk
      clear h h2
      interval_cases k <;> simp at this <;> exact hc this.symm
  exact skip_line flt pre post hskip

/-- A card that starts in column 1 gives a cell with its number, material and density, however many blanks separate its words. -/
theorem C211_partial (flt : Str → Option F) {pre : List Str} {line : Str} {body rest : List Str} {n m : Int} {dn : Option F}
    {geom : List Str} (hh : CellHead flt line n m dn geom) (hb : Behind n body rest)
    {d : Dict Int (Cell F)} (h : processCellBlock flt (pre ++ line :: (body ++ rest)) = .ok d) :
    ∃ c, d.get n = some c ∧ c.number = n ∧ c.mat = m ∧ c.density = dn := by
  obtain ⟨c, h1, h2⟩ := the_card flt hh hb.1 hb.2.1 hb.2.2 h
  refine ⟨c, h2, ?_⟩
  unfold processGeom at h1
  simp only [ex_bind_ok, ex_pure, Except.ok.injEq] at h1
  obtain ⟨_, _, rfl⟩ := h1
  exact ⟨rfl, rfl, rfl⟩

/-! ### C212: continuation by `&` -/

/-- A card may be continued with `&` in MCNP. If the next line starts with a digit, it is taken for a card of its own: the cell
    gets only the words of its first line, and a cell is stored that the input does not have. -/
theorem C212_ampersand_digit_violated (flt : Str → Option F) {pre : List Str} {line next : Str} {rest : List Str} {n m n' m' : Int}
    {dn dn' : Option F} {geom geom' : List Str} (hh : CellHead flt line n m dn (geom ++ [p!"&"]))
    (hh' : CellHead flt next n' m' dn' geom') (hno : NoCard n (next :: rest)) (hno' : NoCard n' rest)
    {rs : List (List F × List (Char × F) × List Str)} (hg : GeomWords flt geom rs)
    (hrest : ∀ l ∈ rest.head?, ∃ c tl, l = c :: tl ∧ c.isDigit = true)
    {d : Dict Int (Cell F)} (h : processCellBlock flt (pre ++ line :: next :: rest) = .ok d) :
    (∃ c, d.get n = some c ∧ c.surfaces = rs.flatMap (·.1)) ∧ ∃ c, d.get n' = some c ∧ c.number = n' ∧ c.mat = m' := by
  constructor
  · obtain ⟨c, h1, _, _, _, h4, _⟩ := C206_cell_partial flt (body := []) (rest := next :: rest) hh
      ⟨by simp, by intro l hl; simp at hl; subst hl; exact hh'.1, hno⟩ (rs := rs ++ [([], [], [])])
      (by
        rw [List.filter_nil, List.append_nil]
        refine List.rel_append hg (.cons (.other (otherWord_of (by decide) (by decide) (by decide) ?_)) .nil)
        rw [← hasSub_false_iff]; decide +kernel) h
    exact ⟨c, h1, by rw [h4]; simp⟩
  · obtain ⟨c, h1, h2, h3, _⟩ := C211_partial flt (pre := pre ++ [line]) (body := []) (rest := rest) hh' ⟨by simp, hrest, hno'⟩
      (by rw [List.append_assoc]; exact h)
    exact ⟨c, h1, h2, h3⟩

/-- If the next line starts with a bracket, a sign or at most four blanks, it is dropped. -/
theorem C212_ampersand_dropped_violated (flt : Str → Option F) (pre post : List Str) (line next : Str) (hs : CellSkip next) :
    processCellBlock flt (pre ++ line :: next :: post) = processCellBlock flt (pre ++ line :: post) := by
  have := skip_line flt (pre ++ [line]) post hs
  simpa using this

/-- The sign `&` itself leaves the cell alone. -/
theorem C212_partial (flt : Str → Option F) {pre : List Str} {line : Str} {body rest : List Str} {n m : Int} {dn : Option F}
    {g : List Str} (hh : CellHead flt line n m dn (g ++ [p!"&"])) (hb : Behind n body rest)
    (hbody : ∀ l ∈ body, ¬ Cont l) {rs : List (List F × List (Char × F) × List Str)} (hg : GeomWords flt g rs)
    {d : Dict Int (Cell F)} (h : processCellBlock flt (pre ++ line :: (body ++ rest)) = .ok d) :
    ∃ c, d.get n = some c ∧ c.mat = m ∧ c.density = dn ∧ c.surfaces = rs.flatMap (·.1) ∧
      c.comments = rs.flatMap (·.2.2) ∧ ∀ p x, c.imp.get p = some x ↔ LastWins (rs.flatMap (·.2.1)) p x :=
  C209_partial flt hh hb hbody (by decide) (by decide) (by decide) (by rw [← hasSub_false_iff]; decide +kernel)
    (by rw [List.append_nil]; exact hg) h

/-! ### Examples -/

set_option synthInstance.maxSize 1000

private def exG (s : Str) : Option Int := pyInt s

/-- The number, surfaces, importances and comments of the cells of a block. -/
private def shown (r : Except Err (Dict Int (Cell Int))) : Except Err (List (Int × List Int × List (Char × Int) × List Str)) :=
  r.map (fun d => d.map (fun e => (e.1, e.2.surfaces, e.2.imp, e.2.comments)))

example : CellHead exG p!"1 0 ( 1 -2 )" 1 0 none [p!"(", p!"1", p!"-2", p!")"] :=
  ⟨⟨_, _, rfl, by decide⟩, p!"1", p!"0", by decide +kernel, by decide +kernel, .inl ⟨rfl, rfl, isWords_iff.2 (by decide +kernel)⟩⟩
example : shown (processCellBlock exG [p!"1 0 ( 1 -2 )"]) = .error .IndexError ∧
    shown (processCellBlock exG [p!"1 0 (1:2)(3:4)"]) = .error .ValueError ∧
    shown (processCellBlock exG [p!"1 0 1:-2 #5"]) = .ok [(1, [1, -2], [], [])] ∧
    shown (processCellBlock exG [p!"1 0 (1:2) (3:4)"]) = .ok [(1, [1, 2, 3, 4], [], [])] :=
  ⟨by decide +kernel, by decide +kernel, by decide +kernel, by decide +kernel⟩
example : NumWord exG p!"(1:-2)" [1, -2] := by
  refine ⟨by decide, p!"1:-2", p!"1", [p!"-2"], ⟨p!"(", p!")", by decide +kernel, by simp [Deco], by simp [Deco], by simp, ?_, ?_⟩, by decide +kernel,
    ⟨_, _, rfl, by decide⟩, by decide, ?_, .cons (by decide +kernel) (.cons (by decide +kernel) .nil)⟩
  · intro c hc; simp at hc; subst hc; decide
  · intro c hc; simp at hc; subst hc; decide
  · rw [← hasSub_false_iff]; decide +kernel
example : Behind 1 [p!"c note"] [p!"2 0 -3"] := by
  refine ⟨?_, ?_, ?_⟩
  · intro l hl; simp at hl; subst hl
    exact .inl ⟨by simp, by intro c hc; simp at hc; subst hc; decide, by decide⟩
  · intro l hl; simp at hl; subst hl; exact ⟨_, _, rfl, by decide⟩
  · intro l hl _ w ws hw
    simp at hl; subst hl
    have := splitWs_of_isWords hw
    have h2 : splitWs p!"2 0 -3" = [p!"2", p!"0", p!"-3"] := by decide +kernel
    rw [h2] at this
    simp at this
    rw [← this.1]; decide +kernel
example : shown (processCellBlock exG [p!"1 0 -1 $ wall 5", p!"2 0 1"]) = .ok [(1, [1, 5], [], [[]]), (2, [1], [], [])] ∧
    shown (processCellBlock exG [p!"1 0 -1 $ 2mm wall"]) = .error .ValueError ∧
    shown (processCellBlock exG [p!"1 0 -1 $ important wall"]) = .error .IndexError ∧
    shown (processCellBlock exG [p!"1 0 -1 2$wall of hall"]) = .ok [(1, [1, 2], [], [p!"wall"])] :=
  ⟨by decide +kernel, by decide +kernel, by decide +kernel, by decide +kernel⟩
example : shown (processCellBlock exG [p!"1 0 -1 imp:n 1"]) = .error .ValueError ∧
    shown (processCellBlock exG [p!"1 0 -1 imp:n= 1"]) = .error .ValueError ∧
    shown (processCellBlock exG [p!"1 0 imp:n,p=1"]) = .ok [(1, [], [('n', 1)], [])] ∧
    shown (processCellBlock exG [p!"1 0 -1 imp:n=1 imp:p=2 imp:n=3"]) = .ok [(1, [1], [('n', 3), ('p', 2)], [])] :=
  ⟨by decide +kernel, by decide +kernel, by decide +kernel, by decide +kernel⟩
example : shown (processCellBlock exG [p!"1 0 -1 trcl=(0 0 5)"]) = .ok [(1, [1, 0, 5], [], [])] ∧
    shown (processCellBlock exG [p!"1 0 -1 vol=7 u=3"]) = .ok [(1, [1], [], [])] := by decide +kernel

/-- C210 is violated: the block is read without the card `2 like 1 but …` and not read with it. -/
theorem C210_violated : ∃ block card, shown (processCellBlock exG block) = .ok [(1, [1], [], [])] ∧
    shown (processCellBlock exG (block ++ [card])) = .error .ValueError ∧
    Spec.IsWords card [p!"2", p!"LIKE", p!"1", p!"but", p!"trcl=3"] :=
  ⟨[p!"1 0 -1"], p!"2 LIKE 1 but trcl=3", by decide +kernel, by decide +kernel, isWords_iff.2 (by decide +kernel)⟩

example : shown (processCellBlock exG [p!"1 0 -1", p!" 2 0 1", p!"3 0 4"]) = .ok [(1, [1], [], []), (3, [4], [], [])] := by decide +kernel
example : shown (processCellBlock exG [p!"1 0 -1 &", p!"2 3 4"]) = .ok [(1, [1], [], []), (2, [], [], [])] ∧
    shown (processCellBlock exG [p!"1 0 -1 &", p!"(2:3)"]) = .ok [(1, [1], [], [])] ∧
    shown (processCellBlock exG [p!"1 0 -1 &", p!"2 -3.5"]) = .error .ValueError := by decide +kernel
example : shown (processCellBlock exG [p!"2 m long model", p!"1 0 -1"]) = .error .ValueError ∧
    Spec.IsWords p!"2 m long model" [p!"2", p!"m", p!"long", p!"model"] := ⟨by decide +kernel, isWords_iff.2 (by decide +kernel)⟩

end Props
