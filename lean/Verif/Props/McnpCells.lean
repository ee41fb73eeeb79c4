/- Properties C85-C89: cells and surfaces of MCNP input files (mcnp_input_reader.py). -/
import Verif.Proofs.McnpInput

set_option linter.unusedSectionVars false
set_option linter.unusedSimpArgs false

namespace Props
open Py NeutUtilities McnpInput Spec.Mcnp
variable {F : Type}

/-! ### C85, C86 -/

theorem deco_contains {c : Char} : (p!"()-").contains c = true ↔ Deco c := by
  rw [List.contains_iff_mem]; simp [Deco]

theorem stripChars_core {pre core post : Str} (h1 : ∀ c ∈ pre, Deco c) (h2 : ∀ c ∈ post, Deco c) (hne : core ≠ [])
    (hh : ∀ c ∈ core.head?, ¬ Deco c) (hl : ∀ c ∈ core.getLast?, ¬ Deco c) : stripChars p!"()-" (pre ++ core ++ post) = core := by
  unfold stripChars
  have e1 : (pre ++ core ++ post).dropWhile (fun c => (p!"()-").contains c) = core ++ post := by
    rw [List.append_assoc, List.dropWhile_append_of_pos (fun c hc => deco_contains.2 (h1 c hc))]
    cases core with
    | nil => exact absurd rfl hne
    | cons c cs =>
      rw [List.cons_append, List.dropWhile_cons_of_neg]
      rw [deco_contains]; exact hh c (by simp)
  rw [e1]
  unfold List.rdropWhile
  rw [List.reverse_append, List.dropWhile_append_of_pos (fun c hc => deco_contains.2 (h2 c (by simpa using hc)))]
  have hl' := hl
  obtain ⟨init, last, rfl⟩ : ∃ init last, core = init ++ [last] := ⟨core.dropLast, core.getLast hne, (List.dropLast_append_getLast hne).symm⟩
  rw [List.reverse_append, List.reverse_singleton, List.singleton_append, List.dropWhile_cons_of_neg]
  · simp
  · rw [deco_contains]; exact hl last (by simp)

theorem digit_not_deco {c : Char} (h : c.isDigit = true ∨ c = '.') : ¬ Deco c := by
  rintro (rfl | rfl | rfl) <;> revert h <;> decide

theorem splitOn_last {c : Char} {a v : Str} (h : c ∉ v) : (splitOn c (a ++ c :: v)).getLastD [] = v := by
  rw [splitOn, splitP_append_sep (by simp), splitP_of_not_mem (s := v)]
  · simp
  · intro d hd; simp only [beq_eq_false_iff_ne, ne_eq]; rintro rfl; exact h hd

/-- Effect of a part of the geometry. -/
def addPart (st : GeomSt F) : F ⊕ (Char × F) → GeomSt F
  | .inl x => { st with surfaces := st.surfaces ++ [x] }
  | .inr (p, x) => { st with imp := st.imp.set p x }

theorem geomStep_tok (flt : Str → Option F) (st : GeomSt F) (t : Str) (r : F ⊕ (Char × F)) (h : GeomTok flt t r) :
    geomStep flt st t = .ok (addPart st r) := by
  cases r with
  | inl x =>
    obtain ⟨pre, core, post, rfl, h1, h2, hne, hc, hh, hx⟩ := h
    have hno : ∀ c ∈ pre ++ core ++ post, c ≠ '$' := by
      intro c hc'
      rcases List.mem_append.1 hc' with hc' | hc'
      · rcases List.mem_append.1 hc' with hc' | hc'
        · rcases h1 c hc' with rfl | rfl | rfl <;> decide
        · rcases hc c hc' with h | rfl
          · rintro rfl; exact absurd h (by decide)
          · decide
      · rcases h2 c hc' with rfl | rfl | rfl <;> decide
    have hd : hasSub p!"$" (pre ++ core ++ post) = false := by
      rw [Bool.eq_false_iff, ne_eq, hasSub_singleton]; exact fun h => hno _ h rfl
    have hstrip : stripChars p!"()-" (pre ++ core ++ post) = core :=
      stripChars_core h1 h2 hne (fun c hc' => digit_not_deco (.inl (hh c hc')))
        (fun c hc' => digit_not_deco (hc c (List.mem_of_getLast? hc')))
    have himp : hasSub p!"imp" (lower core) = false := by
      rw [hasSub_false_iff]
      intro hin
      have hi : 'i' ∈ lower core := hin.subset (by simp)
      unfold lower at hi
      obtain ⟨c, hc', hci⟩ := List.mem_map.1 hi
      rcases hc c hc' with h | rfl
      · rw [digit_toLower_self h] at hci; subst hci; exact absurd h (by decide)
      · exact absurd hci (by decide)
    have hlen : (pre ++ core ++ post).length ≠ 0 := by
      have := List.length_pos_iff.2 hne; simp only [List.length_append]; omega
    obtain ⟨c, cs, rfl⟩ := List.exists_cons_of_ne_nil hne
    have hcd : isDigit c = true := hh c (by simp)
    have hcol : ':' ∉ c :: cs := by
      intro h'
      rcases hc ':' h' with h | h <;> exact absurd h (by decide)
    have hsp : splitOn ':' (c :: cs) = [c :: cs] := by
      rw [splitOn, splitP_of_not_mem]
      intro d hd'; simp only [beq_eq_false_iff_ne, ne_eq]; rintro rfl; exact hcol hd'
    unfold geomStep geomPart
    rw [hd]
    simp only [Bool.false_eq_true, if_false, hlen, hstrip, himp, List.getElem?_cons_zero, orErr, ex_ok_bind, hcd, if_true, hsp,
      List.mapM_cons, List.mapM_nil, hx]
    rfl
  | inr r =>
    obtain ⟨p, x⟩ := r
    obtain ⟨b, i, v, rfl, hb, hi, hp, hp', hv, hvc, hvl, hx⟩ := h
    have hik : ∀ c ∈ i, c.toLower ∈ p!"imp" := by
      intro c hc; rw [← hi]; exact List.mem_map_of_mem hc
    have hine : ∀ c ∈ i, c ≠ '$' ∧ c ≠ ':' ∧ ¬ Deco c := by
      intro c hc
      have := hik c hc
      refine ⟨?_, ?_, ?_⟩
      · rintro rfl; exact absurd this (by decide)
      · rintro rfl; exact absurd this (by decide)
      · rintro (rfl | rfl | rfl) <;> exact absurd this (by decide)
    have hi0 : i ≠ [] := by rintro rfl; simp [lower] at hi
    have hd : hasSub p!"$" (b ++ i ++ ':' :: p :: '=' :: v) = false := by
      rw [Bool.eq_false_iff, ne_eq, hasSub_singleton]
      intro h
      simp only [List.mem_append, List.mem_cons] at h
      rcases h with (h | h) | h | h | h | h
      · exact absurd (hb _ h) (by decide)
      · exact (hine _ h).1 rfl
      · exact absurd h (by decide)
      · exact hp' h.symm
      · exact absurd h (by decide)
      · exact (hvc _ h).2 rfl
    have hstrip : stripChars p!"()-" (b ++ i ++ ':' :: p :: '=' :: v) = b ++ i ++ ':' :: p :: '=' :: v := by
      have := stripChars_core (pre := []) (core := b ++ i ++ ':' :: p :: '=' :: v) (post := []) (by simp) (by simp) (by simp) ?_ ?_
      · simpa using this
      · intro c hc
        cases b with
        | nil =>
          obtain ⟨d, ds, rfl⟩ := List.exists_cons_of_ne_nil hi0
          simp at hc
          subst hc
          exact (hine d (by simp)).2.2
        | cons d ds =>
          simp at hc
          subst hc
          rw [hb d (by simp)]
          decide
      · intro c hc
        apply hvl c
        have : (b ++ i ++ ':' :: p :: '=' :: v) = (b ++ i ++ [':', p, '=']) ++ v := by simp
        rw [this, List.getLast?_append_of_ne_nil _ hv] at hc
        exact hc
    have himp : hasSub p!"imp" (lower (b ++ i ++ ':' :: p :: '=' :: v)) = true := by
      rw [hasSub_iff]
      refine ⟨lower b, lower (':' :: p :: '=' :: v), ?_⟩
      rw [← hi]; simp [lower]
    have hlen : (b ++ i ++ ':' :: p :: '=' :: v).length ≠ 0 := by simp
    have h1 : (splitOn '=' (b ++ i ++ ':' :: p :: '=' :: v)).getLastD [] = v := by
      rw [show b ++ i ++ ':' :: p :: '=' :: v = (b ++ i ++ [':', p]) ++ '=' :: v by simp]
      exact splitOn_last (fun h => (hvc _ h).1 rfl)
    have h2 : ∃ rest, (splitOn ':' (b ++ i ++ ':' :: p :: '=' :: v))[1]? = some (p :: rest) := by
      have hfp : FirstPiece ':' (p :: '=' :: v) (p :: ('=' :: v).takeWhile (· ≠ ':')) := by
        constructor
        · simp only [List.mem_cons, not_or]
          refine ⟨Ne.symm hp, ?_⟩
          intro h'
          have := List.mem_takeWhile_imp h'
          simp at this
        · cases hdw : ('=' :: v).dropWhile (· ≠ ':') with
          | nil =>
            left
            have := List.takeWhile_append_dropWhile (p := fun c => decide (c ≠ ':')) (l := '=' :: v)
            rw [hdw, List.append_nil] at this
            rw [this]
          | cons d ds =>
            right
            have hne : ('=' :: v).dropWhile (fun c => decide (c ≠ ':')) ≠ [] := by rw [hdw]; simp
            have hd0 := List.head_dropWhile_not (fun c => decide (c ≠ ':')) hne
            have hd1 : (('=' :: v).dropWhile (fun c => decide (c ≠ ':'))).head hne = d := by simp only [hdw, List.head_cons]
            rw [hd1] at hd0
            simp only [ne_eq, decide_not, Bool.not_eq_eq_eq_not, Bool.not_false, decide_eq_true_eq] at hd0
            subst hd0
            have := List.takeWhile_append_dropWhile (p := fun c => decide (c ≠ ':')) (l := '=' :: v)
            rw [hdw] at this
            exact ⟨ds, by rw [List.cons_append, this]⟩
      refine ⟨_, splitOn_one.2 ⟨b ++ i, p :: '=' :: v, rfl, ?_, hfp⟩⟩
      intro h
      rcases List.mem_append.1 h with h | h
      · exact absurd (hb _ h) (by decide)
      · exact (hine _ h).2.1 rfl
    obtain ⟨rest, h2⟩ := h2
    unfold geomStep geomPart processImp
    rw [hd]
    simp only [Bool.false_eq_true, if_false, hlen, hstrip, himp, if_true, h1, h2, orErr, ex_ok_bind, List.getElem?_cons_zero, hx]
    rfl

private theorem foldlM_ok_append {α β : Type} (f : β → α → Except Err β) (a b : List α) (s : β) :
    (a ++ b).foldlM f s = a.foldlM f s >>= fun s => b.foldlM f s := List.foldlM_append

theorem geom_fold (flt : Str → Option F) (parts : List Str) (rs : List (F ⊕ (Char × F)))
    (h : List.Forall₂ (GeomTok flt) parts rs) (st : GeomSt F) :
    parts.foldlM (geomStep flt) st = .ok (rs.foldl addPart st) := by
  induction h generalizing st with
  | nil => rfl
  | cons h1 _ ih =>
    rw [List.foldlM_cons, geomStep_tok flt st _ _ h1]
    exact ih _

/-- The surfaces among the parts of a geometry. -/
def partSurfaces (rs : List (F ⊕ (Char × F))) : List F := rs.filterMap Sum.getLeft?

/-- The importances among the parts of a geometry. -/
def partImps (rs : List (F ⊕ (Char × F))) : List (Char × F) := rs.filterMap Sum.getRight?

theorem foldl_addPart (rs : List (F ⊕ (Char × F))) (st : GeomSt F) :
    rs.foldl addPart st = ⟨st.surfaces ++ partSurfaces rs, (partImps rs).foldl (fun (d : Dict Char F) e => d.set e.1 e.2) st.imp,
      st.comments⟩ := by
  induction rs generalizing st with
  | nil => simp [partSurfaces, partImps]
  | cons r rs ih =>
    rw [List.foldl_cons, ih]
    cases r with
    | inl x => simp [addPart, partSurfaces, partImps, List.filterMap_cons, Sum.getLeft?, Sum.getRight?]
    | inr r => simp [addPart, partSurfaces, partImps, List.filterMap_cons, Sum.getLeft?, Sum.getRight?]

/-- First line of a cell card: number, material, density unless void, and the words of the geometry. -/
def CellHead (flt : Str → Option F) (l : Str) (n m : Int) (d : Option F) (geom : List Str) : Prop :=
  (∃ c rest, l = c :: rest ∧ c.isDigit = true) ∧
  ∃ w0 w1, pyInt w0 = some n ∧ pyInt w1 = some m ∧
    ((m = 0 ∧ d = none ∧ Spec.IsWords l (w0 :: w1 :: geom)) ∨
     (m ≠ 0 ∧ ∃ w2 x, d = some x ∧ flt w2 = some x ∧ Spec.IsWords l (w0 :: w1 :: w2 :: geom)))

/-- A line of a cell block that is skipped: not empty, no digit at the start and no continuation. -/
def CellSkip (l : Str) : Prop := l ≠ [] ∧ (∀ c ∈ l.head?, c.isDigit = false) ∧ ¬ Cont l

/-- A cell card: the first line holds surfaces and importances, the other lines are skipped lines and continuation lines with
    one importance each. `c` is the cell it describes. -/
def CellCard (flt : Str → Option F) (first : Str) (rest : List Str) (c : Cell F) : Prop :=
  ∃ geom rs, CellHead flt first c.number c.mat c.density geom ∧ (∀ l ∈ rest, CellSkip l ∨ Cont l) ∧
    List.Forall₂ (GeomTok flt) (geom ++ rest.filter (fun l => decide (Cont l))) rs ∧
    c.surfaces = partSurfaces rs ∧
    c.imp = (partImps rs).foldl (fun (d : Dict Char F) e => d.set e.1 e.2) [] ∧
    c.geom = geom ++ rest.filter (fun l => decide (Cont l)) ∧ c.comments = []

theorem startCell_head (flt : Str → Option F) {l : Str} {n m : Int} {d : Option F} {geom : List Str}
    (h : CellHead flt l n m d geom) :
    startCell flt (splitOn ' ' (stringCleaner l)) = .ok (({ number := n, mat := m, density := d } : Cell F), geom) := by
  obtain ⟨_, w0, w1, h0, h1, h | ⟨hm, w2, x, rfl, hx, h⟩⟩ := h
  · obtain ⟨rfl, rfl, h⟩ := h
    have hw := splitWs_of_isWords h
    rw [splitOn_stringCleaner (by rw [hw]; simp), hw]
    simp [startCell, h0, h1, orErr, ex_ok_bind, ex_pure]
  · have hw := splitWs_of_isWords h
    rw [splitOn_stringCleaner (by rw [hw]; simp), hw]
    simp [startCell, h0, h1, orErr, ex_ok_bind, ex_pure, hm, hx]

theorem cellStep_skip (flt : Str → Option F) (st : CellSt F) {l : Str} (h : CellSkip l) : cellStep flt st l = .ok st := by
  obtain ⟨hne, hd, hc⟩ := h
  obtain ⟨c, cs, rfl⟩ := List.exists_cons_of_ne_nil hne
  have hd' : isDigit c = false := hd c (by simp)
  have hc' : isContinueLine (c :: cs) = false := by rw [Bool.eq_false_iff, ne_eq, isContinueLine_iff]; exact hc
  unfold cellStep
  simp [orErr, ex_ok_bind, hd', hc', ex_pure]

theorem cellStep_cont (flt : Str → Option F) (d : Dict Int (Cell F)) (c : Cell F) (g : List Str) {l : Str} (h : Cont l) :
    cellStep flt ⟨d, some (c, g)⟩ l = .ok ⟨d, some (c, g ++ [l])⟩ := by
  have hc' : isContinueLine l = true := isContinueLine_iff.2 h
  obtain ⟨t, rfl⟩ := cont_cons h
  unfold cellStep
  have hb : isDigit ' ' = false := by decide
  simp [orErr, ex_ok_bind, hb, hc', ex_pure]

theorem cell_rest (flt : Str → Option F) (rest : List Str) (h : ∀ l ∈ rest, CellSkip l ∨ Cont l) :
    ∀ (d : Dict Int (Cell F)) (c : Cell F) (g : List Str),
      rest.foldlM (cellStep flt) ⟨d, some (c, g)⟩ = .ok ⟨d, some (c, g ++ rest.filter (fun l => decide (Cont l)))⟩ := by
  induction rest with
  | nil => intro d c g; simp; rfl
  | cons l ls ih =>
    intro d c g
    have ih := ih (fun l hl => h l (by simp [hl]))
    rw [List.foldlM_cons]
    by_cases hc : Cont l
    · rw [cellStep_cont flt d c g hc, List.filter_cons_of_pos (by simpa using hc), ex_ok_bind, ih]
      simp
    · rcases h l (by simp) with hs | hs
      · rw [cellStep_skip flt _ hs, List.filter_cons_of_neg (by simpa using hc), ex_ok_bind, ih]
      · exact absurd hs hc

private theorem finish_card (flt : Str → Option F) {first : Str} {rest : List Str} {c : Cell F} (h : CellCard flt first rest c) :
    ∃ geom, CellHead flt first c.number c.mat c.density geom ∧ (∀ l ∈ rest, CellSkip l ∨ Cont l) ∧
    ∀ d, finishCell flt d (({ number := c.number, mat := c.mat, density := c.density } : Cell F),
      geom ++ rest.filter (fun l => decide (Cont l))) = .ok (d.set c.number c) := by
  obtain ⟨geom, rs, h1, h2, h3, h4, h5, h6, h7⟩ := h
  refine ⟨geom, h1, h2, fun d => ?_⟩
  unfold finishCell processGeom
  rw [geom_fold flt _ rs h3, ex_ok_bind, foldl_addPart]
  simp only [ex_pure, ex_ok_bind, List.nil_append]
  obtain ⟨n, m, dn, im, ge, su, co⟩ := c
  simp only at h4 h5 h6 h7
  subst h4 h5 h6 h7
  rfl

/-- The rest of `process_cell_block` from a state. -/
def runCells (flt : Str → Option F) (st : CellSt F) (ls : List Str) : Except Err (Dict Int (Cell F)) := do
  let st ← ls.foldlM (cellStep flt) st
  match st.cur with
  | none => .error .AttributeError
  | some cur => finishCell flt st.dict cur

theorem runCells_append (flt : Str → Option F) {st st' : CellSt F} {a : List Str} (b : List Str)
    (h : a.foldlM (cellStep flt) st = .ok st') : runCells flt st (a ++ b) = runCells flt st' b := by
  unfold runCells
  rw [List.foldlM_append, h]; rfl

private theorem card_fold (flt : Str → Option F) {first : Str} {rest : List Str} {n m : Int} {dn : Option F} {geom : List Str}
    (hh : CellHead flt first n m dn geom) (hr : ∀ l ∈ rest, CellSkip l ∨ Cont l) (st : CellSt F) (d : Dict Int (Cell F))
    (hst : (st.cur = none ∧ st.dict = d) ∨ ∃ cur, st.cur = some cur ∧ finishCell flt st.dict cur = .ok d) :
    (first :: rest).foldlM (cellStep flt) st =
      .ok ⟨d, some (({ number := n, mat := m, density := dn } : Cell F), geom ++ rest.filter (fun l => decide (Cont l)))⟩ := by
  rw [List.foldlM_cons]
  have h1 : cellStep flt st first = .ok ⟨d, some (({ number := n, mat := m, density := dn } : Cell F), geom)⟩ := by
    obtain ⟨c, tl, rfl, hc⟩ := hh.1
    have hc' : isDigit c = true := hc
    unfold cellStep
    rcases hst with ⟨h1, h2⟩ | ⟨cur, h1, h2⟩
    · simp [orErr, ex_ok_bind, hc', h1, h2, startCell_head flt hh, ex_pure]
    · simp [orErr, ex_ok_bind, hc', h1, h2, startCell_head flt hh, ex_pure]
  rw [h1, ex_ok_bind, cell_rest flt rest hr]

private theorem runCells_cards (flt : Str → Option F) (groups : List (Str × List Str)) (cs : List (Cell F))
    (h : List.Forall₂ (fun g c => CellCard flt g.1 g.2 c) groups cs) :
    ∀ (st : CellSt F) (d : Dict Int (Cell F)),
      ((st.cur = none ∧ st.dict = d ∧ groups ≠ []) ∨ ∃ cur, st.cur = some cur ∧ finishCell flt st.dict cur = .ok d) →
      runCells flt st (groups.flatMap (fun g => g.1 :: g.2)) =
        .ok ((cs.map (fun c => (c.number, c))).foldl (fun (d : Dict Int (Cell F)) e => d.set e.1 e.2) d) := by
  induction h with
  | nil =>
    intro st d hst
    rcases hst with ⟨_, _, h⟩ | ⟨cur, h1, h2⟩
    · exact absurd rfl h
    · unfold runCells
      simp only [List.flatMap_nil, List.foldlM_nil, ex_pure, ex_ok_bind, h1, h2, List.map_nil, List.foldl_nil]
  | cons hg _ ih =>
    rename_i g c gs cs' _
    intro st d hst
    obtain ⟨geom, h1, h2, h3⟩ := finish_card flt hg
    have hst' : (st.cur = none ∧ st.dict = d) ∨ ∃ cur, st.cur = some cur ∧ finishCell flt st.dict cur = .ok d := by
      rcases hst with ⟨a, b, _⟩ | h
      · exact .inl ⟨a, b⟩
      · exact .inr h
    rw [List.flatMap_cons, runCells_append flt _ (card_fold flt h1 h2 st d hst')]
    rw [ih _ (d.set c.number c) (.inr ⟨_, rfl, h3 d⟩)]
    rfl

private theorem processCellBlock_cards (flt : Str → Option F) (pre : List Str) (groups : List (Str × List Str)) (cs : List (Cell F))
    (hpre : ∀ l ∈ pre, CellSkip l) (hne : groups ≠ [])
    (h : List.Forall₂ (fun g c => CellCard flt g.1 g.2 c) groups cs) :
    processCellBlock flt (pre ++ groups.flatMap (fun g => g.1 :: g.2)) =
      .ok ((cs.map (fun c => (c.number, c))).foldl (fun (d : Dict Int (Cell F)) e => d.set e.1 e.2) []) := by
  have hp : pre.foldlM (cellStep flt) (⟨[], none⟩ : CellSt F) = .ok ⟨[], none⟩ := by
    clear h
    induction pre with
    | nil => rfl
    | cons l ls ih =>
      rw [List.foldlM_cons, cellStep_skip flt _ (hpre l (by simp)), ex_ok_bind]
      exact ih (fun l hl => hpre l (by simp [hl]))
  show runCells flt ⟨[], none⟩ _ = _
  rw [runCells_append flt _ hp, runCells_cards flt groups cs h _ [] (.inl ⟨rfl, rfl, hne⟩)]

/-- C85 (part that holds): cell cards whose continuation lines hold one importance each; comment lines may stand anywhere.
    The last definition of a number wins. Missing: surfaces on continuation lines (`C85_surfaces_lost_violated`). -/
theorem C85_importance_lines_partial (flt : Str → Option F) (pre : List Str) (groups : List (Str × List Str)) (cs : List (Cell F))
    (hpre : ∀ l ∈ pre, CellSkip l) (hne : groups ≠ [])
    (h : List.Forall₂ (fun g c => CellCard flt g.1 g.2 c) groups cs) :
    ∃ d, processCellBlock flt (pre ++ groups.flatMap (fun g => g.1 :: g.2)) = .ok d ∧
      (∀ n c, d.get n = some c ↔ LastWins (cs.map (fun c => (c.number, c))) n c) ∧ d.keys.Nodup := by
  refine ⟨_, processCellBlock_cards flt pre groups cs hpre hne h, fun n c => get_foldl_lastWins _ n c, ?_⟩
  exact Dict.nodup_keys_foldl_set _ _ (by simp [Dict.keys])

/-- C85 is violated: a continuation line never adds surfaces, whatever it contains. -/
theorem C85_surfaces_lost_violated (flt : Str → Option F) (st st' : GeomSt F) (l : Str) (hc : Cont l)
    (h : geomStep flt st l = .ok st') : st'.surfaces = st.surfaces := by
  have key : ∀ (s : GeomSt F) (t : Str), Cont t → geomPart flt s t = .ok st' → st'.surfaces = s.surfaces := by
    intro s t ht h
    obtain ⟨u, rfl⟩ := cont_cons ht
    have hst : ∃ v, stripChars p!"()-" (' ' :: u) = [] ∨ stripChars p!"()-" (' ' :: u) = ' ' :: v := by
      unfold stripChars
      rw [List.dropWhile_cons_of_neg (by decide)]
      have hpre := List.rdropWhile_prefix (fun c => (p!"()-").contains c) (l := ' ' :: u)
      cases hx : (' ' :: u).rdropWhile (fun c => (p!"()-").contains c) with
      | nil => exact ⟨[], .inl rfl⟩
      | cons a as =>
        rw [hx, List.cons_prefix_cons] at hpre
        exact ⟨as, .inr (by rw [hpre.1])⟩
    unfold geomPart at h
    simp only [List.length_cons, Nat.add_eq_zero_iff, one_ne_zero, and_false, if_false] at h
    split at h
    · simp only [ex_bind_ok, ex_pure, Except.ok.injEq] at h
      obtain ⟨im, _, rfl⟩ := h
      rfl
    · simp only [ex_bind_ok, orErr_ok_iff] at h
      obtain ⟨c, hc, h⟩ := h
      obtain ⟨v, hv | hv⟩ := hst
      · rw [hv] at hc; simp at hc
      · rw [hv] at hc
        simp only [List.getElem?_cons_zero, Option.some.injEq] at hc
        subst hc
        rw [if_neg (by decide)] at h
        simp only [ex_pure, Except.ok.injEq] at h
        rw [h]
  unfold geomStep at h
  split at h
  · have hcode : (splitOn '$' l).headD [] = code l := splitOn_headD '$' l
    rw [hcode] at h
    have := key _ _ (code_cont hc) h
    exact this
  · exact key _ _ hc h

private def exF (s : Str) : Option Int := pyInt s

/-- C85: the same on a whole block: the surfaces 2 and 3 on the second line are missing. -/
theorem C85_block_violated : ∃ d c, processCellBlock exF [p!"1 0 -1", p!"     2 -3"] = .ok d ∧ d.get 1 = some c ∧
    c.surfaces = [1] :=
  ⟨[(1, { number := 1, mat := 0, geom := [p!"-1", p!"     2 -3"], surfaces := [1] })], _, by decide +kernel, rfl, rfl⟩

/-- C85: an importance for two particles is stored for the first one only. -/
theorem C85_shared_importance_violated : ∃ d c, processCellBlock exF [p!"1 0 -1 imp:n,p=1"] = .ok d ∧ d.get 1 = some c ∧
    c.imp.get 'n' = some 1 ∧ c.imp.get 'p' = none :=
  ⟨[(1, { number := 1, mat := 0, imp := [('n', 1)], geom := [p!"-1", p!"imp:n,p=1"], surfaces := [1] })],
    { number := 1, mat := 0, imp := [('n', 1)], geom := [p!"-1", p!"imp:n,p=1"], surfaces := [1] },
    by decide +kernel, rfl, by decide +kernel, by decide +kernel⟩

/-- C86: one-line cell cards, with comment lines anywhere: last definition of every number, material, density (None for void),
    surfaces without sign in order, importances. -/
theorem C86_one_line_cells (flt : Str → Option F) (pre : List Str) (groups : List (Str × List Str)) (cs : List (Cell F))
    (hpre : ∀ l ∈ pre, CellSkip l) (hrest : ∀ g ∈ groups, ∀ l ∈ g.2, CellSkip l) (hne : groups ≠ [])
    (h : List.Forall₂ (fun g c => ∃ geom rs, CellHead flt g.1 c.number c.mat c.density geom ∧
      List.Forall₂ (GeomTok flt) geom rs ∧ c.surfaces = partSurfaces rs ∧
      c.imp = (partImps rs).foldl (fun (d : Dict Char F) e => d.set e.1 e.2) [] ∧ c.geom = geom ∧ c.comments = []) groups cs) :
    ∃ d, processCellBlock flt (pre ++ groups.flatMap (fun g => g.1 :: g.2)) = .ok d ∧
      (∀ n c, d.get n = some c ↔ LastWins (cs.map (fun c => (c.number, c))) n c) ∧ d.keys.Nodup := by
  apply C85_importance_lines_partial flt pre groups cs hpre hne
  have hall := hrest
  clear hne
  induction h with
  | nil => exact .nil
  | cons hg _ ih =>
    rename_i g c gs cs' _
    refine .cons ?_ (ih (fun g hg => hrest g (by simp [hg])) (fun g hg => hrest g (by simp [hg])))
    obtain ⟨geom, rs, h1, h2, h3, h4, h5, h6⟩ := hg
    have hf : g.2.filter (fun l => decide (Cont l)) = [] := by
      rw [List.filter_eq_nil_iff]
      intro l hl
      simpa using (hrest g (by simp) l hl).2.2
    refine ⟨geom, rs, h1, fun l hl => .inl (hrest g (by simp) l hl), ?_, h3, h4, ?_, h6⟩
    · rw [hf, List.append_nil]; exact h2
    · rw [hf, List.append_nil]; exact h5

example : processCellBlock exF [p!"title", p!"1 0 -1 imp:n=1", p!"c note", p!"2 3 -7 (1 -2) IMP:N=2", p!"     imp:p=4"] =
    .ok [(1, { number := 1, mat := 0, imp := [('n', 1)], geom := [p!"-1", p!"imp:n=1"], surfaces := [1] }),
         (2, { number := 2, mat := 3, density := some (-7), imp := [('N', 2), ('p', 4)],
               geom := [p!"(1", p!"-2)", p!"IMP:N=2", p!"     imp:p=4"], surfaces := [1, 2] })] := by decide +kernel
example : SurfTok exF p!"-12)" 12 :=
  ⟨p!"-", p!"12", p!")", rfl, by simp [Deco], by simp [Deco], by simp, by decide, by simp, by decide +kernel⟩

/-- C86: a title line that starts with a digit is taken for a cell. -/
theorem C86_title_digit : processCellBlock exF [p!"2 m long model", p!"1 0 -1"] = .error .ValueError := by decide +kernel

/-! ### C87 -/

/-- C87: looking up a cell. -/
theorem C87_get_cell (cells : Dict Int (Cell F)) (n : Int) (c : Cell F) (hn : cells.keys.Nodup) :
    (getCell n cells = some c ↔ (n, c) ∈ cells) ∧ (checkCellExists n cells = true ↔ ∃ c, (n, c) ∈ cells) := by
  have key : ∀ c, Dict.get cells n = some c ↔ (n, c) ∈ cells := by
    intro c
    unfold Dict.get
    rw [Option.map_eq_some_iff]
    constructor
    · rintro ⟨e, he, rfl⟩
      have h1 := List.mem_of_find?_eq_some he
      have h2 := List.find?_some he
      simp only [decide_eq_true_eq] at h2
      subst h2; exact h1
    · intro h
      cases hf : cells.find? (fun e => decide (e.1 = n)) with
      | none =>
        rw [List.find?_eq_none] at hf
        have := hf _ h; simp at this
      | some e =>
        refine ⟨e, rfl, ?_⟩
        have h1 := List.mem_of_find?_eq_some hf
        have h2 := List.find?_some hf
        simp only [decide_eq_true_eq] at h2
        have : e = (n, c) := by
          apply List.inj_on_of_nodup_map hn h1 h
          exact h2
        rw [this]
  refine ⟨key c, ?_⟩
  unfold checkCellExists getCell
  rw [Option.isSome_iff_exists]
  exact exists_congr key

/-- C87: cells with a given material or surface: exactly those of the dictionary, in insertion order, with multiplicity. -/
theorem C87_queries [DecidableEq F] (cells : Dict Int (Cell F)) (m : Int) (s : F) :
    (cellsWithMat m cells).Sublist cells.values ∧ (∀ c, c ∈ cellsWithMat m cells ↔ c.mat = m ∧ ∃ n, (n, c) ∈ cells) ∧
    (cellsWithMat m cells).length = cells.countP (fun e => decide (e.2.mat = m)) ∧
    (cellsWithSurface s cells).Sublist cells.values ∧ (∀ c, c ∈ cellsWithSurface s cells ↔ s ∈ c.surfaces ∧ ∃ n, (n, c) ∈ cells) ∧
    (cellsWithSurface s cells).length = cells.countP (fun e => decide (s ∈ e.2.surfaces)) := by
  have hv : ∀ c, c ∈ cells.values ↔ ∃ n, (n, c) ∈ cells := by
    intro c
    unfold Dict.values
    rw [List.mem_map]
    constructor
    · rintro ⟨e, he, rfl⟩; exact ⟨e.1, he⟩
    · rintro ⟨n, hn⟩; exact ⟨(n, c), hn, rfl⟩
  refine ⟨List.filter_sublist, ?_, ?_, List.filter_sublist, ?_, ?_⟩
  · intro c
    unfold cellsWithMat
    rw [List.mem_filter, hv]
    simp only [beq_iff_eq]
    exact And.comm
  · unfold cellsWithMat Dict.values
    rw [← List.countP_eq_length_filter, List.countP_map]
    apply List.countP_congr
    intro e _
    simp
  · intro c
    unfold cellsWithSurface
    rw [List.mem_filter, hv]
    simp only [decide_eq_true_eq]
    exact And.comm
  · unfold cellsWithSurface Dict.values
    rw [← List.countP_eq_length_filter, List.countP_map]
    apply List.countP_congr
    intro e _
    simp

/-- C87: existence of a cell's material; a void cell has none unless a material 0 is defined. -/
theorem C87_material_exists {M : Type} (cell : Cell F) (mats : Dict Int M) :
    (checkCellMatExists cell mats = true ↔ cell.mat ∈ mats.keys) ∧
    (cell.mat = 0 → (0 : Int) ∉ mats.keys → checkCellMatExists cell mats = false) := by
  have h : checkCellMatExists cell mats = true ↔ cell.mat ∈ mats.keys := by
    unfold checkCellMatExists getMat
    exact Dict.get_isSome_iff
  refine ⟨h, fun h0 hn => ?_⟩
  rw [Bool.eq_false_iff, ne_eq, h, h0]; exact hn

example : (cellsWithMat 3 [(1, ({ number := 1, mat := 3 } : Cell Int)), (2, { number := 2, mat := 0 })]).length = 1 := by decide

end Props
