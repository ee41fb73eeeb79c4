/-
C256: comment lines anywhere in an MCNP input.
-/
import Verif.Props.BlockOrder

set_option linter.unusedSimpArgs false

namespace Props
open Py NeutUtilities McnpInput Spec.Mcnp
variable {F : Type}

/-- The text of the line is no comment. -/
private def real (l : Str) : Bool := !startsWith (lower l) p!"c "

private theorem real_iff {l : Str} : real l = true ↔ ¬ Comment l := by
  rw [← comment_iff]; unfold real; simp

/-- Two inputs that differ by comment lines only. -/
inductive SameButComments : List Str → List Str → Prop
  | nil : SameButComments [] []
  | same (l : Str) {a b : List Str} : SameButComments a b → SameButComments (l :: a) (l :: b)
  | left {l : Str} {a b : List Str} : Comment l → SameButComments a b → SameButComments (l :: a) b
  | right {l : Str} {a b : List Str} : Comment l → SameButComments a b → SameButComments a (l :: b)

private theorem same_real {a b : List Str} (h : SameButComments a b) : a.filter real = b.filter real := by
  have nr : ∀ {l : Str}, Comment l → ¬ real l = true := fun h h' => real_iff.1 h' h
  induction h with
  | nil => rfl
  | same l _ ih =>
    by_cases hl : Comment l
    · rw [List.filter_cons_of_neg (nr hl), List.filter_cons_of_neg (nr hl), ih]
    · rw [List.filter_cons_of_pos (real_iff.2 hl), List.filter_cons_of_pos (real_iff.2 hl), ih]
  | left hl _ ih => rw [List.filter_cons_of_neg (nr hl), ih]
  | right hl _ ih => rw [List.filter_cons_of_neg (nr hl), ih]

private theorem comment_head {l : Str} (h : Comment l) : ∃ x r, l = x :: ' ' :: r ∧ (x = 'c' ∨ x = 'C') := h

private theorem comment_not_cont {l : Str} (h : Comment l) : isContinueLine l = false := by
  obtain ⟨x, r, rfl, hx⟩ := h
  rcases hx with rfl | rfl <;> rfl

private theorem not_real {l : Str} (h : Comment l) : ¬ real l = true := fun h' => real_iff.1 h' h

private theorem comment_lower {l : Str} (h : Comment l) : Comment (lower l) := by
  obtain ⟨x, r, rfl, hx⟩ := h
  exact ⟨x.toLower, lower r, rfl, by rcases hx with rfl | rfl <;> exact .inl rfl⟩

/-! ### The data block -/

private theorem scan_real {start : Str → Bool} (hc : ∀ l, Comment l → start (lower l) = false) (lines : List Str) :
    ∀ b, scan start b lines = scan start b (lines.filter real) := by
  induction lines with
  | nil => intro b; rfl
  | cons l lines ih =>
    intro b
    by_cases h : Comment l
    · rw [List.filter_cons_of_neg (not_real h), ← ih]
      cases b with
      | false => simp only [scan, hc l h, Bool.false_eq_true, if_false]
      | true => simp only [scan, comment_not_cont (comment_lower h), comment_iff.2 h, Bool.false_eq_true, if_false, if_true]
    · rw [List.filter_cons_of_pos (real_iff.2 h)]
      cases b <;> simp only [scan] <;> split_ifs <;> simp only [← ih]

private theorem head_start {start : Str → Bool} {x : Char} (hx : x ≠ 'c') (hs : ∀ l, start l = true → l.head? = some x) :
    ∀ l, Comment l → start (lower l) = false := by
  rintro l ⟨y, r, rfl, hy⟩
  rw [Bool.eq_false_iff]
  intro h
  have := hs _ h
  simp only [lower, List.map_cons, List.head?_cons, Option.some.injEq] at this
  rcases hy with rfl | rfl <;> exact hx this.symm

private theorem m_head (n : Int) (l : Str) (h : matStart n l = true) : l.head? = some 'm' := by
  unfold matStart at h
  split at h
  · rfl
  · cases h

private theorem f_head (n : Int) (l : Str) (h : talStart n l = true) : l.head? = some 'f' := by
  unfold talStart at h
  split at h
  · rfl
  · cases h

private theorem c_head (x : Char) (cs : Str) (hx : x.toLower = x) (l : Str) (h : cardStart (x :: cs) l = true) : l.head? = some x := by
  unfold cardStart at h
  rw [Bool.and_eq_true, startsWith_iff] at h
  obtain ⟨t, ht⟩ := h.1
  rw [← ht]
  simp [lower, hx]

private theorem card_real (x : Char) (cs : Str) (hx : x.toLower = x) (hc : x ≠ 'c') (lines : List Str) :
    getCardLines lines (x :: cs) = getCardLines (lines.filter real) (x :: cs) :=
  scan_real (head_start hc (c_head x cs hx)) lines false

private theorem present_real (x : Char) (cs : Str) (hx : x.toLower = x) (hc : x ≠ 'c') (lines : List Str) :
    isCardPresent lines (x :: cs) = isCardPresent (lines.filter real) (x :: cs) := by
  unfold isCardPresent
  rw [Bool.eq_iff_iff, List.any_eq_true, List.any_eq_true]
  constructor
  · rintro ⟨l, hl, h⟩
    refine ⟨l, List.mem_filter.2 ⟨hl, real_iff.2 ?_⟩, h⟩
    rintro ⟨y, r, rfl, hy⟩
    rw [startsWith_iff] at h
    obtain ⟨t, ht⟩ := h
    simp only [lower, List.map_cons, List.cons_append, List.cons.injEq, hx] at ht
    rcases hy with rfl | rfl <;> exact hc ht.1
  · rintro ⟨l, hl, h⟩
    exact ⟨l, (List.mem_filter.1 hl).1, h⟩

private theorem material_real (flt : Str → Option F) (n : Int) (lines : List Str) :
    readMaterialLines flt n lines = readMaterialLines flt n (lines.filter real) := by
  unfold readMaterialLines
  rw [scan_real (head_start (by decide) (m_head n)) lines false]
  have h1 := card_real 'm' ('t' :: intStr n) rfl (by decide) lines
  have h2 := card_real 'm' ('x' :: intStr n) rfl (by decide) lines
  simp only [List.cons_append, List.nil_append] at h1 h2 ⊢
  rw [h1, h2]

private theorem tally_real (n : Int) (lines : List Str) : readTallyLines n lines = readTallyLines n (lines.filter real) := by
  unfold readTallyLines
  rw [scan_real (head_start (by decide) (f_head n)) lines false]
  have h1 := present_real 'e' (intStr n ++ p!" ") rfl (by decide) lines
  have h2 := present_real 't' (intStr n ++ p!" ") rfl (by decide) lines
  have h3 := present_real 'f' ('m' :: (intStr n ++ p!" ")) rfl (by decide) lines
  have h4 := present_real 's' ('d' :: (intStr n ++ p!" ")) rfl (by decide) lines
  have h5 := present_real 'f' ('c' :: (intStr n ++ p!" ")) rfl (by decide) lines
  simp only [List.cons_append, List.nil_append] at h1 h2 h3 h4 h5 ⊢
  rw [h1, h2, h3, h4, h5]

private theorem mode_real (lines : List Str) : readModeCard lines = readModeCard (lines.filter real) := by
  unfold readModeCard
  rw [card_real 'm' p!"ode" rfl (by decide) lines]

private theorem letterDigit_comment {x : Char} {l : Str} (h : Comment l) : letterDigit x l = false := by
  obtain ⟨y, r, rfl, _⟩ := h
  unfold letterDigit
  have : isDigit ' ' = false := by decide
  simp [this]

private theorem filter_real (x : Char) (lines : List Str) : lines.filter (letterDigit x) = (lines.filter real).filter (letterDigit x) := by
  rw [List.filter_filter]
  apply List.filter_congr
  intro l _
  by_cases h : Comment l
  · rw [letterDigit_comment h]; rfl
  · rw [real_iff.2 h, Bool.and_true]

private theorem matNums_real (lines : List Str) : getMaterialNumbers lines = getMaterialNumbers (lines.filter real) := by
  unfold getMaterialNumbers; rw [filter_real]

private theorem talNums_real (lines : List Str) : getTallyNumbers lines = getTallyNumbers (lines.filter real) := by
  unfold getTallyNumbers; rw [filter_real]

/-- C256 (part that holds): cards, materials, tallies, numbers, mode and flags of the data block. Missing: comments without a blank behind
    the letter (`C256_bare_violated`). -/
theorem C256_data_partial (flt : Str → Option F) {a b : List Str} (h : SameButComments a b) :
    readModeCard a = readModeCard b ∧ (∀ n, readMaterialLines flt n a = readMaterialLines flt n b) ∧
    (∀ n, readTallyLines n a = readTallyLines n b) ∧ getMaterialNumbers a = getMaterialNumbers b ∧ getTallyNumbers a = getTallyNumbers b := by
  replace h := same_real h
  exact ⟨by rw [mode_real, h, ← mode_real], fun n => by rw [material_real, h, ← material_real],
    fun n => by rw [tally_real, h, ← tally_real], by rw [matNums_real, h, ← matNums_real], by rw [talNums_real, h, ← talNums_real]⟩

/-! ### Cells and surfaces -/

private theorem foldlM_real {S : Type} {f : S → Str → Except Err S} (hf : ∀ s l, Comment l → f s l = .ok s) (lines : List Str) :
    ∀ s, lines.foldlM f s = (lines.filter real).foldlM f s := by
  induction lines with
  | nil => intro s; rfl
  | cons l lines ih =>
    intro s
    by_cases h : Comment l
    · rw [List.filter_cons_of_neg (not_real h), List.foldlM_cons, hf s l h, ex_ok_bind, ih]
    · rw [List.filter_cons_of_pos (real_iff.2 h), List.foldlM_cons, List.foldlM_cons]
      congr 1
      funext s'
      exact ih s'

private theorem cells_real (flt : Str → Option F) (bloc : List Str) : processCellBlock flt bloc = processCellBlock flt (bloc.filter real) := by
  unfold processCellBlock
  rw [foldlM_real (f := cellStep flt)]
  intro s l h
  have hc := comment_not_cont h
  obtain ⟨x, r, rfl, hx⟩ := h
  unfold cellStep
  have hd : isDigit x = false := by rcases hx with rfl | rfl <;> decide
  simp only [List.getElem?_cons_zero, orErr, ex_ok_bind, hd, hc, Bool.false_eq_true, if_false]
  rfl

private theorem surfaces_real (bloc : List Str) : processSurfaceBlock bloc = processSurfaceBlock (bloc.filter real) := by
  unfold processSurfaceBlock
  rw [foldlM_real (f := surfStep)]
  intro s l h
  have hc := comment_not_cont h
  obtain ⟨x, r, rfl, hx⟩ := h
  unfold surfStep
  rw [if_neg (by rw [hc]; decide)]
  by_cases hs : strip (x :: ' ' :: r) = []
  · rw [if_pos hs]
  · rw [if_neg hs, if_pos (by rcases hx with rfl | rfl <;> rfl)]

/-- C256: comment lines among the cells and surfaces are skipped. -/
theorem C256_blocks (flt : Str → Option F) {a b : List Str} (h : SameButComments a b) :
    processCellBlock flt a = processCellBlock flt b ∧ processSurfaceBlock a = processSurfaceBlock b := by
  replace h := same_real h
  exact ⟨by rw [cells_real, h, ← cells_real], by rw [surfaces_real, h, ← surfaces_real]⟩

/-! ### The whole input -/

private theorem blank_real {l : Str} (h : Spec.Blank l) : real l = true := by
  rw [real_iff]
  rintro ⟨x, r, rfl, hx⟩
  have := h x (by simp)
  rcases hx with rfl | rfl <;> revert this <;> decide

/-- Two inputs with the same content; the lists of lines and the comments may differ. -/
structure SameCards (i j : Input F) : Prop where
  cells : i.cells = j.cells
  surfaces : i.surfaces = j.surfaces
  mode : i.mode = j.mode
  talNums : i.talNums = j.talNums
  matNums : i.matNums = j.matNums
  materials : i.materials = j.materials
  tallies : i.tallies = j.tallies
  flags : i.isVoid = j.isVoid ∧ i.isKcode = j.isKcode ∧ i.isSdef = j.isSdef ∧ i.isPtrac = j.isPtrac

private theorem materials_real (flt : Str → Option F) (lines : List Str) (ns : List Int) :
    ∀ d, readMaterials flt lines ns d = readMaterials flt (lines.filter real) ns d := by
  induction ns with
  | nil => intro d; rfl
  | cons n ns ih => intro d; simp only [readMaterials, ← material_real, ← ih]

private theorem tallies_real (lines : List Str) (ns : List Int) : readTallies lines ns = readTallies (lines.filter real) ns := by
  unfold readTallies
  cases ns with
  | nil => rfl
  | cons n ns => simp only [← tally_real]

private theorem split_real (lines : List Str) :
    (∃ cb sb db, splitBlocs lines = .ok (cb, sb, db) ∧ splitBlocs (lines.filter real) = .ok (cb.filter real, sb.filter real, db.filter real)) ∨
    (splitBlocs lines = .error .KeyError ∧ splitBlocs (lines.filter real) = .error .KeyError) := by
  cases h : splitBlocs lines with
  | ok t =>
    obtain ⟨cb, sb, db⟩ := t
    left
    refine ⟨cb, sb, db, rfl, ?_⟩
    obtain ⟨rfl, h1, ⟨x, s, rfl, hx, hs⟩, y, d, rfl, hy⟩ := (C78_blocks _ _ _ _).1 h
    rw [C78_blocks]
    refine ⟨by rw [List.filter_append, List.filter_append], fun l hl => h1 l (List.mem_filter.1 hl).1, ⟨x, s.filter real, ?_, hx, fun l hl => hs l (List.mem_filter.1 hl).1⟩,
      y, d.filter real, ?_, hy⟩
    · rw [List.filter_cons_of_pos (blank_real hx)]
    · rw [List.filter_cons_of_pos (blank_real hy)]
  | error e =>
    right
    obtain ⟨rfl, hno⟩ := (C78_error _ _).1 h
    refine ⟨rfl, (C78_error _ _).2 ⟨rfl, ?_⟩⟩
    rintro ⟨a, x, b, y, c, he, hx, hy⟩
    apply hno
    obtain ⟨l1, l2, rfl, _, h2⟩ := List.filter_eq_append_iff.1 he
    obtain ⟨m1, m2, rfl, _, _, h3⟩ := List.filter_eq_cons_iff.1 h2
    obtain ⟨n1, n2, rfl, _, h4⟩ := List.filter_eq_append_iff.1 h3
    obtain ⟨o1, o2, rfl, _, _, _⟩ := List.filter_eq_cons_iff.1 h4
    exact ⟨l1 ++ m1, x, n1 ++ o1, y, o2, by simp, hx, hy⟩

private theorem input_real (flt : Str → Option F) (path path' : Str) (lines : List Str) :
    BothOr SameCards (readLines flt path lines) (readLines flt path' (lines.filter real)) := by
  unfold readLines
  rcases split_real lines with ⟨cb, sb, db, h1, h2⟩ | ⟨h1, h2⟩
  · rw [h1, h2]
    simp only [ex_ok_bind]
    rw [cells_real flt cb, surfaces_real sb, talNums_real db, matNums_real db]
    refine both_same _ (fun c => both_same _ (fun sf => both_same _ (fun tn => both_same _ (fun mn => ?_))))
    rw [materials_real flt db]
    refine both_same _ (fun ms => .inl ⟨_, _, rfl, rfl, rfl, rfl, mode_real db, rfl, rfl, rfl, tallies_real db tn, ?_⟩)
    exact ⟨present_real 'v' p!"oid" rfl (by decide) db, present_real 'k' p!"code" rfl (by decide) db,
      present_real 's' p!"def" rfl (by decide) db, present_real 'p' p!"trac" rfl (by decide) db⟩
  · rw [h1, h2]
    exact .inr ⟨_, rfl, rfl⟩

/-- C256 (part that holds): the whole input. Both are read with the same content or both raise the same error. -/
theorem C256_input_partial (flt : Str → Option F) (path path' : Str) {a b : List Str} (h : SameButComments a b) :
    BothOr SameCards (readLines flt path a) (readLines flt path' b) := by
  have ha := input_real flt path path' a
  have hb := input_real flt path' path' b
  rw [same_real h] at ha
  rcases ha with ⟨i, k, h1, h2, ⟨a1, a2, a3, a4, a5, a6, a7, a8, a9, a10, a11⟩⟩ | ⟨e, h1, h2⟩
  · rcases hb with ⟨j, k', h3, h4, ⟨b1, b2, b3, b4, b5, b6, b7, b8, b9, b10, b11⟩⟩ | ⟨e, h3, h4⟩
    · rw [h2] at h4
      cases h4
      exact .inl ⟨i, j, h1, h3, a1.trans b1.symm, a2.trans b2.symm, a3.trans b3.symm, a4.trans b4.symm, a5.trans b5.symm, a6.trans b6.symm,
        a7.trans b7.symm, a8.trans b8.symm, a9.trans b9.symm, a10.trans b10.symm, a11.trans b11.symm⟩
    · rw [h2] at h4; cases h4
  · rcases hb with ⟨j, k', h3, h4, _⟩ | ⟨e', h3, h4⟩
    · rw [h2] at h4; cases h4
    · rw [h2] at h4
      cases h4
      exact .inr ⟨e, h1, h3⟩

/-- C256 is violated: a comment that consists of the letter c alone ends the material in front of it, so the material loses the nuclides that
    follow, without any message. -/
theorem C256_bare_violated : ∃ (flt : Str → Option Nat) (a b : List Str) (i j : Input Nat) (m m' : Material Nat),
    readLines flt [] (a ++ b) = .ok i ∧ readLines flt [] (a ++ p!"c" :: b) = .ok j ∧
    i.materials.get 1 = some m ∧ j.materials.get 1 = some m' ∧ m.composition = [(p!"1001", 2), (p!"8016", 1)] ∧
    m'.composition = [(p!"1001", 2)] :=
  ⟨fun s => (pyInt s).map Int.toNat, [p!"1 0 -1", [], p!"1 so 5", [], p!"m1 1001 2"], [p!"     8016 1"],
    ⟨[], [p!"1 0 -1"], [[], p!"1 so 5"], [[], p!"m1 1001 2", p!"     8016 1"], [(1, ⟨1, 0, none, [], [p!"-1"], [1], []⟩)],
      [(1, ⟨1, p!"so", [p!"5"], none⟩)], [], none, [], [1], [(1, ⟨1, [(p!"1001", 2), (p!"8016", 1)], [], 2, [], []⟩)], none, false, false,
      false, false⟩,
    ⟨[], [p!"1 0 -1"], [[], p!"1 so 5"], [[], p!"m1 1001 2", p!"c", p!"     8016 1"], [(1, ⟨1, 0, none, [], [p!"-1"], [1], []⟩)],
      [(1, ⟨1, p!"so", [p!"5"], none⟩)], [], none, [], [1], [(1, ⟨1, [(p!"1001", 2)], [], 1, [], []⟩)], none, false, false,
      false, false⟩, _, _, by with_unfolding_all rfl, by with_unfolding_all rfl, rfl, rfl, rfl, rfl⟩

example : SameButComments [p!"c cells", p!"1 0 -1", [], p!"1 so 5"] [p!"1 0 -1", p!"C x", [], p!"1 so 5"] :=
  .left ⟨'c', p!"cells", rfl, .inl rfl⟩ (.same _ (.right ⟨'C', p!"x", rfl, .inr rfl⟩ (.same _ (.same _ .nil))))

end Props
