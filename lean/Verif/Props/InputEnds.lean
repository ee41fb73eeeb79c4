/-
C260: the title of an MCNP input. C261: what stands behind the data block. C262: a message block in front of the title.
-/
import Verif.Props.NoComments

set_option linter.unusedSimpArgs false

namespace Props
open Py NeutUtilities McnpInput Spec.Mcnp
variable {F : Type}

/-! ### The title -/

/-- A title that is not blank and does not start with a digit. -/
def PlainTitle (t : Str) : Prop := ¬ Spec.Blank t ∧ ∀ c ∈ t.head?, isDigit c = false

private theorem plain_cons {t : Str} (h : PlainTitle t) : ∃ c r, t = c :: r ∧ isDigit c = false := by
  cases t with
  | nil => exact absurd (fun c hc => by cases hc) h.1
  | cons c r => exact ⟨c, r, rfl, h.2 c rfl⟩

private theorem cells_title (flt : Str → Option F) {t : Str} (h : PlainTitle t) (cb : List Str) :
    processCellBlock flt (t :: cb) = processCellBlock flt cb := by
  obtain ⟨c, r, rfl, hc⟩ := plain_cons h
  unfold processCellBlock
  rw [List.foldlM_cons]
  have : cellStep flt ⟨[], none⟩ (c :: r) = .ok ⟨[], none⟩ := by
    unfold cellStep
    simp only [List.getElem?_cons_zero, orErr, ex_ok_bind, hc, Bool.false_eq_true, if_false]
    split_ifs <;> rfl
  rw [this]
  rfl

private theorem split_title {t : Str} (h : ¬ Spec.Blank t) (ls : List Str) :
    splitBlocs (t :: ls) = (splitBlocs ls).map (fun b => (t :: b.1, b.2)) := by
  cases h' : splitBlocs ls with
  | ok b =>
    obtain ⟨cb, sb, db⟩ := b
    obtain ⟨rfl, h1, h2, h3⟩ := (C78_blocks _ _ _ _).1 h'
    change _ = Except.ok (t :: cb, sb, db)
    rw [C78_blocks]
    refine ⟨rfl, fun l hl => ?_, h2, h3⟩
    rcases List.mem_cons.1 hl with rfl | hl
    · exact h
    · exact h1 l hl
  | error e =>
    obtain ⟨rfl, hno⟩ := (C78_error _ _).1 h'
    change _ = Except.error _
    rw [C78_error]
    refine ⟨rfl, ?_⟩
    rintro ⟨a, x, b, y, c, he, hx, hy⟩
    cases a with
    | nil =>
      injection he with he1 he2
      exact h (he1 ▸ hx)
    | cons a0 a =>
      injection he with he1 he2
      exact hno ⟨a, x, b, y, c, he2, hx, hy⟩

/-- C260 (part that holds): two inputs that differ by the title are read with the same content or both raise the same error. Missing: titles
    that start with a digit (`C260_digit_violated`, `C260_number_violated`) and blank titles (`C260_blank_violated`). -/
theorem C260_title_partial (flt : Str → Option F) (path path' : Str) {t t' : Str} (h : PlainTitle t) (h' : PlainTitle t') (ls : List Str) :
    BothOr SameCards (readLines flt path (t :: ls)) (readLines flt path' (t' :: ls)) := by
  unfold readLines
  rw [split_title h.1, split_title h'.1]
  cases splitBlocs ls with
  | error e => exact .inr ⟨e, rfl, rfl⟩
  | ok b =>
    obtain ⟨cb, sb, db⟩ := b
    simp only [Except.map, ex_ok_bind]
    rw [cells_title flt h, cells_title flt h']
    exact both_same _ (fun c => both_same _ (fun sf => both_same _ (fun tn => both_same _ (fun mn => both_same _ (fun ms =>
      .inl ⟨_, _, rfl, rfl, rfl, rfl, rfl, rfl, rfl, rfl, rfl, rfl, rfl, rfl, rfl⟩)))))

/-- C260 is violated by a title that starts with a number: a cell with this number is reported that is not in the input. -/
theorem C260_digit_violated : ∃ (flt : Str → Option Nat) (ls : List Str) (i j : Input Nat),
    readLines flt [] (p!"sphere" :: ls) = .ok i ∧ readLines flt [] (p!"3 0 degrees" :: ls) = .ok j ∧
    i.cells.get 3 = none ∧ (j.cells.get 3).isSome :=
  ⟨fun s => (pyInt s).map Int.toNat, [p!"1 0 -1", [], p!"1 so 5", [], p!"mode n"],
    ⟨[], [p!"sphere", p!"1 0 -1"], [[], p!"1 so 5"], [[], p!"mode n"], [(1, ⟨1, 0, none, [], [p!"-1"], [1], []⟩)],
      [(1, ⟨1, p!"so", [p!"5"], none⟩)], [], some [p!"n"], [], [], [], none, false, false, false, false⟩,
    ⟨[], [p!"3 0 degrees", p!"1 0 -1"], [[], p!"1 so 5"], [[], p!"mode n"], [(3, ⟨3, 0, none, [], [p!"degrees"], [], []⟩),
      (1, ⟨1, 0, none, [], [p!"-1"], [1], []⟩)],
      [(1, ⟨1, p!"so", [p!"5"], none⟩)], [], some [p!"n"], [], [], [], none, false, false, false, false⟩,
    by with_unfolding_all rfl, by with_unfolding_all rfl, rfl, rfl⟩

/-- C260 is violated by a title like "2 spheres": no such input can be read, whatever follows. -/
theorem C260_number_violated (flt : Str → Option F) (path : Str) (ls : List Str) (i : Input F) :
    readLines flt path (p!"2 spheres" :: ls) ≠ .ok i := by
  intro h
  unfold readLines at h
  rw [split_title (by intro hb; have := hb '2' (by simp); revert this; decide)] at h
  cases hs : splitBlocs ls with
  | error e => rw [hs] at h; cases h
  | ok b =>
    obtain ⟨cb, sb, db⟩ := b
    rw [hs] at h
    simp only [Except.map, ex_ok_bind] at h
    have : processCellBlock flt (p!"2 spheres" :: cb) = .error .ValueError := by
      unfold processCellBlock
      rw [List.foldlM_cons]
      have : cellStep flt ⟨[], none⟩ p!"2 spheres" = .error .ValueError := by with_unfolding_all rfl
      rw [this]
      rfl
    rw [this] at h
    cases h

/-- C260 is violated by a blank title: no such input can be read, whatever follows. -/
theorem C260_blank_violated (flt : Str → Option F) (path : Str) {t : Str} (ht : Spec.Blank t) (ls : List Str) (i : Input F) :
    readLines flt path (t :: ls) ≠ .ok i := by
  intro h
  unfold readLines at h
  cases hs : splitBlocs (t :: ls) with
  | error e => rw [hs] at h; cases h
  | ok b =>
    obtain ⟨cb, sb, db⟩ := b
    obtain ⟨he, h1, _, _⟩ := (C78_blocks _ _ _ _).1 hs
    rw [hs] at h
    simp only [ex_ok_bind] at h
    cases cb with
    | cons c cb =>
      injection he with he1 he2
      exact h1 c (by simp) (he1 ▸ ht)
    | nil => cases h

/-! ### A message block -/

/-- C262 (part that holds): an input with a message block, whose lines do not start with a digit, is refused and never read as something else.
    Missing: it is not read (`C262_violated`). -/
theorem C262_refused_partial (flt : Str → Option F) (path : Str) {msg : List Str} (hm : ∀ l ∈ msg, PlainTitle l) {x : Str} (hx : Spec.Blank x)
    (ls : List Str) : readLines flt path (msg ++ x :: ls) = .error .AttributeError ∨ readLines flt path (msg ++ x :: ls) = .error .KeyError := by
  unfold readLines
  cases hs : splitBlocs (msg ++ x :: ls) with
  | error e =>
    obtain ⟨rfl, _⟩ := (C78_error _ _).1 hs
    right; rfl
  | ok b =>
    left
    obtain ⟨cb, sb, db⟩ := b
    have hcb : cb = msg := by
      obtain ⟨he, h1, ⟨y, s, rfl, hy, _⟩, _⟩ := (C78_blocks _ _ _ _).1 hs
      clear hs
      induction msg generalizing cb with
      | nil =>
        cases cb with
        | nil => rfl
        | cons c cb =>
          injection he with he1 he2
          exact absurd (he1 ▸ hx) (h1 c (by simp))
      | cons m msg ih =>
        cases cb with
        | nil =>
          injection he with he1 he2
          exact absurd (he1 ▸ hy) (hm m (by simp)).1
        | cons c cb =>
          injection he with he1 he2
          rw [he1, ih (fun l hl => hm l (List.mem_cons_of_mem _ hl)) cb (fun l hl => h1 l (List.mem_cons_of_mem _ hl)) he2]
    subst hcb
    simp only [ex_ok_bind]
    have : ∀ l : List Str, (∀ t ∈ l, PlainTitle t) → processCellBlock flt l = .error .AttributeError := by
      intro l hl
      induction l with
      | nil => rfl
      | cons t l ih => rw [cells_title flt (hl t (by simp)), ih (fun t ht => hl t (List.mem_cons_of_mem _ ht))]
    rw [this _ hm]
    rfl

/-- C262 is violated: an input that can be read cannot be read with a message block in front of it. -/
theorem C262_violated : ∃ (flt : Str → Option Nat) (ls : List Str), (readLines flt [] ls).isOk = true ∧
    (readLines flt [] (p!"message: outp=a.o" :: [] :: ls)).isOk = false :=
  ⟨fun s => (pyInt s).map Int.toNat, [p!"sphere", p!"1 0 -1", [], p!"1 so 5", [], p!"mode n"], by with_unfolding_all rfl, by with_unfolding_all rfl⟩

/-! ### Behind the data block -/

/-- A line that is empty or starts with none of the letters (in either case) of the cards looked at, and not with a blank. -/
def Silent (l : Str) : Prop := ∀ c ∈ l.head?, c.toLower ∉ p!" mfetsvkp"

private theorem silent_start {start : Str → Bool} {x : Char} (hx : x ∈ p!"mfetsvkp") (hs : ∀ l, start l = true → l.head? = some x) {l : Str}
    (hl : Silent l) : start (lower l) = false := by
  rw [Bool.eq_false_iff]
  intro h
  have := hs _ h
  cases l with
  | nil => cases this
  | cons c r =>
    simp only [lower, List.map_cons, List.head?_cons, Option.some.injEq] at this
    exact hl c rfl (this ▸ List.mem_cons_of_mem _ hx)

private theorem silent_cont {l : Str} (hl : Silent l) : isContinueLine (lower l) = false := by
  rw [Bool.eq_false_iff]
  intro h
  unfold isContinueLine at h
  rw [startsWith_iff] at h
  obtain ⟨t, ht⟩ := h
  cases l with
  | nil => cases ht
  | cons c r =>
    simp only [lower, List.map_cons, List.cons_append, List.cons.injEq] at ht
    exact hl c rfl (ht.1 ▸ List.mem_cons_self ..)

private theorem scan_silent {start : Str → Bool} {tail : List Str} (ht : ∀ l ∈ tail, Silent l) (hs : ∀ l, Silent l → start (lower l) = false) :
    ∀ b, scan start b tail = [] := by
  induction tail with
  | nil => intro b; cases b <;> rfl
  | cons l tail ih =>
    have ih := ih (fun l hl => ht l (List.mem_cons_of_mem _ hl))
    have hl := ht l (by simp)
    intro b
    cases b with
    | false => simp only [scan, hs l hl, Bool.false_eq_true, if_false, ih]
    | true =>
      simp only [scan, hs l hl, silent_cont hl, Bool.false_eq_true, if_false, ih]
      split_ifs <;> rfl

private theorem scan_tail {start : Str → Bool} {tail : List Str} (ht : ∀ l ∈ tail, Silent l) (hs : ∀ l, Silent l → start (lower l) = false)
    (lines : List Str) : ∀ b, scan start b (lines ++ tail) = scan start b lines := by
  induction lines with
  | nil =>
    intro b
    rw [List.nil_append, scan_silent ht hs]
    cases b <;> rfl
  | cons l lines ih =>
    intro b
    cases b <;> simp only [List.cons_append, scan, ih]

private theorem mat_head (n : Int) (l : Str) (h : matStart n l = true) : l.head? = some 'm' := by
  unfold matStart at h
  split at h
  · rfl
  · cases h

private theorem tal_head (n : Int) (l : Str) (h : talStart n l = true) : l.head? = some 'f' := by
  unfold talStart at h
  split at h
  · rfl
  · cases h

private theorem card_head (x : Char) (cs : Str) (hx : x.toLower = x) (l : Str) (h : cardStart (x :: cs) l = true) : l.head? = some x := by
  unfold cardStart at h
  rw [Bool.and_eq_true, startsWith_iff] at h
  obtain ⟨t, ht⟩ := h.1
  rw [← ht]
  simp [lower, hx]

private theorem card_tail {tail : List Str} (ht : ∀ l ∈ tail, Silent l) (x : Char) (cs : Str) (hx : x.toLower = x) (hc : x ∈ p!"mfetsvkp")
    (lines : List Str) : getCardLines (lines ++ tail) (x :: cs) = getCardLines lines (x :: cs) :=
  scan_tail ht (fun _ hl => silent_start hc (card_head x cs hx) hl) lines false

private theorem present_tail {tail : List Str} (ht : ∀ l ∈ tail, Silent l) (x : Char) (cs : Str) (hx : x.toLower = x) (hc : x ∈ p!"mfetsvkp")
    (lines : List Str) : isCardPresent (lines ++ tail) (x :: cs) = isCardPresent lines (x :: cs) := by
  unfold isCardPresent
  rw [List.any_append]
  have : tail.any (fun l => startsWith (lower l) (lower (x :: cs))) = false := by
    rw [List.any_eq_false]
    intro l hl h
    rw [startsWith_iff] at h
    obtain ⟨t, h⟩ := h
    have hl := ht l hl
    cases l with
    | nil => cases h
    | cons c r =>
      simp only [lower, List.map_cons, List.cons_append, List.cons.injEq, hx] at h
      exact hl c rfl (h.1 ▸ List.mem_cons_of_mem _ hc)
  rw [this, Bool.or_false]

private theorem letter_tail {tail : List Str} (ht : ∀ l ∈ tail, Silent l) {x : Char} (hc : x ∈ p!"mfetsvkp") (lines : List Str) :
    (lines ++ tail).filter (letterDigit x) = lines.filter (letterDigit x) := by
  rw [List.filter_append]
  have : tail.filter (letterDigit x) = [] := by
    rw [List.filter_eq_nil_iff]
    intro l hl h
    have hl := ht l hl
    unfold letterDigit at h
    split at h
    · rw [Bool.and_eq_true, beq_iff_eq] at h
      exact hl _ rfl (h.1 ▸ List.mem_cons_of_mem _ hc)
    · cases h
  rw [this, List.append_nil]

private theorem material_tail (flt : Str → Option F) {tail : List Str} (ht : ∀ l ∈ tail, Silent l) (n : Int) (lines : List Str) :
    readMaterialLines flt n (lines ++ tail) = readMaterialLines flt n lines := by
  unfold readMaterialLines
  rw [scan_tail ht (fun _ hl => silent_start (x := 'm') (by decide) (mat_head n) hl) lines false]
  have h1 := card_tail ht 'm' ('t' :: intStr n) rfl (by decide) lines
  have h2 := card_tail ht 'm' ('x' :: intStr n) rfl (by decide) lines
  simp only [List.cons_append, List.nil_append] at h1 h2 ⊢
  rw [h1, h2]

private theorem tally_tail {tail : List Str} (ht : ∀ l ∈ tail, Silent l) (n : Int) (lines : List Str) :
    readTallyLines n (lines ++ tail) = readTallyLines n lines := by
  unfold readTallyLines
  rw [scan_tail ht (fun _ hl => silent_start (x := 'f') (by decide) (tal_head n) hl) lines false]
  have h1 := present_tail ht 'e' (intStr n ++ p!" ") rfl (by decide) lines
  have h2 := present_tail ht 't' (intStr n ++ p!" ") rfl (by decide) lines
  have h3 := present_tail ht 'f' ('m' :: (intStr n ++ p!" ")) rfl (by decide) lines
  have h4 := present_tail ht 's' ('d' :: (intStr n ++ p!" ")) rfl (by decide) lines
  have h5 := present_tail ht 'f' ('c' :: (intStr n ++ p!" ")) rfl (by decide) lines
  simp only [List.cons_append, List.nil_append] at h1 h2 h3 h4 h5 ⊢
  rw [h1, h2, h3, h4, h5]

private theorem materials_tail (flt : Str → Option F) {tail : List Str} (ht : ∀ l ∈ tail, Silent l) (lines : List Str) (ns : List Int) :
    ∀ d, readMaterials flt (lines ++ tail) ns d = readMaterials flt lines ns d := by
  induction ns with
  | nil => intro d; rfl
  | cons n ns ih => intro d; simp only [readMaterials, material_tail flt ht, ih]

private theorem tallies_tail {tail : List Str} (ht : ∀ l ∈ tail, Silent l) (lines : List Str) (ns : List Int) :
    readTallies (lines ++ tail) ns = readTallies lines ns := by
  unfold readTallies
  cases ns with
  | nil => rfl
  | cons n ns => simp only [tally_tail ht]

/-- C261 (part that holds): lines behind an input that has two blank lines, if they are empty or start with none of the letters of the cards
    that are looked at. Missing: other text (`C261_violated`). -/
theorem C261_partial (flt : Str → Option F) (path path' : Str) {lines tail : List Str} (hb : ∃ b, splitBlocs lines = .ok b)
    (ht : ∀ l ∈ tail, Silent l) : BothOr SameCards (readLines flt path (lines ++ tail)) (readLines flt path' lines) := by
  obtain ⟨⟨cb, sb, db⟩, hb⟩ := hb
  have hb' : splitBlocs (lines ++ tail) = .ok (cb, sb, db ++ tail) := by
    obtain ⟨rfl, h1, h2, y, d, rfl, hy⟩ := (C78_blocks _ _ _ _).1 hb
    rw [C78_blocks]
    exact ⟨by simp, h1, h2, y, d ++ tail, rfl, hy⟩
  unfold readLines
  rw [hb, hb']
  simp only [ex_ok_bind]
  have h1 : getTallyNumbers (db ++ tail) = getTallyNumbers db := by unfold getTallyNumbers; rw [letter_tail ht (by decide)]
  have h2 : getMaterialNumbers (db ++ tail) = getMaterialNumbers db := by unfold getMaterialNumbers; rw [letter_tail ht (by decide)]
  have h3 : readModeCard (db ++ tail) = readModeCard db := by unfold readModeCard; rw [card_tail ht 'm' p!"ode" rfl (by decide)]
  rw [h1, h2]
  refine both_same _ (fun c => both_same _ (fun sf => both_same _ (fun tn => both_same _ (fun mn => ?_))))
  rw [materials_tail flt ht]
  refine both_same _ (fun ms => .inl ⟨_, _, rfl, rfl, rfl, rfl, h3, rfl, rfl, rfl, tallies_tail ht db tn, ?_⟩)
  exact ⟨present_tail ht 'v' p!"oid" rfl (by decide) db, present_tail ht 'k' p!"code" rfl (by decide) db,
    present_tail ht 's' p!"def" rfl (by decide) db, present_tail ht 'p' p!"trac" rfl (by decide) db⟩

/-- C261 is violated: a material behind the blank line that ends the input, where MCNP reads nothing, is reported as part of the input. -/
theorem C261_violated : ∃ (flt : Str → Option Nat) (ls : List Str) (i j : Input Nat),
    readLines flt [] ls = .ok i ∧ readLines flt [] (ls ++ [[], p!"m2 1001 1"]) = .ok j ∧ i.matNums = [] ∧ j.matNums = [2] :=
  ⟨fun s => (pyInt s).map Int.toNat, [p!"sphere", p!"1 0 -1", [], p!"1 so 5", [], p!"mode n"],
    ⟨[], [p!"sphere", p!"1 0 -1"], [[], p!"1 so 5"], [[], p!"mode n"], [(1, ⟨1, 0, none, [], [p!"-1"], [1], []⟩)],
      [(1, ⟨1, p!"so", [p!"5"], none⟩)], [], some [p!"n"], [], [], [], none, false, false, false, false⟩,
    ⟨[], [p!"sphere", p!"1 0 -1"], [[], p!"1 so 5"], [[], p!"mode n", [], p!"m2 1001 1"], [(1, ⟨1, 0, none, [], [p!"-1"], [1], []⟩)],
      [(1, ⟨1, p!"so", [p!"5"], none⟩)], [], some [p!"n"], [], [2], [(2, ⟨2, [(p!"1001", 1)], [], 1, [], []⟩)], none, false, false, false, false⟩,
    by with_unfolding_all rfl, by with_unfolding_all rfl, rfl, rfl⟩

example : PlainTitle p!"sphere" :=
  ⟨fun h => by have := h 's' (by simp); revert this; decide, fun c hc => by cases hc; decide⟩

example : Silent [] ∧ Silent p!"old version" :=
  ⟨(fun c hc => by cases hc), (fun c hc => by cases hc; decide)⟩

end Props
