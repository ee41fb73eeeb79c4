/- Properties C188-C194: numbers of cards, general quadrics, energy lines, surface numbers, debug files, stubs and descriptions. -/
import Verif.Model.Misc2
import Verif.Props.McnpOutput6

set_option linter.unusedSectionVars false
set_option linter.unusedSimpArgs false

namespace Props
open Py NeutUtilities Spec

/-! ### C188 -/

/-- The numbers MCNP allows for cells, surfaces, materials, tallies and universes. -/
def McnpNumber (n : Int) : Prop := 1 ≤ n ∧ n ≤ 99999999

open McnpInput in
/-- Right for all positive numbers. -/
theorem C188_positive_partial (n : Int) (h : 1 ≤ n) :
    (isValidMatNum n = true ↔ McnpNumber n) ∧ (isValidSurfNum n = true ↔ McnpNumber n) ∧ (isValidCellNum n = true ↔ McnpNumber n) ∧
    (isValidTallyNum n = true ↔ McnpNumber n) ∧ (isValidUniverseNum n = true ↔ McnpNumber n) ∧
    (isNumberOfTalliesValid n = true ↔ n ≤ 9999) := by
  simp [isValidMatNum, isValidSurfNum, isValidCellNum, isValidTallyNum, isValidUniverseNum, isNumberOfTalliesValid, isValidNumber, McnpNumber, h]

open McnpInput in
/-- Zero and all negative numbers are accepted as well. -/
theorem C188_violated (n : Int) (h : n ≤ 0) : ¬ McnpNumber n ∧ isValidMatNum n = true ∧ isValidSurfNum n = true ∧ isValidCellNum n = true ∧
    isValidTallyNum n = true ∧ isValidUniverseNum n = true := by
  refine ⟨fun h' => by have := h'.1; omega, ?_⟩
  simp only [isValidMatNum, isValidSurfNum, isValidCellNum, isValidTallyNum, isValidUniverseNum, isValidNumber, decide_eq_true_eq]
  omega

example : McnpNumber 99999999 ∧ ¬ McnpNumber 100000000 ∧ (-3 : Int) ≤ 0 := by unfold McnpNumber; decide

/-! ### C189 -/

open Geom in
/-- The left hand side of the equation of MCNP's `gq` card with the entries A, B, C, D, E, F, G, H, J, K. -/
def gqCard (a b c d e f g h j k : ℝ) (p : V3) : ℝ :=
  a * p.x ^ 2 + b * p.y ^ 2 + c * p.z ^ 2 + d * p.x * p.y + e * p.y * p.z + f * p.z * p.x + g * p.x + h * p.y + j * p.z + k

open Geom in
/-- The nine factors of a `gq` card together with the negative of its last entry give the value of the equation. -/
theorem C189_negated_partial (a b c d e f g h j k : ℝ) (p : V3) :
    evaluateGqEq p ⟨a, b, c, d, e, f, g, h, j⟩ (-k) = gqCard a b c d e f g h j k p := by
  unfold evaluateGqEq gqCard
  ring

open Geom in
/-- With the last entry itself the value is off by twice this entry at every point. -/
theorem C189_violated (a b c d e f g h j k : ℝ) (p : V3) :
    evaluateGqEq p ⟨a, b, c, d, e, f, g, h, j⟩ k = gqCard a b c d e f g h j k p - 2 * k := by
  unfold evaluateGqEq gqCard
  ring

open Geom in
/-- So a point inside the sphere `gq 1 1 1 0 0 0 0 0 0 -25` is said to be on the outer side: -1 instead of 1. -/
theorem C189_sense_violated : gqCard 1 1 1 0 0 0 0 0 0 (-25) ⟨3, 0, 0⟩ < 0 ∧ findSenseGq ⟨3, 0, 0⟩ ⟨1, 1, 1, 0, 0, 0, 0, 0, 0⟩ (-25) = -1 := by
  refine ⟨by unfold gqCard; norm_num, ?_⟩
  unfold findSenseGq sense evaluateGqEq
  norm_num

/-! ### C190 -/

section
variable {F : Type}
open McnpOutput

/-- Lines with three numbers in MCNP's layout give the energies, results and errors in order. -/
theorem C190_lines_partial {flt : Str → Option F} {lines : List Str} {es : List (F × F × F)} (h : List.Forall₂ (EnergyRow flt) lines es) :
    processEnergyLines flt lines = .ok (es.map (·.1), es.map (·.2.1), es.map (·.2.2)) := by
  have : lines.mapM (energyLine flt) = .ok es := by
    rw [mapM_except_ok_iff]
    exact h.imp (fun _ _ h => energyRow_ok h)
  unfold processEnergyLines
  rw [this]
  rfl

/-- Three numbers with single blanks between them raise IndexError. -/
theorem C190_violated {flt : Str → Option F} {a b c : Str} {x : F} (ha : IsWord a) (hb : IsWord b) (hc : IsWord c) (hx : flt a = some x) :
    processEnergyLines flt [a ++ p!" " ++ b ++ p!" " ++ c] = .error .IndexError := by
  have nosp : ∀ {w : Str}, IsWord w → ∀ x ∈ w, (x == ' ') = false := by
    intro w hw x hx
    have := hw.2 x hx
    simp only [beq_eq_false_iff_ne]
    rintro rfl
    simp [isSpace_space] at this
  have hs : strip (a ++ p!" " ++ b ++ p!" " ++ c) = a ++ p!" " ++ b ++ p!" " ++ c := by
    unfold strip
    have h1 : lstrip (a ++ p!" " ++ b ++ p!" " ++ c) = a ++ p!" " ++ b ++ p!" " ++ c := by
      obtain ⟨y, ys, rfl⟩ := List.exists_cons_of_ne_nil ha.1
      unfold lstrip
      simp only [List.cons_append, List.dropWhile_cons]
      rw [if_neg]
      simp [ha.2 y (by simp)]
    rw [h1, rstrip_eq_self_iff]
    intro h
    rw [List.getLast_append_of_ne_nil _ hc.1]
    exact hc.2 _ (List.getLast_mem _)
  have hsp : splitOn ' ' (a ++ p!" " ++ b ++ p!" " ++ c) = [a, b, c] := by
    unfold splitOn
    have e1 : a ++ p!" " ++ b ++ p!" " ++ c = a ++ ' ' :: (b ++ ' ' :: c) := by simp
    rw [e1, splitP_append_sep (by decide), splitP_of_not_mem (nosp ha), splitP_append_sep (by decide), splitP_of_not_mem (nosp hb), splitP_of_not_mem (nosp hc)]
    rfl
  unfold processEnergyLines
  have : energyLine flt (a ++ p!" " ++ b ++ p!" " ++ c) = .error .IndexError := by
    unfold energyLine
    rw [hs, hsp]
    simp only [orErr, List.getElem?_cons_zero, List.getElem?_cons_succ, ex_ok_bind, pyFloat, hx, List.getElem?_nil]
    rfl
  rw [List.mapM_cons, this]
  rfl

example : processEnergyLines pyInt [p!"   10   25 1", p!"  200   7 3 "] = .ok ([10, 200], [25, 7], [1, 3]) ∧
    EnergyRow pyInt p!"   10   25 1" (10, 25, 1) := by
  refine ⟨by decide +kernel, p!"   ", p!"10", p!"25", p!"1", [], rfl, by unfold Blank; decide, by unfold Blank; decide, ⟨by decide, by decide⟩, ⟨by decide, by decide⟩,
    ⟨by decide, by decide⟩, by decide, by decide, by decide⟩

/-! ### C191 -/

/-- A line that contains the word surface and ends with a number. -/
def SurfaceLine (l w : Str) : Prop := p!"surface" <:+: l ∧ ∃ ws, IsWords l (ws ++ [w])

/-- The numbers of the surface lines after the first two, in order. -/
theorem C191_numbers (head lines : List Str) (hh : head.length = 2) :
    ∃ p : Str → Bool, (∀ l, p l = true ↔ p!"surface" <:+: l) ∧
      List.Forall₂ SurfaceLine (lines.filter p) (getType1SurfaceNumbers (head ++ lines)) := by
  refine ⟨hasSub p!"surface", fun l => hasSub_iff, ?_⟩
  unfold getType1SurfaceNumbers
  rw [List.drop_append_of_le_length (by omega), List.drop_of_length_le (by omega), List.nil_append, List.forall₂_map_right_iff, List.forall₂_same]
  intro l hl
  have hs : p!"surface" <:+: l := hasSub_iff.1 (List.mem_filter.1 hl).2
  have hw := isWords_splitWs l
  have he : splitWs (strip l) = splitWs l := by
    rw [splitWs_strip]
  rw [he]
  have hne : splitWs l ≠ [] := by
    intro h
    rw [h] at hw
    have hb : Blank l := by
      cases hw with
      | blank h => exact h
    obtain ⟨a, b, rfl⟩ := hs
    have := hb 's' (by simp)
    revert this
    decide
  refine ⟨hs, (splitWs l).dropLast, ?_⟩
  rw [List.getLastD_eq_getLast?, List.getLast?_eq_some_getLast hne, Option.getD_some, List.dropLast_append_getLast hne]
  exact hw

example : getType1SurfaceNumbers [p!"surface 9", p!"x", p!" surface  5 ", p!"y", p!" surface  12"] = [p!"5", p!"12"] := by decide +kernel
end

/-! ### C192 -/

open McnpOutput in
/-- Unless the log level is DEBUG nothing is written; with it the file of the tally gets the lines, and other files are kept. -/
theorem C192_file (lines : List Str) (fname : Str) (n : Int) (fs : FS) :
    printTallyLinesToFile false lines fname n fs = (.ok (), fs) ∧
    (fs.canWrite (fname ++ intStr n ++ p!".txt") = true → (printTallyLinesToFile true lines fname n fs).1 = .ok () ∧
      (printTallyLinesToFile true lines fname n fs).2.node (fname ++ intStr n ++ p!".txt") = some (.file (lines.flatMap (· ++ ['\n']))) ∧
      ∀ q, q ≠ fname ++ intStr n ++ p!".txt" → (printTallyLinesToFile true lines fname n fs).2.node q = fs.node q) ∧
    (fs.canWrite (fname ++ intStr n ++ p!".txt") = false → printTallyLinesToFile true lines fname n fs = (.error .OSError, fs)) := by
  refine ⟨rfl, fun h => ?_, fun h => ?_⟩
  · unfold printTallyLinesToFile
    rw [if_pos rfl, writeLines_ok lines h]
    exact ⟨rfl, if_pos rfl, fun q hq => if_neg hq⟩
  · unfold printTallyLinesToFile
    rw [if_pos rfl, writeLines_err lines h]

example : ((McnpOutput.printTallyLinesToFile true [p!"a", p!"b"] p!"tally_test" 4 ⟨fun _ => none, fun _ => true⟩).2.node p!"tally_test4.txt") =
    some (.file p!"a\nb\n") := by decide +kernel

/-! ### C193 -/

open R2sCell in
/-- The FISPACT input and the fluxes file of a cell are written empty, whatever the cell, and nothing is run or removed. -/
theorem C193_violated (path fispath : Str) (fs : FS) :
    (fs.canWrite path = true → writeFispact path fs = (.ok (), fs.put path (.file [])) ∧ writeFluxes path fs = (.ok (), fs.put path (.file []))) ∧
    runFispact fispath path fs = (.ok 0, fs) ∧ cleanupFispactRun path fs = (.ok 0, fs) := by
  refine ⟨fun h => ?_, rfl, rfl⟩
  unfold writeFispact writeFluxes
  rw [writeLines_ok [] h]
  exact ⟨rfl, rfl⟩

open R2sCell in
/-- A path that cannot be written raises OSError and changes nothing. -/
theorem C193_error_partial (path : Str) (fs : FS) (h : fs.canWrite path = false) :
    writeFispact path fs = (.error .OSError, fs) ∧ writeFluxes path fs = (.error .OSError, fs) := by
  unfold writeFispact writeFluxes
  rw [writeLines_err [] h]
  exact ⟨rfl, rfl⟩

/-- The summary of an output is the number 1 whatever the data. -/
theorem C193_summary_violated {A B C : Type} (a : A) (b : B) (c : C) : McnpOutput.readSummary a b c = 1 := rfl

/-! ### C194 -/

private theorem linesOf {ls : List Str} (hne : ls ≠ []) (h : ∀ l ∈ ls, '\n' ∉ l) : splitOn '\n' (join p!"\n" ls) = ls := splitOn_join hne h

private theorem natNL (n : Nat) : '\n' ∉ natStr n := fun h => absurd (natStr_isDigit h) (by decide)

private theorem intNL (n : Int) : '\n' ∉ intStr n := by
  unfold intStr
  cases n with
  | ofNat n =>
    intro h
    exact natNL n (by simpa using h)
  | negSucc n =>
    intro h
    simp at h
    exact natNL _ h

section
variable {F : Type}
open McnpInput

/-- The description of a cell: a line each for number, material, geometry, surfaces, importances and comments, and one for the density
    exactly if there is one. -/
theorem C194_cell (num : F → Str) (words : List Str → Str) (nums : List F → Str) (imp : Dict Char F → Str) (c : Cell F)
    (h1 : ∀ x, '\n' ∉ num x) (h2 : ∀ x, '\n' ∉ words x) (h3 : ∀ x, '\n' ∉ nums x) (h4 : ∀ x, '\n' ∉ imp x) :
    splitOn '\n' (cellText num words nums imp c) = [p!"Cell number: " ++ intStr c.number, p!"Cell material: " ++ intStr c.mat] ++
      (c.density.map (fun d => p!"Cell density: " ++ num d)).toList ++
      [p!"Cell geom: " ++ words c.geom, p!"Cell surfaces: " ++ nums c.surfaces, p!"Cell importances: " ++ imp c.imp,
       p!"Cell comments: " ++ words c.comments, p!"Cell parameters: []"] := by
  have hi := intNL c.number
  have hm := intNL c.mat
  have a2 := h2 c.geom
  have a3 := h3 c.surfaces
  have a4 := h4 c.imp
  have a5 := h2 c.comments
  unfold cellText
  rw [linesOf (by simp)]
  · cases c.density <;> rfl
  · intro l hl
    simp only [List.mem_append, List.mem_cons, List.not_mem_nil, or_false] at hl
    rcases hl with ((rfl | rfl) | hl) | rfl | rfl | rfl | rfl | rfl
    · simp [hi]
    · simp [hm]
    · cases hd : c.density with
      | none => rw [hd] at hl; cases hl
      | some d =>
        rw [hd] at hl
        simp only [List.mem_singleton] at hl
        subst hl
        have := h1 d
        simp [this]
    · simp [a2]
    · simp [a3]
    · simp [a4]
    · simp [a5]
    · decide

/-- The description of a material: number, number of nuclides, composition, and the keywords exactly if there are any. -/
theorem C194_material (comp : Dict Str F → Str) (kws : Dict Str KwVal → Str) (m : Material F)
    (h1 : ∀ x, '\n' ∉ comp x) (h2 : ∀ x, '\n' ∉ kws x) :
    splitOn '\n' (materialText comp kws m) = [p!"Material number: " ++ intStr m.number, p!"Number of Nuclides: " ++ natStr m.numNuclides,
      p!"Composition: " ++ comp m.composition] ++ (if m.keywords = [] then [] else [p!"Keywords: " ++ kws m.keywords]) := by
  have hi := intNL m.number
  have hn := natNL m.numNuclides
  have a1 := h1 m.composition
  have a2 := h2 m.keywords
  unfold materialText
  rw [linesOf (by simp)]
  intro l hl
  simp only [List.mem_append, List.mem_cons, List.not_mem_nil, or_false] at hl
  rcases hl with (rfl | rfl | rfl) | hl
  · simp [hi]
  · simp [hn]
  · simp [a1]
  · split at hl
    · cases hl
    · simp only [List.mem_singleton] at hl
      subst hl
      simp [a2]

example : splitOn '\n' (cellText (F := Int) intStr (fun _ => p!"w") (fun _ => p!"n") (fun _ => p!"i") { number := 3, mat := 7, density := some (-2) }) =
    [p!"Cell number: 3", p!"Cell material: 7", p!"Cell density: -2", p!"Cell geom: w", p!"Cell surfaces: n", p!"Cell importances: i",
     p!"Cell comments: w", p!"Cell parameters: []"] := by decide +kernel
end

end Props
