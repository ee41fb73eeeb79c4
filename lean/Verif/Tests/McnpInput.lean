/- The unit tests of /repo/tests/test_mcnp_input_reader.py on the model. -/
import Verif.Tests.Base
import Verif.Model.McnpInput

set_option synthInstance.maxSize 1000

namespace Tests
open Py NeutUtilities McnpInput

-- test_1_line_mat_cells, test_1_line_void_cell
example : (processCellBlock fltQ [p!"1 2 -2.3 (-1) imp:n=2"]).map (fun d => (d.get 1).map (fun c => (c.number, c.mat, c.density, c.imp.get 'n', c.surfaces))) =
    .ok (some (1, 2, some (-23 / 10), some 2, [1])) := by decide +kernel
example : (processCellBlock fltQ [p!"1 0 (-1:23) (3 4 -5) imp:n=2"]).map (fun d => (d.get 1).map (fun c => (c.number, c.mat, c.density, c.imp.get 'n', c.surfaces))) =
    .ok (some (1, 0, none, some 2, [1, 23, 3, 4, 5])) := by decide +kernel

-- input_validation_tests
example : isValidMatNum 1 = true ∧ isValidMatNum 10000000000 = false := by decide
example : isValidSurfNum 1 = true ∧ isValidSurfNum 10000000000 = false := by decide
example : isValidCellNum 1 = true ∧ isValidCellNum 10000000000 = false := by decide
example : isValidTallyNum 1 = true ∧ isValidTallyNum 10000000000 = false := by decide
example : isValidUniverseNum 1 = true ∧ isValidUniverseNum 10000000000 = false := by decide
example : isNumberOfTalliesValid 1 = true ∧ isNumberOfTalliesValid 10000 = false ∧ isNumberOfTalliesValid 10000000000 = false := by decide
example : isModeValid [p!"p", p!"n"] = true ∧ isModeValid [p!"n", p!"P"] = true ∧ isModeValid [p!"p", p!"n", p!"r"] = false := by decide +kernel

-- filter_tests
private def cell (n m : Int) (s : List ℚ) : Cell ℚ := { number := n, mat := m, surfaces := s }
private def cells : Dict Int (Cell ℚ) := [(1, cell 1 1 [1, 2, 3]), (2, cell 2 1 [1, 4, 5]), (3, cell 3 2 [2])]
example : getCell 1 ([] : Dict Int (Cell ℚ)) = none ∧ getCell 1 cells = some (cell 1 1 [1, 2, 3]) ∧ getCell 10 cells = none := by decide +kernel
example : (cellsWithMat 1 cells).length = 2 ∧ (cellsWithMat 2 cells).length = 1 ∧ cellsWithMat 10 cells = [] ∧ cellsWithMat 1 ([] : Dict Int (Cell ℚ)) = [] := by
  decide +kernel
example : (cellsWithSurface 1 cells).length = 2 ∧ (cellsWithSurface 3 cells).length = 1 ∧ (cellsWithSurface 2 cells).length = 2 ∧ cellsWithSurface 10 cells = [] := by
  decide +kernel
example : checkCellExists 1 cells = true ∧ checkCellExists 10 cells = false := by decide +kernel

-- surface_card_tests
example : processSurfaceLine p!"1 px 1.0" = .ok ⟨1, p!"px", [p!"1.0"], none⟩ := by decide +kernel
example : processSurfaceLine p!"1 2 px 1.0" = .ok ⟨1, p!"px", [p!"1.0"], some p!"2"⟩ := by decide +kernel
example : checkSurfTransform [p!"1", p!"px", p!"1.0"] = .ok false ∧ checkSurfTransform [p!"1", p!"1", p!"px", p!"1.0"] = .ok true := by decide +kernel
example : isSurfaceTypeValid p!"px" = true ∧ isSurfaceTypeValid p!"c/x" = true ∧ isSurfaceTypeValid p!"c/y" = true ∧ isSurfaceTypeValid p!"c/z" = true ∧
    isSurfaceTypeValid p!"k/z" = true ∧ isSurfaceTypeValid p!"rpp" = true ∧ isSurfaceTypeValid p!"nas" = false := by decide +kernel

-- data_card_tests
example : getTallyNumbers [p!"f1", p!"F10", p!"f ", p!"f", p!"a ", p!"Fabc"] = .ok [1, 10] := by decide +kernel
example : readModeCard [p!"Mode n"] = some [p!"n"] ∧ readModeCard [p!"mode p"] = some [p!"p"] ∧ readModeCard [p!"MODE n p", p!"m34 32000"] = some [p!"n", p!"p"] ∧
    readModeCard [p!"m23 1001.21c 1", p!"m34 32000"] = none ∧ readModeCard [p!"MODE n", p!"      p", p!"m34 32000"] = some [p!"n", p!"p"] := by decide +kernel

-- line_tests
example : removeInlineComment p!"no comment" = p!"no comment" ∧ removeInlineComment p!" 1 1 $ test" = p!" 1 1 " ∧ removeInlineComment p!" 1 1 $test" = p!" 1 1 " := by
  decide +kernel
example : getInlineComment p!" 1 1 $ test" = .ok p!" test" ∧ getInlineComment p!" 1 1 $test" = .ok p!"test" ∧ getInlineComment p!"      $test" = .ok p!"test" ∧
    getInlineComment p!"no comment" = .ok p!"no comment" := by decide +kernel
example : hasInlineComment p!"no comment" = false ∧ hasInlineComment p!" 1 1 $ test" = true ∧ hasInlineComment p!" 1 1 $test" = true ∧
    hasInlineComment p!"     $ test" = true := by decide +kernel
example : getFullLineComments [p!"c cell cards", p!"C surface ecards", p!"c234", p!"comment", p!"c"] = [(0, p!"c cell cards"), (1, p!"C surface ecards")] := by decide +kernel
example : longLineIndex [p!"c cell cards", p!"C surface ecards", p!"c234", p!"comment " ++ List.replicate 90 'f', p!"c"] = some [3] ∧
    longLineIndex [p!"c cell cards", p!"C surface ecards", p!"c234"] = none ∧
    longLineIndex [p!"c cell cards", p!"C surface" ++ List.replicate 90 'f', p!"c234"] = none ∧
    longLineIndex [p!"c cell cards", p!"       $ surface" ++ List.replicate 100 'f', p!"c234"] = none ∧
    longLineIndex [p!"c cell cards", p!"       $surface" ++ List.replicate 100 'f', p!"c234"] = none := by decide +kernel
example : isContinueLine p!"test_line" = false ∧ isContinueLine [] = false ∧ isContinueLine p!"    " = false ∧ isContinueLine p!"     " = true ∧
    isContinueLine p!"          " = true := by decide +kernel

-- MaterialTests
example : (readMaterialLines fltQ 1 [p!"m1 $ mat1", p!"     1000.21c 1", p!"mt1 some_mt_entry $ inline", p!"     continued_mt_entry", p!"mx1 some_mx_entry", p!"m2 $ next",
    p!"     1001.21c 1"]).map (fun m => (m.number, m.composition, m.thermal.any (fun l => startsWith (strip l) p!"mt1"), m.mx.any (fun l => startsWith (strip l) p!"mx1"))) =
    .ok (1, [(p!"1000.21c", 1)], true, true) := by decide +kernel
example : (processKeyword [] p!"gas=1=2").get p!"gas" = some (.many [p!"1", p!"2"]) := by decide +kernel
example : processMaterialLine fltQ p!"m1 plib=.70u 1000.21c 1 2000.21c 2" 1 =
    .ok ⟨1, [(p!"1000.21c", 1), (p!"2000.21c", 2)], [(p!"plib", .one p!".70u")], 2, [], []⟩ := by decide +kernel
example : getMaterialNumbers [p!"M1", p!"m10", p!"m ", p!"m", p!"a "] = .ok [1, 10] := by decide +kernel
example : readMaterialLines fltQ 1 [p!"m1 $ a material", p!"      1000.21c 1", p!"m2 $ next mat", p!"      1001.21c 1"] =
    .ok ⟨1, [(p!"1000.21c", 1)], [], 1, [], []⟩ := by decide +kernel
example : (processKeyword [(p!"test_key", .one p!"test_value")] p!"plib=.70u").get p!"plib" = some (.one p!".70u") ∧
    (processKeyword [(p!"test_key", .one p!"test_value")] p!"plib=.70u").get p!"test_key" = some (.one p!"test_value") := by decide +kernel
-- test_check_valid_mat_keyword_raises, through process_material_line
example : processMaterialLine fltQ p!"m1 badkey=value" 1 = .error .ValueError := by decide +kernel

-- CardAndPrefixTests
example : (getCardLines [p!"cardA arg $inline", p!"     cont1 $ci", p!"c full comment", p!"     cont2", p!"other"] p!"cardA").map strip =
    [p!"carda arg", p!"cont1", p!"cont2"] := by decide +kernel
example : (getCardLines [p!"cardA a", p!"     a1", p!"end", p!"cardA b", p!"     b1"] p!"cardA").map strip = [p!"carda a", p!"a1"] := by decide +kernel
example : isCardPresent [p!"cardX foo"] p!"cardX" = true ∧ isCardPresent [p!" cardX foo"] p!"cardX" = false ∧ isCardPresent [p!"CaRd 1"] p!"card" = true := by decide +kernel
example : (getCardLines [p!"mt1 a $c", p!"     cont", p!"mt2 x"] p!"mt1").length = 2 := by decide +kernel
example : ((getCardLines [p!"mt10 a", p!"     cont10", p!"mt1 b", p!"     cont1"] p!"mt1").map strip).head? = some p!"mt1 b" := by decide +kernel

-- test_read_simple_input, on the lines of tests/test_output/singles.i
private def singles : List Str :=
  [p!"c test input to generate output for MCNP output reader", p!"1 0 -1 imp:p=1 ", p!"2 1 -2.7 1 -2 imp:p=1", p!"3 0 -3 2 imp:p=1 ", p!"99 0 3 imp:p=0", p!"", p!"c ",
   p!"1 so 5", p!"2 so 10", p!"3 so 20", p!"", p!"c", p!"mode p", p!"nps 1e6 ", p!"m1 13027.24c 1  $ Al27", p!"sdef erg=1.332 par=p ", p!"f1:p 1 ", p!"f2:p 1 ", p!"f4:p 2 ",
   p!"f5:p 15 0 0 1 ", p!"f6:p 2 ", p!"f8:p 2 ", p!"print"]
example : (readLines fltQ p!"singles.i" singles).map (fun i => (i.cells.keys, i.materials.keys, i.surfaces.keys, i.mode)) =
    .ok ([1, 2, 3, 99], [1], [1, 2, 3], some [p!"p"]) := by decide +kernel
example : (readLines fltQ p!"singles.i" singles).map (fun i => (i.tallies.map (·.keys), i.isSdef, i.isKcode, i.isVoid, i.isPtrac)) =
    .ok (some [1, 2, 4, 5, 6, 8], true, false, false, false) := by decide +kernel

end Tests
