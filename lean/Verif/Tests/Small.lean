/- Unit tests of /repo/tests/test_neut_util.py, test_xsdir_reader.py, test_ptrac.py, test_fispact_fluxes_file.py, test_output_util.py,
   test_fispact_printlib_reader.py and test_mcnp_analyis.py on the model (those whose inputs are in the test itself). -/
import Verif.Tests.Base
import Verif.Model.Readers
import Verif.Model.FluxesWriter
import Verif.Model.OutputUtilities
import Verif.Model.McnpAnalysis
import Verif.Model.FispactAnalysis

set_option synthInstance.maxSize 1000

namespace Tests
open Py NeutUtilities

/-! ### test_neut_util.py -/

-- test_spaces
example : stringCleaner p!"   hello" = p!"hello" := by decide +kernel
example : stringCleaner p!"   hello    " = p!"hello" := by decide +kernel
example : stringCleaner p!"   hello    world   " = p!"hello world" := by decide +kernel
example : stringCleaner p!"hello world" = p!"hello world" := by decide +kernel
-- test_find_ind
example : findInd [p!"hello world", p!"hello mars"] p!"mars" = .ok 1 := by decide +kernel
example : findInd [p!"hello world", p!"hello mars"] p!"world" = .ok 0 := by decide +kernel
example : findInd [p!"hello world", p!"hello mars"] p!"hello" = .ok 0 := by decide +kernel
-- test_find_line
example : findLine p!"hel" [p!"", p!"hello", p!"world"] 3 = .ok 1 := by decide +kernel
example : findLine p!"wor" [p!"", p!"hello", p!"world"] 3 = .ok 2 := by decide +kernel
example : findLine p!"" [p!"", p!"hello", p!"world"] 1 = .ok 0 := by decide +kernel
-- test_find_nonzero, test_find_zero
example : findFirstNonZero ([0, 0, 0, 1, 1] : List ℚ) = some 3 := by decide +kernel
example : findFirstNonZero ([0, 0, 0, -1, 1] : List ℚ) = some 3 := by decide +kernel
example : findFirstNonZero ([0, 0, 0, 0, 0, 0] : List ℚ) = none := by decide +kernel
example : findFirstZero ([0, 0, 0, 1, 1] : List ℚ) = some 0 := by decide +kernel
example : findFirstZero ([1, 1, 0.1, 0] : List ℚ) = some 3 := by decide +kernel
example : findFirstZero ([-1, 1, 0.1, 0] : List ℚ) = some 3 := by decide +kernel
example : findFirstZero ([-1, 1, 0.1, 1] : List ℚ) = none := by decide +kernel
-- test_same_value
example : isSameValue (1 : ℚ) 1 1e-6 = true := by decide +kernel
example : isSameValue (1.00000001 : ℚ) 1 1e-6 = true := by decide +kernel
example : isSameValue (2 : ℚ) 1 1e-6 = false := by decide +kernel
example : isSameValue (2 : ℚ) 1 1e-3 = false := by decide +kernel
example : isSameValue (1.0001 : ℚ) 1 1e-3 = true := by decide +kernel
-- tabs
example : findTabsInList [p!"no tabs here", p!"has\ttab", p!"another line", p!"multiple\ttabs\there"] = [1, 3] := by decide +kernel
example : findTabsInList [p!"line one", p!"line two"] = [] := by decide +kernel
example : findTabsInList [p!"first\ttab", p!"second\ttab", p!"third\ttab"] = [0, 1, 2] := by decide +kernel
example : replaceTabWithSpace p!"This\tis\ta\ttest." 5 = p!"This     is     a     test." := by decide +kernel
example : replaceTabWithSpace p!"This is a test." 5 = p!"This is a test." := by decide +kernel
example : replaceTabWithSpace p!"\tStart\tand\tend\t" 5 = p!"     Start     and     end     " := by decide +kernel

/-! ### test_xsdir_reader.py (lines after `get_lines`, without line ends, or with them as in the tests) -/

example : Xsdir.processDatapath [p!"some header\n", p!"datapath=/path/to/data\n", p!"more content\n"] = .ok (some p!"/path/to/data") := by decide +kernel
example : Xsdir.processDatapath [p!"datapath= /path/with/spaces \n"] = .ok (some p!"/path/with/spaces") := by decide +kernel
example : Xsdir.processDatapath [p!"DATAPATH=/upper/case/path\n"] = .ok (some p!"/upper/case/path") := by decide +kernel
example : Xsdir.processDatapath [p!"no datapath here\n", p!"just other content\n"] = .ok none := by decide +kernel
example : Xsdir.processAwr fltQ [p!"atomic weight ratios\n", p!"1001 H-1 1.007825\n", p!"2004 He-4 4.002603\n", p!"directory\n"] =
    .ok [(p!"H-1", 1.007825), (p!"He-4", 4.002603)] := by decide +kernel
example : Xsdir.processAwr fltQ [p!"no atomic section\n", p!"directory\n"] = .ok [] := by decide +kernel
example : Xsdir.processAwr fltQ [p!"atomic weight ratios\n", p!"1001 H-1 1.007825 extra data\n", p!"directory\n"] =
    .ok [(p!"H-1", 1.007825)] := by decide +kernel
example : Xsdir.processDirectory [p!"directory\n", p!"1001.80c 1.0000 filename 0 1 1234 5678\n",
      p!"2004.80c 4.0026 filename2 0 1 2345 6789\n"] =
    [(p!"1001.80c", [p!"1.0000", p!"filename", p!"0", p!"1", p!"1234", p!"5678"]),
     (p!"2004.80c", [p!"4.0026", p!"filename2", p!"0", p!"1", p!"2345", p!"6789"])] := by decide +kernel
example : (Xsdir.processDirectory [p!"directory\n", p!"1001.80c 1.0000 filename\n", p!"\n", p!"  \n",
    p!"2004.80c 4.0026 filename2\n"]).length = 2 := by decide +kernel
example : Xsdir.processDirectory [p!"some other content\n", p!"no directory marker\n"] = [] := by decide +kernel
example : (Xsdir.processThermal [p!"thermal_scattering_data\n", p!"h-h2o.20t 1.0000 tsl-file 0 1 1234\n",
    p!"h-zrh.20t 1.0000 tsl-file2 0 1 2345\n"]).map (·.1) = [p!"h-h2o.20t", p!"h-zrh.20t"] := by decide +kernel
example : Xsdir.processThermal [p!"sab\n", p!"h-h2o.20t 1.0000 tsl-file\n"] = [(p!"h-h2o.20t", [p!"1.0000", p!"tsl-file"])] := by decide +kernel
example : (Xsdir.processThermal [p!"thermal_scattering_data\n", p!"# This is a comment\n", p!"h-h2o.20t 1.0000 tsl-file\n",
    p!"  # Another comment\n", p!"h-zrh.20t 1.0000 tsl-file2\n"]).length = 2 := by decide +kernel
example : Xsdir.processThermal [p!"no thermal section here\n"] = [] := by decide +kernel

/-! ### test_ptrac.py -/

/-- The event of `_make_event`. -/
def ev : Ptrac.Event ℚ := ⟨1, 2, 3, 3000, 1/2, 1/2, 7/10, 1, 1, 2, 5, 0⟩

example : Ptrac.eventEq ev (.event ev) = .bool true := by decide +kernel
example : Ptrac.eventEq ev (.event { ev with x := 99 }) = .bool false := by decide +kernel
example : Ptrac.eventEq ev (.event { ev with energy := 999 / 10 }) = .bool false := by decide +kernel
example : Ptrac.eventEq ev .other = .classNotImplementedError := by decide +kernel
-- test_process_event_else_branch
example : Ptrac.processEvent fltQ [p!"0.0", p!"1.0", p!"2.0", p!"3.0", p!"4.0", p!"5.0", p!"6.0", p!"7.0", p!"8.0", p!"9.0", p!"10.0",
      p!"11.0", p!"12.0", p!"13.0", p!"14.0", p!"15.0", p!"16.0"] =
    .ok { type := 0, cell := 3, x := 8, y := 9, z := 10, u := 11, v := 12, w := 13, energy := 14, wgt := 15, par := 4, time := 16 } := by
  decide +kernel
-- test_mean_num_events
example : Ptrac.meanNumEvents [⟨1, [ev, ev, ev]⟩, ⟨2, [ev]⟩] = .ok 2 := by decide +kernel

/-! ### test_fispact_fluxes_file.py -/

open FluxesWriter in
section
example : (getGroupStruct (some p!"709")).map List.length = some 709 := by decide +kernel
example : (getGroupStruct (some p!"162")).map List.length = some 162 := by decide +kernel
example : getGroupStruct (some p!"153") = none := by decide +kernel
example : checkGroupStruct (some p!"709") = true ∧ checkGroupStruct (some p!"162") = true ∧ checkGroupStruct (some p!"710") = false := by decide +kernel
example : getGroupPos (getGroupStruct (some p!"709")) (fltQ p!"1.00E+03") = .ok 0 := by decide +kernel
example : getGroupPos (getGroupStruct (some p!"709")) (fltQ p!"9.60E+02") = .ok 1 := by decide +kernel
example : getGroupPos (getGroupStruct (some p!"709")) (fltQ p!"9.20E+02") = .ok 2 := by decide +kernel
example : getGroupPos (getGroupStruct (some p!"709")) (fltQ p!"9.40E+02") = .ok 1 := by decide +kernel
example : getGroupPos (getGroupStruct (some p!"709")) (fltQ p!"1.05E-11") = .ok 707 := by decide +kernel
example : createFluxesData (K := ℚ) (some ([1, 1, 1, 1] : List ℚ)) 1 = .ok [0, 1, 0, 0, 1] := by decide +kernel
example : createFluxesData (K := ℚ) (some ([1, 1, 1, 1] : List ℚ)) 10 = .error .ValueError := by decide +kernel
example : convertMcnpSpect (some ([1, 2, 3, 4, 5] : List ℚ)) = .ok [5, 4, 3, 2, 1, 1] := by decide +kernel
example : convertMcnpSpect (some ([1, 1, 4, 3, 5] : List ℚ)) = .error .ValueError := by decide +kernel
example : convertMcnpSpect (some ([] : List ℚ)) = .error .ValueError := by decide +kernel
example : checkUpperBound (some ([10, 9, 8, 7] : List ℚ)) (some 3) = .ok true := by decide +kernel
example : checkUpperBound (some ([10, 9, 8, 7] : List ℚ)) (some 10) = .ok true := by decide +kernel
example : checkUpperBound (some ([10, 9, 8, 7] : List ℚ)) (some 20.2) = .ok false := by decide +kernel
example : checkUpperBound (some ([] : List ℚ)) (some 5) = .error .ValueError := by decide +kernel
example : getGroupPos (some ([] : List ℚ)) (some 5) = .error .ValueError := by decide +kernel
end

/-! ### test_output_util.py -/

open OutputUtilities in
section
example : wrapTokens p!"PREFIX" [p!"token1", p!"token2", p!"token3"] 20 = .ok [p!"PREFIX token1 token2", p!"     token3"] := by decide +kernel
example : wrapTokens p!"PREFIX" [] 20 = .ok [p!"PREFIX"] := by decide +kernel
example : wrapTokens p!"PREFIX" [p!"", p!"   ", p!"\t"] 20 = .ok [p!"PREFIX"] := by decide +kernel
example : wrapTokens p!"PREFIX" [List.replicate 25 'a'] 20 = .error .ValueError := by decide +kernel
end

/-! ### test_mcnp_analyis.py -/

example : McnpAnalysis.normalise ([1, 2, 3, 4] : List ℚ) 10 = [10, 20, 30, 40] := by decide +kernel
example : McnpAnalysis.normalise ([] : List ℚ) 1 = [] := by decide +kernel
example : McnpAnalysis.calcErrAbs ([1, 1, 1] : List ℚ) [1, 0.5, 0.1] = .ok [1, 0.5, 0.1] := by decide +kernel
example : McnpAnalysis.calcErrAbs ([1, 2, 3] : List ℚ) [0.1, 0.2] = .error .ValueError := by decide +kernel
example : (McnpAnalysis.calcBinWidth ([1, 1.5, 1.6] : List ℚ)).map List.length = .ok 3 := by decide +kernel
example : McnpAnalysis.calcBinWidth ([1] : List ℚ) = .error .ValueError := by decide +kernel
example : McnpAnalysis.calcMidPoints ([1, 3, 5] : List ℚ) = [2, 4] := by decide +kernel

end Tests
