/-
The programs: the blocks under `if __name__ == "__main__":`. The arguments are those of the namespace argparse returns: `input` and `output` are
the strings of the command line, an option that is not given is `none`. argparse itself (usage errors, exit status 2, the help text) is not
modelled. A program that raises ends with a traceback and exit status 1; results are thrown away unless the program does something with them.
-/
import Verif.Model.Readers
import Verif.Model.McnpOutput
import Verif.Model.McnpInput
import Verif.Model.FispactOutput
import Verif.Model.MeshtalAnalysis
import Verif.Model.Misc
import Verif.Model.OutputUtilities

namespace Programs
open Py

/-- A call whose result is thrown away. -/
def discard {α : Type} (m : PyM α) : PyM Unit := do
  let _ ← m
  pure ()

/-- Truth of `args.output`: an option that is not given and the empty string are both false. -/
def given : Option Str → Option Str
  | some (c :: s) => some (c :: s)
  | _ => none

section
variable {F : Type}

/-- fispact_input_reader.py:43-48. -/
def fispactInput (input : Str) : PyM Unit := discard (FispactInput.readFispactInput input)

/-- fispact_output_reader.py:598-603. -/
def fispactOutput {K : Type} [Field K] [LinearOrder K] (flt : Str → Option K) (input : Str) : PyM Unit :=
  discard (FispactOutput.readFisOut flt input)

/-- fispact_printlib_reader.py:83-88. -/
def printlib (flt : Str → Option F) (input : Str) : PyM Unit := discard (Printlib.read flt input)

/-- lost_points.py:28-40; `str` is the text of a number. -/
def lostPoints (flt : Str → Option F) (str : F → Str) (input : Str) (output : Option Str) : PyM Unit :=
  match given output with
  | some o => discard (LostPoints.outputLostPoints flt str input o)
  | none => discard (LostPoints.outputLostPoints flt str input)

/-- magic.py:53-59. -/
def magic (input output : Str) : PyM Unit := Magic.doMagic input output

/-- mcnp_input_reader.py:757-762. -/
def mcnpInput (flt : Str → Option F) (input : Str) : PyM Unit := discard (McnpInput.readMcnpInput flt input)

/-- mcnp_output_reader.py:1273-1279. -/
def mcnpOutput [LinearOrder F] (flt : Str → Option F) (minusOne : F) (enum : List Str → List Str) (input : Str) : PyM Unit :=
  discard (McnpOutput.readOutputFile flt minusOne enum input)

/-- mcnp_ptrac_reader.py:201-205: the arguments are parsed and nothing else happens. -/
def ptrac (_input : Str) : PyM Unit := pure ()

/-- mcnp_run_plot.py:76-87. The result is the figure and the file it is saved to (`none` = shown on the screen, mcnp_run_plot.py:69-73); saving
    itself is not modelled. -/
def runPlot {T : Type} (flt : Str → Option F) (date : Str → Option T) (input : Str) (output : Option Str) :
    PyM (RunPlot.Fig F T × Option Str) := do
  let fig ← RunPlot.plotNpsStats flt date input
  pure (fig, given output)

/-- meshtal_analysis.py:526-531. -/
def meshtal {K : Type} [Field K] [LinearOrder K] [FloorRing K] (flt : Str → Option K) (numeric : Str → Option (Option K)) (input : Str) : PyM Unit :=
  discard (Meshtal.readMeshtallyFile flt numeric input none)

/-- ofile_reduce.py:30-37. -/
def ofileReduce (input output : Str) : PyM Unit := OfileReduce.reduceOfile input output

/-- xsdir_reader.py:109-114. -/
def xsdir (flt : Str → Option F) (input : Str) : PyM Unit := discard (Xsdir.readXsdir flt input)

end
end Programs
