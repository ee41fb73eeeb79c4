/-
Models of the remaining small functions of /repo/mcnp_input_reader.py, /repo/mcnp_output_reader.py, /repo/r2s_cell.py and
/repo/meshtal_analysis.py.
-/
import Verif.Model.McnpInputText
import Verif.Model.McnpOutput
import Verif.Model.R2sCell
import Verif.Model.Geom

namespace McnpInput
open Py NeutUtilities
variable {F : Type}

/-- mcnp_input_reader.py:580-586 `get_prefixed_lines`. -/
def getPrefixedLines (lines : List Str) (pre : Str) (n : Int) : List Str := getCardLines lines (pre ++ intStr n)

/-- mcnp_input_reader.py:535-537 `get_mt_lines`. -/
def getMtLines (lines : List Str) (n : Int) : List Str := getPrefixedLines lines p!"mt" n

/-- mcnp_input_reader.py:540-542 `get_mx_lines`. -/
def getMxLines (lines : List Str) (n : Int) : List Str := getPrefixedLines lines p!"mx" n

/-- mcnp_input_reader.py:80-91 `mcnp_cell.__str__`. The texts of numbers, lists and dictionaries are those of Python and are parameters;
    none of the lists read from a file holds a line break, so neither do the texts. -/
def cellText (num : F → Str) (words : List Str → Str) (nums : List F → Str) (imp : Dict Char F → Str) (c : Cell F) : Str :=
  join p!"\n" ([p!"Cell number: " ++ intStr c.number, p!"Cell material: " ++ intStr c.mat] ++
    (match c.density with
     | none => []
     | some d => [p!"Cell density: " ++ num d]) ++
    [p!"Cell geom: " ++ words c.geom, p!"Cell surfaces: " ++ nums c.surfaces, p!"Cell importances: " ++ imp c.imp,
     p!"Cell comments: " ++ words c.comments, p!"Cell parameters: []"])

/-- mcnp_input_reader.py:105-113 `mcnp_material.__str__`; keywords that are None are the empty dictionary here. -/
def materialText (comp : Dict Str F → Str) (kws : Dict Str KwVal → Str) (m : Material F) : Str :=
  join p!"\n" ([p!"Material number: " ++ intStr m.number, p!"Number of Nuclides: " ++ natStr m.numNuclides, p!"Composition: " ++ comp m.composition] ++
    (if m.keywords = [] then [] else [p!"Keywords: " ++ kws m.keywords]))

end McnpInput

namespace McnpOutput
open Py NeutUtilities

/-- mcnp_output_reader.py:375-387 `print_tally_lines_to_file`; `debug` says whether the effective level of the root logger is DEBUG. -/
def printTallyLinesToFile (debug : Bool) (lines : List Str) (fname : Str) (n : Int) : PyM Unit :=
  if debug then writeLines (fname ++ intStr n ++ p!".txt") lines else pure ()

/-- mcnp_output_reader.py:303-305 `read_summary`. -/
def readSummary {A B C : Type} (_data : A) (_ptype : B) (_rnum : C) : Int := 1

/-- mcnp_output_reader.py:170-183 `MCNP_summary_data`: nothing but the constructor assigns its fields. -/
def summaryText : Str := join p!"\n" [p!"NPS: " ++ natStr 1, p!"Particle: " ++ p!"Neutron"]

end McnpOutput

namespace R2sCell
open Py NeutUtilities

/-- r2s_cell.py:181-194 `run_fispact`: comments only. -/
def runFispact (_fispath _path : Str) : PyM Int := pure 0

/-- r2s_cell.py:176-178 `cleanup_fispact_run`. -/
def cleanupFispactRun (_path : Str) : PyM Int := pure 0

end R2sCell
