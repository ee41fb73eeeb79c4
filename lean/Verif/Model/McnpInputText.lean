/- Model of the descriptions and checks of /repo/mcnp_input_reader.py and of the description of /repo/xsdir_reader.py. -/
import Verif.Model.McnpInput
import Verif.Model.Readers

namespace McnpInput
open Py NeutUtilities
variable {F : Type}

/-- The text of a list of strings in an f-string; `repr` stands for Python's `repr(str)`. -/
def listText (repr : Str → Str) (l : List Str) : Str := p!"[" ++ join p!", " (l.map repr) ++ p!"]"

/-- The text of an optional list in an f-string. -/
def optText (repr : Str → Str) : Option (List Str) → Str
  | none => p!"None"
  | some l => listText repr l

/-- mcnp_input_reader.py:34-39, the calculation type. -/
def calcType (i : Input F) : Str :=
  if i.isSdef then p!"Fixed source calculation"
  else if i.isKcode then p!"Kcode calculation"
  else p!"Unknown calculation type"

/-- mcnp_input_reader.py:29-41 `mcnp_input.__str__`. -/
def inputText (repr : Str → Str) (i : Input F) : Str :=
  join p!"\n" [p!"File: " ++ i.filePath, p!"Mode: " ++ optText repr i.mode, calcType i]

/-- mcnp_input_reader.py:54-64 `mcnp_surface.__str__` (`comment` is never set, so its line is never printed). -/
def surfaceText (repr : Str → Str) (s : Surface) : Str :=
  join p!"\n" ([p!"Surface number: " ++ intStr s.number, p!"Surface type: " ++ s.surfType, p!"Surface parameters: " ++ listText repr s.params] ++
    match s.transform with
    | none => []
    | some t => [p!"Surface transform: " ++ t])

/-- mcnp_input_reader.py:128-140 `mcnp_tally.__str__`. -/
def tallyText (t : Tally) : Str :=
  join p!"\n" ([p!"Tally number: " ++ intStr t.number, p!"Tally card: " ++ t.data] ++
    (if t.hasEbins then [p!"Has energy bins"] else []) ++ (if t.hasTbins then [p!"Has time bins"] else []) ++
    (if t.hasFm then [p!"Is modified by a flux modifed card"] else []))

/-- mcnp_input_reader.py:98: `is_by_weight` is set in the constructor and assigned nowhere else. -/
def isByWeight (_ : Material F) : Bool := true

/-- mcnp_input_reader.py:235-257 `check_plane`, `check_sphere`, `check_cylinder`, `check_cone`, `check_GQ`: all five
    return True whatever the surface. -/
def checkPlane (_ : Surface) : Bool := true
/-- mcnp_input_reader.py:240-242. -/
def checkSphere (_ : Surface) : Bool := true
/-- mcnp_input_reader.py:245-247. -/
def checkCylinder (_ : Surface) : Bool := true
/-- mcnp_input_reader.py:250-252. -/
def checkCone (_ : Surface) : Bool := true
/-- mcnp_input_reader.py:255-257. -/
def checkGQ (_ : Surface) : Bool := true

end McnpInput

namespace Xsdir
open Py

/-- xsdir_reader.py:12-19 `XSDir.__str__`. There is no line break between the last two parts. -/
def xsdirText {F : Type} (x : XSDir F) : Str :=
  p!"Filename: " ++ x.filePath ++ p!"\n" ++ p!"Datapath: " ++ x.datapath.getD p!"None" ++ p!"\n" ++
  p!"Number of AWR entries: " ++ natStr x.awr.length ++ p!"\n" ++
  p!"Number of directory entries: " ++ natStr x.directory.length ++ p!"Number of TSL entries: " ++ natStr x.thermal.length

end Xsdir
