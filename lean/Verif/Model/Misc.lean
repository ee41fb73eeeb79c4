/-
Models of /repo/mcnp_run_plot.py, /repo/fispact_input_reader.py, /repo/magic.py and of a few functions of /repo/neut_utilities.py,
/repo/fispact_analysis.py and /repo/mcnp_output_reader.py.
-/
import Verif.Model.NeutUtilities
import Verif.Model.FispactOutput
import Verif.Model.McnpOutput
import Verif.Model.FluxesWriter

namespace RunPlot
open Py NeutUtilities
variable {F T : Type}

/-- The lists filled by the loop mcnp_run_plot.py:26-40. -/
structure Stats (F T : Type) where
  ctm : List F
  nrn : List Int
  nps : List Int
  coll : List Int
  time : List T
  deriving DecidableEq, Repr

/-- mcnp_run_plot.py:33-35. -/
def ctmLine (flt : Str → Option F) (st : Stats F T) (line : Str) : Except Err (Stats F T) :=
  if hasSub p!"ctm" line then do
    let c ← orErr .ValueError (flt (slice line 6 18))
    let n ← orErr .ValueError (pyInt (slice line 26 44))
    pure { st with ctm := st.ctm ++ [c], nrn := st.nrn ++ [n] }
  else .ok st

/-- mcnp_run_plot.py:36-37. -/
def dumpLine (st : Stats F T) (line : Str) : Except Err (Stats F T) :=
  if hasSub p!"dump" line then do
    let c ← orErr .ValueError (pyInt (slice line 61 78))
    pure { st with coll := st.coll ++ [c] }
  else .ok st

/-- mcnp_run_plot.py:38-41; `date` is `strptime` with the format of the code (`none`: ValueError). -/
def rendezvousLine (date : Str → Option T) (st : Stats F T) (line : Str) : Except Err (Stats F T) :=
  if hasSub p!"master set rendezvous" line then do
    let n ← orErr .ValueError (pyInt (slice line 28 40))
    let t ← orErr .ValueError (date (slice line 66 83))
    pure { st with nps := st.nps ++ [n], time := st.time ++ [t] }
  else .ok st

/-- The body of the loop. -/
def step (flt : Str → Option F) (date : Str → Option T) (st : Stats F T) (line : Str) : Except Err (Stats F T) := do
  let s ← ctmLine flt st line
  let s ← dumpLine s line
  rendezvousLine date s line

/-- The four plots: nps over time, and computer time, random numbers and collisions over nps. -/
structure Fig (F T : Type) where
  npsOverTime : List T × List Int
  ctmOverNps : List Int × List F
  nrnOverNps : List Int × List Int
  collOverNps : List Int × List Int
  deriving DecidableEq, Repr

/-- `ax.plot(x, y)`: the lengths must agree. -/
def plot {A B : Type} (x : List A) (y : List B) : Except Err (List A × List B) :=
  if x.length = y.length then .ok (x, y) else .error .ValueError

/-- mcnp_run_plot.py:26-69, after the file was read. Axis labels, the conversion of dates to numbers and the writing of the image are
    left out. -/
def figure (flt : Str → Option F) (date : Str → Option T) (lines : List Str) : Except Err (Fig F T) := do
  let st ← lines.foldlM (step flt date) ⟨[], [], [], [], []⟩
  let a ← plot st.time st.nps
  let b ← plot st.nps (st.ctm.drop 1)
  let c ← plot st.nps (st.nrn.drop 1)
  let d ← plot st.nps (st.coll.drop 1)
  pure ⟨a, b, c, d⟩

/-- mcnp_run_plot.py:17-73 `plot_nps_stats`. -/
def plotNpsStats (flt : Str → Option F) (date : Str → Option T) (path : Str) : PyM (Fig F T) := do
  let lines ← getLines path
  PyM.lift (figure flt date lines)

end RunPlot

namespace FispactInput
open Py NeutUtilities

/-- fispact_input_reader.py:12-14 `get_irrad_profile`. -/
def getIrradProfile (_ : List Str) : Option (List Str) := none
/-- fispact_input_reader.py:17-19 `get_cool_times`. -/
def getCoolTimes (_ : List Str) : Option (List Str) := none
/-- fispact_input_reader.py:22-24 `get_comments`. -/
def getComments (_ : List Str) : Option (List Str) := none

/-- fispact_input_reader.py:27-40 `read_fispact_input`. Reading a file that exists does not fail in the model of the file system. -/
def readFispactInput (path : Str) : PyM (List Str) := fun fs =>
  match fs.node path with
  | none => (.error .FileNotFoundError, fs)
  | some .dir => (.error .ValueError, fs)
  | some (.file _) =>
    match getLines path fs with
    | (.ok l, fs') => (.ok l, fs')
    | (.error _, fs') => (.error .OSError, fs')

end FispactInput

namespace Magic
open Py
variable {K : Type} [Field K] [LinearOrder K]

/-- magic.py:21-30 `normalise_mesh` on the column `value`; `hasNpFloat` says whether numpy has the alias `np.float` (versions before 1.24).
    A greatest value of 0 gives infinities times zero: NaN (`none`) for the zeros. -/
def normaliseMesh (hasNpFloat : Bool) (values : List K) : Except Err (List (Option K)) :=
  if hasNpFloat then
    match values with
    | [] => .error .ValueError
    | a :: l =>
      if l.foldl max a = 0 then .ok (values.map (fun _ => none))
      else .ok (values.map (fun v => some (v * (1 / 2 / l.foldl max a))))
  else .error .AttributeError

/-- magic.py:33-50 `do_magic`: its first statement calls `ut.setup_logging`, which does not exist in neut_utilities. -/
def doMagic (_infile _ofile : Str) : PyM Unit := PyM.raise .AttributeError

end Magic

namespace NeutUtilities
open Py

/-- `os.mkdir`: the parent is looked up first. -/
def osMkdir (p : Str) : PyM Unit := fun fs =>
  match parent p with
  | some (c :: d) =>
    match fs.node (c :: d) with
    | none => (.error .FileNotFoundError, fs)
    | some (.file _) => (.error .OSError, fs)
    | some .dir => if (fs.node p).isNone && fs.perm p then (.ok (), fs.put p .dir) else (.error .OSError, fs)
  | _ => if (fs.node p).isNone && fs.perm p then (.ok (), fs.put p .dir) else (.error .OSError, fs)

/-- The last `except` of `Path.mkdir` with `exist_ok=True`. -/
def okIfDir (p : Str) (r : Except Err Unit × FS) : Except Err Unit × FS :=
  match r with
  | (.error .OSError, fs) => if fs.node p = some .dir then (.ok (), fs) else (.error .OSError, fs)
  | r => r

/-- `Path(p).mkdir(parents=True, exist_ok=True)` for a path without empty parts; `fuel` bounds the number of its parts. -/
def mkdirParents : Nat → Str → PyM Unit
  | 0, _ => PyM.raise .OSError
  | fuel + 1, p => fun fs =>
    match osMkdir p fs with
    | (.error .FileNotFoundError, fs1) =>
      match mkdirParents fuel ((parent p).getD []) fs1 with
      | (.ok (), fs2) => okIfDir p (osMkdir p fs2)
      | r => r
    | r => okIfDir p r

/-- neut_utilities.py:184-186 `ensure_dir_exists`. -/
def ensureDirExists (p : Str) : PyM Unit := mkdirParents (p.length + 1) p

end NeutUtilities

namespace FispactAnalysis
open Py

/-- fispact_analysis.py:184-187 `cooling_ts_data`: a slice from the index of the first cooling row, from the start if there is none. -/
def coolingTsData {A : Type} (index : Option Nat) (steps : List A) : List A := steps.drop (index.getD 0)

end FispactAnalysis

namespace McnpOutput
open Py
variable {F : Type}

/-- "True" or "False" behind a label. -/
def flagText (label : Str) (b : Bool) : Str := label ++ (if b then p!"True" else p!"False")

/-- mcnp_output_reader.py:72-89, 101-120, 130-145, 155-170 `__str__` of the tally classes; `num` is the text of a number. The tallies of other
    types have no description of their own (`none`). -/
def tallyText (num : F → Str) (t : Tally F) : Option Str :=
  let head := [p!"Tally number: " ++ intStr t.number, p!"Particle: " ++ t.particle]
  let bins := [flagText p!"Energy Bins: " t.eng.isSome, flagText p!"Time Bins: " t.times.isSome]
  if t.tallyType = '5' then
    let c := fun f : F × F × F → F => (t.pos.map (fun p => num (f p))).getD p!"None"
    some (join p!"\n" (head ++ [p!"X: " ++ c (·.1), p!"Y: " ++ c (·.2.1), p!"Z: " ++ c (·.2.2)] ++ bins))
  else if t.tallyType = '4' ∨ t.tallyType = '6' ∨ t.tallyType = '8' then
    some (join p!"\n" (head ++ [p!"Number of Cells: " ++ natStr t.cells.length] ++ bins))
  else if t.tallyType = '1' ∨ t.tallyType = '2' then
    some (join p!"\n" (head ++ [p!"Number of Surfaces: " ++ natStr t.surfaces.length] ++ bins ++ [flagText p!"Angular Bins: " t.angBins.isSome]))
  else none

/-- A table, in which `none` is a missing value, or the unchanged data. -/
inductive Df (A : Type)
  | table (index columns : List Str) (rows : List (List (Option A)))
  | raw (rows : List (List A))
  deriving DecidableEq, Repr

/-- mcnp_output_reader.py:468-476 `convert_energy_time_data_to_df`. `pd.DataFrame` of a list of rows gives a table of missing values if
    there are no rows at all. Otherwise it raises ValueError, so that the data are returned, unless the longest row has as many entries
    as there are columns and there are as many rows as index labels (the latter is not checked without columns); shorter rows are filled
    with missing values. -/
def convertDf {A : Type} (data : List (List A)) (times energies : List Str) : Df A :=
  let w := (data.map List.length).foldl max 0
  if data = [] then .table times energies (times.map (fun _ => energies.map (fun _ => none)))
  else if w ≠ energies.length then .raw data
  else if w = 0 then .table times energies (times.map (fun _ => []))
  else if data.length ≠ times.length then .raw data
  else .table times energies (data.map (fun r => r.map some ++ List.replicate (w - r.length) none))

end McnpOutput
