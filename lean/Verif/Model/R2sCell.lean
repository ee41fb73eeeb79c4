/-
Model of /repo/r2s_cell.py.

`json` is Python's `json.load` on the text of a file (any function: it may raise anything).  Paths are compared as texts, so that
differently written paths to the same file are different files.  Messages and `print` are left out.  The functions that only
return 0 (`cleanup_fispact_run`, `run_fispact`, lines 176-194) are in Model/Misc2.lean.
-/
import Verif.Model.McnpInput
import Verif.Model.McnpOutput

namespace R2sCell
open Py NeutUtilities

variable {F : Type}

/-- A value of a JSON file. -/
inductive Json (F : Type)
  | null
  | bool (b : Bool)
  | int (n : Int)
  | float (x : F)
  | str (s : Str)
  | arr (xs : List (Json F))
  | obj (d : List (Str × Json F))

/-- r2s_cell.py:15-27 `usr_inputs`. The constructor sets `mc_ouput` (sic), which nothing reads; the attribute `mc_output` is missing
    (`none`) until it is assigned. -/
structure Inputs (F : Type) where
  mcInput : Json F := .null
  mcOutput : Option (Json F) := none
  mcGammaInput : Json F := .null
  mcCode : Json F := .str p!"MCNP"
  filesFile : Json F := .null
  fispactTemplate : Json F := .null
  tallies : Json F := .null
  cells : Json F := .null
  fispactPath : Json F := .null
  coolingStep : Json F := .int 1

/-- `Path(p).exists()`; the empty path is the current directory. -/
def pathExists (fs : FS) (p : Str) : Bool := p.isEmpty || (fs.node p).isSome

/-- `Path(v)`: a text, otherwise TypeError. -/
def asPath : Json F → Except Err Str
  | .str s => .ok s
  | _ => .error .TypeError

/-- r2s_cell.py:40-61, one key. -/
def assign (inp : Inputs F) (key : Str) (v : Json F) : Except Err (Inputs F) :=
  if key = p!"mc_input" then .ok { inp with mcInput := v }
  else if key = p!"mc_output" then .ok { inp with mcOutput := some v }
  else if key = p!"mc_gamma_input" then .ok { inp with mcGammaInput := v }
  else if key = p!"mc_code" then .ok { inp with mcCode := v }
  else if key = p!"files_file" then .ok { inp with filesFile := v }
  else if key = p!"fispact_template" then .ok { inp with fispactTemplate := v }
  else if key = p!"tallies" then .ok { inp with tallies := v }
  else if key = p!"cells" then .ok { inp with cells := v }
  else if key = p!"fispact_path" then .ok { inp with fispactPath := v }
  else if key = p!"cooling_step" then .ok { inp with coolingStep := v }
  else .error .ValueError

/-- r2s_cell.py:38-63: the loop over the keys. Only dictionaries have keys. -/
def fromConfig : Json F → Except Err (Inputs F)
  | .obj d => d.foldlM (fun inp e => assign inp e.1 e.2) {}
  | _ => .error .AttributeError

/-- r2s_cell.py:30-63 `read_config`. -/
def readConfig (json : Str → Except Err (Json F)) (path : Str) : PyM (Inputs F) := do
  let fs ← PyM.getFS
  if pathExists fs path then do
    let text ← readText path
    let c ← PyM.lift (json text)
    PyM.lift (fromConfig c)
  else PyM.raise .FileNotFoundError

/-- r2s_cell.py:71-78: the test of a tally. -/
def wanted (particle : Str) (tallies : Option (List Int)) (t : McnpOutput.Tally F) : Bool :=
  decide (t.tallyType = '4') && decide (t.particle = particle) &&
    match tallies with
    | none => true
    | some ns => ns.contains t.number

/-- r2s_cell.py:66-82 `get_cells_mcnp`. -/
def getCellsMcnp (out : McnpOutput.Output F) (particle : Str := p!"neutrons") (tallies : Option (List Int) := none) :
    Except Err (List Int × List (McnpOutput.Tally F)) := do
  let r := out.tallyData.foldl (fun (acc : List Str × List (McnpOutput.Tally F)) t =>
    if wanted particle tallies t then (acc.1 ++ t.cells, acc.2 ++ [t]) else acc) ([], [])
  let ns ← r.1.mapM (fun s => orErr .ValueError (pyInt s))
  pure (ns, r.2)

/-- A row of the table of r2s_cell.py:95-103. -/
structure Row (F : Type) where
  number : Int
  material : Int
  density : Option F
  deriving DecidableEq, Repr

/-- r2s_cell.py:85-105 `get_cell_data`; `none` is None, returned for an empty list of cells. -/
def getCellData (cells : Dict Int (McnpInput.Cell F)) (ns : List Int) : Except Err (Option (List (Row F))) := do
  let cs ← ns.mapM (fun n => if McnpInput.checkCellExists n cells then orErr .AttributeError (McnpInput.getCell n cells) else .error .ValueError)
  let rows := cs.map (fun c => (⟨c.number, c.mat, c.density⟩ : Row F))
  pure (if rows.isEmpty then none else some rows)

/-- r2s_cell.py:110-118. -/
def collapseLines (groups : Int) : List Str :=
  [p!"<< -----collapse cross section data----- >>", p!"CLOBBER", p!"GETXS 1 " ++ intStr groups, p!"FISPACT", p!"* COLLAPSE", p!"END",
   p!"* END OF RUN"]

/-- r2s_cell.py:108-120 `write_collapse`. -/
def writeCollapse (path : Str) (groups : Int) : PyM Unit := writeLines path (collapseLines groups)

/-- r2s_cell.py:125-132. -/
def arrayLines : List Str :=
  [p!"<< -----condense decay data----- >>", p!"CLOBBER", p!"SPEK", p!"GETDECAY 1", p!"FISPACT", p!"* CONDENSE", p!"END", p!"* END OF RUN"]

/-- r2s_cell.py:123-134 `write_array`. -/
def writeArray (path : Str) : PyM Unit := writeLines path arrayLines

/-- r2s_cell.py:137-141 `write_fispact`. -/
def writeFispact (path : Str) : PyM Unit := writeLines path []

/-- r2s_cell.py:152-156 `write_fluxes`. -/
def writeFluxes (path : Str) : PyM Unit := writeLines path []

/-- `shutil.copyfile`: the bytes are copied; a directory, the same file twice or an unwritable target raise OSError. -/
def copyfile (src dst : Str) : PyM Unit := do
  let fs ← PyM.getFS
  match fs.node src with
  | some (.file c) => if src = dst then PyM.raise .OSError else writeText dst c
  | some .dir => PyM.raise .OSError
  | none => PyM.raise .FileNotFoundError

/-- r2s_cell.py:144-149 `copy_files_file`. -/
def copyFilesFile (inp : Inputs F) (path : Str) : PyM Unit := do
  let src ← PyM.lift (asPath inp.filesFile)
  let fs ← PyM.getFS
  if pathExists fs src then copyfile src (path ++ p!"/FILES") else PyM.raise .FileNotFoundError

/-- r2s_cell.py:159-164 `check_files_file`. -/
def checkFilesFile (path : Str) : PyM Unit := do
  let fs ← PyM.getFS
  if pathExists fs path then pure () else PyM.raise .FileNotFoundError

/-- r2s_cell.py:167-173 `check_fispact_errors`: the lines are read and not looked at. -/
def checkFispactErrors (path : Str) : PyM Int := do
  let fs ← PyM.getFS
  if pathExists fs path then do
    let _ ← getLines path
    pure 0
  else PyM.raise .FileNotFoundError

/-- `os.mkdir`. -/
def mkdir (p : Str) : PyM Unit := fun fs =>
  if (fs.node p).isNone && fs.perm p && fs.parentOk p then (.ok (), fs.put p .dir) else (.error .OSError, fs)

/-- `os.makedirs` for a path without a trailing `/`: missing parents first; `fuel` bounds their number. -/
def makedirs : Nat → Str → PyM Unit
  | 0, _ => PyM.raise .OSError
  | fuel + 1, p => do
    let fs ← PyM.getFS
    match parent p with
    | some d => (if !d.isEmpty && (fs.node d).isNone then makedirs fuel d else pure ()) >>= fun _ => mkdir p
    | none => mkdir p

/-- r2s_cell.py:199-202. -/
def ensureDir (path : Str) : PyM Unit := fun fs =>
  if (fs.node path).isNone then makedirs (path.length + 1) path fs else (.ok (), fs)

/-- r2s_cell.py:197-214 `fispact_setup` (the arguments `cell_data` of the writers are not used). -/
def fispactSetup (path : Str) (inp : Inputs F) : PyM Unit := do
  ensureDir path
  writeCollapse (path ++ p!"/collapse.i") 175
  writeArray (path ++ p!"/array.i")
  writeFispact (path ++ p!"/" ++ path ++ p!".i")
  copyFilesFile inp path
  checkFilesFile (path ++ p!"/FILES")
  writeFluxes (path ++ p!"/fluxes")

section
variable [LinearOrder F] (flt : Str → Option F) (minusOne : F) (enum : List Str → List Str)

/-- r2s_cell.py:217-228 `read_data_from_mcnp_output`. -/
def readDataFromMcnpOutput (inp : Inputs F) : PyM (List Int × List (McnpOutput.Tally F)) := do
  let v ← PyM.lift (orErr .AttributeError inp.mcOutput)
  let path ← PyM.lift (asPath v)
  let fs ← PyM.getFS
  if pathExists fs path then do
    let out ← McnpOutput.readOutputFile flt minusOne enum path
    if out.fatal then PyM.raise .ValueError else PyM.lift (getCellsMcnp out)
  else PyM.raise .FileNotFoundError

/-- r2s_cell.py:231-246 `read_data_from_mcnp_input`; `enumI` is the order in which Python lists a set of integers. For no cells
    line 241 subscripts None. -/
def readDataFromMcnpInput (enumI : List Int → List Int) (inp : Inputs F) (ns : List Int) : PyM (List (Row F) × List (McnpInput.Material F)) := do
  let path ← PyM.lift (asPath inp.mcInput)
  let fs ← PyM.getFS
  if pathExists fs path then do
    let mc ← McnpInput.readMcnpInput flt path
    let cd ← PyM.lift (getCellData mc.cells ns)
    let rows ← PyM.lift (orErr .TypeError cd)
    let mats ← PyM.lift ((enumI (rows.map (·.material)).dedup).mapM (fun n => McnpInput.readMaterialLines flt n mc.dataBlock))
    pure (rows, mats)
  else PyM.raise .FileNotFoundError

/-- r2s_cell.py:255 and 262: the test of the code name. -/
def isMcnp : Json F → Except Err Bool
  | .str s => .ok (decide (upper s = p!"MCNP"))
  | _ => .error .AttributeError

/-- r2s_cell.py:270-276: the loop over the cells. -/
def setupCells (inp : Inputs F) : List Int → PyM Unit
  | [] => pure ()
  | n :: ns => do
    fispactSetup (p!"cell" ++ intStr n) inp
    setupCells inp ns

/-- r2s_cell.py:249-276 `main`. -/
def main (json : Str → Except Err (Json F)) (enumI : List Int → List Int) (config : Str) : PyM Unit := do
  let inp ← readConfig json config
  let m ← PyM.lift (isMcnp inp.mcCode)
  if m then do
    let r ← readDataFromMcnpOutput flt minusOne enum inp
    let _ ← readDataFromMcnpInput flt enumI inp r.1
    setupCells inp r.1
  else PyM.raise .NotImplementedError

end

end R2sCell
