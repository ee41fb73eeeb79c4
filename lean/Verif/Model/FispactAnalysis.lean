/- fispact_analysis.py, without the drawing itself. Exact numbers; NaN is `none`. -/
import Verif.Model.NeutUtilities
import Verif.Model.Constants
import Mathlib.Algebra.Order.Field.Basic

namespace FispactAnalysis
open Py NeutUtilities
variable {K : Type} [Field K] [LinearOrder K]

/-- An entry of the `A` column: an integer, or a text (this is what fispact_output_reader.py:550-551 stores). -/
inductive AVal
  | int (n : Nat)
  | str (s : Str)
  deriving DecidableEq

/-- A row of the inventory table (the columns used here). -/
structure Row (K : Type) where
  element : Str
  nuclide : Str
  a : AVal
  act : Option K
  gEnergy : Option K
  bEnergy : Option K
  aEnergy : Option K
  atoms : Option K

/-- An argument that is a table (with its column names) or something else. -/
inductive Arg (K : Type)
  | frame (cols : List Str) (rows : List (Row K))
  | other

/-- `x > 0.0` on a float that may be NaN. -/
def pos (x : Option K) : Bool := match x with
  | some v => decide (0 < v)
  | none => false

/-- fispact_analysis.py:13-24 `reduce_to_non_zero`. -/
def reduceToNonZero {T : Type} (values : List K) (times : List T) : Except Err (List K × List T) :=
  if values.length ≠ times.length then .error .ValueError
  else match findFirstZero values with
    | some z => .ok (values.take z, times.take z)
    | none => .ok (values, times)

/-- fispact_analysis.py:27-33 `is_nuc_present`. -/
def isNucPresent (inv : Arg K) (nuc : Str) : Except Err Bool :=
  match inv with
  | .other => .error .ValueError
  | .frame cols rows =>
    if p!"nuclide" ∉ cols then .error .ValueError
    else .ok (decide (nuc ∈ (rows.map (·.nuclide)).dedup))

/-- Common shape of the four filters below. -/
def filterBy (col : Str) (get : Row K → Option K) (inv : Arg K) : Except Err (List (Row K)) :=
  match inv with
  | .other => .error .ValueError
  | .frame cols rows => if col ∉ cols then .error .ValueError else .ok (rows.filter (fun r => pos (get r)))

/-- fispact_analysis.py:36-42 `remove_stable`. -/
def removeStable (inv : Arg K) : Except Err (List (Row K)) := filterBy p!"act" (·.act) inv

/-- fispact_analysis.py:45-51 `filter_emits_gamma`. -/
def filterEmitsGamma (inv : Arg K) : Except Err (List (Row K)) := filterBy p!"g_energy" (·.gEnergy) inv

/-- fispact_analysis.py:54-60 `filter_emits_beta`. -/
def filterEmitsBeta (inv : Arg K) : Except Err (List (Row K)) := filterBy p!"b_energy" (·.bEnergy) inv

/-- fispact_analysis.py:63-69 `filter_emits_alpha`. -/
def filterEmitsAlpha (inv : Arg K) : Except Err (List (Row K)) := filterBy p!"a_energy" (·.aEnergy) inv

/-- A row of the table returned by `output_mcnp_mat`; `none` is NaN (or infinite for `norm`). -/
structure MatRow (K : Type) where
  zaid : Option Nat
  norm : Option K
  output : Str
  deriving DecidableEq

/-- fispact_analysis.py:72-89 `output_mcnp_mat`. `fmtZ` and `fmtN` are the texts of the two numbers. The sum skips NaN.
    A text in the `A` column cannot be added to a number (TypeError). The argument `lib` is not used by the code.
    The three columns added to the argument as a side effect are in `outputMcnpMatOn`. For an inventory without rows the result
    is that of pandas from 2.0 on. -/
def outputMcnpMat (fmtZ : Option Nat → Str) (fmtN : Option K → Str) (inv : List (Row K)) (_lib : Str) :
    Except Err (List (MatRow K)) :=
  let total : K := (inv.filterMap (·.atoms)).sum
  inv.mapM (fun r =>
    match r.a with
    | .str _ => .error .TypeError
    | .int a =>
      let z := (Constants.zDict.get r.element).map (fun z => z * 1000 + a)
      let n := if total = 0 then none else r.atoms.map (fun x => x / total)
      .ok ⟨z, n, p!"     " ++ fmtZ z ++ p!"  " ++ fmtN n⟩)

/-- fispact_analysis.py:92-107 `check_time_units`. -/
def checkTimeUnits (t : Str) : Str :=
  if lower t = p!"s" ∨ lower t = p!"seconds" then p!"time_secs"
  else if lower t = p!"d" ∨ lower t = p!"days" then p!"time_days"
  else if lower t = p!"h" ∨ lower t = p!"hours" ∨ lower t = p!"hrs" then p!"time_hours"
  else if lower t = p!"y" ∨ lower t = p!"yrs" ∨ lower t = p!"years" then p!"time_years"
  else t

/-- The limits table: the columns `Nuclide` and `OOS Level`. -/
abbrev Limits (K : Type) := List (Str × Option K)

/-- `a > b` on floats that may be NaN. -/
def gt (a b : Option K) : Bool := match a, b with
  | some x, some y => decide (y < x)
  | _, _ => false

/-- fispact_analysis.py:122-139 `check_nuclide_oos`. A zero mass is a ZeroDivisionError (true for Python numbers). -/
def checkNuclideOos (nuclide : Str) (act : Option K) (oos : Limits K) (mass : K) : Except Err Bool :=
  let vals := (oos.filter (fun r => r.1 = nuclide)).map (·.2)
  let level : Except Err (Option K) := match vals with
    | v :: _ => .ok v
    | [] => match (oos.filter (fun r => r.1 = p!"Other")).map (·.2) with
      | v :: _ => .ok v
      | [] => .error .IndexError
  match level with
  | .error e => .error e
  | .ok l =>
    if mass = 0 then .error .ZeroDivisionError
    else if gt (act.map (· / mass)) l then .ok false else .ok true

/-- `inv.apply(lambda row: check_nuclide_oos(...), axis=1)` at fispact_analysis.py:150 and 168. What pandas returns for a
    table without rows depends on its version: `onEmpty`, a list of results or an exception. The table has the column `nuclide` (without it
    KeyError is raised for the first row). -/
def applyOos (onEmpty : Except Err Unit) (oos : Limits K) (rows : List (Row K)) : Except Err (List Bool) :=
  match rows with
  | [] => onEmpty.map (fun _ => [])
  | r :: rs => (r :: rs).mapM (fun r => checkNuclideOos r.nuclide r.act oos 1000)

/-- fispact_analysis.py:142-160 `check_inventory_oos`; `readOOS` is `read_OOS` (lines 110-119: pandas reads the file). -/
def checkInventoryOos (onEmpty : Except Err Unit) (readOOS : Str → Except Err (Limits K)) (inv : Arg K) (path : Str) :
    Except Err Bool :=
  match readOOS path with
  | .error e => .error e
  | .ok oos => match removeStable inv with
    | .error e => .error e
    | .ok rows => match applyOos onEmpty oos rows with
      | .error e => .error e
      | .ok res => if ¬ res.all id then .ok false else .ok true

/-- fispact_analysis.py:163-170 `get_not_oos_nuclides` (the added column `oos_result` is not modelled). -/
def getNotOosNuclides (onEmpty : Except Err Unit) (readOOS : Str → Except Err (Limits K)) (inv : Arg K) (path : Str) :
    Except Err (List (Row K)) :=
  match readOOS path with
  | .error e => .error e
  | .ok oos => match removeStable inv with
    | .error e => .error e
    | .ok rows => match applyOos onEmpty oos rows with
      | .error e => .error e
      | .ok res => .ok (((rows.zip res).filter (fun p => !p.2)).map (·.1))

/-- The default of `oos_path`. -/
def defaultOos : Str := p!"data/t1.txt"

/-- fispact_analysis.py:173-181 `find_when_oos`; `none` is Python's `None`. The argument `oos_path` is not passed on. -/
def findWhenOos (onEmpty : Except Err Unit) (readOOS : Str → Except Err (Limits K)) (_path : Str) :
    List (Nat × Arg K) → Except Err (Option Nat)
  | [] => .ok none
  | (n, inv) :: rest =>
    match checkInventoryOos onEmpty readOOS inv defaultOos with
    | .error e => .error e
    | .ok true => .ok (some n)
    | .ok false => findWhenOos onEmpty readOOS _path rest

/-- fispact_analysis.py:336-346 in `plot_nuc_cont`: the plotted values of one nuclide, one per time step. -/
def nucValues (get : Row K → K) (nuc : Str) (steps : List (Arg K)) : Except Err (List K) :=
  steps.mapM (fun inv =>
    match isNucPresent inv nuc with
    | .error e => .error e
    | .ok false => .ok 0
    | .ok true => match inv with
      | .other => .error .ValueError
      | .frame _ rows => match rows.filter (fun r => r.nuclide = nuc) with
        | r :: _ => .ok (get r)
        | [] => .error .IndexError)

/-- The array filled in `plot_nuc_chart`. -/
abbrev Chart (K : Type) := Nat → Nat → K

/-- fispact_analysis.py:372-427 `plot_nuc_chart`: the array `data` (294 x 118) that is drawn. Mass numbers are natural
    numbers, read from the column by `num` (`pd.to_numeric` with NaN replaced by 0). -/
def nucChart (num : AVal → Nat) (get : Row K → K) (inv : List (Row K)) (arange zrange : Option (Nat × Nat)) :
    Except Err (Chart K) :=
  let aMin := (arange.getD (0, 294)).1
  let aMax := (arange.getD (0, 294)).2
  let zMin := (zrange.getD (0, 118)).1
  let zMax := (zrange.getD (0, 118)).2
  inv.foldlM (fun (d : Chart K) r =>
    match Constants.zDict.get r.element with
    | none => .ok d
    | some z =>
      if aMin ≤ num r.a ∧ num r.a < aMax ∧ zMin ≤ z ∧ z < zMax then
        if num r.a < 294 ∧ z < 118 then .ok (fun a' z' => if a' = num r.a ∧ z' = z then get r else d a' z')
        else .error .IndexError
      else .ok d) (fun _ _ => 0)

end FispactAnalysis
