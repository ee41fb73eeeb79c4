/- fispact_fluxes_writer.py. Numbers are elements of a linear order / field; NaN is `none` where an energy may be NaN.
   Arguments that are not sequences at all (rejected with ValueError at the top of each function) are `none`. -/
import Verif.Model.NeutUtilities
import Verif.Model.GroupTables

namespace FluxesWriter
open Py NeutUtilities

/-- fispact_fluxes_writer.py:13-43 `get_group_pos` after the conversion to floats (numpy comparison and `np.where` are
    element-wise). A NaN energy makes every comparison false. Boundaries are numbers. -/
def getGroupPos {K : Type} [LinearOrder K] (groups : Option (List K)) (energy : Option K) : Except Err Int :=
  match groups with
  | none => .error .ValueError
  | some [] => .error .ValueError
  | some (g :: gs) =>
    match energy with
    | none => .ok (-1)
    | some e =>
      let n : Int := (gs.length + 1 : Nat)
      if e > g then .ok 0
      else if e ≤ (g :: gs).getLast (by simp) then .ok (n - 2)
      else
        match ((g :: gs).zip gs).findIdx? (fun p => decide (p.1 ≥ e) && decide (e > p.2)) with
        | some i => .ok (i : Int)
        | none => .ok (-1)

/-- fispact_fluxes_writer.py:46-203 `get_group_struct`; `none` is the returned `False`. The argument is `None` when the
    option is missing. -/
def getGroupStruct (gs : Option Str) : Option (List ℚ) :=
  if gs = some p!"709" then some gs709
  else if gs = some p!"162" then some gs162
  else none

/-- fispact_fluxes_writer.py:206-230 `create_fluxes_data`; the position is an integer. -/
def createFluxesData {K A : Type} [Zero K] [One K] (groups : Option (List A)) (epos : Int) : Except Err (List K) :=
  match groups with
  | none => .error .ValueError
  | some g =>
    if ¬ (0 ≤ epos ∧ epos < (g.length : Int)) then .error .ValueError
    else .ok (((List.replicate (g.length + 1) 0).set epos.toNat 1).set g.length 1)

/-- fispact_fluxes_writer.py:233-252 `convert_mcnp_spect_to_fispact_fluxes_format`. -/
def convertMcnpSpect {K : Type} [LinearOrder K] [One K] (spect : Option (List K)) : Except Err (List K) :=
  match spect with
  | none => .error .ValueError
  | some [] => .error .ValueError
  | some (x :: xs) =>
    if ¬ (((x :: xs).zip xs).all (fun p => decide (p.1 ≤ p.2))) then .error .ValueError
    else .ok ((x :: xs).reverse ++ [1])

/-- fispact_fluxes_writer.py:255-270 `check_upper_bound`. -/
def checkUpperBound {K : Type} [LinearOrder K] (groups : Option (List K)) (energy : Option K) : Except Err Bool :=
  match groups with
  | none => .error .ValueError
  | some [] => .error .ValueError
  | some (g :: _) =>
    match energy with
    | none => .ok true
    | some e => if e > g then .ok false else .ok true

/-- fispact_fluxes_writer.py:273-282 `write_fluxes_file`; `fmt` is numpy's text of a number. -/
def writeFluxesFile {K : Type} (fmt : K → Str) (opath : Str) (data : Option (List K)) : PyM Unit :=
  match data with
  | none => PyM.raise .ValueError
  | some [] => PyM.raise .ValueError
  | some d => fun fs =>
    match writeLines opath (d.map fmt) fs with
    | (.ok u, fs') => (.ok u, fs')
    | (.error _, fs') => (.error .OSError, fs')

/-- fispact_fluxes_writer.py:285-293 `check_group_struct`. -/
def checkGroupStruct (gs : Option Str) : Bool := if gs ∉ [some p!"709", some p!"162"] then false else true

/-- fispact_fluxes_writer.py:296-311, the command line program; `flt` is `float` of a string (`none` = ValueError) and its
    value is `none` for NaN. A missing option is `none`; argparse rejects group names that are not in `choices` before the
    program starts (SystemExit 2, not modelled: such a call does nothing). -/
def main (flt : Str → Option (Option ℚ)) (fmt : ℚ → Str) (output : Str) (group energy : Option Str) : PyM Unit := do
  let _ := checkGroupStruct group
  let gs := getGroupStruct group
  let pos ← PyM.lift (match gs with
    | none => .error .ValueError
    | some g => match energy with
      | none => .error .ValueError
      | some s => match flt s with
        | none => .error .ValueError
        | some e => getGroupPos (some g) e)
  let data ← PyM.lift (createFluxesData gs pos)
  writeFluxesFile fmt output (some data)

end FluxesWriter
