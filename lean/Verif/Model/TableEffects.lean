/- fispact_analysis.py: what `output_mcnp_mat` does to the table it is given. Exact numbers. -/
import Verif.Model.FispactAnalysis

namespace FispactAnalysis
open Py NeutUtilities
variable {K : Type} [Field K] [LinearOrder K]

/-- An entry of a table. -/
inductive TCell (K : Type)
  | num (x : K)
  | nan
  | str (s : Str)
  deriving DecidableEq

/-- A table: columns of equal length under their names. -/
abbrev Table (K : Type) := Dict Str (List (TCell K))

/-- `.map(zdict)` for one entry: what is no key becomes NaN. -/
def mapZ : TCell K → TCell K
  | .str s => match Constants.zDict.get s with
    | some z => .num z
    | none => .nan
  | _ => .nan

/-- `z * 1000 + a` for one row; a text cannot be added to a number. -/
def zaidCell (z a : TCell K) : Except Err (TCell K) :=
  match z, a with
  | .num z, .num a => .ok (.num (z * 1000 + a))
  | _, .str _ => .error .TypeError
  | .str _, _ => .error .TypeError
  | _, _ => .ok .nan

/-- `.sum()` leaves NaN out. -/
def cellSum (col : List (TCell K)) : K := (col.filterMap (fun c => match c with | .num x => some x | _ => none)).sum

/-- `col / col.sum()` for one entry; a total of 0 gives NaN or an infinity, both `nan` here, and a text cannot be divided. -/
def normCell (total : K) : TCell K → Except Err (TCell K)
  | .str _ => .error .TypeError
  | .nan => .ok .nan
  | .num x => .ok (if total = 0 then .nan else .num (x / total))

/-- fispact_analysis.py:72-89 `output_mcnp_mat` on a table: the columns ZAID and atoms_norm of the result, and the argument afterwards.
    The third column of the result is the text of `outputMcnpMat`. -/
def outputMcnpMatOn (inv : Table K) : Except Err (List (TCell K) × List (TCell K)) × Table K :=
  match inv.get p!"element" with
  | none => (.error .KeyError, inv)
  | some es =>
    let zs := es.map mapZ
    let inv1 := inv.set p!"Z" zs
    match inv1.get p!"A" with
    | none => (.error .KeyError, inv1)
    | some as =>
      match (zs.zip as).mapM (fun p => zaidCell p.1 p.2) with
      | .error e => (.error e, inv1)
      | .ok zaids =>
        let inv2 := inv1.set p!"ZAID" zaids
        match inv2.get p!"atoms" with
        | none => (.error .KeyError, inv2)
        | some ns =>
          match ns.mapM (normCell (cellSum ns)) with
          | .error e => (.error e, inv2)
          | .ok norm => (.ok (zaids, norm), inv2.set p!"atoms_norm" norm)

end FispactAnalysis
