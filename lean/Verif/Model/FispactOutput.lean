/-
Model of fispact_output_reader.py (lines 18-595).

Simplifications. `flt` is an arbitrary float parser; values are elements of an arbitrary ordered field `K`, so NaN and infinities
are not represented and arithmetic is exact. Arguments checked with `isinstance` are always lists here. DataFrames are lists of
records; columns that the code always leaves empty (act_un, dr_un, heat_un, ing_un, inhal_un) are left out. Exceptions are
modelled by their class only.
-/
import Verif.Model.NeutUtilities
import Mathlib.Algebra.Order.Field.Basic
import Mathlib.Algebra.Order.Ring.Rat
import Mathlib.Algebra.Field.Rat

namespace FispactOutput
open Py NeutUtilities
variable {K : Type} [Field K] [LinearOrder K] [IsStrictOrderedRing K]

/-- `float(text)` as used in the readers: ValueError when the text is not a number. -/
def fltE (flt : Str → Option K) (s : Str) : Except Err K := orErr .ValueError (flt s)

/-- fispact_output_reader.py:220-233 `check_fisp_version`. The value found by `next` contains the banner and is therefore truthy. -/
def checkFispVersion (data : List Str) : Str :=
  if ((data.take 50).find? (fun s => hasSub p!"FISPACT VERSION 07.0/0" s)).isSome then p!"FISP07" else p!"FISPACT-II"

/-- fispact_output_reader.py:236-242 `isFisII`. -/
def isFisII (data : List Str) : Bool := checkFispVersion data == p!"FISPACT-II"

/-- fispact_output_reader.py:245-260 `find_summary_block`: `list.index` raises ValueError, which is raised again with another
    text; `next` without default raises StopIteration, which is not caught. -/
def findSummaryBlock (data : List Str) (fisII : Bool) : Except Err (Nat × Nat) := do
  let coolStr := if fisII then p!" -----Irradiation Phase-----" else p!"  COOLING STEPS"
  let s ← orErr .ValueError (data.findIdx? (fun l => l == coolStr))
  let e ← orErr .StopIteration (data.findIdx? (fun l => hasSub p!"0 Mass" l))
  pure (s, e)

/-- Argument of `add_time_columns`: a DataFrame (columns of numbers by name) or another object. -/
inductive TArg (K : Type)
  | frame (cols : Dict Str (List K))
  | other

/-- fispact_output_reader.py:263-288 `add_time_columns`; the base column is looked up again for every new column. -/
def addTimeColumns (df : TArg K) (base : Str) : Except Err (Dict Str (List K)) :=
  match df with
  | .other => .error .ValueError
  | .frame cols => do
    if (cols.get base).isNone then .error .ValueError
    let c ← orErr .KeyError (cols.get base)
    let cols := cols.set p!"time_days" (c.map (· * 365.4))
    let c ← orErr .KeyError (cols.get base)
    let cols := cols.set p!"time_hours" (c.map (· * (365.4 * 24)))
    let c ← orErr .KeyError (cols.get base)
    pure (cols.set p!"time_secs" (c.map (· * (365.4 * 24 * 3600))))

/-- A row of the summary table. -/
structure SumRow (K : Type) where
  time : K
  act : K
  dose : K
  heat : K
  ing : K
  inhal : K
  trit : K
  cooling : Bool
  days : K
  hours : K
  secs : K
  deriving DecidableEq, Repr

/-- State of the loop of `read_summary_data`: rows so far, `to` (here `off`), `is_cooling`. The unit columns are computed here together
    with the row; in the code they are added by `add_time_columns` with base column time_years. -/
structure SumSt (K : Type) where
  rows : List (SumRow K)
  off : K
  cool : Bool

/-- fispact_output_reader.py:316-333, a line of a FISPACT-II summary. -/
def sumStep (flt : Str → Option K) (st : SumSt K) (line : Str) : Except Err (SumSt K) := do
  let c ← orErr .IndexError line[1]?
  if c = '-' then
    let r ← orErr .IndexError st.rows.getLast?
    pure { st with off := r.time, cool := true }
  else
    let t ← fltE flt (slice line 24 32)
    let a ← fltE flt (slice line 35 43)
    let d ← fltE flt (slice line 58 66)
    let h ← fltE flt (slice line 81 89)
    let i ← fltE flt (slice line 104 112)
    let n ← fltE flt (slice line 127 135)
    let r ← fltE flt (slice line 150 158)
    let y := t + st.off
    pure { st with rows := st.rows ++ [⟨y, a, d, h, i, n, r, st.cool, y * 365.4, y * (365.4 * 24), y * (365.4 * 24 * 3600)⟩] }

/-- fispact_output_reader.py:291-365 `read_summary_data`. For FISPACT 07 the columns are texts, and multiplying the time
    column with a float raises TypeError as soon as there is a row. -/
def readSummaryData (flt : Str → Option K) (data : List Str) : Except Err (List (SumRow K)) := do
  let fisII := isFisII data
  let (s, e) ← findSummaryBlock data fisII
  let lines := slice data (s + 1) e
  if fisII then
    let st ← lines.foldlM (sumStep flt) ⟨[], 0, false⟩
    pure st.rows
  else if lines = [] then pure [] else .error .TypeError

/-- fispact_output_reader.py:368-373 `retrieve_cooling_data`, on rows with their index labels. -/
def retrieveCoolingData (t : List (Nat × SumRow K)) : List (Nat × SumRow K) := t.filter (fun r => r.2.cooling)

/-- fispact_output_reader.py:568-576 `find_first_cooling_index`. -/
def findFirstCoolingIndex (t : List (Nat × SumRow K)) : Option Nat :=
  match t.filter (fun r => r.2.cooling) with
  | [] => none
  | r :: _ => some r.1

/-- Row of the upper half of the dominant nuclide table. -/
structure DomTop (K : Type) where
  actNuc : Str
  act : K
  actPercent : K
  heatNuc : Str
  heat : K
  heatPercent : K
  drNuc : Str
  dr : K
  drPercent : K
  deriving DecidableEq, Repr

/-- Row of the lower half. -/
structure DomLow (K : Type) where
  gheatNuc : Str
  gheat : K
  gheatPercent : K
  bheatNuc : Str
  bheat : K
  bheatPercent : K
  deriving DecidableEq, Repr

/-- fispact_output_reader.py:404-416, a line of the upper half. -/
def domTopRow (flt : Str → Option K) (l : Str) : Except Err (DomTop K) := do
  let a ← fltE flt (slice l 15 25)
  let ap ← fltE flt (slice l 27 36)
  let h ← fltE flt (slice l 46 56)
  let hp ← fltE flt (slice l 58 67)
  let d ← fltE flt (slice l 77 87)
  let dp ← fltE flt (slice l 89 98)
  pure ⟨replace (slice l 7 13) p!" " [], a, ap, replace (slice l 38 44) p!" " [], h, hp, replace (slice l 69 75) p!" " [], d, dp⟩

/-- fispact_output_reader.py:427-434, a line of the lower half. -/
def domLowRow (flt : Str → Option K) (l : Str) : Except Err (DomLow K) := do
  let a ← fltE flt (slice l 15 25)
  let ap ← fltE flt (slice l 27 36)
  let h ← fltE flt (slice l 46 56)
  let hp ← fltE flt (slice l 58 67)
  pure ⟨replace (slice l 7 13) p!" " [], a, ap, replace (slice l 38 44) p!" " [], h, hp⟩

/-- fispact_output_reader.py:425-436, the loop over the lower half; `ll[0]` is outside of the `try`. -/
def domLow (flt : Str → Option K) : List Str → Except Err (List (DomLow K))
  | [] => .ok []
  | l :: rest => do
    let c ← orErr .IndexError l[0]?
    if c = '1' then pure []
    else
      let r ← domLowRow flt l
      let rs ← domLow flt rest
      pure (r :: rs)

/-- fispact_output_reader.py:376-454 `parse_dominant`. The halves are returned as two lists; assigning columns of another length
    to a frame that has rows raises ValueError. -/
def parseDominant (flt : Str → Option K) (data : List Str) : Except Err (List (DomTop K) × List (DomLow K)) := do
  if data = [] then .error .ValueError
  let p1 ← findInd data p!"DOMINANT NUCLIDES"
  let data := data.drop p1
  let d1 ← findInd data p!"(Bq) "
  let d2 ← findInd data p!"GAMMA HEAT"
  let top ← (sliceI data (d1 + 2 : Nat) ((d2 : Int) - 1)).mapM (domTopRow flt)
  let low ← domLow flt (data.drop (d2 + 3))
  if top ≠ [] ∧ low.length ≠ top.length then .error .ValueError
  pure (top, low)

/-- A row of the composition table; the fraction is `none` where the division by a zero total gives NaN or infinity. -/
structure CompRow (K : Type) where
  element : Str
  atoms : K
  fraction : Option K
  deriving DecidableEq, Repr

/-- Division of a column by a number. -/
def divO (a b : K) : Option K := if b = 0 then none else some (a / b)

/-- fispact_output_reader.py:457-489 `parse_composition`; the end of the slice may be negative. -/
def parseComposition (flt : Str → Option K) (data : List Str) : Except Err (List (CompRow K)) := do
  if data = [] then .error .ValueError
  let s ← findInd data p!"COMPOSITION  OF  MATERIAL  BY  ELEMENT"
  let e ← findInd data p!"GAMMA SPECTRUM AND ENERGIES/SECOND"
  let rows ← (sliceI data (s + 5 : Nat) ((e : Int) - 3)).mapM
    (fun l => do let a ← fltE flt (slice l 20 30); pure (slice l 12 14, a))
  let total := (rows.map (·.2)).sum
  pure (rows.map (fun r => ⟨r.1, r.2, divO r.2 total⟩))

/-- fispact_output_reader.py:492-513 `parse_spectra`. -/
def parseSpectra (flt : Str → Option K) (data : List Str) : Except Err (List K) := do
  if data = [] then .error .ValueError
  let p1 ← findInd data p!"GAMMA SPECTRUM AND ENERGIES/SECOND"
  if data.length < p1 + 31 then .error .ValueError
  (slice data (p1 + 7) (p1 + 31)).mapM (fun l => fltE flt (slice l 130 141))

/-- A row of the inventory. -/
structure InvRow (K : Type) where
  nuclide : Str
  atoms : K
  mass : K
  act : K
  bEnergy : K
  aEnergy : K
  gEnergy : K
  dose : K
  element : Str
  a : Str
  deriving DecidableEq, Repr

/-- fispact_output_reader.py:534-542 and 546-552, a line of the inventory. -/
def invRow (flt : Str → Option K) (l : Str) : Except Err (InvRow K) := do
  let at_ ← fltE flt (slice l 14 25)
  let m ← fltE flt (slice l 28 37)
  let ac ← fltE flt (slice l 40 49)
  let b ← fltE flt (slice l 52 61)
  let al ← fltE flt (slice l 64 72)
  let g ← fltE flt (slice l 75 84)
  let d ← fltE flt (slice l 87 96)
  let n := slice l 2 8
  pure ⟨replace n p!" " [], at_, m, ac, b, al, g, d, strip (slice n 0 2), strip (n.drop 2)⟩

/-- fispact_output_reader.py:516-554 `parse_inventory`. -/
def parseInventory (flt : Str → Option K) (data : List Str) : Except Err (List (InvRow K)) := do
  if data = [] then .error .ValueError
  let p2 ← findInd data p!"0  TOTAL NUMBER OF NUCLIDES PRINTED IN INVENTORY"
  (slice data 4 p2).mapM (invRow flt)

/-- Characters of the class `[0-9.Ee+-]`. -/
def numClass (c : Char) : Bool := isDigit c || c == '.' || c == 'E' || c == 'e' || c == '+' || c == '-'

/-- Match a literal at the start. -/
def lit (s pre : Str) : Option Str := if startsWith s pre then some (s.drop pre.length) else none

/-- The pattern of fispact_output_reader.py:559 matched at the start of a text; the result is group 1. After each repetition the
    next element of the pattern cannot match a character of the repetition, so backtracking never changes the result and the
    greedy match is the only one. -/
def massMatch (s : Str) : Option Str := do
  let s ← lit s p!"0"
  if s.takeWhile isSpace = [] then none
  let s ← lit (s.dropWhile isSpace) p!"Mass of material input"
  let s ← lit (s.dropWhile isSpace) p!"="
  let s := s.dropWhile isSpace
  let g := s.takeWhile numClass
  if g = [] then none
  let _ ← lit ((s.dropWhile numClass).dropWhile isSpace) p!"kg."
  pure g

/-- fispact_output_reader.py:557-565 `read_mass`. -/
def readMass (flt : Str → Option K) : List Str → Except Err K
  | [] => .ok 0
  | l :: rest =>
    match massMatch (strip l) with
    | some g => fltE flt g
    | none => readMass flt rest

/-- fispact_output_reader.py:579-595 `read_parameter`. -/
def readParameter (flt : Str → Option K) (data : List Str) (sub : Str) : Except Err K := do
  if data = [] then .error .ValueError
  let i ← findInd data sub
  let line ← orErr .IndexError data[i]?
  let parts := splitOn '=' line
  if parts.length < 2 then .error .ValueError
  let v ← orErr .IndexError parts[1]?
  let w ← orErr .ValueError (splitOn ' ' (strip v))[0]?
  fltE flt w

/-- A field that is left as text when it has no "E". -/
inductive Fld (K : Type)
  | num (x : K)
  | txt (s : Str)
  deriving DecidableEq, Repr

/-- `if "E" in x: x = float(x)`. -/
def fld (flt : Str → Option K) (s : Str) : Except Err (Fld K) :=
  if hasSub p!"E" s then do let x ← fltE flt s; pure (.num x) else pure (.txt s)

/-- `float(lines[i][a:b])`, IndexError when there is no such line. -/
def fcol (flt : Str → Option K) (lines : List Str) (i a b : Nat) : Except Err K := do
  let l ← orErr .IndexError lines[i]?
  fltE flt (slice l a b)

/-- Text columns of a line. -/
def scol (lines : List Str) (i a b : Nat) : Except Err Str := do
  let l ← orErr .IndexError lines[i]?
  pure (slice l a b)

/-- The part of a time step that is only read when the total activity is positive. -/
structure ActData (K : Type) where
  he4 : Fld K
  he3 : Fld K
  h3 : Fld K
  h2 : Fld K
  h1 : Fld K
  dom : List (DomTop K) × List (DomLow K)
  comp : List (CompRow K)
  gspec : List K
  deriving DecidableEq

/-- fispact_output_reader.py:50-84 `FispactTimeStep`. -/
structure TimeStep (K : Type) where
  stepNum : Nat
  stepLength : K
  numNuclides : Int
  alphaAct : K
  betaAct : K
  gammaAct : K
  totalAct : K
  totalActNoTrit : K
  alphaHeat : K
  betaHeat : K
  gammaHeat : K
  totalHeat : K
  initialMass : K
  totalHeatNoTrit : K
  totalMass : K
  neutronFlux : K
  numFissions : Fld K
  actinideBurn : K
  density : K
  active : Option (ActData K)
  inventory : List (InvRow K)
  deriving DecidableEq

/-- fispact_output_reader.py:189-215. -/
def readActive (flt : Str → Option K) (lines : List Str) : Except Err (ActData K) := do
  let i ← findInd lines p!"APPM OF He  4 "
  let he4 ← fld flt (← scol lines i 23 33)
  let he3 ← fld flt (← scol lines (i + 1) 23 33)
  let h3 ← fld flt (← scol lines (i + 2) 23 33)
  let h2 ← fld flt (← scol lines (i + 3) 23 33)
  let h1 ← fld flt (← scol lines (i + 4) 23 33)
  let dom ← parseDominant flt lines
  let comp ← parseComposition flt lines
  let gspec ← parseSpectra flt lines
  pure ⟨he4, he3, h3, h2, h1, dom, comp, gspec⟩

/-- fispact_output_reader.py:188-215, the test of the total activity. -/
def readActiveIf (flt : Str → Option K) (lines : List Str) (ta : K) : Except Err (Option (ActData K)) :=
  if ta > 0 then do let x ← readActive flt lines; pure (some x) else pure none

/-- fispact_output_reader.py:142-217 `read_time_step`. -/
def readTimeStep (flt : Str → Option K) (lines : List Str) (i : Nat) : Except Err (TimeStep K) := do
  if lines = [] then .error .ValueError
  let sl ← fcol flt lines 0 50 60
  let k ← findInd lines p!"TOTAL NUMBER OF NUCLIDES PRINTED IN INVENTORY"
  let l ← orErr .IndexError lines[k]?
  let nn ← orErr .ValueError (pyInt (l.drop 50))
  let k ← findInd lines p!"ALPHA BECQUERELS"
  let aa ← fcol flt lines k 22 34
  let ba ← fcol flt lines k 54 66
  let ga ← fcol flt lines k 87 99
  let k ← findInd lines p!"TOTAL ACTIVITY FOR ALL MATERIALS "
  let ta ← fcol flt lines k 40 51
  let k ← findInd lines p!"TOTAL ACTIVITY EXCLUDING TRITIUM "
  let tn ← fcol flt lines k 40 51
  let k ← findInd lines p!"TOTAL ALPHA HEAT"
  let ah ← fcol flt lines k 40 51
  let bh ← fcol flt lines (k + 1) 40 51
  let gh ← fcol flt lines (k + 2) 40 51
  let th ← fcol flt lines (k + 2) 90 101
  let im ← fcol flt lines (k + 3) 40 51
  let hn ← fcol flt lines (k + 3) 90 101
  let tm ← fcol flt lines (k + 4) 40 51
  let nf ← fcol flt lines (k + 5) 40 51
  let fi ← fld flt (← scol lines (k + 6) 39 51)
  let ab ← fcol flt lines (k + 6) 90 101
  let k ← findInd lines p!"DENSITY"
  let de ← fcol flt lines k 78 86
  let act ← readActiveIf flt lines ta
  let inv ← parseInventory flt lines
  pure ⟨i + 1, sl, nn, aa, ba, ga, ta, tn, ah, bh, gh, th, im, hn, tm, nf, fi, ab, de, act, inv⟩

/-- fispact_output_reader.py:28-47 `FispactOutput`. -/
structure FisOut (K : Type) where
  fileName : Str
  version : Str
  fisII : Bool
  sumdat : List (SumRow K)
  coolingIndex : Option Nat
  aveFlux : K
  totIrradTime : K
  totFluence : K
  numIrradStep : K
  massKg : K
  massG : K
  cpuTime : K
  timesteps : List (TimeStep K)
  deriving DecidableEq

/-- The test for the first line of a time step, fispact_output_reader.py:121-124. -/
def isMarker (l : Str) : Bool := decide (0 < l.length) && (slice l 0 7 == p!"1 * * *")

/-- fispact_output_reader.py:121-125: positions of the markers. -/
def markers (lines : List Str) : List Nat :=
  lines.zipIdx.filterMap (fun e => if isMarker e.1 then some e.2 else none)

/-- fispact_output_reader.py:130-135, the lines of step `i`, which starts at line `s`. -/
def stepData (lines : List Str) (inds : List Nat) (i s : Nat) : List Str :=
  match inds[i + 1]? with
  | some e => slice lines s e
  | none => lines.drop s

/-- fispact_output_reader.py:127-137, the loop over the markers. -/
def readSteps (flt : Str → Option K) (lines : List Str) (inds : List Nat) : Except Err (List (TimeStep K)) :=
  (List.range' 1 (inds.length - 1)).mapM (fun i => do
    let s ← orErr .IndexError inds[i]?
    readTimeStep flt (stepData lines inds i s) i)

/-- fispact_output_reader.py:103-139, everything after the file has been read. -/
def readLines (flt : Str → Option K) (path : Str) (lines : List Str) : Except Err (FisOut K) := do
  let v := checkFispVersion lines
  let f := isFisII lines
  let sd ← readSummaryData flt lines
  let ci := findFirstCoolingIndex (sd.zipIdx.map (fun e => (e.2, e.1)))
  let af ← readParameter flt lines p!"Mean flux"
  let ti ← readParameter flt lines p!"Total irradiation time"
  let tf ← readParameter flt lines p!"Total fluence"
  let ni ← readParameter flt lines p!"Number of on-times"
  let mk ← readMass flt lines
  let cpu ← readParameter flt lines (if f then p!"fispact run time" else p!"CPU Time used for case")
  let ts ← readSteps flt lines (markers lines)
  pure ⟨path, v, f, sd, ci, af, ti, tf, ni, mk, mk * 1000, cpu, ts⟩

/-- fispact_output_reader.py:87-139 `read_fis_out`. Reading a file that exists does not fail in the model of the file system. -/
def readFisOut (flt : Str → Option K) (path : Str) : PyM (FisOut K) := fun fs =>
  match fs.node path with
  | none => (.error .FileNotFoundError, fs)
  | some .dir => (.error .ValueError, fs)
  | some (.file _) =>
    match getLines path fs with
    | (.error _, fs) => (.error .OSError, fs)
    | (.ok lines, fs) => (readLines flt path lines, fs)

end FispactOutput
