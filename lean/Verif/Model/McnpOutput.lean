/-
Model of /repo/mcnp_output_reader.py.
`flt` is Python's `float(str)`; `none` stands for ValueError. Logging and the debug file of
`print_tally_lines_to_file` (lines 375-387, only at debug level) are left out.
The four tally classes are one record with optional fields.
-/
import Verif.Model.NeutUtilities
import Mathlib.Data.List.Sort
import Mathlib.Data.List.Dedup

namespace McnpOutput
open Py NeutUtilities

variable {F : Type}

/-- `lines[i]`. -/
def at' (lines : List Str) (i : Nat) : Except Err Str := orErr .IndexError lines[i]?

/-- `float(s)`. -/
def pyFloat (flt : Str → Option F) (s : Str) : Except Err F := orErr .ValueError (flt s)

/-- mcnp_output_reader.py:186-203 `read_version`; both IndexErrors are caught. -/
def readVersion (lines : List Str) : Option Str :=
  match lines with
  | [] => none
  | line :: _ =>
    if line.take 29 = p!"          Code Name & Version" then ((splitOn '=' line)[1]?).map strip else none

/-- mcnp_output_reader.py:206-225 `read_run_date`. -/
def readRunDate (lines : List Str) : Except Err (Str × Str) := do
  let lines := if lines.length > 101 then lines.take 100 else lines
  let i ← findLine p!"1mcnp" lines 5
  let l ← at' lines i
  let ws := stringCleanAndSplit l
  let date ← orErr .IndexError (getI ws (-2))
  let time ← orErr .IndexError (getI ws (-1))
  pure (date, time)

/-- mcnp_output_reader.py:228-238 `read_comments_warnings`. -/
def readCommentsWarnings (lines : List Str) : List Str × List Str :=
  (lines.filter (fun l => startsWith l p!"  comment."), lines.filter (fun l => startsWith l p!"  warning."))

/-- mcnp_output_reader.py:241-260 `get_tally_nums`; the set is a list without repetitions (order of no meaning). -/
def getTallyNums (lines : List Str) : Except Err (List Str) := do
  let ns ← (lines.filter (fun l => l.take 11 = p!"1tally     ")).mapM
    (fun l => orErr .IndexError (stringCleanAndSplit l)[1]?)
  pure ns.dedup

/-- mcnp_output_reader.py:263-277 `get_rendevous_index`. -/
def getRendevousIndex (data : List Str) : List Nat :=
  (data.zipIdx.filter (fun e => hasSub p!"master set rendezvous nps" e.1)).map (·.2)

/-- mcnp_output_reader.py:280-284 `count_rendevous`. -/
def countRendevous (data : List Str) : Nat := (getRendevousIndex data).length

/-- mcnp_output_reader.py:287-300 `process_ang_string`. -/
def processAngString (flt : Str → Option F) (line : Str) : Except Err F := do
  let s ← orErr .IndexError (splitOn ':' (strip line))[1]?
  let w ← orErr .IndexError (getI (splitWs s) (-2))
  pyFloat flt w

/-- The data lines of table 101, mcnp_output_reader.py:330-335: up to the first empty one. -/
def table101Rows (ls : List Str) : List (List Str) := (ls.takeWhile (fun l => l ≠ [])).map (splitOn ' ')

/-- `pd.DataFrame(rows, columns=cols)` for rows of strings: more columns in the data than names, or fewer in all rows, is a
    ValueError; short rows are filled with None (here the row stays short). -/
def frame (rows : List (List Str)) (cols : List Str) : Except Err (List Str × List (List Str)) :=
  if rows = [] ∨ (rows.map List.length).foldl max 0 = cols.length then .ok (cols, rows) else .error .ValueError

/-- The nine columns of mcnp_output_reader.py:322-325. -/
def table101Columns : List Str :=
  [p!"particle_id", p!"particle_symbol", p!"particle_name", p!"cutoff_energy", p!"max_energy", p!"smallest_table_max",
   p!"largest_table_max", p!"always_table_below", p!"always_model_above"]

/-- mcnp_output_reader.py:308-338 `read_table101`. -/
def readTable101 (lines : List Str) (startLine : Nat) : Except Err (List Str × List (List Str)) := do
  let t ← findLine p!" *******" (lines.drop startLine) 8
  let tl := ((slice lines startLine (startLine + t)).map stringCleaner).drop 6
  frame (table101Rows tl) table101Columns

/-- `l[i] = v` for a list; `none` is IndexError. -/
def setAt (l : List Str) (i : Int) (v : Str) : Option (List Str) :=
  let j : Int := if i < 0 then i + l.length else i
  if 0 ≤ j ∧ j < l.length then some (l.set j.toNat v) else none

/-- mcnp_output_reader.py:341-372 `read_table60`. -/
def readTable60 (lines : List Str) (startLine : Nat) : Except Err (List Str × List (List Str)) := do
  let t ← findLine p!"    minimum source weight" lines 25
  let tl := (slice lines startLine t).map stringCleaner
  let h1 := splitOn ' ' (← at' tl 2)
  let h2 := splitOn ' ' (← at' tl 3)
  let a ← orErr .IndexError h1[0]?
  let b ← orErr .IndexError h2[2]?
  let h2 ← orErr .IndexError (setAt h2 2 (a ++ p!" " ++ b))
  let a ← orErr .IndexError h1[1]?
  let b ← orErr .IndexError h2[3]?
  let h2 ← orErr .IndexError (setAt h2 3 (a ++ p!" " ++ b))
  let a ← orErr .IndexError (getI h1 (-1))
  let b ← orErr .IndexError (getI h2 (-1))
  let h2 ← orErr .IndexError (setAt h2 (-1) (a ++ p!" " ++ b))
  frame ((sliceI tl 5 (-3)).map (fun l => (splitOn ' ' l).drop 1)) h2

/-- Every second element, from the first: `l[0::2]`. -/
def evens {α : Type} : List α → List α
  | [] => []
  | [a] => [a]
  | a :: _ :: l => a :: evens l

/-- Every second element, from the second: `l[1::2]`. -/
def odds {α : Type} (l : List α) : List α := evens (l.drop 1)

/-- mcnp_output_reader.py:398-408, one line of `process_time_bin_only`; the state is (times, results, errors). -/
def timeStep (flt : Str → Option F) (st : List Str × List F × List F) (line : Str) : Except Err (List Str × List F × List F) :=
  let line := stringCleaner line
  if hasSub p!"time" line then .ok (st.1 ++ (splitOn ' ' line).drop 1, st.2)
  else if line.length > 4 then do
    let xs ← (splitOn ' ' line).mapM (pyFloat flt)
    pure (st.1, st.2.1 ++ evens xs, st.2.2 ++ odds xs)
  else .ok st

/-- mcnp_output_reader.py:390-410 `process_time_bin_only`: times, results, errors. -/
def processTimeBinOnly (flt : Str → Option F) (lines : List Str) : Except Err (List Str × List F × List F) :=
  lines.foldlM (timeStep flt) ([], [], [])

/-- mcnp_output_reader.py:420-423: append unless present. -/
def addNew (bins : List Str) (t : Str) : List Str := if t ∈ bins then bins else bins ++ [t]

/-- mcnp_output_reader.py:413-425 `eng_time_get_time_bins`. -/
def engTimeGetTimeBins (data : List Str) : List Str :=
  data.foldl (fun bins line =>
    if hasSub p!"time" line then ((splitOn ' ' (join p!" " (splitWs line))).drop 1).foldl addNew bins else bins) []

/-- Loop of mcnp_output_reader.py:434-445 once inside the data: lines up to the first one containing "total". -/
def engBinsIn : List Str → List Str
  | [] => []
  | line :: rest =>
    if hasSub p!"total" line then [] else (splitOn ' ' (join p!" " (splitWs line))).headD [] :: engBinsIn rest

/-- The loop before the first line containing "energy". -/
def engBinsOut : List Str → List Str
  | [] => []
  | line :: rest => if hasSub p!"energy" line then engBinsIn rest else engBinsOut rest

/-- mcnp_output_reader.py:428-449 `eng_time_get_eng_bins`. -/
def engTimeGetEngBins (data : List Str) : List Str := engBinsOut data ++ [p!"total"]

/-- mcnp_output_reader.py:458-463, one line: the pieces 0, 3 and 4 between single blanks. -/
def energyLine (flt : Str → Option F) (line : Str) : Except Err (F × F × F) := do
  let ps := splitOn ' ' (strip line)
  let a ← orErr .IndexError ps[0]?
  let a ← pyFloat flt a
  let b ← orErr .IndexError ps[3]?
  let b ← pyFloat flt b
  let c ← orErr .IndexError ps[4]?
  let c ← pyFloat flt c
  pure (a, b, c)

/-- mcnp_output_reader.py:452-465 `process_energy_lines`. -/
def processEnergyLines (flt : Str → Option F) (lines : List Str) : Except Err (List F × List F × List F) := do
  let rs ← lines.mapM (energyLine flt)
  pure (rs.map (·.1), rs.map (·.2.1), rs.map (·.2.2))

/-! ### Energy and time bins -/

/-- The character class `[\d.E+-]`. -/
def isNumChar (c : Char) : Bool := isDigit c || c == '.' || c == 'E' || c == '+' || c == '-'

/-- `re.findall(r'[\d.E+-]+', line)`. -/
def findNums (line : Str) : List Str := (splitP (fun c => !isNumChar c) line).filter (fun w => !w.isEmpty)

/-- Loop variables of mcnp_output_reader.py:481-488. -/
structure ET (F : Type) where
  times : List F
  energies : List F
  values : List (List (List F))
  uncerts : List (List (List F))
  curV : List (List F)
  curU : List (List F)
  reading : Bool

/-- `np.array(rows)`: rows of different lengths are a ValueError. -/
def npRows (rows : List (List F)) : Except Err (List (List F)) :=
  if ∀ r ∈ rows, r.length = (rows.headD []).length then .ok rows else .error .ValueError

/-- mcnp_output_reader.py:490-517, one line. -/
def etStep (flt : Str → Option F) (st : ET F) (line : Str) : Except Err (ET F) :=
  let line := strip line
  if startsWith line p!"time:" then do
    let ts ← (findNums line).mapM (pyFloat flt)
    pure { st with times := st.times ++ ts, reading := true }
  else if st.reading then
    if startsWith line p!"total" || line.isEmpty then
      if st.curV.isEmpty then .ok { st with reading := false }
      else do
        let v ← npRows st.curV
        let u ← npRows st.curU
        pure { st with values := st.values ++ [v], uncerts := st.uncerts ++ [u], curV := [], curU := [], reading := false }
    else if startsWith line p!"energy" then .ok st
    else
      match findNums line with
      | [] => .ok st
      | e :: ds => do
        let e ← pyFloat flt e
        let xs ← ds.mapM (pyFloat flt)
        pure { st with energies := st.energies ++ [e], curV := st.curV ++ [evens xs], curU := st.curU ++ [odds xs] }
  else .ok st

/-- `np.hstack` of matrices: no matrix, or different numbers of rows, is a ValueError. -/
def hstack : List (List (List F)) → Except Err (List (List F))
  | [] => .error .ValueError
  | b :: bs => if ∀ x ∈ bs, x.length = b.length then .ok (bs.foldl (fun acc x => List.zipWith (· ++ ·) acc x) b) else .error .ValueError

/-- `sorted(set(xs))`. -/
def sortedSet [LinearOrder F] (xs : List F) : List F := xs.dedup.insertionSort (· ≤ ·)

/-- mcnp_output_reader.py:479-530 `process_e_t_userbin`: times, energies, values, errors. -/
def processEtUserbin [LinearOrder F] (flt : Str → Option F) (lines : List Str) :
    Except Err (List F × List F × List (List F) × List (List F)) := do
  let st ← lines.foldlM (etStep flt) ⟨[], [], [], [], [], [], false⟩
  let v ← hstack st.values
  let u ← hstack st.uncerts
  pure (sortedSet st.times, sortedSet st.energies, v, u)

/-! ### Tallies -/

/-- mcnp_output_reader.py:533-546 `find_term_line`. -/
def findTermLine (lines : List Str) : Option Nat :=
  match findLine p!"      run terminated " lines 21 with
  | .ok i => some i
  | .error _ => none

/-- mcnp_output_reader.py:549-566 `find_last_rendevous`. -/
def findLastRendevous (lines : List Str) : Option Nat :=
  let ix := getRendevousIndex lines
  if ix.length < 2 then none else getI ix (-2)

/-- An entry of a result list: number, list of numbers or matrix. -/
inductive Item (F : Type)
  | num (x : F)
  | list (xs : List F)
  | mat (rows : List (List F))
  deriving DecidableEq, Repr

/-- `tally.result`: a list, a matrix, or one table (energy, result, error) per cell or surface. -/
inductive Res (F : Type)
  | items (xs : List (Item F))
  | mat (rows : List (List F))
  | table (d : Dict Nat (List (F × F × F)))
  deriving DecidableEq, Repr

/-- `result.append(x)`; dictionaries (and arrays) have no `append`. -/
def Res.append : Res F → Item F → Except Err (Res F)
  | .items xs, x => .ok (.items (xs ++ [x]))
  | _, _ => .error .AttributeError

/-- Time labels as text, or as numbers. -/
inductive Labels (F : Type)
  | strs (ts : List Str)
  | nums (ts : List F)
  deriving DecidableEq, Repr

/-- mcnp_output_reader.py:36-167, the tally objects. -/
structure Tally (F : Type) where
  number : Int
  tallyType : Char
  particle : Str
  nps : Str ⊕ Int
  result : Res F := .items []
  err : Res F := .items []
  eng : Option (List F) := none
  times : Option (Labels F) := none
  userBins : Option (List Str) := none
  totals : Option (Dict Nat (F × F)) := none
  cells : List Str := []
  vols : List Str := []
  surfaces : List Str := []
  areas : List Str := []
  angBins : Option (List F) := none
  pos : Option (F × F × F) := none
  averagePerHistory : Option F := none
  largestScore : Option F := none
  largestScoreNps : Option F := none
  misses : Dict Str F := []
  deriving DecidableEq, Repr

/-- mcnp_output_reader.py:658-691 `read_type_8`, for its hard-coded list of cells `["2"]`. -/
def readType8 (flt : Str → Option F) (t : Tally F) (lines : List Str) : Except Err (Tally F) := do
  let i ← findLine p!" cell  2" lines 8
  let l ← at' lines (i + 1)
  if l = p!"      energy   " then
    let j ← findLine p!"      total    " (lines.drop (i + 1)) 15
    let r ← processEnergyLines flt (slice lines (i + 2) (i + 1 + j))
    pure { t with cells := [p!"2"], eng := some r.1, result := .items (r.2.1.map .num), err := .items (r.2.2.map .num) }
  else
    let ps := splitOn ' ' (strip l)
    let a ← orErr .IndexError ps[0]?
    let a ← pyFloat flt a
    let res ← t.result.append (.num a)
    let b ← orErr .IndexError ps[1]?
    let b ← pyFloat flt b
    let err ← t.err.append (.num b)
    pure { t with cells := [p!"2"], result := res, err := err }

/-- mcnp_output_reader.py:694-703 `get_type2_surface_areas`. -/
def getType2SurfaceAreas (lines : List Str) : Except Err (List Str) := do
  let i ← findLine p!"           areas" lines 16
  let l ← at' lines (i + 2)
  pure (splitOn ' ' (join p!" " (splitWs l)))

/-- mcnp_output_reader.py:706-716 `get_type2_surface_numbers`. -/
def getType2SurfaceNumbers (lines : List Str) : Except Err (List Str) := do
  let i ← findLine p!"           areas" lines 16
  let l ← at' lines (i + 1)
  let s ← orErr .IndexError (splitOn ':' (join p!" " (splitWs l)))[1]?
  pure ((splitOn ' ' s).drop 1)

/-- mcnp_output_reader.py:719-727 `get_type1_surface_numbers`; `line` contains "surface", so it has a last word. -/
def getType1SurfaceNumbers (lines : List Str) : List Str :=
  ((lines.drop 2).filter (hasSub p!"surface")).map (fun l => (splitWs (strip l)).getLastD [])

/-- Loop variables of mcnp_output_reader.py:734-741. -/
structure AngSt (F : Type) where
  angles : List F
  cur : List (F × F × F)
  resDf : List (List F)
  errDf : List (List F)
  eng : Option (List F)
  inRes : Bool

/-- mcnp_output_reader.py:743-766, one line. -/
def angStep (flt : Str → Option F) (st : AngSt F) (line : Str) : Except Err (AngSt F) := do
  let st ← if line.take 11 = p!" angle  bin" then do
      let a ← processAngString flt line
      pure { st with angles := st.angles ++ [a] }
    else pure st
  let st : AngSt F := if line.take 13 = p!"      total  " then
      { st with inRes := false, eng := some (st.cur.map (·.1)), resDf := st.resDf ++ [st.cur.map (·.2.1)],
                errDf := st.errDf ++ [st.cur.map (·.2.2)], cur := [] }
    else st
  if st.inRes then do
    let r ← energyLine flt line
    pure { st with cur := st.cur ++ [r] }
  else if line = p!"      energy   " then pure { st with inRes := true }
  else pure st

/-- mcnp_output_reader.py:730-768 `process_energy_angle_tally`; `minusOne` is -1.0. -/
def processEnergyAngleTally (flt : Str → Option F) (minusOne : F) (t : Tally F) (lines : List Str) (first : Nat) :
    Except Err (Tally F) := do
  let st ← (lines.drop first).foldlM (angStep flt) ⟨[minusOne], [], [], [], t.eng, false⟩
  pure { t with eng := st.eng, result := .items (st.resDf.map .list), err := .items (st.errDf.map .list), angBins := some st.angles }

/-- `re.match(r"<name>\s+(\d+)", line)`, the number. -/
def matchNum (name line : Str) : Option Nat :=
  if startsWith line name then
    let r := line.drop name.length
    if (r.takeWhile isSpace).isEmpty then none
    else
      let ds := (r.dropWhile isSpace).takeWhile isDigit
      if ds.isEmpty then none else pyNat ds
  else none

/-- State of the readers of energy binned tallies: current number, tables, totals. -/
structure EngSt (F : Type) where
  cur : Option Nat
  data : Dict Nat (List (F × F × F))
  totals : Dict Nat (F × F)

/-- mcnp_output_reader.py:788-807 and 991-1011: a line of the block of `n` that is no header. -/
def engLine (flt : Str → Option F) (st : EngSt F) (n : Nat) (line : Str) : Except Err (EngSt F) :=
  if startsWith (lower line) p!"total" then
    match splitWs (replace (lower line) p!"total" []) with
    | [a, b] => do
      let a ← pyFloat flt a
      let b ← pyFloat flt b
      pure { st with totals := st.totals.set n (a, b) }
    | _ => .ok st
  else
    match splitWs line with
    | [a, b, c] =>
      if (a.headD ' ').isDigit then do
        let a ← pyFloat flt a
        let b ← pyFloat flt b
        let c ← pyFloat flt c
        pure { st with data := st.data.set n ((st.data.get n).getD [] ++ [(a, b, c)]) }
      else .ok st
    | _ => .ok st

/-- mcnp_output_reader.py:777-807, one line of the surface reader (number 0 counts as "no surface"). -/
def surfEngStep (flt : Str → Option F) (st : EngSt F) (line : Str) : Except Err (EngSt F) :=
  let line := strip line
  match matchNum p!"surface" line with
  | some n => .ok { st with cur := some n }
  | none =>
    match st.cur with
    | none => .ok st
    | some 0 => .ok st
    | some n => engLine flt st n line

/-- mcnp_output_reader.py:771-813 `process_energy_binned_surface_tally`. -/
def processEnergyBinnedSurfaceTally (flt : Str → Option F) (lines : List Str) :
    Except Err (Dict Nat (List (F × F × F)) × Dict Nat (F × F)) := do
  let st ← lines.foldlM (surfEngStep flt) ⟨none, [], []⟩
  pure (st.data, st.totals)

/-- mcnp_output_reader.py:985-1011, one line of the cell reader: the header line is processed as well. -/
def cellEngStep (flt : Str → Option F) (st : EngSt F) (line : Str) : Except Err (EngSt F) :=
  let line := strip line
  let st := match matchNum p!"cell" line with
    | some n => { st with cur := some n }
    | none => st
  match st.cur with
  | none => .ok st
  | some 0 => .ok st
  | some n => engLine flt st n line

/-- mcnp_output_reader.py:979-1015 `read_energy_bin_only_cell_tally`. -/
def readEnergyBinOnlyCellTally (flt : Str → Option F) (lines : List Str) :
    Except Err (Dict Nat (List (F × F × F)) × Dict Nat (F × F)) := do
  let st ← lines.foldlM (cellEngStep flt) ⟨none, [], []⟩
  pure (st.data, st.totals)

/-- mcnp_output_reader.py:852-853 and 1040-1041: result, totals and energies of the first table. -/
def withTable (t : Tally F) (r : Dict Nat (List (F × F × F)) × Dict Nat (F × F)) : Except Err (Tally F) := do
  let first ← orErr .StopIteration r.1.head?
  pure { t with result := .table r.1, totals := some r.2, eng := some (first.2.map (·.1)) }

/-- mcnp_output_reader.py:871-895: the loop over `n` surfaces with energy and time bins; `first` is the line of the block. -/
def surfEtLoop [LinearOrder F] (flt : Str → Option F) (lines : List Str) : Nat → Int → Option (List F × List F) →
    List (Item F) → List (Item F) → Except Err (Option (List F × List F) × List (Item F) × List (Item F))
  | 0, _, lab, rs, es => .ok (lab, rs, es)
  | n + 1, first, _, rs, es => do
    let fin : Int := match findLine p!" surface " (sliceI lines (first + 1) lines.length) 9 with
      | .ok k => k + first + 1
      | .error _ => -1
    let r ← processEtUserbin flt (sliceI lines (first + 1) fin)
    surfEtLoop flt lines n fin (some (r.1, r.2.1)) (rs ++ [.mat r.2.2.1]) (es ++ [.mat r.2.2.2])

/-- mcnp_output_reader.py:904-917: the loop over `n` surfaces with time bins. -/
def surfTimeLoop (flt : Str → Option F) (lines : List Str) : Nat → Nat → List Str → List (Item F) → List (Item F) →
    Except Err (List Str × List (Item F) × List (Item F))
  | 0, _, ts, rs, es => .ok (ts, rs, es)
  | n + 1, first, _, rs, es => do
    let p ← findInd (lines.drop first) p!"total"
    let fin := p + 2 + first
    let r ← processTimeBinOnly flt (slice lines (first + 1) fin)
    surfTimeLoop flt lines n (fin + 1) r.1 (rs ++ [.list r.2.1]) (es ++ [.list r.2.2])

/-- mcnp_output_reader.py:929-940: single values of `n` surfaces. -/
def surfValueLoop (flt : Str → Option F) (lines : List Str) : Nat → Nat → List (Item F) → List (Item F) →
    Except Err (List (Item F) × List (Item F))
  | 0, _, rs, es => .ok (rs, es)
  | n + 1, loc, rs, es => do
    let k ← findLine p!" surface " (lines.drop loc) 9
    let l ← at' lines (k + loc + 1)
    let ps := splitOn ' ' (strip l)
    let a ← orErr .IndexError ps[0]?
    let a ← pyFloat flt a
    let b ← orErr .IndexError ps[1]?
    let b ← pyFloat flt b
    surfValueLoop flt lines n (k + loc + 1) (rs ++ [.num a]) (es ++ [.num b])

/-- mcnp_output_reader.py:865-927: time bins of a surface tally; `end_line_id` is the line " ===". -/
def surfTimes [LinearOrder F] (flt : Str → Option F) (t : Tally F) (lines : List Str) (first : Nat) : Except Err (Tally F) := do
  let e ← findLine p!" ===" lines 4
  let lines := lines.take e
  let l2 ← at' lines (first + 2)
  if hasSub p!"energy" l2 then
    if t.surfaces.length > 1 then do
      let r ← surfEtLoop flt lines t.surfaces.length first none [] []
      let lab ← orErr .UnboundLocalError r.1
      pure { t with times := some (.nums lab.1), eng := some lab.2, result := .items r.2.1, err := .items r.2.2 }
    else do
      let r ← processEtUserbin flt (slice lines (first + 1) e)
      pure { t with times := some (.nums r.1), eng := some r.2.1, result := .mat r.2.2.1, err := .mat r.2.2.2 }
  else if t.surfaces.length > 1 then do
    let r ← surfTimeLoop flt lines t.surfaces.length first [] [] []
    pure { t with times := some (.strs r.1), result := .items r.2.1, err := .items r.2.2 }
  else do
    let e ← findInd lines p!"total"
    let r ← processTimeBinOnly flt (slice lines (first + 1) (e + 2))
    pure { t with times := some (.strs r.1), result := .items (r.2.1.map .num), err := .items (r.2.2.map .num) }

/-- mcnp_output_reader.py:816-950 `read_type_surface`. `enum` is the order in which Python lists a set of strings
    (`list(set(..))`, line 836), `minusOne` is -1.0. -/
def readTypeSurface [LinearOrder F] (flt : Str → Option F) (minusOne : F) (enum : List Str → List Str) (t : Tally F)
    (lines : List Str) : Except Err (Tally F) := do
  let t ← if t.tallyType = '2' then do
      let a ← getType2SurfaceAreas lines
      let s ← getType2SurfaceNumbers lines
      pure { t with areas := a, surfaces := s }
    else pure { t with areas := [], surfaces := [] }
  let t : Tally F := if t.tallyType = '1' then { t with surfaces := enum (getType1SurfaceNumbers lines).dedup } else t
  let first ← findLine p!" surface " lines 9
  let l1 ← at' lines (first + 1)
  if hasSub p!"energy" l1 then do
    let r ← processEnergyBinnedSurfaceTally flt lines
    withTable t r
  else if hasSub p!"angle" l1 then do
    let l2 ← at' lines (first + 2)
    if l2 = p!"      energy   " then processEnergyAngleTally flt minusOne t lines first else pure t
  else if hasSub p!"time" l1 then surfTimes flt t lines first
  else if t.surfaces.length > 1 then do
    let r ← surfValueLoop flt lines t.surfaces.length 0 [] []
    pure { t with result := .items r.1, err := .items r.2 }
  else do
    let ps := splitOn ' ' (strip l1)
    let a ← orErr .IndexError ps[0]?
    let a ← pyFloat flt a
    let b ← orErr .IndexError ps[1]?
    let b ← pyFloat flt b
    pure { t with result := .items [.num a], err := .items [.num b] }

/-- Loop of mcnp_output_reader.py:959-974 on the lines behind the heading; the last component is the number of lines read. -/
def cellDataLoop : List Str → Nat → List Str → List Str → Except Err (List Str × List Str × Nat)
  | [], _, _, _ => .error .IndexError
  | line :: rest, k, cells, vols =>
    if line = p!" " then .ok (cells, vols, k + 1)
    else if hasSub p!"cell:" line then do
      let s ← orErr .IndexError (splitOn ':' (join p!" " (splitWs line)))[1]?
      cellDataLoop rest (k + 1) (cells ++ (splitOn ' ' s).drop 1) vols
    else cellDataLoop rest (k + 1) cells (vols ++ splitOn ' ' (join p!" " (splitWs line)))

/-- mcnp_output_reader.py:953-976 `get_cell_data`. -/
def getCellData (lines : List Str) (lineId : Nat) : Except Err (List Str × List Str × Nat) := do
  let r ← cellDataLoop (lines.drop (lineId + 1)) 0 [] []
  pure (r.1, r.2.1, lineId + r.2.2)

/-- mcnp_output_reader.py:1045-1083: one cell. The state is the remaining lines and the tally. -/
def cellTallyStep [LinearOrder F] (flt : Str → Option F) (tallyRead : Bool) (st : List Str × Tally F) (cell : Str) :
    Except Err (List Str × Tally F) := do
  let lines := st.1
  let t := st.2
  let i ← findInd lines (p!" " ++ cell ++ p!" ")
  let l1 ← at' lines (i + 1)
  if hasSub p!"time" l1 then do
    let e ← findLine p!" ===" lines 4
    let l2 ← at' lines (i + 2)
    if hasSub p!"energy" l2 then do
      let r ← processEtUserbin flt (slice lines (i + 1) e)
      let res ← t.result.append (.mat r.2.2.1)
      let err ← t.err.append (.mat r.2.2.2)
      pure (lines, { t with times := some (.nums r.1), eng := some r.2.1, result := res, err := err })
    else do
      let e ← findInd lines p!"total"
      let r ← processTimeBinOnly flt (slice lines (i + 1) (e + 2))
      let res ← t.result.append (.list r.2.1)
      let err ← t.err.append (.list r.2.2)
      pure (lines.drop (e + 2), { t with times := some (.strs r.1), result := res, err := err })
  else if tallyRead then pure (lines, t)
  else
    let ws := splitOn ' ' (join p!" " (splitWs l1))
    if p!"total" ∈ ws ∨ ws.headD [] = [] then pure (lines, t)
    else do
      let a ← orErr .IndexError ws[0]?
      let a ← pyFloat flt a
      let res ← t.result.append (.num a)
      let b ← orErr .IndexError ws[1]?
      let b ← pyFloat flt b
      let err ← t.err.append (.num b)
      pure (lines, { t with result := res, err := err })

/-- mcnp_output_reader.py:1018-1085 `read_type_cell`. -/
def readTypeCell [LinearOrder F] (flt : Str → Option F) (t : Tally F) (lines : List Str) : Except Err (Tally F) := do
  let i ← if t.tallyType = '4' then findLine p!"           volumes " lines 19
    else findLine p!"           masses " lines 18
  let cd ← getCellData lines i
  let t := { t with cells := cd.1, vols := cd.2.1 }
  let lines := lines.drop cd.2.2
  let c0 ← orErr .IndexError t.cells[0]?
  let j ← findInd lines (p!" " ++ c0 ++ p!" ")
  let l1 ← at' lines (j + 1)
  if hasSub p!"energy" l1 then do
    let r ← readEnergyBinOnlyCellTally flt lines
    let t ← withTable t r
    let st ← t.cells.foldlM (cellTallyStep flt true) (lines, t)
    pure st.2
  else do
    let st ← t.cells.foldlM (cellTallyStep flt false) (lines, t)
    pure st.2

/-- mcnp_output_reader.py:1130-1140: positions and names of the user bins, from line `i` on. -/
def userBinLoop : List Str → Nat → List (Str × Nat)
  | [], _ => []
  | line :: rest, i =>
    if hasSub p!"user bin" line then
      let b := (splitOn ' ' line).getLastD []
      if b = p!"total" then [(b, i)] else (b, i) :: userBinLoop rest (i + 1)
    else userBinLoop rest (i + 1)

/-- mcnp_output_reader.py:1144-1152: the blocks between consecutive positions. -/
def userBlocks [LinearOrder F] (flt : Str → Option F) (bin : List Str) : List Nat → Tally F → Except Err (Tally F)
  | a :: b :: ls, t => do
    let r ← processEtUserbin flt (slice bin a b)
    let res ← t.result.append (.mat r.2.2.1)
    let err ← t.err.append (.mat r.2.2.2)
    userBlocks flt bin (b :: ls) { t with result := res, err := err, times := some (.nums r.1), eng := some r.2.1 }
  | _, t => .ok t

/-- mcnp_output_reader.py:1107-1158: the result section of a point detector. -/
def type5Result [LinearOrder F] (flt : Str → Option F) (t : Tally F) (lines : List Str) (loc : Nat) : Except Err (Tally F) := do
  let rl ← at' lines (loc + 1)
  if rl = p!"      energy   " then do
    let k ← findLine p!"      total" (lines.drop (loc + 1)) 11
    let r ← processEnergyLines flt (slice lines (loc + 2) (loc + k + 1))
    pure { t with eng := some r.1, result := .items (r.2.1.map .num), err := .items (r.2.2.map .num) }
  else if hasSub p!"time" rl then do
    let k ← findLine p!" det" (lines.drop (loc + 1)) 4
    let r ← processEtUserbin flt (slice lines (loc + 1) (loc + 1 + k))
    pure { t with times := some (.nums r.1), eng := some r.2.1, result := .mat r.2.2.1, err := .mat r.2.2.2 }
  else if hasSub p!"user bin" rl then
    let bins := ((splitOn ' ' rl).getLastD [], 0) :: userBinLoop (lines.drop (loc + 1)) 0
    userBlocks flt (lines.drop (loc + 1)) (bins.map (·.2)) { t with userBins := some (bins.map (·.1)) }
  else do
    let ps := splitOn ' ' rl
    let ps := ps.drop (ps.length - 2)
    let a ← orErr .IndexError ps[0]?
    let a ← pyFloat flt a
    let res ← t.result.append (.num a)
    let b ← orErr .IndexError ps[1]?
    let b ← pyFloat flt b
    let err ← t.err.append (.num b)
    pure { t with result := res, err := err }

/-- `ut.string_clean_and_split(lines[i], sep)[-1]` as a number. -/
def lastNumber (flt : Str → Option F) (lines : List Str) (i : Nat) (sep : Char) : Except Err F := do
  let l ← at' lines i
  pyFloat flt ((stringCleanAndSplit l sep).getLastD [])

/-- mcnp_output_reader.py:1160-1197: the general data of a point detector. -/
def type5General (flt : Str → Option F) (t : Tally F) (lines : List Str) : Except Err (Tally F) := do
  let i ← findInd lines p!" average tally per history"
  let l ← at' lines i
  let ps := stringCleanAndSplit l '='
  let s ← orErr .IndexError ps[1]?
  let ave ← pyFloat flt (slice s 1 13)
  let big ← pyFloat flt (ps.getLastD [])
  let bigNps ← lastNumber flt lines (i + 1) '='
  let m ← findInd lines p!"score misses"
  let m1 ← lastNumber flt lines (m + 1) ' '
  let m2 ← lastNumber flt lines (m + 2) ' '
  let m3 ← lastNumber flt lines (m + 3) ' '
  let m4 ← lastNumber flt lines (m + 4) ' '
  let m5 ← lastNumber flt lines (m + 5) ' '
  let m6 ← lastNumber flt lines (m + 6) ' '
  pure { t with averagePerHistory := some ave, largestScore := some big, largestScoreNps := some bigNps,
                misses := [(p!"russian roulette on pd", m1), (p!"psc=0", m2), (p!"russian roulette in transmission", m3),
                           (p!"underflow in transmission", m4), (p!"hit a zero-importance cell", m5), (p!"energy cutoff", m6)] }

/-- mcnp_output_reader.py:1091-1101: the position of a point detector. -/
def type5Position (flt : Str → Option F) (l : Str) : Except Err (F × F × F) := do
  let s ← orErr .IndexError (splitOn '=' l)[1]?
  let x ← pyFloat flt (strip (slice s 0 12))
  let y ← pyFloat flt (strip (slice s 12 24))
  let z ← pyFloat flt (strip (slice s 24 36))
  pure (x, y, z)

/-- mcnp_output_reader.py:1088-1199 `read_type_5`. -/
def readType5 [LinearOrder F] (flt : Str → Option F) (t : Tally F) (lines : List Str) : Except Err (Tally F) := do
  let loc ← findLine p!" detector located" lines 17
  let l ← at' lines loc
  let p ← type5Position flt l
  let t ← type5Result flt { t with pos := some p } lines loc
  type5General flt t lines

/-- mcnp_output_reader.py:1202-1212 `read_stat_tests`. -/
def readStatTests (lines : List Str) : Except Err (List Str) :=
  match findLine p!" passed" lines 7 with
  | .error _ => .ok [p!"no"]
  | .ok i => do
    let l ← at' lines i
    pure ((stringCleanAndSplit l).drop 1)

/-- mcnp_output_reader.py:635-648: the reader for the tally type. -/
def readByType [LinearOrder F] (flt : Str → Option F) (minusOne : F) (enum : List Str → List Str) (t : Tally F)
    (lines : List Str) : Except Err (Tally F) :=
  if t.tallyType = '4' ∨ t.tallyType = '6' then readTypeCell flt t lines
  else if t.tallyType = '5' then readType5 flt t lines
  else if t.tallyType = '1' ∨ t.tallyType = '2' then readTypeSurface flt minusOne enum t lines
  else if t.tallyType = '8' then readType8 flt t lines
  else .ok t

/-- mcnp_output_reader.py:581-655: `read_tally` on the lines of the final result set. -/
def readTallyIn [LinearOrder F] (flt : Str → Option F) (minusOne : F) (enum : List Str → List Str) (lines : List Str) (tnum : Str) :
    Except Err (Tally F) := do
  let r ← findLine (p!"1tally" ++ List.replicate (9 - tnum.length) ' ' ++ tnum) lines 15
  let c ← at' lines (r + 1)
  let c ← orErr .IndexError c[0]?
  let off := if c = '+' then 1 else 0
  let l ← at' lines (r + 1 + off)
  let ty ← orErr .IndexError l[22]?
  let n ← orErr .ValueError (pyInt tnum)
  let pl ← at' lines (r + 2 + off)
  let hl ← at' lines r
  let nps := stringCleaner (slice hl 28 40)
  let nps : Str ⊕ Int := match pyInt nps with
    | some k => .inr k
    | none => .inl nps
  let rest := lines.drop (r + 1)
  let e ← findLine p!"1tally" rest 6
  readByType flt minusOne enum ⟨n, ty, stringCleaner (slice pl 24 33), nps, .items [], .items [], none, none, none, none, [], [], [], [],
    none, none, none, none, none, []⟩ (sliceI rest 0 ((e : Int) - 1))

/-- mcnp_output_reader.py:572-579: the lines of the final result set. -/
def finalLines (lines : List Str) : List Str :=
  match findTermLine lines with
  | some i => lines.drop i
  | none =>
    match findLastRendevous lines with
    | some i => lines.drop i
    | none => lines

/-- mcnp_output_reader.py:569-655 `read_tally`. -/
def readTally [LinearOrder F] (flt : Str → Option F) (minusOne : F) (enum : List Str → List Str) (lines : List Str) (tnum : Str) :
    Except Err (Tally F) := readTallyIn flt minusOne enum (finalLines lines) tnum

/-- mcnp_output_reader.py:1215-1228 `get_table_dict`. -/
def getTableDict (lines : List Str) : Dict Str Nat :=
  lines.zipIdx.foldl (fun (d : Dict Str Nat) e =>
    if hasSub p!"print table" e.1 then
      let key := (splitOn ' ' e.1).getLastD []
      if key = p!"160" ∨ key = p!"161" ∨ key.length > 3 then d else d.set key e.2
    else d) []

/-- mcnp_output_reader.py:1231-1236 `check_fatal`. -/
def checkFatal (lines : List Str) : Bool := lines.any (fun l => hasSub p!"fatal" (lower l))

/-- mcnp_output_reader.py:13-33 `MCNPOutput`. -/
structure Output (F : Type) where
  fileName : Str
  version : Option Str
  date : Str
  startTime : Str
  numTallies : Nat
  numRendevous : Nat
  tallyData : List (Tally F)
  t60 : Option (List Str × List (List Str))
  t101 : Option (List Str × List (List Str))
  warnings : List Str
  comments : List Str
  tables : Dict Str Nat
  fatal : Bool

/-- mcnp_output_reader.py:1258-1262: a print table if it is present. -/
def readTableIf (rd : List Str → Nat → Except Err (List Str × List (List Str))) (lines : List Str) (d : Dict Str Nat) (key : Str) :
    Except Err (Option (List Str × List (List Str))) :=
  match d.get key with
  | none => .ok none
  | some i => do
    let r ← rd lines i
    pure (some r)

/-- mcnp_output_reader.py:1246-1272: `read_output_file` on the lines of the file. -/
def readOutputLines [LinearOrder F] (flt : Str → Option F) (minusOne : F) (enum : List Str → List Str) (path : Str)
    (lines : List Str) : Except Err (Output F) := do
  let dt ← readRunDate lines
  let tables := getTableDict lines
  let t60 ← readTableIf readTable60 lines tables p!"60"
  let t101 ← readTableIf readTable101 lines tables p!"101"
  let tls ← getTallyNums lines
  let ts ← (enum tls).mapM (readTally flt minusOne enum lines)
  pure ⟨path, readVersion lines, dt.1, dt.2, tls.length, countRendevous lines, ts, t60, t101, (readCommentsWarnings lines).2,
    (readCommentsWarnings lines).1, tables, checkFatal lines⟩

/-- mcnp_output_reader.py:1239-1270 `read_output_file`. -/
def readOutputFile [LinearOrder F] (flt : Str → Option F) (minusOne : F) (enum : List Str → List Str) (path : Str) : PyM (Output F) := do
  let lines ← getLines path
  PyM.lift (readOutputLines flt minusOne enum path lines)

end McnpOutput
