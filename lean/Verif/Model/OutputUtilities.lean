/-
Models of /repo/output_utilities.py, /repo/ofile_reduce.py and /repo/lost_points.py.
`str(x)` of an arbitrary value is a parameter of type `α → Str`.
-/
import Verif.Model.NeutUtilities

namespace OutputUtilities
open Py NeutUtilities

/-- output_utilities.py:10-11: the continuation prefix with a separating space. -/
def contPrefix (cont : Str) : Str :=
  if !cont.isEmpty && !endsWith cont [' '] then cont ++ [' '] else cont

/-- Loop of output_utilities.py:20-38; `lines` and `current` are the loop variables. -/
def wrapLoop (maxLen : Int) (cont : Str) : List Str → Str → List Str → Except Err (List Str × Str)
  | lines, current, [] => .ok (lines, current)
  | lines, current, t :: ts =>
    let tok := strip t
    if tok = [] then wrapLoop maxLen cont lines current ts
    else if (tok.length : Int) > maxLen then .error .ValueError
    else if (current.length : Int) + tok.length + 1 > maxLen then
      wrapLoop maxLen cont (lines ++ [rstrip current]) (cont ++ tok) ts
    else if endsWith current [' '] then wrapLoop maxLen cont lines (current ++ tok) ts
    else wrapLoop maxLen cont lines (current ++ [' '] ++ tok) ts

/-- output_utilities.py:7-44 `wrap_tokens`; prefix and tokens already converted with `str`. -/
def wrapTokens (pre : Str) (tokens : List Str) (maxLen : Int := 80) (cont : Str := p!"     ") :
    Except Err (List Str) :=
  let cont := contPrefix cont
  let current := pre ++ [' ']
  if tokens.isEmpty then .ok [rstrip current]
  else
    match wrapLoop maxLen cont [] current tokens with
    | .error e => .error e
    | .ok (lines, current) =>
      if strip current ≠ [] then .ok (lines ++ [rstrip current]) else .ok lines

/-- Loop of output_utilities.py:62-80, from index `i` on; `last i` is the fourth column.
    Indexing cannot fail: the lengths were checked before. -/
def pointRows {α : Type*} (str : α → Str) (xs ys zs : List α) (last : List Str) : List Str :=
  match xs, ys, zs, last with
  | x :: xs, y :: ys, z :: zs, d :: ds =>
    (str x ++ [' '] ++ str y ++ [' '] ++ str z ++ [' '] ++ d) :: pointRows str xs ys zs ds
  | _, _, _, _ => []

/-- output_utilities.py:47-82 `output_points`. -/
def outputPoints {α β : Type} (str : α → Str) (strD : β → Str) (xs ys zs : List α) (data : Option (List β))
    (outpath : Str := p!"lost") : PyM Unit := do
  if xs.length ≠ ys.length ∨ xs.length ≠ zs.length then
    PyM.raise .ValueError
  else
    match data with
    | some d =>
      if d.length ≠ xs.length then PyM.raise .ValueError
      else writeLines (outpath ++ p!".3d") (p!"x y z temp" :: pointRows str xs ys zs (d.map strD))
    | none =>
      writeLines (outpath ++ p!".3d")
        (p!"x y z temp" :: pointRows str xs ys zs (List.replicate xs.length ['1']))

/-- The attributes of a tally used by the table writers. -/
structure Tally (α : Type) where
  number : α
  cells : List α
  result : List α
  err : List α

/-- Rows of one tally, output_utilities.py:168-175 / 191-192: `row number cell result err` for each cell, where
    indexing `result` or `err` out of range raises IndexError. -/
def tallyRows {α : Type} (row : α → α → α → α → Str) (t : Tally α) : List α → Nat → Except Err (List Str)
  | [], _ => .ok []
  | c :: cs, i =>
    match t.result[i]?, t.err[i]? with
    | some r, some e =>
      match tallyRows row t cs (i + 1) with
      | .ok rows => .ok (row t.number c r e :: rows)
      | .error e => .error e
    | _, _ => .error .IndexError

/-- The outer loops, output_utilities.py:167-176 and 190-192. -/
def allRows {α : Type} (row : α → α → α → α → Str) : List (Tally α) → Except Err (List Str)
  | [] => .ok []
  | t :: ts =>
    match tallyRows row t t.cells 0 with
    | .error e => .error e
    | .ok rows =>
      match allRows row ts with
      | .error e => .error e
      | .ok more => .ok (rows ++ more)

/-- The argument of the table writers: a single tally or a list. -/
inductive Data (α : Type)
  | one (t : Tally α)
  | many (ts : List (Tally α))

/-- output_utilities.py:163-164 / 186-187. -/
def Data.toList {α : Type} : Data α → List (Tally α)
  | .one t => [t]
  | .many ts => ts

/-- The row of output_utilities.py:192. -/
def csvRow {α : Type} (str : α → Str) (n c r e : α) : Str :=
  str n ++ p!", " ++ str c ++ p!", " ++ str r ++ p!", " ++ str e

/-- output_utilities.py:184-195 `csv_out`. -/
def csvOut {α : Type} (str : α → Str) (data : Data α) (fname : Str) : PyM Unit := do
  let lines ← PyM.lift (allRows (csvRow str) data.toList)
  writeLines fname lines

/-- The row of output_utilities.py:169-175. -/
def htmlRow {α : Type} (str : α → Str) (n c r e : α) : Str :=
  p!"<tr><td>" ++ str n ++ p!"</td>" ++ (p!"<td>" ++ str c ++ p!"</td>") ++
    (p!"<td>" ++ str r ++ p!"</td>") ++ (p!"<td>" ++ str e ++ p!"</td></tr>")

/-- output_utilities.py:165. -/
def htmlHeader : Str :=
  p!"<html><table><tr><th>Tally Number</th><th>CellNumber</th><th>Result</th><th>Relative error</th></tr>"

/-- output_utilities.py:161-181 `html_f4_tab_out`. -/
def htmlF4TabOut {α : Type} (str : α → Str) (data : Data α) (fname : Str) : PyM Unit := do
  let rows ← PyM.lift (allRows (htmlRow str) data.toList)
  writeText fname (htmlHeader ++ ['\n'] ++ join ['\n'] rows ++ p!"\n</table></html>")

/-- The attributes of a tally used by `html_output` (already converted with `str`). -/
structure HtmlTally where
  number : Str
  particle : Str
  eng : List Str
  times : List Str
  statTests : List Str
  tallyType : Str
  cells : List Str
  vols : List Str

/-- The attributes of the output object used by `html_output`. -/
structure HtmlObject where
  fileName : Str
  date : Str
  startTime : Str
  numRendevous : Str
  warnings : Nat
  tallyData : List HtmlTally

/-- The ten labels of output_utilities.py:115-124. -/
def statNames : List Str :=
  [p!"Mean behaviour", p!"Rel err value", p!"rel err behavior", p!"rel err rate", p!"Variance value",
   p!"Variance behavior", p!"Variance rate", p!"FOM value constant", p!"FOM behavior random", p!"PDF slope"]

/-- output_utilities.py:104-110: number, particle and bins. -/
def htmlHead (t : HtmlTally) : List Str :=
  [p!"<p><H2> Tally Number: " ++ t.number ++ p!"</H2>", p!"Particle: " ++ t.particle] ++
    (if t.eng.isEmpty then [] else [p!"Number Energy Bins: " ++ natStr t.eng.length]) ++
    (if t.times.isEmpty then [] else [p!"Number Time Bins: " ++ natStr t.times.length])

/-- output_utilities.py:112-132: the statistical tests; fewer than ten results raise IndexError. -/
def htmlStats (t : HtmlTally) : Except Err (List Str) :=
  if t.statTests.isEmpty then .ok [p!"Warning Statistical test data not found"]
  else if t.statTests.length < 10 then .error .IndexError
  else .ok [p!"Statistical test results",
    join ['\n'] ([p!"<table><tr><th>Test</th><th>Result</th></tr>"] ++
      (statNames.zip t.statTests).map (fun e => p!"<tr><td>" ++ e.1 ++ p!"</td><td>" ++ e.2 ++ p!"</td></tr>") ++
      [p!"</table>"])]

/-- output_utilities.py:134-149: the cells of a flux tally. -/
def htmlCells (t : HtmlTally) : List Str :=
  if t.tallyType = ['4'] then
    [p!"Number Cells: " ++ natStr t.cells.length, p!"Cells: " ++ t.cells.flatten, p!"Volumes: " ++ t.vols.flatten] ++
    (match t.cells with
     | [c] => if t.eng.isEmpty then [] else
        [p!"<img src=" ++ p!"tally_" ++ t.number ++ ['_'] ++ c ++ p!".png" ++ p!" alt=\"simulated spectrum\">"]
     | _ => [])
  else []

/-- output_utilities.py:104-151: lines of one tally. -/
def htmlTallyLines (t : HtmlTally) : Except Err (List Str) :=
  match htmlStats t with
  | .error e => .error e
  | .ok s => .ok (htmlHead t ++ s ++ htmlCells t ++ [p!"</p>"])

/-- The loop of output_utilities.py:103-151. -/
def htmlTallies : List HtmlTally → Except Err (List Str)
  | [] => .ok []
  | t :: ts =>
    match htmlTallyLines t with
    | .error e => .error e
    | .ok l =>
      match htmlTallies ts with
      | .error e => .error e
      | .ok r => .ok (l ++ r)

/-- output_utilities.py:89-154: the lines of the report. -/
def htmlLines (o : HtmlObject) : Except Err (List Str) := do
  let head := [p!"<!DOCTYPE html><HTML><HEAD>", p!"<meta charset=\"utf-8\">",
    p!"<meta name=\"viewport\" content=\"width=device-width\">", p!"</HEAD>",
    p!"<title>" ++ o.fileName ++ p!"</title>", p!"<body>", p!"<H1>" ++ o.fileName ++ p!"</H1>",
    p!"Date run: " ++ o.date, p!"Time run: " ++ o.startTime, p!"Rendevous: " ++ o.numRendevous,
    p!"Number of warnings: " ++ natStr o.warnings]
  let body ← htmlTallies o.tallyData
  pure (head ++ body ++ [p!"</body>", p!"</HTML>"])

/-- `ut.write_html`: neut_utilities.py defines no such function, so looking it up raises AttributeError. -/
def utWriteHtml (_fname : Str) (_lines : List Str) : PyM Unit := PyM.raise .AttributeError

/-- output_utilities.py:85-158 `html_output`. -/
def htmlOutput (o : HtmlObject) (fname : Str) : PyM Unit := do
  let lines ← PyM.lift (htmlLines o)
  utWriteHtml fname lines

end OutputUtilities

namespace OfileReduce
open Py NeutUtilities

/-- ofile_reduce.py:14-27 `reduce_ofile`. `find_line` raises ValueError, which the `except EOFError` lets through. -/
def reduceOfile (infile ofile : Str) : PyM Unit := do
  let lines ← getLines infile
  let termLine ← PyM.lift (findLine p!"      run terminated when" lines 25)
  writeLines ofile (lines.drop termLine)

end OfileReduce

namespace LostPoints
open Py NeutUtilities OutputUtilities

/-- The marker of lost_points.py:16. -/
def marker : Str := p!"x,y,z coordinates:"

/-- Loop of lost_points.py:15-20: the coordinates found, in order. -/
def scan {F : Type} (flt : Str → Option F) : List Str → Except Err (List (F × F × F))
  | [] => .ok []
  | line :: rest =>
    if hasSub marker line then
      match flt (strip (slice line 28 40)), flt (strip (slice line 43 55)), flt (strip (slice line 58 70)) with
      | some x, some y, some z =>
        match scan flt rest with
        | .ok ps => .ok ((x, y, z) :: ps)
        | .error e => .error e
      | _, _, _ => .error .ValueError
    else scan flt rest

/-- lost_points.py:8-25 `output_lost_points`. -/
def outputLostPoints {F : Type} (flt : Str → Option F) (str : F → Str) (path : Str) (outpath : Str := p!"lost") :
    PyM Nat := do
  let text ← readText path
  let pts ← PyM.lift (scan flt (keepLines text))
  if 0 < pts.length then
    outputPoints str str (pts.map (·.1)) (pts.map (·.2.1)) (pts.map (·.2.2)) none outpath
    pure pts.length
  else pure pts.length

end LostPoints
