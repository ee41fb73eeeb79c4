/-
Models of /repo/fispact_printlib_reader.py, /repo/xsdir_reader.py and /repo/mcnp_ptrac_reader.py.
`flt` is Python's `float(str)`; `none` stands for ValueError.
-/
import Verif.Model.NeutUtilities
import Mathlib.Data.Rat.Cast.Order

namespace Printlib
open Py NeutUtilities

/-- A row of the table of discrete emission lines. -/
structure Row (F : Type) where
  nuclide : Str
  particle : Str
  energy : F
  intensity : F

/-- The argument of the filters: not a DataFrame, or a DataFrame with given columns and rows. -/
inductive Arg (F : Type)
  | other
  | frame (columns : List Str) (rows : List (Row F))

/-- `a > b` on floats that may be NaN (`none`). -/
def gtNaN {K : Type} [LinearOrder K] (a b : Option K) : Bool :=
  match a, b with
  | some x, some y => decide (y < x)
  | _, _ => false

/-- fispact_printlib_reader.py:13-19 `energy_filter`. -/
def energyFilter {K : Type} [LinearOrder K] (data : Arg (Option K)) (energy : Option K) :
    Except Err (List (Row (Option K))) :=
  match data with
  | .other => .error .ValueError
  | .frame cols rows =>
    if p!"energy_ev" ∉ cols then .error .ValueError
    else .ok (rows.filter (fun r => gtNaN r.energy energy))

/-- fispact_printlib_reader.py:22-28 `particle_filter`. -/
def particleFilter {F : Type} (data : Arg F) (particle : Str) : Except Err (List (Row F)) :=
  match data with
  | .other => .error .ValueError
  | .frame cols rows =>
    if p!"particle" ∉ cols then .error .ValueError
    else .ok (rows.filter (fun r => r.particle = particle))

/-- Loop variables of fispact_printlib_reader.py:39-76 (the list `averages` is never used afterwards). -/
structure State (F : Type) where
  rows : List (Row F)
  curNuc : Option Str
  inDiscrete : Bool
  inAverage : Bool

/-- fispact_printlib_reader.py:58-67: one line inside the discrete section. Exceptions are those of `line[2]`
    (IndexError), the unset `cur_nuc` (UnboundLocalError) and `float` (ValueError). -/
def discreteLine {F : Type} (flt : Str → Option F) (s : State F) (line : Str) : Except Err (State F) :=
  if !hasSub p!"Type" line && !hasSub p!"no spectral data" line then
    match line[2]? with
    | none => .error .IndexError
    | some c =>
      let nuc := if c ≠ ' ' then some (replace (slice line 2 8) [' '] []) else s.curNuc
      match nuc with
      | none => .error .UnboundLocalError
      | some n =>
        match flt (slice line 43 54), flt (slice line 71 82) with
        | some e, some i =>
          .ok { s with curNuc := some n,
                       rows := s.rows ++ [⟨n, stringCleaner (slice line 25 34), e, i⟩] }
        | _, _ => .error .ValueError
  else .ok s

/-- Loop of fispact_printlib_reader.py:49-76. `ok none`: the file ended without the run time line. -/
def scan {F : Type} (flt : Str → Option F) (s : State F) : List Str → Except Err (Option (List (Row F)))
  | [] => .ok none
  | line :: rest =>
    if hasSub p!"fispact run time" line then .ok (some s.rows)
    else if s.inDiscrete then
      match discreteLine flt s line with
      | .ok s' => scan flt s' rest
      | .error e => .error e
    else if hasSub p!" FD " line then scan flt { s with inAverage := false, inDiscrete := true } rest
    else if s.inAverage then scan flt s rest
    else if hasSub p!"A V E R A G E S" line then scan flt { s with inAverage := true } rest
    else scan flt s rest

/-- fispact_printlib_reader.py:31-80 `read_fispact_printlib`. The `except Exception` turns every exception of the loop
    into IOError; using the unset `discrete_lines_df` at line 80 is outside the `try`. -/
def read {F : Type} (flt : Str → Option F) (fpath : Str) : PyM (List (Row F)) := fun fs =>
  match fs.node fpath with
  | none => (.error .FileNotFoundError, fs)
  | some .dir => (.error .ValueError, fs)
  | some (.file c) =>
    match scan flt ⟨[], none, false, false⟩ (keepLines (univNL c)) with
    | .error _ => (.error .OSError, fs)
    | .ok none => (.error .UnboundLocalError, fs)
    | .ok (some rows) => (.ok rows, fs)

end Printlib

namespace Xsdir
open Py NeutUtilities

/-- xsdir_reader.py:39-46 `_process_datapath`; `line.split("=")[1]` raises IndexError without `=`. -/
def processDatapath : List Str → Except Err (Option Str)
  | [] => .ok none
  | line :: rest =>
    if startsWith (strip (lower line)) p!"datapath" then
      match (splitOn '=' (lower line))[1]? with
      | none => .error .IndexError
      | some v => .ok (some (strip v))
    else processDatapath rest

/-- Loop of xsdir_reader.py:53-63. -/
def awrLoop {F : Type} (flt : Str → Option F) : Bool → Dict Str F → List Str → Except Err (Dict Str F)
  | _, d, [] => .ok d
  | inAwr, d, line :: rest =>
    let line := strip line
    if startsWith line p!"atomic" then awrLoop flt true d rest
    else if inAwr then
      if startsWith line p!"directory" then .ok d
      else match splitWs line with
        | _ :: k :: v :: _ =>
          match flt v with
          | none => .error .ValueError
          | some x => awrLoop flt inAwr (d.set k x) rest
        | _ => awrLoop flt inAwr d rest
    else awrLoop flt inAwr d rest

/-- xsdir_reader.py:49-64 `_process_awr`. -/
def processAwr {F : Type} (flt : Str → Option F) (lines : List Str) : Except Err (Dict Str F) :=
  awrLoop flt false [] lines

/-- Loop of xsdir_reader.py:71-80. -/
def dirLoop : Bool → Dict Str (List Str) → List Str → Dict Str (List Str)
  | _, d, [] => d
  | inDir, d, line :: rest =>
    if startsWith (strip line) p!"directory" then dirLoop true d rest
    else if inDir then
      match splitWs line with
      | k :: v :: vs => dirLoop inDir (d.set k (v :: vs)) rest
      | _ => dirLoop inDir d rest
    else dirLoop inDir d rest

/-- xsdir_reader.py:67-81 `_process_directory`. -/
def processDirectory (lines : List Str) : Dict Str (List Str) := dirLoop false [] lines

/-- Loop of xsdir_reader.py:88-100. -/
def thermalLoop : Bool → Dict Str (List Str) → List Str → Dict Str (List Str)
  | _, d, [] => d
  | inTh, d, line :: rest =>
    let line := strip line
    if line = [] || startsWith line ['#'] then thermalLoop inTh d rest
    else if startsWith line p!"thermal_scattering_data" || startsWith line p!"sab" then thermalLoop true d rest
    else if inTh then
      match splitWs line with
      | k :: v :: vs => thermalLoop inTh (d.set k (v :: vs)) rest
      | _ => thermalLoop inTh d rest
    else thermalLoop inTh d rest

/-- xsdir_reader.py:84-101 `_process_thermal`. -/
def processThermal (lines : List Str) : Dict Str (List Str) := thermalLoop false [] lines

/-- The fields of `XSDir`. -/
structure XSDir (F : Type) where
  filePath : Str
  datapath : Option Str
  awr : Dict Str F
  directory : Dict Str (List Str)
  thermal : Dict Str (List Str)

/-- xsdir_reader.py:21-36, 104-106 `from_file` / `read_xsdir`. -/
def readXsdir {F : Type} (flt : Str → Option F) (fpath : Str) : PyM (XSDir F) := do
  let lines ← getLines fpath
  let dp ← PyM.lift (processDatapath lines)
  let awr ← PyM.lift (processAwr flt lines)
  pure { filePath := fpath, datapath := dp, awr := awr, directory := processDirectory lines,
         thermal := processThermal lines }

end Xsdir

namespace Ptrac
open Py NeutUtilities

/-- mcnp_ptrac_reader.py:21-36 `event` after `process_event` has set all fields. -/
structure Event (F : Type) where
  x : F
  y : F
  z : F
  type : F
  u : F
  v : F
  w : F
  wgt : F
  energy : F
  par : F
  cell : F
  time : F
  deriving DecidableEq

/-- mcnp_ptrac_reader.py:11-18 `history`. -/
structure History (F : Type) where
  nps : Int
  events : List (Event F)

/-- A Python value on the right of `==`. -/
inductive Val (F : Type)
  | event (e : Event F)
  | other

/-- What `__eq__` returns: a boolean, or the exception class `NotImplementedError`. -/
inductive EqResult
  | bool (b : Bool)
  | classNotImplementedError
  deriving DecidableEq

/-- Truth value of the result (a class object is true). -/
def EqResult.truthy : EqResult → Bool
  | .bool b => b
  | .classNotImplementedError => true

/-- mcnp_ptrac_reader.py:38-68 `event.__eq__`. -/
def eventEq {F : Type} [DecidableEq F] (s : Event F) : Val F → EqResult
  | .other => .classNotImplementedError
  | .event o =>
    if s.x ≠ o.x then .bool false
    else if s.y ≠ o.y then .bool false
    else if s.z ≠ o.z then .bool false
    else if s.type ≠ o.type then .bool false
    else if s.u ≠ o.u then .bool false
    else if s.v ≠ o.v then .bool false
    else if s.w ≠ o.w then .bool false
    else if s.wgt ≠ o.wgt then .bool false
    else if s.par ≠ o.par then .bool false
    else if s.cell ≠ o.cell then .bool false
    else if s.time ≠ o.time then .bool false
    else if s.energy ≠ o.energy then .bool false
    else .bool true

/-- mcnp_ptrac_reader.py:71-75 `remove_header`. -/
def removeHeader (lines : List Str) : List Str × List Str := (lines.take 9, lines.drop 9)

/-- mcnp_ptrac_reader.py:78-90 `mean_num_events`, exact division. -/
def meanNumEvents {F : Type} (hists : List (History F)) : Except Err ℚ :=
  let n : Nat := hists.foldl (fun n h => n + h.events.length) 0
  if hists.length = 0 then .error .ZeroDivisionError else .ok ((n : ℚ) / (hists.length : ℚ))

/-- mcnp_ptrac_reader.py:93-139 `process_event`: the twelve positions used, for each total length. -/
def processEvent {F : Type} (flt : Str → Option F) (data : List Str) : Except Err (Event F) :=
  match data.mapM flt with
  | none => .error .ValueError
  | some d =>
    let pick (cell x y z u v w wgt energy par time : Nat) : Except Err (Event F) :=
      match d[0]?, d[cell]?, d[x]?, d[y]?, d[z]?, d[u]?, d[v]?, d[w]?, d[wgt]?, d[energy]?, d[par]?, d[time]? with
      | some t, some c, some x, some y, some z, some u, some v, some w, some g, some e, some p, some ti =>
        .ok ⟨x, y, z, t, u, v, w, g, e, p, c, ti⟩
      | _, _, _, _, _, _, _, _, _, _, _, _ => .error .IndexError
    if d.length = 16 then pick 2 7 8 9 10 11 12 14 13 3 15
    else if d.length = 15 then pick 2 6 7 8 9 10 11 13 12 3 14
    else pick 3 8 9 10 11 12 13 15 14 4 16

/-- Loop of mcnp_ptrac_reader.py:153-177. `temp` is `temp_line` (`none` while it is still the string `""`). -/
def tracksLoop {F : Type} (flt : Str → Option F) :
    List (Option (History F)) → Option (History F) → Option (List Str) → List Str →
      Except Err (List (Option (History F)))
  | hs, cur, _, [] => .ok (hs ++ [cur])
  | hs, cur, temp, l :: rest =>
    let line := stringCleanAndSplit l
    if line.length = 2 ∨ line.length = 3 then
      let hs := if cur.isSome then hs ++ [cur] else hs
      match pyInt (line.headD []) with
      | none => .error .ValueError
      | some n => tracksLoop flt hs (some ⟨n, []⟩) temp rest
    else if line.length = 9 then
      match temp with
      | none => .error .TypeError
      | some t =>
        match processEvent flt (t ++ line) with
        | .error e => .error e
        | .ok ev =>
          match cur with
          | none => .error .AttributeError
          | some h => tracksLoop flt hs (some { h with events := h.events ++ [ev] }) (some (t ++ line)) rest
    else tracksLoop flt hs cur (some line) rest

/-- mcnp_ptrac_reader.py:142-182 `process_tracks`; `none` in the result is Python's `None`. -/
def processTracks {F : Type} (flt : Str → Option F) (tracks : List Str) : Except Err (List (Option (History F))) :=
  tracksLoop flt [] none none tracks

/-- mcnp_ptrac_reader.py:185-198 `read_ptrac`. -/
def readPtrac {F : Type} (flt : Str → Option F) (path : Str) : PyM (List (Option (History F))) := do
  let lines ← getLines path
  PyM.lift (processTracks flt (removeHeader lines).2)

end Ptrac
