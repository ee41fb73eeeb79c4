/-
mcnp_output_reader.py read with messages for debugging: the lines of every tally are also written to a file of the working directory. The readers
of Model/McnpOutput leave this file out; here it is part of the run.
-/
import Verif.Model.McnpOutput

namespace McnpOutput
open Py NeutUtilities
variable {F : Type}

/-- mcnp_output_reader.py:581-624: the part of `read_tally` before the lines are printed: the tally without results and its lines. -/
def tallyHead (lines : List Str) (tnum : Str) : Except Err (Tally F × List Str) := do
  let r ← findLine (p!"1tally" ++ List.replicate (9 - tnum.length) ' ' ++ tnum) lines 15
  let c ← at' lines (r + 1)
  let c ← orErr .IndexError c[0]?
  let off := if c = '+' then 1 else 0
  let l ← at' lines (r + 1 + off)
  let ty ← orErr .IndexError l[22]?
  let n ← orErr .ValueError (pyInt tnum)
  let pl ← at' lines (r + 2 + off)
  let hl ← at' lines r
  let nps := stringCleaner (slice hl 28 40)
  let nps : Str ⊕ Int := match pyInt nps with
    | some k => .inr k
    | none => .inl nps
  let rest := lines.drop (r + 1)
  let e ← findLine p!"1tally" rest 6
  pure (⟨n, ty, stringCleaner (slice pl 24 33), nps, .items [], .items [], none, none, none, none, [], [], [], [],
    none, none, none, none, none, []⟩, sliceI rest 0 ((e : Int) - 1))

/-- mcnp_output_reader.py:384-387: the name of the file for the lines of a tally; the number is the word of the output file. -/
def debugName (tnum : Str) : Str := p!"tally_test" ++ tnum ++ p!".txt"

/-- mcnp_output_reader.py:627: `print_tally_lines_to_file` for a number that is a word. -/
def printLines (debug : Bool) (tnum : Str) (lines : List Str) : PyM Unit := if debug then writeLines (debugName tnum) lines else pure ()

/-- mcnp_output_reader.py:569-655 `read_tally`; `debug` says whether the effective level of the root logger is DEBUG. -/
def readTallyLogged [LinearOrder F] (debug : Bool) (flt : Str → Option F) (minusOne : F) (enum : List Str → List Str) (lines : List Str) (tnum : Str) :
    PyM (Tally F) := do
  let h ← PyM.lift (tallyHead (finalLines lines) tnum)
  printLines debug tnum h.2
  PyM.lift (readByType flt minusOne enum h.1 h.2)

/-- mcnp_output_reader.py:1264-1267: the loop over the tallies. -/
def readTalliesLogged [LinearOrder F] (debug : Bool) (flt : Str → Option F) (minusOne : F) (enum : List Str → List Str) (lines : List Str) :
    List Str → PyM (List (Tally F))
  | [] => pure []
  | n :: ns => do
    let t ← readTallyLogged debug flt minusOne enum lines n
    let ts ← readTalliesLogged debug flt minusOne enum lines ns
    pure (t :: ts)

/-- mcnp_output_reader.py:1239-1272 `read_output_file`. -/
def readOutputFileLogged [LinearOrder F] (debug : Bool) (flt : Str → Option F) (minusOne : F) (enum : List Str → List Str) (path : Str) :
    PyM (Output F) := do
  let lines ← getLines path
  let dt ← PyM.lift (readRunDate lines)
  let tables := getTableDict lines
  let t60 ← PyM.lift (readTableIf readTable60 lines tables p!"60")
  let t101 ← PyM.lift (readTableIf readTable101 lines tables p!"101")
  let tls ← PyM.lift (getTallyNums lines)
  let ts ← readTalliesLogged debug flt minusOne enum lines (enum tls)
  pure ⟨path, readVersion lines, dt.1, dt.2, tls.length, countRendevous lines, ts, t60, t101, (readCommentsWarnings lines).2,
    (readCommentsWarnings lines).1, tables, checkFatal lines⟩

end McnpOutput
