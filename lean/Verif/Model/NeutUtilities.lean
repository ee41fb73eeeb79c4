/-
Model of /repo/neut_utilities.py.
-/
import Verif.Py.Base
import Mathlib.Algebra.Order.Group.Abs
import Mathlib.Algebra.Order.Field.Basic

namespace NeutUtilities
open Py

/-- neut_utilities.py:87-91 `write_lines`. Each line is followed by `\n`; the file is truncated first. -/
def writeLines (path : Str) (lines : List Str) : PyM Unit :=
  writeText path (lines.flatMap (fun line => line ++ ['\n']))

/-- neut_utilities.py:94-98 `get_lines`. -/
def getLines (path : Str) : PyM (List Str) := do
  let t ← readText path
  pure (splitlines t)

/-- Loop of neut_utilities.py:105-107; `i` is the loop counter. -/
def findLineFrom (text : Str) (num : Nat) : Nat → List Str → Except Err Nat
  | _, [] => .error .ValueError
  | i, line :: rest => if line.take num = text then .ok i else findLineFrom text num (i + 1) rest

/-- neut_utilities.py:101-108 `find_line` (`num` non-negative, as in all callers). -/
def findLine (text : Str) (lines : List Str) (num : Nat) : Except Err Nat :=
  findLineFrom text num 0 lines

/-- neut_utilities.py:111-115 `string_cleaner`. -/
def stringCleaner (text : Str) : Str := join [' '] (splitWs (strip text))

/-- neut_utilities.py:118-122 `string_clean_and_split` (one-character separators, as in all callers). -/
def stringCleanAndSplit (text : Str) (spliter : Char := ' ') : List Str :=
  splitOn spliter (stringCleaner text)

/-- Loop of neut_utilities.py:127-129. -/
def findIndFrom (sub : Str) : Nat → List Str → Except Err Nat
  | _, [] => .error .ValueError
  | i, s :: rest => if hasSub sub s then .ok i else findIndFrom sub (i + 1) rest

/-- neut_utilities.py:125-130 `find_ind`. -/
def findInd (data : List Str) (sub : Str) : Except Err Nat := findIndFrom sub 0 data

/-- neut_utilities.py:133-140 `find_first_non_zero`; `np.nonzero(arr)[0]` is the list of positions. -/
def findFirstNonZero {K : Type*} [Zero K] [DecidableEq K] (vals : List K) : Option Nat :=
  ((vals.zipIdx.filter (fun e => e.1 ≠ 0)).map (·.2)).head?

/-- neut_utilities.py:143-150 `find_first_zero`. -/
def findFirstZero {K : Type*} [Zero K] [DecidableEq K] (vals : List K) : Option Nat :=
  ((vals.zipIdx.filter (fun e => e.1 = 0)).map (·.2)).head?

/-- A Python value that is either not a list or a list of such values. -/
inductive Nested (α : Type*)
  | atom (a : α)
  | list (xs : List (Nested α))

/-- The `while` loop of neut_utilities.py:159-161 with at most `fuel` tests of the loop condition;
    `none` means that the loop has not ended yet. -/
def dimLoop {α : Type*} : Nat → Nested α → Option (List Nat)
  | 0, _ => none
  | _ + 1, .atom _ => some []
  | n + 1, .list xs =>
    (dimLoop n (match xs with | [] => .list [] | y :: _ => y)).map (fun ds => xs.length :: ds)

/-- neut_utilities.py:153-163 `get_list_dimensions`, as "returns `ds`". -/
def GetListDimensions {α : Type*} (lst : Nested α) (ds : List Nat) : Prop :=
  match lst with
  | .atom _ => ds = []
  | .list _ => ∃ fuel, dimLoop fuel lst = some ds

/-- neut_utilities.py:166-176 `text_replace`. -/
def textReplace (fname old new : Str) : PyM Unit := do
  let data ← readText fname
  writeText fname (replace data old new)

/-- neut_utilities.py:179-181 `is_same_value`. -/
def isSameValue {K : Type*} [Field K] [LinearOrder K] (v1 v2 tolerance : K) : Bool :=
  decide (|v1 - v2| < tolerance)

/-- neut_utilities.py:189-192 `find_tabs_in_list`. -/
def findTabsInList (lines : List Str) : List Nat :=
  (lines.zipIdx.filter (fun e => hasSub ['\t'] e.1)).map (·.2)

/-- neut_utilities.py:195-197 `replace_tab_with_space`; `' ' * n` is empty for `n ≤ 0`. -/
def replaceTabWithSpace (line : Str) (numSpaces : Int := 5) : Str :=
  replace line ['\t'] (List.replicate numSpaces.toNat ' ')

/-! ### Logger (neut_utilities.py:12-84) -/

/-- A handler attached to the shared logger `nt_logger`. -/
inductive Handler
  | console (level : Nat)
  | file (path : Str) (level : Nat)
  deriving DecidableEq

/-- What the environment decides: `getattr(logging, name.upper())` followed by `setLevel`, whether a log
    file can be opened, and the name used for `'auto'`. -/
structure LogEnv where
  level : Str → Except Err Nat
  canOpen : Str → Bool
  autoName : Str

/-- neut_utilities.py:19-62 `setup_logging`, on the handler list of the shared logger. -/
def setupLogging (env : LogEnv) (logFile : Option Str) (consoleLevel fileLevel : Str)
    (_handlers : List Handler) : Except Err Unit × List Handler :=
  -- line 39: self.logger.handlers.clear()
  match env.level (upper consoleLevel) with
  | .error e => (.error e, [])                                   -- line 44
  | .ok cl =>
    let hs := [Handler.console cl]                               -- line 46
    match logFile with
    | none => (.ok (), hs)
    | some f =>
      let f := if f = p!"auto" then env.autoName else f          -- lines 50-52
      if env.canOpen f then                                      -- lines 54-58
        match env.level (upper fileLevel) with
        | .error e => (.error e, hs)                             -- line 59
        | .ok fl => (.ok (), hs ++ [Handler.file f fl])          -- line 61
      else (.error .OSError, hs)

/-- neut_utilities.py:64-68 `get_logger`. -/
def getLogger (env : LogEnv) (handlers : List Handler) : Except Err Unit × List Handler :=
  if handlers.isEmpty then setupLogging env none p!"INFO" p!"DEBUG" handlers else (.ok (), handlers)

/-- neut_utilities.py:72-84 `setup_ntlogger`; constructing `NeutronToolsLogger` keeps the handlers. -/
def setupNtlogger (env : LogEnv) (logFile : Option Str) (consoleLevel fileLevel : Str)
    (handlers : List Handler) : Except Err Unit × List Handler :=
  setupLogging env logFile consoleLevel fileLevel handlers

/-- One call of the public logging interface. -/
inductive LogCall
  | setup (logFile : Option Str) (consoleLevel fileLevel : Str)
  | get

/-- Effect of one call. -/
def runCall (env : LogEnv) (handlers : List Handler) : LogCall → Except Err Unit × List Handler
  | .setup f c l => setupLogging env f c l handlers
  | .get => getLogger env handlers

/-- Handler list after a history of calls (exceptions are caught by the caller, calls continue). -/
def runCalls (env : LogEnv) (handlers : List Handler) (cs : List LogCall) : List Handler :=
  cs.foldl (fun hs c => (runCall env hs c).2) handlers

end NeutUtilities
