/- Elements of HTML, for the pages written by output_utilities.py. -/
import Verif.Py.Str

namespace Spec
open Py

/-- An element: its contents between the two tags. -/
def el (tag body : Str) : Str := ['<'] ++ tag ++ ['>'] ++ body ++ ['<', '/'] ++ tag ++ ['>']

/-- The names of the ten statistical tests of MCNP as the report gives them. -/
def testNames : List Str :=
  ["Mean behaviour".toList, "Rel err value".toList, "rel err behavior".toList, "rel err rate".toList, "Variance value".toList,
   "Variance behavior".toList, "Variance rate".toList, "FOM value constant".toList, "FOM behavior random".toList, "PDF slope".toList]

/-- A row of a table with these cells. -/
def trow (cell : Str) (xs : List Str) : Str := el p!"tr" (xs.flatMap (el cell))

/-- A table: rows on lines of their own. -/
def tableLines (head : List Str) (rows : List (List Str)) : Str :=
  el p!"table" (trow p!"th" head ++ ['\n'] ++ rows.flatMap (fun r => trow p!"td" r ++ ['\n']))

end Spec
