/- A parser for decimal numbers for the tests in this directory, which repeat the unit tests of /repo/tests on the model. These are tests of
   the model, not proofs; no claim rests on them. -/
import Verif.Py.Str
import Mathlib.Data.Rat.Defs
import Mathlib.Algebra.Order.Ring.Rat

namespace Tests
open Py

/-- `float(s)` for decimal numbers, as a rational number; no inf, nan or underscores. -/
def fltQ (s0 : Str) : Option ℚ :=
  let s := strip s0
  let (neg, s) := match s with | '-' :: r => (true, r) | '+' :: r => (false, r) | r => (false, r)
  let (mant, ex) := (s.takeWhile (fun c => c ≠ 'e' ∧ c ≠ 'E'), s.dropWhile (fun c => c ≠ 'e' ∧ c ≠ 'E'))
  let ip := mant.takeWhile (· ≠ '.')
  let fp := (mant.dropWhile (· ≠ '.')).drop 1
  if ip.all Char.isDigit && fp.all Char.isDigit && !(ip ++ fp).isEmpty then
    let n : ℕ := (ip ++ fp).foldl (fun a c => a * 10 + (c.toNat - 48)) 0
    let e? : Option Int := match ex with | [] => some 0 | _ :: r => pyInt r
    match e? with
    | none => none
    | some e =>
      let e' := e - fp.length
      let v : ℚ := if e' ≥ 0 then (n : ℚ) * ((10 ^ e'.toNat : ℕ) : ℚ) else (n : ℚ) / ((10 ^ (-e').toNat : ℕ) : ℚ)
      some (if neg then -v else v)
  else none

example : fltQ p!" -1.50E+01 " = some (-15) := by decide +kernel
example : fltQ p!"2.5e-1" = some (1 / 4) := by decide +kernel
example : fltQ p!"abc" = none := by decide +kernel

end Tests
