/- The numpy reductions used by the code, on lists of numbers (no NaN). -/
import Verif.Py.Base
import Mathlib.Order.Defs.LinearOrder

namespace Py
variable {K : Type} [LinearOrder K]

/-- Scan of `np.argmin`: `best` at index `bi` so far, `i` is the index of the head. -/
def argminAux (best : K) (bi i : Nat) : List K → Nat
  | [] => bi
  | x :: xs => if x < best then argminAux x i (i + 1) xs else argminAux best bi (i + 1) xs

/-- `np.argmin` of a one-dimensional array: first index of the minimum, ValueError when empty. -/
def argmin : List K → Except Err Nat
  | [] => .error .ValueError
  | x :: xs => .ok (argminAux x 0 1 xs)

/-- Scan of `np.argmax`. -/
def argmaxAux (best : K) (bi i : Nat) : List K → Nat
  | [] => bi
  | x :: xs => if best < x then argmaxAux x i (i + 1) xs else argmaxAux best bi (i + 1) xs

/-- `np.argmax` of a one-dimensional array: first index of the maximum, ValueError when empty. -/
def argmax : List K → Except Err Nat
  | [] => .error .ValueError
  | x :: xs => .ok (argmaxAux x 0 1 xs)

end Py
