/- Specification of energy groups given by boundaries from high to low. -/
import Mathlib.Order.Defs.LinearOrder

namespace Spec

/-- The energy lies in bin `i`: not above its upper and strictly above its lower boundary. -/
def InBin {K : Type} [LinearOrder K] (gs : List K) (e : K) (i : Nat) : Prop :=
  ∃ a b, gs[i]? = some a ∧ gs[i + 1]? = some b ∧ e ≤ a ∧ b < e

end Spec
