/- Specification of the discrete section of a printlib file, by column positions and row indices. -/
import Verif.Py.Str

namespace Spec.Printlib
open Py

/-- A line of the discrete section that carries data. -/
def DataLine (l : Str) : Prop := ¬ p!"Type" <:+: l ∧ ¬ p!"no spectral data" <:+: l

instance (l : Str) : Decidable (DataLine l) := inferInstanceAs (Decidable (_ ∧ _))

/-- `n` is the nuclide of row `i`: the one named in columns 2-7 of the last row at or before `i` that names one. -/
def NuclideAt (rows : List Str) (i : Nat) (n : Str) : Prop :=
  ∃ j line, j ≤ i ∧ rows[j]? = some line ∧ line[2]? ≠ some ' ' ∧ n = (slice line 2 8).filter (fun c => c ≠ ' ') ∧
    ∀ (k : Nat) (l : Str), j < k → k ≤ i → rows[k]? = some l → l[2]? = some ' '

/-- Well formed data lines: both numbers are readable in every line, and the first line names a nuclide. -/
def WellFormed {F : Type} (flt : Str → Option F) (rows : List Str) : Prop :=
  (∀ l ∈ rows, 2 < l.length ∧ (flt (slice l 43 54)).isSome ∧ (flt (slice l 71 82)).isSome) ∧
  ∀ l ∈ rows.head?, l[2]? ≠ some ' '

end Spec.Printlib
