/- mcnp_ptrac_reader.py: `mean_num_events` of what `read_ptrac` returns. -/
import Verif.Model.Readers

namespace Ptrac
open Py NeutUtilities

/-- mcnp_ptrac_reader.py:78-90 `mean_num_events` of a list that may have None in it, whose events cannot be counted (AttributeError). -/
def meanOfRead {F : Type} (hs : List (Option (History F))) : Except Err ℚ := do
  let gs ← hs.mapM (fun h => orErr .AttributeError h)
  meanNumEvents gs

end Ptrac
