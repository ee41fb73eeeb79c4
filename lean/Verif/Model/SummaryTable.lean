/- The columns of the table made by `read_summary_data` (/repo/fispact_output_reader.py), as the argument of the plots of /repo/fispact_analysis.py. -/
import Verif.Model.FispactOutput
import Verif.Model.FispactPlots

namespace FispactPlots
open Py
variable {K : Type} [Field K] [LinearOrder K]

/-- fispact_output_reader.py:335-363: the columns of numbers and the column `is_cooling`. The columns act_un, dr_un, heat_un, ing_un and
    inhal_un hold no numbers and are left out. There is at least one row: in a table without rows the column `is_cooling` has no boolean type,
    and choosing the cooling rows raises KeyError. -/
def summaryTable (rows : List (FispactOutput.SumRow K)) : Table K :=
  ⟨[(p!"time_years", rows.map (·.time)), (p!"act", rows.map (·.act)), (p!"dose_rate", rows.map (·.dose)), (p!"heating", rows.map (·.heat)),
    (p!"ingestion", rows.map (·.ing)), (p!"inhalation", rows.map (·.inhal)), (p!"tritium", rows.map (·.trit)),
    (p!"time_days", rows.map (·.days)), (p!"time_hours", rows.map (·.hours)), (p!"time_secs", rows.map (·.secs))],
   some (rows.map (·.cooling))⟩

/-- fispact_output_reader.py:300-308, 342-346 and 356-357: the lists act_un, dr_un, heat_un, ing_un and inhal_un stay empty, so that pandas
    fills these columns with None, one for each row. -/
def uncertaintyTable (rows : List (FispactOutput.SumRow K)) : Dict Str (List (Option K)) :=
  [p!"act_un", p!"dr_un", p!"heat_un", p!"ing_un", p!"inhal_un"].map (fun c => (c, rows.map (fun _ => none)))

end FispactPlots
