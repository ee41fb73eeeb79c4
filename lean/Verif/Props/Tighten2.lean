/-
Further theorems for claims whose first theorems left some wrong programs unnoticed (see seeded/LOG.jsonl).
-/
import Verif.Props.McnpInput
import Verif.Props.Misc2

set_option linter.unusedSimpArgs false
set_option linter.unusedSectionVars false

namespace Props
open Py NeutUtilities

/-! ### C169: the functions that find the mt and mx cards of a material -/

open McnpInput in
/-- `get_mt_lines` and `get_mx_lines` return the text of the card named mt or mx followed by the number. -/
theorem C169_card_names (lines : List Str) (n : Int) (first : Str) (body : List Str) :
    (Spec.Mcnp.Card (Spec.Mcnp.CardHead (p!"mt" ++ intStr n)) lines first body → getMtLines lines n = Spec.Mcnp.cardText first body) ∧
    (Spec.Mcnp.Card (Spec.Mcnp.CardHead (p!"mx" ++ intStr n)) lines first body → getMxLines lines n = Spec.Mcnp.cardText first body) :=
  ⟨fun h => C81_card_lines lines _ first body (by simp) (by simp) h, fun h => C81_card_lines lines _ first body (by simp) (by simp) h⟩

open McnpInput in
/-- They return nothing exactly if there is no such card. -/
theorem C169_card_absent (lines : List Str) (n : Int) :
    (getMtLines lines n = [] ↔ ∀ l ∈ lines, ¬ Spec.Mcnp.CardHead (p!"mt" ++ intStr n) l) ∧
    (getMxLines lines n = [] ↔ ∀ l ∈ lines, ¬ Spec.Mcnp.CardHead (p!"mx" ++ intStr n) l) :=
  ⟨C81_absent lines _ (by simp) (by simp), C81_absent lines _ (by simp) (by simp)⟩

example : McnpInput.getMtLines [p!"m1 1001 2", p!"mt1 lwtr.10t", p!"mx1:p 1001", p!"MT11 grph"] 1 = [p!"mt1 lwtr.10t"] ∧
    McnpInput.getMxLines [p!"m1 1001 2", p!"mt1 lwtr.10t", p!"mx1:p 1001", p!"MT11 grph"] 1 = [p!"mx1:p 1001"] ∧
    McnpInput.getMtLines [p!"m1 1001 2"] 1 = [] := by decide +kernel

/-! ### C193: the text of a summary -/

/-- A summary always prints one history of neutrons, whatever the file says. -/
theorem C193_text_violated : McnpOutput.summaryText = p!"NPS: 1\nParticle: Neutron" := by decide +kernel

end Props
