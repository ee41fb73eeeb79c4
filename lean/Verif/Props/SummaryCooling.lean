/- More on property C221: the cooling phase of a summary that was read. -/
import Verif.Props.SummaryTable

set_option linter.unusedSectionVars false

namespace Props
open Py FispactAnalysis FispactPlots
variable {K : Type} [Field K] [LinearOrder K] [IsStrictOrderedRing K]

private theorem zip_filter {α β : Type} (f : α → β) (c : α → Bool) : ∀ l : List α, (((l.map f).zip (l.map c)).filter (·.2)).map (·.1) = (l.filter c).map f
  | [] => rfl
  | a :: l => by
    have ih := zip_filter f c l
    cases h : c a <;> simp_all

private theorem filter_id {α : Type} (c : α → Bool) : ∀ l : List α, (l.map c).filter id = (l.filter c).map c
  | [] => rfl
  | a :: l => by
    have ih := filter_id c l
    cases h : c a <;> simp_all

private theorem cooling_table (rows : List (FispactOutput.SumRow K)) : coolingRows (summaryTable rows) = .ok (summaryTable (rows.filter (·.cooling))) := by
  unfold coolingRows summaryTable
  simp only [List.map_cons, List.map_nil, zip_filter, filter_id]

/-- A plot of the cooling phase is the plot of the table of the rows of the cooling phase, for every column, unit and line. -/
theorem C221_cooling (rows : List (FispactOutput.SumRow K)) (column xu : Str) (vl hl : List K) (yu : Option Str) :
    plotSummary (some (summaryTable rows)) column vl hl xu yu true = plotSummary (some (summaryTable (rows.filter (·.cooling)))) column vl hl xu yu false := by
  by_cases hc : (summaryTable rows).cols.get column = none
  · have hc' : (summaryTable (rows.filter (·.cooling))).cols.get column = none := by
      have hk : ∀ rows : List (FispactOutput.SumRow K), (summaryTable rows).cols.get column = none ↔
          column ∉ [p!"time_years", p!"act", p!"dose_rate", p!"heating", p!"ingestion", p!"inhalation", p!"tritium", p!"time_days", p!"time_hours", p!"time_secs"] := by
        intro rows
        simp [summaryTable, Dict.get, List.find?_eq_none]
        grind
      exact (hk _).2 ((hk _).1 hc)
    rw [(C158_arguments (summaryTable rows) column xu vl hl yu true).2.1 hc, (C158_arguments _ column xu vl hl yu false).2.1 hc']
  · obtain ⟨c, hc⟩ := Option.ne_none_iff_exists'.1 hc
    conv_lhs => unfold plotSummary
    conv_rhs => unfold plotSummary
    simp only [orErr, ex_ok_bind, hc, chooseRows, if_true, cooling_table, Bool.false_eq_true, if_false]
    cases (summaryTable (rows.filter (·.cooling))).cols.get column <;> rfl

/-- Every quantity of the summary can be drawn for the cooling phase: the points are those of its rows before its first zero. -/
theorem C221_cooling_partial {rows : List (FispactOutput.SumRow K)} {column xu : Str} {q time : FispactOutput.SumRow K → K} (yu : Option Str)
    (hq : (column, q) ∈ (quantities : List (Str × (FispactOutput.SumRow K → K)))) (ht : (checkTimeUnits xu, time) ∈ (timeUnits : List (Str × (FispactOutput.SumRow K → K))))
    (h0 : ∃ r, (rows.filter (·.cooling)).head? = some r ∧ q r ≠ 0) :
    ∃ fig, plotSummary (some (summaryTable rows)) column [] [] xu yu true = .ok fig ∧
      fig.x = ((rows.filter (·.cooling)).takeWhile (fun r => decide (q r ≠ 0))).map time ∧
      fig.y = ((rows.filter (·.cooling)).takeWhile (fun r => decide (q r ≠ 0))).map (fun r => q r * (if column = p!"dose_rate" then 10 ^ 6 else 1)) := by
  rw [C221_cooling]
  exact C221_points_partial yu hq ht h0

/-- Without a row of the cooling phase there is nothing to draw: ValueError, from the largest of no times. -/
theorem C221_no_cooling_violated {rows : List (FispactOutput.SumRow K)} {column xu : Str} {q time : FispactOutput.SumRow K → K} (vl hl : List K) (yu : Option Str)
    (hq : (column, q) ∈ (quantities : List (Str × (FispactOutput.SumRow K → K)))) (ht : (checkTimeUnits xu, time) ∈ (timeUnits : List (Str × (FispactOutput.SumRow K → K))))
    (_hr : rows ≠ []) (hn : ∀ r ∈ rows, r.cooling = false) :
    plotSummary (some (summaryTable rows)) column vl hl xu yu true = .error .ValueError := by
  have hf : rows.filter (·.cooling) = [] := List.filter_eq_nil_iff.2 (fun r hr => by simp [hn r hr])
  rw [C221_cooling, hf]
  have h1 : (summaryTable ([] : List (FispactOutput.SumRow K))).cols.get column = some [] := by
    simp only [quantities, List.mem_cons, Prod.mk.injEq, List.not_mem_nil, or_false] at hq
    rcases hq with ⟨rfl, -⟩ | ⟨rfl, -⟩ | ⟨rfl, -⟩ | ⟨rfl, -⟩ | ⟨rfl, -⟩ | ⟨rfl, -⟩ <;> rfl
  have h2 : (summaryTable ([] : List (FispactOutput.SumRow K))).cols.get (checkTimeUnits xu) = some [] := by
    simp only [timeUnits, List.mem_cons, Prod.mk.injEq, List.not_mem_nil, or_false] at ht
    rcases ht with ⟨e, -⟩ | ⟨e, -⟩ | ⟨e, -⟩ | ⟨e, -⟩ <;> rw [e] <;> rfl
  unfold plotSummary
  simp only [orErr, ex_ok_bind, h1, h2, chooseRows, Bool.false_eq_true, if_false]
  rfl

private def exHot : FispactOutput.SumRow ℚ := ⟨1, 2, 3, 4, 5, 6, 7, false, 365, 8760, 100⟩
private def exCool : FispactOutput.SumRow ℚ := ⟨2, 1, 3, 4, 5, 6, 7, true, 730, 17520, 200⟩

example : plotSummary (some (summaryTable [exHot, exCool])) p!"act" [] [] p!"hours" none true = .ok ⟨[17520], [1], p!"Activity Bq", true⟩ := by decide +kernel
example : plotSummary (some (summaryTable [exHot])) p!"act" [] [] p!"hours" none true = .error .ValueError := by decide +kernel
example : ∃ r, ([exHot, exCool].filter (·.cooling)).head? = some r ∧ r.act ≠ 0 := ⟨exCool, by decide +kernel, by decide +kernel⟩

end Props
