/- Properties C221 and C222: the plots of the tables that the reader of FISPACT outputs makes. -/
import Verif.Model.SummaryTable
import Verif.Props.FispactPlots
import Verif.Props.FispactOutput

set_option linter.unusedSectionVars false

namespace Props
open Py FispactAnalysis FispactPlots
variable {K : Type} [Field K] [LinearOrder K] [IsStrictOrderedRing K]

/-! ### C221 -/

/-- The quantities of a summary: the name of their column, and the value of a row. -/
def quantities : List (Str × (FispactOutput.SumRow K → K)) :=
  [(p!"act", (·.act)), (p!"dose_rate", (·.dose)), (p!"heating", (·.heat)), (p!"ingestion", (·.ing)), (p!"inhalation", (·.inhal)), (p!"tritium", (·.trit))]

/-- The units in which a time may be asked for, and the time of a row. -/
def timeUnits : List (Str × (FispactOutput.SumRow K → K)) :=
  [(p!"time_years", (·.time)), (p!"time_days", (·.days)), (p!"time_hours", (·.hours)), (p!"time_secs", (·.secs))]

private theorem takeWhile_take {α : Type} (p : α → Bool) : ∀ (l : List α) (n : Nat), (∀ a ∈ l.take n, p a = true) →
    (l.length ≤ n ∨ ∃ a, l[n]? = some a ∧ p a = false) → l.take n = l.takeWhile p
  | [], n, _, _ => by simp
  | a :: l, 0, _, h => by
    rcases h with h | ⟨b, hb, hp⟩
    · simp at h
    · simp only [List.getElem?_cons_zero, Option.some.injEq] at hb
      subst hb
      simp [hp]
  | a :: l, n + 1, h1, h2 => by
    have ha : p a = true := h1 a (by simp)
    rw [List.take_succ_cons, List.takeWhile_cons_of_pos ha, takeWhile_take p l n (fun b hb => h1 b (by simp [hb])) ?_]
    rcases h2 with h2 | ⟨b, hb, hp⟩
    · exact .inl (by simpa using h2)
    · exact .inr ⟨b, by simpa using hb, hp⟩

private theorem reduce_rows {α : Type} (rows : List α) (q time : α → K) : reduceToNonZero (rows.map q) (rows.map time) =
    .ok ((rows.takeWhile (fun r => decide (q r ≠ 0))).map q, (rows.takeWhile (fun r => decide (q r ≠ 0))).map time) := by
  obtain ⟨h1, h2⟩ := C43_reduce (rows.map q) (rows.map time)
  cases hr : reduceToNonZero (rows.map q) (rows.map time) with
  | error e => exact absurd ((h1 e).1 hr).2 (by simp)
  | ok vt =>
    obtain ⟨v, t⟩ := vt
    obtain ⟨a1, a2, a3, a4, a5, -⟩ := h2 v t hr
    have hv : v = (rows.take v.length).map q := by rw [List.map_take]; exact List.prefix_iff_eq_take.1 a1
    have ht : t = (rows.take v.length).map time := by rw [List.map_take, a3]; exact List.prefix_iff_eq_take.1 a2
    have htw : rows.take v.length = rows.takeWhile (fun r => decide (q r ≠ 0)) := by
      apply takeWhile_take
      · intro r hr'
        simp only [decide_eq_true_eq]
        exact a4 (q r) (by rw [hv]; exact List.mem_map_of_mem hr')
      · rcases a5 with a5 | a5
        · exact .inl (by rw [a5]; simp)
        · rw [List.getElem?_map, Option.map_eq_some_iff] at a5
          obtain ⟨r, hr', h0⟩ := a5
          exact .inr ⟨r, hr', by simp [h0]⟩
    rw [htw] at hv ht
    rw [← hv, ← ht]

private theorem get_quantity {rows : List (FispactOutput.SumRow K)} {column : Str} {q : FispactOutput.SumRow K → K}
    (hq : (column, q) ∈ (quantities : List (Str × (FispactOutput.SumRow K → K)))) : (summaryTable rows).cols.get column = some (rows.map q) := by
  simp only [quantities, List.mem_cons, Prod.mk.injEq, List.not_mem_nil, or_false] at hq
  rcases hq with ⟨rfl, rfl⟩ | ⟨rfl, rfl⟩ | ⟨rfl, rfl⟩ | ⟨rfl, rfl⟩ | ⟨rfl, rfl⟩ | ⟨rfl, rfl⟩ <;> rfl

private theorem get_time {rows : List (FispactOutput.SumRow K)} {column : Str} {q : FispactOutput.SumRow K → K}
    (hq : (column, q) ∈ (timeUnits : List (Str × (FispactOutput.SumRow K → K)))) : (summaryTable rows).cols.get column = some (rows.map q) := by
  simp only [timeUnits, List.mem_cons, Prod.mk.injEq, List.not_mem_nil, or_false] at hq
  rcases hq with ⟨rfl, rfl⟩ | ⟨rfl, rfl⟩ | ⟨rfl, rfl⟩ | ⟨rfl, rfl⟩ <;> rfl

/-- Every quantity of the summary can be drawn against the time in every unit: the points are those of the rows before the first zero, the dose
    rate in μSv/h. -/
theorem C221_points_partial {rows : List (FispactOutput.SumRow K)} {column xu : Str} {q time : FispactOutput.SumRow K → K} (yu : Option Str)
    (hq : (column, q) ∈ (quantities : List (Str × (FispactOutput.SumRow K → K)))) (ht : (checkTimeUnits xu, time) ∈ (timeUnits : List (Str × (FispactOutput.SumRow K → K))))
    (h0 : ∃ r, rows.head? = some r ∧ q r ≠ 0) :
    ∃ fig, plotSummary (some (summaryTable rows)) column [] [] xu yu false = .ok fig ∧
      fig.x = (rows.takeWhile (fun r => decide (q r ≠ 0))).map time ∧
      fig.y = (rows.takeWhile (fun r => decide (q r ≠ 0))).map (fun r => q r * (if column = p!"dose_rate" then 10 ^ 6 else 1)) := by
  obtain ⟨r, hr, hr0⟩ := h0
  obtain ⟨rest, rfl⟩ : ∃ rest, rows = r :: rest := by
    cases rows with
    | nil => cases hr
    | cons a l => simp only [List.head?_cons, Option.some.injEq] at hr; exact ⟨l, by rw [hr]⟩
  have hfig : ∃ fig, plotSummary (some (summaryTable (r :: rest))) column [] [] xu yu false = .ok fig := by
    unfold plotSummary
    simp only [orErr, ex_ok_bind, get_quantity hq, get_time ht, chooseRows, Bool.false_eq_true, if_false, reduce_rows]
    rw [List.takeWhile_cons_of_pos (by simpa using hr0)]
    simp [pyMax, ex_ok_bind]
  obtain ⟨fig, hfig⟩ := hfig
  refine ⟨fig, hfig, ?_⟩
  obtain ⟨vals, times, n, c1, c2, c3, c4, c5, c6, c7, -⟩ := C158_points_partial hfig
  obtain ⟨f1, g1, e1, -⟩ := c1
  obtain ⟨f2, g2, e2, -⟩ := c2
  rw [get_quantity hq, Option.some.injEq] at g1
  rw [get_time ht, Option.some.injEq] at g2
  have e1 := e1 rfl
  have e2 := e2 rfl
  subst g1 g2 e1 e2
  have htw : (r :: rest).take n = (r :: rest).takeWhile (fun r => decide (q r ≠ 0)) := by
    apply takeWhile_take
    · intro a ha
      simp only [decide_eq_true_eq]
      exact c6 (q a) (by rw [← List.map_take]; exact List.mem_map_of_mem ha)
    · rcases c7 with c7 | c7
      · exact .inl (by rw [c7]; simp)
      · rw [List.getElem?_map, Option.map_eq_some_iff] at c7
        obtain ⟨a, ha, h0⟩ := c7
        exact .inr ⟨a, ha, by simp [h0]⟩
  rw [c4, c5, ← List.map_take, ← List.map_take, htw, List.map_map]
  exact ⟨rfl, rfl⟩

/-- The activity and the dose rate are named with their units. -/
theorem C221_label_partial {rows : List (FispactOutput.SumRow K)} {column xu : Str} {vl hl : List K} {cooling : Bool} {fig : SummaryFig K}
    (h : plotSummary (some (summaryTable rows)) column vl hl xu none cooling = .ok fig) :
    (column = p!"act" → fig.label = p!"Activity Bq") ∧ (column = p!"dose_rate" → fig.label = p!"Dose rate $\\mu$Sv/h") := by
  obtain ⟨h1, h2, -⟩ := C158_label h
  exact ⟨fun hc => (h2 hc).2 (by simp), h1⟩

/-- The heating, the doses and the tritium are named by their columns, without a unit. -/
theorem C221_label_violated {rows : List (FispactOutput.SumRow K)} {column xu : Str} {vl hl : List K} {yu : Option Str} {cooling : Bool} {fig : SummaryFig K}
    (hc : column ∈ [p!"heating", p!"ingestion", p!"inhalation", p!"tritium"])
    (h : plotSummary (some (summaryTable rows)) column vl hl xu yu cooling = .ok fig) : fig.label = column := by
  unfold plotSummary at h
  simp only [ex_bind_ok] at h
  obtain ⟨t0, -, c0, -, t', -, data, -, times, -, dt, -, m, -, h⟩ := h
  split at h
  · cases h
  · simp only [Except.ok.injEq] at h
    rw [← h]
    simp only [List.mem_cons, List.not_mem_nil, or_false] at hc
    unfold columnLabel
    rcases hc with rfl | rfl | rfl | rfl
    · rw [if_neg (by decide), if_neg (by decide), if_neg (by decide), if_neg (by decide), if_neg (by decide), if_neg (by decide)]
    · rw [if_neg (by decide), if_neg (by decide), if_neg (by decide), if_neg (by decide), if_neg (by decide), if_neg (by decide)]
    · rw [if_neg (by decide), if_neg (by decide), if_neg (by decide), if_neg (by decide), if_neg (by decide), if_neg (by decide)]
    · rw [if_neg (by decide), if_neg (by decide), if_neg (by decide), if_neg (by decide), if_neg (by decide), if_neg (by decide)]

/-- The names for which there are labels with units are not columns of the summary: asking for them raises ValueError. -/
theorem C221_names_violated (rows : List (FispactOutput.SumRow K)) (column xu : Str) (vl hl : List K) (yu : Option Str) (cooling : Bool)
    (hc : column ∈ [p!"heat_output", p!"ingestion_dose", p!"inhalation_dose", p!"tritium_activity"]) :
    plotSummary (some (summaryTable rows)) column vl hl xu yu cooling = .error .ValueError := by
  refine (C158_arguments (summaryTable rows) column xu vl hl yu cooling).2.1 ?_
  simp only [List.mem_cons, List.not_mem_nil, or_false] at hc
  rcases hc with rfl | rfl | rfl | rfl <;> rfl

private def exSum : FispactOutput.SumRow ℚ := ⟨1, 2, 3, 4, 5, 6, 7, false, 365, 8760, 100⟩

example : plotSummary (some (summaryTable [exSum])) p!"heating" [] [] p!"hours" none false = .ok ⟨[8760], [4], p!"heating", true⟩ := by decide +kernel
example : (p!"heating", fun r : FispactOutput.SumRow ℚ => r.heat) ∈ (quantities : List (Str × (FispactOutput.SumRow ℚ → ℚ))) := by simp [quantities]
example : (checkTimeUnits p!"hours", fun r : FispactOutput.SumRow ℚ => r.hours) ∈ (timeUnits : List (Str × (FispactOutput.SumRow ℚ → ℚ))) := by
  have : checkTimeUnits p!"hours" = p!"time_hours" := by decide +kernel
  rw [this]
  simp [timeUnits]
example : plotSummary (some (summaryTable [exSum])) p!"dose_rate" [] [] p!"hours" none false = .ok ⟨[8760], [3000000], p!"Dose rate $\\mu$Sv/h", true⟩ := by
  decide +kernel

/-! ### C222 -/

/-- Columns of numbers of an inventory (fispact_output_reader.py:546-547). -/
def inventoryColumns : List Str := [p!"atoms", p!"mass", p!"act", p!"b_energy", p!"a_energy", p!"g_energy", p!"dose_rate"]

/-- Without the total any column of the inventory is drawn; with it the activity and the dose rate, whose totals are in the summary. -/
theorem C222_total_partial (get : Row K → K) (rows : List (FispactOutput.SumRow K)) (steps : List (List Str × List (Row K))) (nucs : List Str) (param : Str)
    (total : Bool) (hc : ∀ s ∈ steps, p!"nuclide" ∈ s.1) (hn : nucs ≠ []) (hl : rows.length = steps.length) (h0 : rows ≠ [])
    (hp : total = true → param = p!"act" ∨ param = p!"dose_rate") :
    ∃ fig cs, plotNucCont get (summaryTable rows) (steps.map (fun s => .frame s.1 s.2)) nucs param total = .ok fig ∧
      fig.curves = cs ++ (if total then [(p!"Total", rows.map (·.hours), rows.map (fun r => if param = p!"act" then r.act else r.dose))] else []) ∧
      cs.map (·.1) = nucs ∧ ∀ c ∈ cs, c.2.1 = rows.map (·.hours) := by
  have hpc : total = true → (summaryTable rows).cols.get param = some (rows.map (fun r => if param = p!"act" then r.act else r.dose)) := by
    intro ht
    rcases hp ht with rfl | rfl
    · rfl
    · simp only [show (p!"dose_rate" = p!"act") = False by decide, if_false]
      rfl
  obtain ⟨fig, cs, h1, h2, -, h3⟩ := C161_curves get (summaryTable rows) steps nucs param total (rows.map (·.hours)) hc hn rfl (by simpa using hl)
    (by simpa using h0) (fun ht => ⟨_, hpc ht, by simp⟩)
  refine ⟨fig, cs, h1, ?_, ?_, ?_⟩
  · rw [h2]
    cases total with
    | false => rfl
    | true => simp only [if_true, hpc rfl, Option.getD_some]
  · clear h1 h2 hn
    induction h3 with
    | nil => rfl
    | cons h _ ih => rw [List.map_cons, ih, h.1]
  · intro c hc'
    clear h1 h2 hn
    induction h3 with
    | nil => cases hc'
    | cons h _ ih =>
      rcases List.mem_cons.1 hc' with rfl | hc'
      · exact h.2.1
      · exact ih hc'

/-- For the other columns of the inventory the total is looked for in the summary, where there is no such column: KeyError. -/
theorem C222_total_violated (get : Row K → K) (rows : List (FispactOutput.SumRow K)) (steps : List (List Str × List (Row K))) (nucs : List Str) (param : Str)
    (hc : ∀ s ∈ steps, p!"nuclide" ∈ s.1) (hn : nucs ≠ []) (hl : rows.length = steps.length) (h0 : rows ≠ [])
    (hp : param ∈ inventoryColumns) (h1 : param ≠ p!"act") (h2 : param ≠ p!"dose_rate") :
    plotNucCont get (summaryTable rows) (steps.map (fun s => .frame s.1 s.2)) nucs param true = .error .KeyError := by
  have hno : (summaryTable rows).cols.get param = none := by
    simp only [inventoryColumns, List.mem_cons, List.not_mem_nil, or_false] at hp
    rcases hp with rfl | rfl | rfl | rfl | rfl | rfl | rfl <;> first | rfl | exact absurd rfl h1 | exact absurd rfl h2
  obtain ⟨fig, -, hf, -⟩ := C222_total_partial get rows steps nucs param false hc hn hl h0 (by simp)
  unfold plotNucCont at hf ⊢
  rw [if_neg hn] at hf ⊢
  have ht : (summaryTable rows).cols.get p!"time_hours" = some (rows.map (·.hours)) := rfl
  simp only [ht, orErr, ex_ok_bind] at hf ⊢
  rw [ex_bind_ok] at hf
  obtain ⟨cs, hcs, -⟩ := hf
  rw [hcs]
  simp [ex_ok_bind, totalCurve, hno, orErr, ex_err_bind]

/-- The text at the axis is that of a specific activity whatever is drawn. -/
theorem C222_label_violated {get : Row K → K} {sumdat : Table K} {steps : List (Arg K)} {nucs : List Str} {param : Str} {total : Bool} {fig : ContFig K}
    (h : plotNucCont get sumdat steps nucs param total = .ok fig) : fig.yLabel = p!"bq/kg" ∧ fig.xLabel = p!"Time hours" := by
  unfold plotNucCont at h
  split at h
  · cases h
  · simp only [ex_bind_ok, Except.ok.injEq] at h
    obtain ⟨_, -, _, -, _, -, _, -, rfl⟩ := h
    exact ⟨rfl, rfl⟩

example : plotNucCont (fun _ => (5 : ℚ)) (summaryTable [exSum]) [.frame [p!"nuclide"] []] [p!"H3"] p!"mass" true = .error .KeyError := by decide +kernel
example : plotNucCont (fun _ => (5 : ℚ)) (summaryTable [exSum]) [.frame [p!"nuclide"] []] [p!"H3"] p!"mass" false =
    .ok ⟨[(p!"H3", [8760], [0])], true, p!"Time hours", p!"bq/kg"⟩ := by decide +kernel

end Props
