/- Properties C236 and C237: attributes of FISPACT outputs that are declared and never read, and the uncertainties of the summary. -/
import Verif.Model.FispactObjects
import Verif.Model.SummaryTable
import Verif.Props.FispactOutput3

set_option linter.unusedSectionVars false

namespace Props
open Py FispactOutput NeutUtilities
variable {K : Type} [Field K] [LinearOrder K] [IsStrictOrderedRing K]

/-! ### C236 -/

/-- The first line of a time step without flux, such as "1 * * * TIME INTERVAL   3 * * * COOLING TIME IS   6.0000E+02 SECS". -/
def CoolingLine (l : Str) : Prop := StepLine l ∧ p!"COOLING TIME IS" <:+: l

/-- The flux is printed in the first line of the step, behind "FLUX AMP IS". -/
def FluxPrinted (flt : Str → Option K) (l : Str) (x : K) : Prop :=
  ∃ pre num rest : Str, l = pre ++ p!"FLUX AMP IS" ++ num ++ p!" /cm^2/s" ++ rest ∧ flt num = some x

private theorem step_object (flt : Str → Option K) (lines : List Str) (i : Nat) (o : StepObject K) :
    readStepObject flt lines i = .ok o ↔ readTimeStep flt lines i = .ok o.step ∧ o.isCooling = false ∧ o.fluxAmp = 0 := by
  obtain ⟨t, c, x⟩ := o
  unfold readStepObject
  simp only [ex_bind_ok, ex_pure, Except.ok.injEq, StepObject.mk.injEq]
  constructor
  · rintro ⟨t', h, rfl, rfl, rfl⟩; exact ⟨h, rfl, rfl⟩
  · rintro ⟨h, rfl, rfl⟩; exact ⟨_, h, rfl, rfl, rfl⟩

/-- C236 (part that holds): a step that is read is marked as a step without cooling and without flux, which is right for steps with these
    properties. Missing: all other steps (`C236_cooling_violated`, `C236_flux_violated`). -/
theorem C236_default_partial (flt : Str → Option K) (l : Str) (lines : List Str) (i : Nat) (o : StepObject K)
    (h : readStepObject flt (l :: lines) i = .ok o) :
    (¬ CoolingLine l → o.isCooling = false) ∧ (FluxPrinted flt l 0 → o.fluxAmp = 0) :=
  ⟨fun _ => ((step_object _ _ _ _).1 h).2.1, fun _ => ((step_object _ _ _ _).1 h).2.2⟩

/-- C236 is violated by every cooling step. -/
theorem C236_cooling_violated (flt : Str → Option K) (l : Str) (lines : List Str) (i : Nat) (o : StepObject K) (_hl : CoolingLine l)
    (h : readStepObject flt (l :: lines) i = .ok o) : ¬ (o.isCooling = true) := by
  rw [((step_object _ _ _ _).1 h).2.1]
  simp

/-- C236 is violated by every step with a flux. -/
theorem C236_flux_violated (flt : Str → Option K) (l : Str) (lines : List Str) (i : Nat) (o : StepObject K) (x : K)
    (_hl : FluxPrinted flt l x) (hx : x ≠ 0) (h : readStepObject flt (l :: lines) i = .ok o) : o.fluxAmp ≠ x := by
  rw [((step_object _ _ _ _).1 h).2.2]
  exact hx.symm

/-- C236: the steps of the output are those of C75, and none of them is marked as cooling; the number of cooling steps stays 0 and the list of
    times empty, however many cooling steps the summary has. -/
theorem C236_output_violated (flt : Str → Option K) (path : Str) (lines : List Str) (o : OutObject K)
    (h : readOutObject flt path lines = .ok o) :
    readLines flt path lines = .ok o.out ∧ o.steps.map (fun s => s.step) = o.out.timesteps ∧
    (∀ s ∈ o.steps, s.isCooling = false ∧ s.fluxAmp = 0) ∧ o.numCoolStep = 0 ∧ o.timeDays = [] := by
  unfold readOutObject at h
  simp only [ex_bind_ok, ex_pure, Except.ok.injEq] at h
  obtain ⟨fo, hfo, steps, hsteps, rfl⟩ := h
  obtain ⟨-, -, -, -, -, -, -, -, -, -, -, -, hts⟩ := C135_fields flt path lines fo hfo
  unfold readSteps at hts
  rw [mapM_except_ok_iff] at hsteps hts
  refine ⟨hfo, ?_, ?_, rfl, rfl⟩
  · generalize List.range' 1 ((markers lines).length - 1) = r at hsteps hts
    generalize fo.timesteps = ts at hts
    clear hfo
    induction r generalizing steps ts with
    | nil => cases hsteps; cases hts; rfl
    | cons a r ih =>
      cases hsteps with
      | cons h1 h2 =>
        cases hts with
        | cons g1 g2 =>
          simp only [ex_bind_ok, step_object] at h1 g1
          obtain ⟨s, hs, h1, -⟩ := h1
          obtain ⟨s', hs', g1⟩ := g1
          rw [hs] at hs'
          cases hs'
          rw [h1, Except.ok.injEq] at g1
          simp only [List.map_cons, g1, ih _ h2 _ g2]
  · intro s hs
    generalize List.range' 1 ((markers lines).length - 1) = r at hsteps
    clear hts hfo
    induction hsteps with
    | nil => cases hs
    | cons h1 h2 ih =>
      rcases List.mem_cons.1 hs with rfl | hs
      · simp only [ex_bind_ok, step_object] at h1
        obtain ⟨_, -, -, h1⟩ := h1
        exact h1
      · exact ih hs

example : CoolingLine p!"1 * * * TIME INTERVAL   3 * * * COOLING TIME IS   6.0000E+02 SECS" :=
  ⟨by unfold StepLine; decide, by rw [← hasSub_iff]; decide +kernel⟩
example : FluxPrinted (fun s => if s = p!"  6.0000E+06" then some (6000000 : ℚ) else none)
    p!"1 * * * FLUX AMP IS  6.0000E+06 /cm^2/s  * * *" 6000000 :=
  ⟨p!"1 * * * ", p!"  6.0000E+06", p!"  * * *", by decide, by decide⟩
example : (readStepObject (fun _ => some (0 : ℚ)) exStep 4).map (fun o => (o.step.stepNum, o.isCooling, o.fluxAmp)) = .ok (5, false, 0) := by
  decide +kernel

/-! ### C237 -/

/-- The columns of the summary for uncertainties, and the position of the value they belong to in a line. -/
def uncertaintyColumns : List (Str × Nat) := [(p!"act_un", 35), (p!"dr_un", 58), (p!"heat_un", 81), (p!"ing_un", 104), (p!"inhal_un", 127)]

/-- The uncertainty in per cent printed behind the value at column `a`, between a plus-minus sign and a per cent sign. -/
def UncertaintyPrinted (flt : Str → Option K) (l : Str) (a : Nat) (x : K) : Prop :=
  ∃ num rest : Str, l.drop (a + 8) = p!" +/-" ++ num ++ '%' :: rest ∧ flt num = some x

/-- C237 (part that holds): there is a column for each uncertainty, with one entry for each row. -/
theorem C237_columns_partial (rows : List (SumRow K)) : (FispactPlots.uncertaintyTable rows).keys = uncertaintyColumns.map Prod.fst ∧
    ∀ c ∈ uncertaintyColumns, ∃ xs, (FispactPlots.uncertaintyTable rows).get c.1 = some xs ∧ xs.length = rows.length := by
  refine ⟨rfl, ?_⟩
  intro c hc
  simp only [uncertaintyColumns, List.mem_cons, List.not_mem_nil, or_false] at hc
  rcases hc with rfl | rfl | rfl | rfl | rfl <;> exact ⟨rows.map (fun _ => none), rfl, by simp⟩

/-- C237 is violated: no uncertainty is ever read, whatever is printed in the lines of the summary. -/
theorem C237_values_violated (flt : Str → Option K) (data : List Str) (rows : List (SumRow K)) (_h : readSummaryData flt data = .ok rows)
    (l : Str) (_hl : l ∈ data) (c : Str × Nat) (hc : c ∈ uncertaintyColumns) (x : K) (_hx : UncertaintyPrinted flt l c.2 x) :
    ∀ xs, (FispactPlots.uncertaintyTable rows).get c.1 = some xs → some x ∉ xs := by
  intro xs hxs
  have : xs = rows.map (fun _ => none) := by
    simp only [uncertaintyColumns, List.mem_cons, List.not_mem_nil, or_false] at hc
    rcases hc with rfl | rfl | rfl | rfl | rfl <;> exact (Option.some.inj hxs).symm
  rw [this]
  simp

example : UncertaintyPrinted (fun s => if s = p!"    0.1" then some (1 / 10 : ℚ) else none)
    (List.replicate 43 ' ' ++ p!" +/-    0.1%   1.02E-07") 35 (1 / 10) := ⟨p!"    0.1", p!"   1.02E-07", by decide, by decide +kernel⟩

end Props
