/- Sharper versions of C147, C151, C154, C199, C200 and C223, found by editing the model at random. -/
import Verif.Spec.OosLevels
import Verif.Props.NucChart
import Verif.Props.Oos
import Verif.Props.Tighten3

set_option linter.unusedSectionVars false
set_option linter.unusedSimpArgs false

namespace Props
open Py FispactAnalysis NeutUtilities McnpPlots
variable {K : Type} [Field K] [LinearOrder K] [IsStrictOrderedRing K]

/-! ### C223: the whole chart -/

/-- Without ranges the whole chart is shown: mass numbers up to 294, charges up to 118. -/
theorem C223_default (num : AVal → Nat) (get : Row K → K) (prop : Str) (cols : List Str) (rows : List (Row K)) :
    plotNucChart num get (.frame cols rows) prop none none = plotNucChart num get (.frame cols rows) prop (some (0, 294)) (some (0, 118)) := rfl

/-- In particular every nuclide below these limits that is listed once appears with its value, on axes that show it. -/
theorem C223_default_shown (num : AVal → Nat) (get : Row K → K) (prop : Str) (cols : List Str) (rows : List (Row K)) (hc : ChartCols cols prop) :
    ∃ f, plotNucChart num get (.frame cols rows) prop none none = .ok f ∧ f.alim = (0, 294) ∧ f.zlim = (0, 118) ∧
      nucChart num get rows (some (0, 294)) (some (0, 118)) = .ok f.cells := by
  obtain ⟨f, h, -, ha, hz, hd⟩ := C223_view num get prop cols rows (0, 294) (0, 118) hc (by decide) (by decide)
  exact ⟨f, h, ha, hz, hd⟩

/-! ### C199 and C200: the limits -/

/-- A missing file and a folder are refused. -/
theorem C199_not_readable (flt : Str → Option K) {base path : Str} {fs : FS} (hp : path.head? = some '/') :
    (fs.node path = none → readOOS flt base fs path = .error .FileNotFoundError) ∧
    (fs.node path = some .dir → readOOS flt base fs path = .error .OSError) := by
  have hj : osJoin base path = path := by
    unfold osJoin
    rw [if_pos]
    rw [startsWith_iff]
    cases path with
    | nil => cases hp
    | cons a r => simp only [List.head?_cons, Option.some.injEq] at hp; exact ⟨r, by rw [hp]; rfl⟩
  unfold readOOS
  rw [hj]
  exact ⟨fun h => by rw [h], fun h => by rw [h]⟩

/-- The entries of the shipped limits file are those of the table arranged by level, with these levels. -/
theorem C200_levels (n l : Str) : (n, l) ∈ t1Rows ↔ ∃ ns, (l, ns) ∈ Spec.oosLevels ∧ n ∈ ns := by
  constructor
  · intro h
    have hall : ∀ r ∈ t1Rows, ∃ e ∈ Spec.oosLevels, e.1 = r.2 ∧ r.1 ∈ e.2 := by decide +kernel
    obtain ⟨e, he, h1, h2⟩ := hall _ h
    exact ⟨e.2, by rw [← show e.1 = l from h1]; exact he, h2⟩
  · rintro ⟨ns, h, hn⟩
    have hall : ∀ e ∈ Spec.oosLevels, ∀ m ∈ e.2, (m, e.1) ∈ t1Rows := by decide +kernel
    exact hall _ h _ hn

example : (p!"Co60", p!"0.1") ∈ t1Rows ∧ (p!"Co60", p!"1") ∉ t1Rows := by decide +kernel

/-! ### C147, C151 and C154: what is refused -/

/-- Without target energies there is no figure, with or without the total. -/
theorem C147_no_targets (energies times : List K) (results : List (List K)) (minT maxT : Option K) (window : Nat) (f : K) (pt : Bool) :
    energySlice [] energies times results minT maxT window f pt = .error .ValueError := by
  unfold energySlice
  simp only [List.mapM_nil, ex_pure, ex_ok_bind]
  cases pt
  · simp [totalCurve, timeLimits, medianIndex, bind, Except.bind]
  · unfold totalCurve curve
    split_ifs <;> simp [Except.map, timeLimits, medianIndex, bind, Except.bind]

/-- A tally without energy bins, and no tallies at all when the lower limit is to be found, cannot be drawn. -/
theorem C151_no_bins (t : McnpOutput.Tally K) (ts : List (McnpOutput.Tally K)) (err : Bool) (xlow : Option K) (h : t.eng = none) :
    plotSpectra (t :: ts) err xlow = .error .TypeError ∧ plotSpectra ([] : List (McnpOutput.Tally K)) err none = .error .UnboundLocalError := by
  constructor
  · simp [plotSpectra, spectraLoop, h, orErr, bind, Except.bind]
  · simp [plotSpectra, spectraLoop, orErr, bind, Except.bind]

/-- The ratio needs a result in both tallies and energy bins in the first. -/
theorem C154_refused (t1 t2 : McnpOutput.Tally K) :
    (t1.result = .items [] → plotSpectraRatio t1 t2 = .error .IndexError) ∧
    (∀ a r, t1.result = .items (.list a :: r) → t2.result = .items [] → plotSpectraRatio t1 t2 = .error .IndexError) ∧
    (∀ a r b s, t1.result = .items (.list a :: r) → t2.result = .items (.list b :: s) → a.length = b.length → t1.eng = none →
      plotSpectraRatio t1 t2 = .error .ValueError) := by
  refine ⟨fun h => ?_, fun a r h h2 => ?_, fun a r b s h h2 hl he => ?_⟩
  · simp [plotSpectraRatio, h, firstResult, bind, Except.bind]
  · simp [plotSpectraRatio, h, h2, firstResult, bind, Except.bind]
  · simp [plotSpectraRatio, h, h2, firstResult, divArrays, hl, he, orErr, bind, Except.bind]

example : energySlice ([] : List ℚ) [1] [1] [[1, 2]] none none 1 1 true = .error .ValueError := C147_no_targets ..

end Props
