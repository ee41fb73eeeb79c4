/- Sharper versions of C17, C18, C44, C147, C151, C152, C199 and C228, found by editing the model at random. -/
import Verif.Spec.Html
import Verif.Props.OutputUtilities
import Verif.Props.Oos
import Verif.Props.Tighten3
import Verif.Props.TimeSpectra
import Verif.Props.FispactChain

set_option linter.unusedSectionVars false
set_option linter.unusedSimpArgs false

namespace Props
open Py NeutUtilities

/-! ### C17 and C18: the pages -/

section html
open OutputUtilities Spec

private theorem join_lines (rows : List Str) (f : Str) (h : rows ≠ []) : join ['\n'] rows ++ ['\n'] ++ f = rows.flatMap (fun r => r ++ ['\n']) ++ f := by
  induction rows with
  | nil => exact absurd rfl h
  | cons r rs ih =>
    cases rs with
    | nil => simp [join]
    | cons r' rs =>
      have := ih (by simp)
      rw [join, List.flatMap_cons]
      simp only [List.append_assoc] at this ⊢
      rw [this]

private theorem join_snoc (rows : List Str) (h : rows ≠ []) (f : Str) : join ['\n'] (rows ++ [f]) = join ['\n'] rows ++ ['\n'] ++ f := by
  induction rows with
  | nil => exact absurd rfl h
  | cons r rs ih =>
    cases rs with
    | nil => simp [join]
    | cons r' rs =>
      have := ih (by simp)
      rw [List.cons_append, List.cons_append, join, join, ← List.cons_append, this]
      simp only [List.append_assoc]

/-- The page is a table with the headings and one row of four cells for each tally and cell. -/
theorem C17_page {α : Type} (str : α → Str) (ts : List (Tally α)) (fname : Str) (fs : FS) (hw : fs.canWrite fname = true) (hc : Complete ts)
    (hq : quads ts ≠ []) :
    htmlF4TabOut str (.many ts) fname fs = (.ok (), fs.put fname (.file (el p!"html" (tableLines
      [p!"Tally Number", p!"CellNumber", p!"Result", p!"Relative error"]
      ((quads ts).map (fun q => [str q.1, str q.2.1, str q.2.2.1, str q.2.2.2])))))) := by
  unfold htmlF4TabOut
  rw [PyM.bind_ok (fs' := fs) (a := (quads ts).map (fun q => htmlRow str q.1 q.2.1 q.2.2.1 q.2.2.2))]
  · unfold writeText
    rw [if_pos hw]
    have hrow : ∀ q : α × α × α × α, htmlRow str q.1 q.2.1 q.2.2.1 q.2.2.2 = trow p!"td" [str q.1, str q.2.1, str q.2.2.1, str q.2.2.2] := by
      intro q; simp [htmlRow, trow, el]
    simp only [hrow]
    have hh : htmlHeader = p!"<html><table>" ++ trow p!"th" [p!"Tally Number", p!"CellNumber", p!"Result", p!"Relative error"] := by decide
    have := join_lines ((quads ts).map (fun q => trow p!"td" [str q.1, str q.2.1, str q.2.2.1, str q.2.2.2])) p!"</table></html>" (by simpa using hq)
    rw [List.flatMap_map] at this
    rw [hh]
    unfold tableLines
    rw [List.flatMap_map]
    generalize trow p!"th" _ = H at *
    generalize join _ _ = J at *
    simp only [List.append_assoc, List.cons_append, List.nil_append] at this
    congr 3
    simp only [el, List.append_assoc, List.cons_append, List.nil_append]
    rw [this]
  · rw [PyM.lift_run, Data.toList, allRows_ok _ _ hc]
    simp only [quads, List.map_flatMap, List.map_map]
    rfl

/-- The section of a tally: its number and particle, the numbers of bins, the ten tests, and the cells of a flux tally. -/
def reportSection (t : HtmlTally) : Str :=
  el p!"p" (el p!"H2" (p!" Tally Number: " ++ t.number) ++ ['\n'] ++ p!"Particle: " ++ t.particle ++ ['\n'] ++
    (if t.eng = [] then [] else p!"Number Energy Bins: " ++ natStr t.eng.length ++ ['\n']) ++
    (if t.times = [] then [] else p!"Number Time Bins: " ++ natStr t.times.length ++ ['\n']) ++
    (if t.statTests = [] then p!"Warning Statistical test data not found\n"
     else p!"Statistical test results\n" ++ tableLines [p!"Test", p!"Result"] ((testNames.zip t.statTests).map (fun e => [e.1, e.2])) ++ ['\n']) ++
    (if t.tallyType = p!"4" then p!"Number Cells: " ++ natStr t.cells.length ++ p!"\nCells: " ++ t.cells.flatten ++ p!"\nVolumes: " ++ t.vols.flatten ++ ['\n'] ++
      (if t.eng = [] then [] else match t.cells with
        | [c] => p!"<img src=tally_" ++ t.number ++ ['_'] ++ c ++ p!".png alt=\"simulated spectrum\">\n"
        | _ => [])
     else [])) ++ ['\n']

private theorem tally_lines {t : HtmlTally} (h : t.statTests = [] ∨ 10 ≤ t.statTests.length) :
    ∃ l, htmlTallyLines t = .ok l ∧ l.flatMap (fun x => x ++ ['\n']) = reportSection t := by
  have names : statNames = testNames := by decide
  have tab : ∀ d : List (Str × Str), join ['\n'] ([p!"<table><tr><th>Test</th><th>Result</th></tr>"] ++
        d.map (fun e => p!"<tr><td>" ++ e.1 ++ p!"</td><td>" ++ e.2 ++ p!"</td></tr>") ++ [p!"</table>"]) =
      tableLines [p!"Test", p!"Result"] (d.map (fun e => [e.1, e.2])) := by
    intro d
    have := join_lines ([p!"<table><tr><th>Test</th><th>Result</th></tr>"] ++ d.map (fun e => p!"<tr><td>" ++ e.1 ++ p!"</td><td>" ++ e.2 ++ p!"</td></tr>"))
      p!"</table>" (by simp)
    rw [join_snoc _ (by simp), this]
    unfold tableLines
    simp [List.flatMap_map, el, trow]
  have stats : ∃ s, htmlStats t = .ok s ∧ s.flatMap (fun x => x ++ ['\n']) = (if t.statTests = [] then p!"Warning Statistical test data not found\n"
     else p!"Statistical test results\n" ++ tableLines [p!"Test", p!"Result"] ((testNames.zip t.statTests).map (fun e => [e.1, e.2])) ++ ['\n']) := by
    unfold htmlStats
    rcases h with h | h
    · rw [if_pos (by rw [h]; rfl), if_pos h]
      exact ⟨_, rfl, rfl⟩
    · have h0 : t.statTests ≠ [] := by rintro e; rw [e] at h; simp at h
      rw [if_neg (by simpa using h0), if_neg (by omega), if_neg h0, tab, names]
      refine ⟨_, rfl, ?_⟩
      generalize tableLines _ _ = T
      simp
  obtain ⟨s, hs, hf⟩ := stats
  unfold htmlTallyLines reportSection
  rw [hs]
  refine ⟨_, rfl, ?_⟩
  rw [← hf]
  have hcells : (htmlCells t).flatMap (fun x => x ++ ['\n']) = (if t.tallyType = p!"4" then p!"Number Cells: " ++ natStr t.cells.length ++ p!"\nCells: " ++ t.cells.flatten ++ p!"\nVolumes: " ++ t.vols.flatten ++ ['\n'] ++
      (if t.eng = [] then [] else match t.cells with
        | [c] => p!"<img src=tally_" ++ t.number ++ ['_'] ++ c ++ p!".png alt=\"simulated spectrum\">\n"
        | _ => [])
     else []) := by
    unfold htmlCells
    by_cases h4 : t.tallyType = ['4']
    · rw [if_pos h4, if_pos h4]
      by_cases he : t.eng = []
      · rcases t.cells with _ | ⟨c, _ | ⟨d, cs⟩⟩ <;> simp [he]
      · rcases t.cells with _ | ⟨c, _ | ⟨d, cs⟩⟩ <;> simp [he]
    · rw [if_neg h4, if_neg h4]; rfl
  rw [List.flatMap_append, List.flatMap_append, List.flatMap_append, hcells]
  generalize (if t.tallyType = p!"4" then _ else _ : Str) = C
  generalize s.flatMap _ = S
  unfold htmlHead
  by_cases he : t.eng = [] <;> by_cases ht : t.times = [] <;> simp [he, ht, el]

set_option maxRecDepth 4096 in
/-- The report that was to be written, had `write_html` existed: a page with the name, the date and time, the rendezvous, the number of warnings
    and a section for each tally. -/
theorem C18_lines_partial (o : HtmlObject) (h : ∀ t ∈ o.tallyData, t.statTests = [] ∨ 10 ≤ t.statTests.length) :
    ∃ l, htmlLines o = .ok l ∧ l.flatMap (fun x => x ++ ['\n']) = p!"<!DOCTYPE html>" ++ el p!"HTML"
      (el p!"HEAD" p!"\n<meta charset=\"utf-8\">\n<meta name=\"viewport\" content=\"width=device-width\">\n" ++ ['\n'] ++ el p!"title" o.fileName ++ ['\n'] ++
       el p!"body" (['\n'] ++ el p!"H1" o.fileName ++ p!"\nDate run: " ++ o.date ++ p!"\nTime run: " ++ o.startTime ++ p!"\nRendevous: " ++ o.numRendevous ++
        p!"\nNumber of warnings: " ++ natStr o.warnings ++ ['\n'] ++ o.tallyData.flatMap reportSection) ++ ['\n']) ++ ['\n'] := by
  have body : ∀ ts : List HtmlTally, (∀ t ∈ ts, t.statTests = [] ∨ 10 ≤ t.statTests.length) →
      ∃ l, htmlTallies ts = .ok l ∧ l.flatMap (fun x => x ++ ['\n']) = ts.flatMap reportSection := by
    intro ts
    induction ts with
    | nil => intro _; exact ⟨[], rfl, rfl⟩
    | cons t ts ih =>
      intro h
      obtain ⟨l1, e1, f1⟩ := tally_lines (h t (by simp))
      obtain ⟨l2, e2, f2⟩ := ih (fun t ht => h t (by simp [ht]))
      exact ⟨l1 ++ l2, by rw [htmlTallies, e1]; simp only [e2], by rw [List.flatMap_append, f1, f2, List.flatMap_cons]⟩
  obtain ⟨b, e, f⟩ := body _ h
  unfold htmlLines
  rw [e]
  refine ⟨_, rfl, ?_⟩
  rw [List.flatMap_append, List.flatMap_append, f]
  generalize o.tallyData.flatMap reportSection = B
  simp [el]

/-- Fewer than ten results of the tests are refused. -/
theorem C18_tests_violated (o : HtmlObject) (fname : Str) (fs : FS) {t : HtmlTally} (ht : t ∈ o.tallyData) (h0 : t.statTests ≠ []) (h : t.statTests.length < 10) :
    htmlOutput o fname fs = (.error .IndexError, fs) := by
  have one : ∀ t : HtmlTally, (∃ l, htmlTallyLines t = .ok l) ∨ htmlTallyLines t = .error .IndexError := by
    intro t
    unfold htmlTallyLines htmlStats
    by_cases h0 : t.statTests.isEmpty = true
    · rw [if_pos h0]; exact Or.inl ⟨_, rfl⟩
    · by_cases h1 : t.statTests.length < 10
      · rw [if_neg h0, if_pos h1]; exact Or.inr rfl
      · rw [if_neg h0, if_neg h1]; exact Or.inl ⟨_, rfl⟩
  have bad : htmlTallyLines t = .error .IndexError := by
    unfold htmlTallyLines htmlStats
    rw [if_neg (by simpa using h0), if_pos h]
  have all : ∀ ts : List HtmlTally, t ∈ ts → htmlTallies ts = .error .IndexError := by
    intro ts
    induction ts with
    | nil => intro h; cases h
    | cons u us ih =>
      intro h
      rw [htmlTallies]
      rcases one u with ⟨l, hl⟩ | hl
      · rw [hl]
        rcases List.mem_cons.1 h with rfl | h
        · rw [bad] at hl; cases hl
        · simp only [ih h]
      · rw [hl]
  unfold htmlOutput htmlLines
  rw [all _ ht]
  rfl

/-- A tally with its ten tests, for the examples. -/
def exHtml : HtmlTally := ⟨p!"4", p!"neutrons", [p!"1"], [], List.replicate 10 p!"yes", p!"4", [p!"7"], [p!"2.0"]⟩

example : quads [exTally] ≠ [] ∧ (exHtml.statTests = [] ∨ 10 ≤ exHtml.statTests.length) ∧ p!"<img src=tally_4_7.png alt=\"simulated spectrum\">" <:+: reportSection exHtml := by
  refine ⟨by decide, Or.inr (by decide), ?_⟩
  rw [← hasSub_iff]; decide +kernel

end html

/-! ### C147 and C149: the limits -/

section plots
open McnpPlots McnpAnalysis
variable {K : Type} [Field K] [LinearOrder K] [IsStrictOrderedRing K]

/-- The limits of the time axis cannot be found without peaks or without times, and in no other case. -/
theorem C147_limits (times : List K) (peaks : List Nat) (minT maxT : Option K) (window : Nat) :
    (peaks = [] → timeLimits times peaks minT maxT window = .error .ValueError) ∧
    (peaks ≠ [] → times = [] → timeLimits times peaks minT maxT window = .error .IndexError) ∧
    (peaks ≠ [] → times ≠ [] → ∃ r, timeLimits times peaks minT maxT window = .ok r) := by
  have hmed : peaks ≠ [] → ∃ m, medianIndex peaks = .ok m := by
    intro hl
    unfold medianIndex
    have hlen : 0 < (peaks.insertionSort (· ≤ ·)).length := by rw [List.length_insertionSort]; exact List.length_pos_iff.2 hl
    generalize peaks.insertionSort (· ≤ ·) = s at hlen
    simp only
    rw [if_neg (by omega)]
    split
    · exact ⟨_, orErr_ok_iff.2 (List.getElem?_eq_getElem (by omega))⟩
    · simp only [ex_bind_ok, orErr_ok_iff]
      exact ⟨_, _, List.getElem?_eq_getElem (show s.length / 2 - 1 < s.length by omega), _, List.getElem?_eq_getElem (show s.length / 2 < s.length by omega), rfl⟩
  refine ⟨?_, ?_, ?_⟩
  · rintro rfl; simp [timeLimits, medianIndex, bind, Except.bind]
  · rintro h rfl
    obtain ⟨m, hm⟩ := hmed h
    simp [timeLimits, hm, orErr, bind, Except.bind]
  · intro h ht
    obtain ⟨m, hm⟩ := hmed h
    have hl : 0 < times.length := List.length_pos_iff.2 ht
    unfold timeLimits
    simp only [hm, ex_bind_ok, ex_ok_bind, orErr_ok_iff, ex_pure, Except.ok.injEq]
    exact ⟨_, _, List.getElem?_eq_getElem (by omega), _, List.getElem?_eq_getElem (by omega), rfl⟩

/-- The limit of the other axis cannot be found without values or, with the total, without a total. -/
theorem C147_upper (total values : List K) (peaks : List Nat) :
    yLimit total false peaks [] = .error .ValueError ∧ yLimit total true [] values = .error .ValueError ∧
    (peaks ≠ [] → yLimit [] true peaks values = .error .IndexError) := by
  refine ⟨rfl, by simp [yLimit, medianIndex, bind, Except.bind], fun h => ?_⟩
  have : ∃ m, medianIndex peaks = .ok m := by
    have := (C147_limits ([0] : List K) peaks none none 0).2.2 h (by simp)
    unfold timeLimits at this
    simp only [ex_bind_ok] at this
    obtain ⟨_, m, hm, _⟩ := this
    exact ⟨m, hm⟩
  obtain ⟨m, hm⟩ := this
  simp [yLimit, hm, orErr, bind, Except.bind]

/-! ### C151: what is refused -/

private theorem widths {eng : List K} (h2 : 2 ≤ eng.length) : ∃ bw, calcBinWidth eng = .ok bw ∧ bw.length = eng.length :=
  ⟨List.zipWith (fun b a => b - a) eng (0 :: eng), by unfold calcBinWidth; rw [if_neg (by omega)], by simp⟩

/-- A flux or current tally whose result is no table of objects, and other tallies whose result is a table or has spectra or matrices as its
    entries. -/
theorem C151_kinds (t : McnpOutput.Tally K) (ts : List (McnpOutput.Tally K)) (eng : List K) (err : Bool) (xlow : Option K) (he : t.eng = some eng)
    (h2 : 2 ≤ eng.length) :
    (t.tallyType = '2' ∨ t.tallyType = '4' → (∀ d, t.result ≠ .table d) → plotSpectra (t :: ts) err xlow = .error .AttributeError) ∧
    (t.tallyType ≠ '1' → t.tallyType ≠ '2' → t.tallyType ≠ '4' → ∀ xs, t.result = .items xs → (∃ i ∈ xs, ∀ x, i ≠ .num x) →
      plotSpectra (t :: ts) err xlow = .error .ValueError) := by
  obtain ⟨bw, hb, -⟩ := widths h2
  constructor
  · intro ht hd
    have hc : tallyCurves t eng bw = .error .AttributeError := by
      have : tableCurves eng bw t.result = .error .AttributeError := by
        cases hr : t.result with
        | table d => exact absurd hr (hd d)
        | items _ => rfl
        | mat _ => rfl
      unfold tallyCurves
      rcases ht with h | h <;> simp [h, this]
    simp [plotSpectra, spectraLoop, he, hb, hc, orErr, bind, Except.bind]
  · intro h1 h2 h4 xs hx hi
    have hf : flatResult t.result = .error .ValueError := by
      rw [hx]
      obtain ⟨i, hi, hn⟩ := hi
      clear hx
      show xs.mapM _ = _
      induction xs with
      | nil => cases hi
      | cons y ys ih =>
        simp only [List.mapM_cons] at ih ⊢
        cases y with
        | num x =>
          have : i ∈ ys := by
            rcases List.mem_cons.1 hi with h | h
            · exact absurd h (hn x)
            · exact h
          rw [ih this]; rfl
        | list _ => rfl
        | mat _ => rfl
    have hc : tallyCurves t eng bw = .error .ValueError := by
      unfold tallyCurves
      simp [h1, h2, h4, hf, bind, Except.bind]
    simp [plotSpectra, spectraLoop, he, hb, hc, orErr, bind, Except.bind]

/-- Error bars for a first tally without objects: there are no values to put them on. -/
theorem C152_no_objects_violated (t : McnpOutput.Tally K) (ts : List (McnpOutput.Tally K)) (eng : List K) (xlow : Option K) (he : t.eng = some eng)
    (h2 : 2 ≤ eng.length) (ht : t.tallyType = '2' ∨ t.tallyType = '4') (hr : t.result = .table []) :
    plotSpectra (t :: ts) true xlow = .error .UnboundLocalError := by
  obtain ⟨bw, hb, -⟩ := widths h2
  have hc : tallyCurves t eng bw = .ok [] := by
    unfold tallyCurves
    rcases ht with h | h <;> simp [h, hr, tableCurves] <;> rfl
  simp [plotSpectra, spectraLoop, he, hb, hc, orErr, bind, Except.bind]

/-! ### C228: matrices of another size than the energies -/

/-- A square matrix with more or fewer rows than there are energies cannot be drawn. -/
theorem C228_rows_violated (eng : List K) (m : List (List K)) (xlow : Option K) (h2 : 2 ≤ eng.length) (hm : m.length ≠ eng.length)
    (hr : ∀ r ∈ m, r.length = eng.length) (hne : m ≠ []) : plotTimeSpectra eng m xlow = .error .ValueError := by
  obtain ⟨bw, hb, hbl⟩ := widths h2
  have hd : divMatrix m bw = .ok (m.map (fun r => List.zipWith (· / ·) r bw)) := by
    cases m with
    | nil => exact absurd rfl hne
    | cons r m =>
      have := hr r (by simp)
      simp only [divMatrix]
      rw [if_pos (by omega)]
  have hc : columnCurves eng (m.map (fun r => List.zipWith (· / ·) r bw)) = .error .ValueError := by
    unfold columnCurves
    rw [if_neg (by rw [List.length_map]; omega)]
  unfold plotTimeSpectra
  simp only [hb, hd, hc, ex_ok_bind, ex_err_bind]

/-! ### C199: levels that are no numbers -/

/-- A row with a text for its level is refused. -/
theorem C199_text (flt : Str → Option K) {n l : Str} (hn : '\t' ∉ n) (hl : '\t' ∉ l) (h0 : l ≠ []) (hf : flt l = none) :
    FispactAnalysis.oosRow flt (n ++ ['\t'] ++ l) = .error .TypeError := by
  have hs : splitOn '\t' (n ++ ['\t'] ++ l) = [n, l] := by
    have := splitOn_join (ws := [n, l]) (by simp) (d := '\t') (by simp [hn, hl])
    simpa [join] using this
  unfold FispactAnalysis.oosRow
  rw [hs]
  simp only
  rw [if_neg (by simpa using h0), hf]

example : FispactAnalysis.oosRow (fun _ => (none : Option ℚ)) p!"Co60\tlow" = .error .TypeError :=
  C199_text (fun _ => none) (n := p!"Co60") (l := p!"low") (by decide) (by decide) (by decide) rfl

example : plotTimeSpectra ([1, 2] : List ℚ) [[1, 2], [3, 4], [5, 6]] none = .error .ValueError :=
  C228_rows_violated _ _ _ (by decide) (by decide) (by decide) (by decide)

end plots

/-! ### C44: inventories that were read -/

section chain
open FispactAnalysis FispactChain
variable {K : Type} [Field K] [LinearOrder K] [IsStrictOrderedRing K]

/-- Every inventory the output reader gives can be filtered and searched: the rows kept are those printed with a positive activity or heat, in
    their order, and a nuclide is found if and only if it is printed. -/
theorem C44_read (rows : List (FispactOutput.InvRow K)) (nuc : Str) :
    removeStable (invTable rows) = .ok ((rows.filter (fun r => decide (0 < r.act))).map invTableRow) ∧
    filterEmitsGamma (invTable rows) = .ok ((rows.filter (fun r => decide (0 < r.gEnergy))).map invTableRow) ∧
    filterEmitsBeta (invTable rows) = .ok ((rows.filter (fun r => decide (0 < r.bEnergy))).map invTableRow) ∧
    filterEmitsAlpha (invTable rows) = .ok ((rows.filter (fun r => decide (0 < r.aEnergy))).map invTableRow) ∧
    isNucPresent (invTable rows) nuc = .ok (decide (∃ r ∈ rows, r.nuclide = nuc)) := by
  have key : ∀ (col : Str) (get : Row K → Option K) (q : FispactOutput.InvRow K → K), col ∈ invCols → (∀ r, get (invTableRow r) = some (q r)) →
      filterBy col get (invTable rows) = .ok ((rows.filter (fun r => decide (0 < q r))).map invTableRow) := by
    intro col get q hc hg
    unfold filterBy invTable
    simp only [hc, not_true, if_false, Except.ok.injEq]
    rw [List.filter_map]
    congr 1
    apply List.filter_congr
    intro r _
    simp [hg, pos]
  refine ⟨key _ _ (·.act) (by decide) (fun _ => rfl), key _ _ (·.gEnergy) (by decide) (fun _ => rfl), key _ _ (·.bEnergy) (by decide) (fun _ => rfl),
    key _ _ (·.aEnergy) (by decide) (fun _ => rfl), ?_⟩
  rw [show invTable rows = .frame invCols (rows.map invTableRow) from rfl, (C44_presence invCols (rows.map invTableRow) nuc (by decide)).1]
  simp [invTableRow]

example : (filterEmitsAlpha (invTable [⟨p!"He4", 1, 1, 0, 0, 0, 0, 0, p!"He", p!"4"⟩, ⟨p!"U235", (1 : ℚ), 1, 1, 0, 2, 0, 0, p!"U", p!"235"⟩])).toOption.map
    (List.map (·.nuclide)) = some [p!"U235"] := by decide +kernel

end chain
end Props
