/- Properties C224-C227 and more of C129: what the FISPACT output reader reads, drawn by the functions of fispact_analysis.py. -/
import Verif.Model.FispactChain
import Verif.Props.FispactOutput3
import Verif.Props.FispactPlots
import Verif.Props.NucChart
import Verif.Props.Constants

set_option linter.unusedSectionVars false

namespace Props
open Py FispactAnalysis FispactPlots FispactChain NeutUtilities
open FispactOutput (InvRow DomTop DomLow CompRow TimeStep parseInventory parseDominant parseSpectra parseComposition readTimeStep)
variable {K : Type} [Field K] [LinearOrder K] [IsStrictOrderedRing K]

/-! ### C129 -/

/-- C129 is violated by every inventory that is read: `output_mcnp_mat` raises TypeError. -/
theorem C129_read_violated (flt : Str → Option K) (fmtZ : Option Nat → Str) (fmtN : Option K → Str) (data : List Str) (rows : List (InvRow K))
    (lib : Str) (_h : parseInventory flt data = .ok rows) (hne : rows ≠ []) :
    outputMcnpMat fmtZ fmtN (rows.map invTableRow) lib = .error .TypeError := by
  apply C129_violated
  · simpa using hne
  · intro r hr
    rw [List.mem_map] at hr
    obtain ⟨s, -, rfl⟩ := hr
    exact ⟨s.a, rfl⟩

/-! ### C224 -/

/-- The number written by decimal digits. -/
def decimalValue (ds : Str) : Nat := ds.foldl (fun v c => 10 * v + (c.toNat - 48)) 0

/-- The text is a mass number: decimal digits, at least one. -/
def IsMass (s : Str) : Prop := s ≠ [] ∧ ∀ c ∈ s, c.isDigit = true

/-- The text is a mass number followed by the letter of an isomeric state. -/
def IsIsomer (s : Str) : Prop := ∃ m c, IsMass m ∧ (c = 'm' ∨ c = 'n') ∧ s = m ++ [c]

/-- The row is the ground state of the nuclide (A, Z). -/
def IsGround (r : InvRow K) (a z : Nat) : Prop := IsMass r.a ∧ decimalValue r.a = a ∧ Constants.zDict.get r.element = some z

private theorem natDigits_digits : ∀ (s : Str) (acc : Nat), (∀ c ∈ s, c.isDigit = true) →
    natDigits acc s = some (s.foldl (fun v c => 10 * v + (c.toNat - 48)) acc)
  | [], acc, _ => rfl
  | c :: cs, acc, h => by
    have hc := h c (by simp)
    have hcs : ∀ d ∈ cs, d.isDigit = true := fun d hd => h d (by simp [hd])
    have hu : c ≠ '_' := by rintro rfl; revert hc; decide
    have : natDigits acc (c :: cs) = natDigits (acc * 10 + (c.toNat - 48)) cs := by
      cases cs with
      | nil => simp [natDigits, hc]
      | cons d ds => rw [natDigits.eq_3 acc c (d :: ds) (by intro c' cs' he; exact absurd he hu)]; rw [if_pos hc]
    rw [this, natDigits_digits cs _ hcs, List.foldl_cons, Nat.mul_comm]

private theorem toNumeric_mass {s : Str} (h : IsMass s) : toNumeric (.str s) = decimalValue s := by
  obtain ⟨hne, hd⟩ := h
  simp only [toNumeric]
  rw [if_pos (List.all_eq_true.2 hd)]
  cases s with
  | nil => exact absurd rfl hne
  | cons c cs =>
    simp only [pyNat, decimalValue]
    rw [if_pos (hd c (by simp)), natDigits_digits cs _ (fun d hd' => hd d (by simp [hd']))]
    simp

private theorem toNumeric_isomer {s : Str} (h : IsIsomer s) : toNumeric (.str s) = 0 := by
  obtain ⟨m, c, -, hc, rfl⟩ := h
  simp only [toNumeric]
  rw [if_neg]
  rw [List.all_eq_true]
  intro h
  have := h c (by simp)
  rcases hc with rfl | rfl <;> revert this <;> decide

private theorem not_mass_isomer {s : Str} (h : IsIsomer s) : ¬ IsMass s := by
  obtain ⟨m, c, -, hc, rfl⟩ := h
  rintro ⟨-, h⟩
  have := h c (by simp)
  rcases hc with rfl | rfl <;> revert this <;> decide

private theorem shows_iff {r : InvRow K} {a z : Nat} (hl : IsMass r.a ∨ IsIsomer r.a) (ha : 0 < a) :
    Shows toNumeric (invTableRow r) a z ↔ IsGround r a z := by
  unfold Shows IsGround invTableRow
  rcases hl with hl | hl
  · simp only [toNumeric_mass hl, hl, true_and]
  · simp only [toNumeric_isomer hl, not_mass_isomer hl, false_and, iff_false, not_and]
    omega

open Classical in
/-- C224 (part that holds): in the chart of an inventory that was read, with mass numbers that may carry the letter of an isomeric state,
    a cell with A > 0 in view is the value of the last row of that ground state, and 0 when there is none. Missing: the isomeric states
    (`C224_isomer_violated`), and views that reach beyond the array (C50). -/
theorem C224_ground_partial (flt : Str → Option K) (data : List Str) (rows : List (InvRow K)) (get : Row K → K) (q : InvRow K → K)
    (hq : ∀ r, get (invTableRow r) = q r) (prop : Str) (hp : prop ∈ invCols) (arange zrange : Nat × Nat)
    (_h : parseInventory flt data = .ok rows) (hl : ∀ r ∈ rows, IsMass r.a ∨ IsIsomer r.a) (ha : arange.2 ≤ 294) (hz : zrange.2 ≤ 118) :
    ∃ f, plotNucChart toNumeric get (invTable rows) prop (some arange) (some zrange) = .ok f ∧
      ∀ a z, 0 < a → f.cells a z = if arange.1 ≤ a ∧ a < arange.2 ∧ zrange.1 ≤ z ∧ z < zrange.2 then
        (((rows.filter (fun r => decide (IsGround r a z))).getLast?).map q).getD 0 else 0 := by
  obtain ⟨f, hf, -, -, -, hc⟩ := C223_view toNumeric get prop invCols (rows.map invTableRow) arange zrange ⟨hp, by decide, by decide⟩ ha hz
  refine ⟨f, hf, ?_⟩
  obtain ⟨d, hd, hcell⟩ := C50_chart_partial toNumeric get (rows.map invTableRow) arange zrange ha hz
  rw [hd, Except.ok.injEq] at hc
  subst hc
  intro a z h0
  rw [hcell a z, List.filter_map, List.getLast?_map, Option.map_map]
  have hfun : get ∘ invTableRow = q := funext hq
  have hfil : rows.filter ((fun r : Row K => decide (Shows toNumeric r a z)) ∘ invTableRow) = rows.filter (fun r => decide (IsGround r a z)) := by
    apply List.filter_congr
    intro r hr
    simp only [Function.comp, decide_eq_decide]
    exact shows_iff (hl r hr) h0
  rw [hfun, hfil]

/-- C224 is violated: isomeric states are not shown. Whatever the rest of the inventory, a row of an isomeric state changes no cell of a view
    that begins above A = 0. -/
theorem C224_isomer_violated (xs ys : List (InvRow K)) (r : InvRow K) (get : Row K → K) (arange zrange : Nat × Nat)
    (hr : IsIsomer r.a) (h0 : 0 < arange.1) :
    nucChart toNumeric get ((xs ++ r :: ys).map invTableRow) (some arange) (some zrange) =
      nucChart toNumeric get ((xs ++ ys).map invTableRow) (some arange) (some zrange) := by
  have hn : toNumeric (invTableRow r).a = 0 := toNumeric_isomer hr
  have hnot : ¬ arange.1 ≤ 0 := by omega
  unfold nucChart
  simp only [List.map_append, List.map_cons, List.foldlM_append, List.foldlM_cons, hn, Option.getD_some, hnot, false_and, if_false]
  congr 1
  funext d
  cases Constants.zDict.get (invTableRow r).element <;> rfl

/-- C224 is violated in the whole view too: the isomeric state of an element stands at A = 0, where there is no nuclide. -/
theorem C224_zero_violated (r : InvRow K) (get : Row K → K) (z : Nat) (hr : IsIsomer r.a) (hz : Constants.zDict.get r.element = some z)
    (h118 : z < 118) :
    ∃ d, nucChart toNumeric get [invTableRow r] none none = .ok d ∧ d 0 z = get (invTableRow r) ∧ ∀ a, 0 < a → d a z = 0 := by
  have hn : toNumeric (invTableRow r).a = 0 := toNumeric_isomer hr
  have hz' : Constants.zDict.get (invTableRow r).element = some z := hz
  unfold nucChart
  simp only [List.foldlM_cons, List.foldlM_nil, hn, hz', Option.getD_none, Nat.zero_le, h118, Nat.ofNat_pos, and_self, if_true]
  refine ⟨_, rfl, by simp, ?_⟩
  intro a ha
  simp [Nat.ne_of_gt ha]

/-- A line of an inventory as FISPACT writes it. -/
private def isomerLine : Str := p!"  Al 26m      1.16020E+02   5.007E-21   1.267E+01   2.914E-15   0.00E+00   2.078E-18   1.000E-15"

example : (FispactOutput.invRow (fun _ => some (1 : ℚ)) isomerLine).map (fun r => (r.nuclide, r.element, r.a)) = .ok (p!"Al26m", p!"Al", p!"26m") := by
  decide +kernel
example : IsIsomer p!"26m" := ⟨p!"26", 'm', ⟨by decide, by decide⟩, .inl rfl, rfl⟩
example : Constants.zDict.get p!"Al" = some 13 := by decide +kernel
example : IsMass p!"27" ∧ decimalValue p!"27" = 27 := ⟨⟨by decide, by decide⟩, by decide⟩

/-! ### C225 -/

/-- The quantities of the upper half of the dominant nuclides: name, nuclide, value and percentage. -/
def topQuantities : List (Str × (DomTop K → Str) × (DomTop K → K) × (DomTop K → K)) :=
  [(p!"act", (·.actNuc), (·.act), (·.actPercent)), (p!"heat", (·.heatNuc), (·.heat), (·.heatPercent)), (p!"dr", (·.drNuc), (·.dr), (·.drPercent))]

/-- The quantities of the lower half. -/
def lowQuantities : List (Str × (DomLow K → Str) × (DomLow K → K) × (DomLow K → K)) :=
  [(p!"gheat", (·.gheatNuc), (·.gheat), (·.gheatPercent)), (p!"bheat", (·.bheatNuc), (·.bheat), (·.bheatPercent))]

/-- The names of the quantities. -/
def pieNames : List Str := [p!"act", p!"heat", p!"dr", p!"gheat", p!"bheat"]

/-- The pie of some rows: one wedge for each row above the threshold, in order, whose part of the circle times the sum is its value. -/
def IsPie {α : Type} (rows : List α) (nuc : α → Str) (val pct : α → K) (thres : K) (w : List (Str × K)) : Prop :=
  List.Forall₂ (fun r (s : Str × K) => s.1 = nuc r ∧ s.2 * ((rows.filter (fun r => decide (thres < pct r))).map val).sum = val r)
    (rows.filter (fun r => decide (thres < pct r))) w

private theorem zip_rows {α : Type} (rows : List α) (nuc : α → Str) (val pct : α → K) (thres : K) :
    ((((rows.map nuc).zip (rows.map val)).zip (rows.map pct)).filter (fun r => decide (thres < r.2))).map (·.1) =
      (rows.filter (fun r => decide (thres < pct r))).map (fun r => (nuc r, val r)) := by
  have : ((rows.map nuc).zip (rows.map val)).zip (rows.map pct) = rows.map (fun r => ((nuc r, val r), pct r)) := by
    simp [List.zip]
  rw [this, List.filter_map, List.map_map]
  rfl

private theorem pie_rows {α : Type} (t : Dominant K) (p : Str) (rows : List α) (nuc : α → Str) (val pct : α → K) (thres : K)
    (h1 : t.nums.get p = some (rows.map val)) (h2 : t.nums.get (p ++ p!"_percent") = some (rows.map pct))
    (h3 : t.names.get (p ++ p!"_nuc") = some (rows.map nuc)) :
    ((∃ r ∈ rows, thres < pct r ∧ val r < 0) → plotPie t p thres = .error .ValueError) ∧
    ((∀ r ∈ rows, thres < pct r → 0 ≤ val r) → (∃ r ∈ rows, thres < pct r ∧ 0 < val r) →
      ∃ w, plotPie t p thres = .ok w ∧ IsPie rows nuc val pct thres w) := by
  unfold plotPie
  simp only [h1, h2, h3, orErr, ex_ok_bind, Option.isNone_some, Bool.false_eq_true, false_and, if_false, zip_rows]
  constructor
  · rintro ⟨r, hr, ht, hv⟩
    rw [if_pos]
    rw [List.any_eq_true]
    exact ⟨(nuc r, val r), List.mem_map.2 ⟨r, List.mem_filter.2 ⟨hr, by simpa using ht⟩, rfl⟩, by simpa using hv⟩
  · intro hpos ⟨r, hr, ht, hv⟩
    rw [if_neg]
    · refine ⟨_, rfl, ?_⟩
      unfold IsPie
      have hsum : 0 < ((rows.filter (fun r => decide (thres < pct r))).map val).sum := by
        have hall : ∀ x ∈ (rows.filter (fun r => decide (thres < pct r))).map val, 0 ≤ x := by
          intro x hx
          obtain ⟨r', hr', rfl⟩ := List.mem_map.1 hx
          rw [List.mem_filter] at hr'
          exact hpos r' hr'.1 (by simpa using hr'.2)
        exact lt_of_lt_of_le hv (List.single_le_sum hall _ (List.mem_map.2 ⟨r, List.mem_filter.2 ⟨hr, by simpa using ht⟩, rfl⟩))
      rw [List.forall₂_map_right_iff, List.map_map, List.forall₂_map_right_iff, List.forall₂_same]
      intro r _
      refine ⟨rfl, ?_⟩
      exact div_mul_cancel₀ _ (ne_of_gt hsum)
    · rw [List.any_eq_true]
      rintro ⟨s, hs, hneg⟩
      rw [List.mem_map] at hs
      obtain ⟨r', hr', rfl⟩ := hs
      rw [List.mem_filter] at hr'
      exact absurd (hpos r' hr'.1 (by simpa using hr'.2)) (not_le.2 (by simpa using hneg))

/-- C225 (part that holds): for each of the five quantities of the dominant nuclides that were read the pie is drawn from the rows of its half,
    unless a shown value is negative (ValueError). The sum of the shown values has to be positive. Missing: the other columns
    (`C225_column_violated`). -/
theorem C225_pies_partial (flt : Str → Option K) (data : List Str) (top : List (DomTop K)) (low : List (DomLow K)) (thres : K)
    (_h : parseDominant flt data = .ok (top, low)) :
    (∀ p nuc val pct, (p, nuc, val, pct) ∈ (topQuantities : List (Str × (DomTop K → Str) × (DomTop K → K) × (DomTop K → K))) →
      ((∃ r ∈ top, thres < pct r ∧ val r < 0) → plotPie (dominantTable (top, low)) p thres = .error .ValueError) ∧
      ((∀ r ∈ top, thres < pct r → 0 ≤ val r) → (∃ r ∈ top, thres < pct r ∧ 0 < val r) →
        ∃ w, plotPie (dominantTable (top, low)) p thres = .ok w ∧ IsPie top nuc val pct thres w)) ∧
    (∀ p nuc val pct, (p, nuc, val, pct) ∈ (lowQuantities : List (Str × (DomLow K → Str) × (DomLow K → K) × (DomLow K → K))) →
      ((∃ r ∈ low, thres < pct r ∧ val r < 0) → plotPie (dominantTable (top, low)) p thres = .error .ValueError) ∧
      ((∀ r ∈ low, thres < pct r → 0 ≤ val r) → (∃ r ∈ low, thres < pct r ∧ 0 < val r) →
        ∃ w, plotPie (dominantTable (top, low)) p thres = .ok w ∧ IsPie low nuc val pct thres w)) := by
  constructor
  · intro p nuc val pct hm
    simp only [topQuantities, List.mem_cons, Prod.mk.injEq, List.not_mem_nil, or_false] at hm
    rcases hm with ⟨rfl, rfl, rfl, rfl⟩ | ⟨rfl, rfl, rfl, rfl⟩ | ⟨rfl, rfl, rfl, rfl⟩ <;> exact pie_rows _ _ _ _ _ _ _ rfl rfl rfl
  · intro p nuc val pct hm
    simp only [lowQuantities, List.mem_cons, Prod.mk.injEq, List.not_mem_nil, or_false] at hm
    rcases hm with ⟨rfl, rfl, rfl, rfl⟩ | ⟨rfl, rfl, rfl, rfl⟩ <;> exact pie_rows _ _ _ _ _ _ _ rfl rfl rfl

private theorem get_none {V : Type} (d : Dict Str V) (p : Str) (h : p ∉ d.map (·.1)) : d.get p = none := by
  unfold Dict.get
  rw [Option.map_eq_none_iff, List.find?_eq_none]
  intro e he hb
  apply h
  rw [List.mem_map]
  exact ⟨e, he, by simpa using hb⟩

/-- C225: a name that belongs to no column is refused. -/
theorem C225_unknown (d : List (DomTop K) × List (DomLow K)) (p : Str) (thres : K)
    (h : ∀ n ∈ pieNames, p ≠ n ∧ p ≠ n ++ p!"_percent" ∧ p ≠ n ++ p!"_nuc") :
    plotPie (dominantTable d) p thres = .error .ValueError := by
  unfold plotPie
  simp only [pieNames, List.mem_cons, List.not_mem_nil, or_false, forall_eq_or_imp, forall_eq] at h
  obtain ⟨⟨a1, a2, a3⟩, ⟨b1, b2, b3⟩, ⟨c1, c2, c3⟩, ⟨d1, d2, d3⟩, ⟨e1, e2, e3⟩⟩ := h
  rw [if_pos]
  constructor
  · rw [Option.isNone_iff_eq_none]
    apply get_none
    simp only [dominantTable, List.map_cons, List.map_nil, List.mem_cons, List.not_mem_nil, or_false, not_or]
    exact ⟨a1, a2, b1, b2, c1, c2, d1, d2, e1, e2⟩
  · rw [Option.isNone_iff_eq_none]
    apply get_none
    simp only [dominantTable, List.map_cons, List.map_nil, List.mem_cons, List.not_mem_nil, or_false, not_or]
    exact ⟨a3, b3, c3, d3, e3⟩

/-- C225 is violated: the columns of the percentages and of the names pass the check and raise KeyError. -/
theorem C225_column_violated (d : List (DomTop K) × List (DomLow K)) (n suffix : Str) (thres : K) (hn : n ∈ pieNames)
    (hs : suffix = p!"_percent" ∨ suffix = p!"_nuc") :
    plotPie (dominantTable d) (n ++ suffix) thres = .error .KeyError := by
  simp only [pieNames, List.mem_cons, List.not_mem_nil, or_false] at hn
  rcases hs with rfl | rfl <;> rcases hn with rfl | rfl | rfl | rfl | rfl <;> rfl

private def exTop : DomTop ℚ := ⟨p!"Mn56", 3, 75, p!"Mn56", 2, 80, p!"Mn56", 1, 90⟩
private def exTop2 : DomTop ℚ := ⟨p!"Al28", 1, 25, p!"Al28", 2, 0, p!"Al28", 1, 0⟩
private def exLow : DomLow ℚ := ⟨p!"Na24", 5, 60, p!"Al28", 4, 60⟩

example : plotPie (dominantTable ([exTop, exTop2], [exLow, exLow])) p!"act" 1 = .ok [(p!"Mn56", 3 / 4), (p!"Al28", 1 / 4)] := by decide +kernel
example : plotPie (dominantTable ([exTop, exTop2], [exLow, exLow])) p!"gheat" 1 = .ok [(p!"Na24", 1 / 2), (p!"Na24", 1 / 2)] := by decide +kernel
example : plotPie (dominantTable ([exTop], [exLow])) p!"act_nuc" 1 = .error .KeyError := by decide +kernel
example : plotPie (dominantTable ([exTop], [exLow])) p!"dose" 1 = .error .ValueError := by decide +kernel

/-! ### C226 -/

/-- C226 (part that holds): the spectrum of a time step with activity is drawn, with the 24 numbers of the file. Missing: the steps without
    activity (`C226_inactive_violated`). -/
theorem C226_drawn_partial (flt : Str → Option K) (lines : List Str) (i : Nat) (ts : TimeStep K) (h : readTimeStep flt lines i = .ok ts)
    (hact : 0 < ts.totalAct) :
    ∃ fig p, plotGamma (stepSpectrum ts) = .ok fig ∧ SpectrumAt lines p ∧ fig.y.length = 24 ∧ fig.x.length = 24 ∧
      ∀ k < 24, ∃ l x, lines[p + 7 + k]? = some l ∧ fig.y[k]? = some x ∧ flt ((l.drop 130).take 11) = some x := by
  obtain ⟨a, ha, -, -, hs⟩ := (C134_time_step flt lines i ts h).2.2.2.2.2.1 hact
  obtain ⟨p, hp, -, hlen, hk⟩ := (C73_spectrum flt lines a.gspec).1 hs
  have he : stepSpectrum ts = a.gspec := by simp [stepSpectrum, ha]
  obtain ⟨fig, hf, hy, hx, -⟩ := (C159_gamma a.gspec).2 hlen
  have hxl := congrArg List.length hx
  simp only [List.length_map] at hxl
  exact ⟨fig, p, by rw [he]; exact hf, hp, by rw [hy]; exact hlen, hxl, by rw [hy]; exact hk⟩

/-- C226 is violated: a step without activity has an empty spectrum, and drawing it raises ValueError. -/
theorem C226_inactive_violated (flt : Str → Option K) (lines : List Str) (i : Nat) (ts : TimeStep K) (h : readTimeStep flt lines i = .ok ts)
    (hact : ts.totalAct ≤ 0) : plotGamma (stepSpectrum ts) = .error .ValueError := by
  have ha := (C134_time_step flt lines i ts h).2.2.2.2.1 hact
  have he : stepSpectrum ts = [] := by simp [stepSpectrum, ha]
  rw [he]
  exact (C159_gamma ([] : List K)).1 (by simp)

example : plotGamma ([] : List ℚ) = .error .ValueError := rfl
example : (plotGamma (List.replicate 24 (2 : ℚ))).map (fun f => (f.y.length, f.ymax)) = .ok (24, 3) := by decide +kernel

/-! ### C227 -/

/-- C227 (part that holds): a symbol of two letters in columns 12 and 13 is the name of the element. Missing: the symbols of one letter
    (`C227_blank_violated`). -/
theorem C227_two_letters_partial (flt : Str → Option K) (data : List Str) (s e : Nat) (rows : List (CompRow K))
    (hs : FirstWith data p!"COMPOSITION  OF  MATERIAL  BY  ELEMENT" s) (he : FirstWith data p!"GAMMA SPECTRUM AND ENERGIES/SECOND" e)
    (h3 : 3 ≤ e) (h : parseComposition flt data = .ok rows) (k : Nat) (l pre post sym : Str) (hl : (compSection data s e)[k]? = some l)
    (hcol : l = pre ++ sym ++ post) (h12 : pre.length = 12) (h2 : sym.length = 2) :
    ∃ r, rows[k]? = some r ∧ r.element = sym := by
  obtain ⟨r, hr, hel, -⟩ := (C72_composition flt data s e rows hs he h3 h).2.1 k l hl
  refine ⟨r, hr, ?_⟩
  rw [hel, hcol, List.append_assoc, ← h12, List.drop_left, ← h2, List.take_left]

/-- C227 is violated: a symbol of one letter keeps the blank behind it, and such a name has no atomic number in the table of elements. -/
theorem C227_blank_violated (flt : Str → Option K) (data : List Str) (s e : Nat) (rows : List (CompRow K))
    (hs : FirstWith data p!"COMPOSITION  OF  MATERIAL  BY  ELEMENT" s) (he : FirstWith data p!"GAMMA SPECTRUM AND ENERGIES/SECOND" e)
    (h3 : 3 ≤ e) (h : parseComposition flt data = .ok rows) (k : Nat) (l pre post : Str) (c : Char) (hl : (compSection data s e)[k]? = some l)
    (hcol : l = pre ++ [c, ' '] ++ post) (h12 : pre.length = 12) :
    ∃ r, rows[k]? = some r ∧ r.element = [c, ' '] ∧ Constants.zDict.get r.element = none := by
  obtain ⟨r, hr, hel⟩ := C227_two_letters_partial flt data s e rows hs he h3 h k l pre post [c, ' '] hl hcol h12 rfl
  refine ⟨r, hr, hel, ?_⟩
  rw [hel]
  apply get_none
  intro hm
  rcases C33_elements.2.2.2.2 [c, ' '] hm with ⟨c', hc, -⟩ | ⟨c', d, hc, -, hd⟩
  · simp at hc
  · simp only [List.cons.injEq, and_true] at hc
    rw [← hc.2] at hd
    revert hd
    decide

example : (parseComposition (fun _ => some (1 : ℚ)) [p!"COMPOSITION  OF  MATERIAL  BY  ELEMENT", [], [], [], [],
    p!"    1       H       7.8597E+08", p!"    2       He      2.8349E+08", [], [], [], p!"GAMMA SPECTRUM AND ENERGIES/SECOND"]).map
    (fun rows => rows.map (·.element)) = .ok [p!"H ", p!"He"] := by decide +kernel
example : Constants.zDict.get p!"H" = some 1 := by decide +kernel

end Props
