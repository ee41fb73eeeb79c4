/- Properties C151-C155 of the plotting functions of mcnp_analysis.py: spectra, ratios and comparisons of runs. -/
import Verif.Props.McnpPlots
import Verif.Proofs.Dict

set_option linter.unusedSectionVars false
set_option linter.unusedSimpArgs false

namespace Props
open Py McnpAnalysis McnpPlots NeutUtilities
variable {K : Type} [Field K] [LinearOrder K] [IsStrictOrderedRing K]

/-- `w` is the width of bin `i`; `eng` are the upper edges, the first bin starts at zero. -/
def BinWidth (eng : List K) (i : Nat) (w : K) : Prop := ∃ hi lo, eng[i]? = some hi ∧ (0 :: eng)[i]? = some lo ∧ w = hi - lo

/-- `c` is the spectrum with the values `vals` per bin: per unit of energy. -/
def Density (eng vals : List K) (c : Curve K) : Prop :=
  c.x = eng ∧ c.y.length = vals.length ∧ vals.length = eng.length ∧ 2 ≤ eng.length ∧
    ∀ (i : Nat) (v w : K), vals[i]? = some v → BinWidth eng i w → w ≠ 0 → ∃ y, c.y[i]? = some y ∧ y * w = v

private theorem divSeries_ok {a b c : List K} : divSeries a b = .ok c ↔ a.length = b.length ∧ c = List.zipWith (· / ·) a b := by
  unfold divSeries
  split
  · rename_i h; simp [h, eq_comm]
  · rename_i h; simp [h]

private theorem calcBinWidth_ok {eng bw : List K} (h : calcBinWidth eng = .ok bw) :
    2 ≤ eng.length ∧ bw.length = eng.length ∧ ∀ i w, BinWidth eng i w → bw[i]? = some w := by
  unfold calcBinWidth at h
  split at h
  · cases h
  · rename_i hl
    cases h
    refine ⟨by omega, by simp, ?_⟩
    rintro i w ⟨hi, lo, h1, h2, rfl⟩
    rw [List.getElem?_zipWith, h1, h2]

private theorem divArrays_of_eq {a b : List K} (h : a.length = b.length) : divArrays a b = .ok (List.zipWith (· / ·) a b) := by
  unfold divArrays
  rw [if_pos h]

private theorem divArrays_single (x : K) {b : List K} (h : b.length ≠ 1) : divArrays [x] b = .ok (b.map (x / ·)) := by
  unfold divArrays
  rw [if_neg (by simpa using Ne.symm h)]

/-- Different lengths, of which none is 1, cannot be divided. -/
private theorem divArrays_err {a b : List K} (h : a.length ≠ b.length) (ha : a.length ≠ 1) (hb : b.length ≠ 1) :
    divArrays a b = .error .ValueError := by
  unfold divArrays
  rw [if_neg h]
  match a, b with
  | [x], _ => simp at ha
  | [], [y] => simp at hb
  | x :: x' :: a, [y] => simp at hb
  | [], [] => rfl
  | [], y :: y' :: b => rfl
  | x :: x' :: a, [] => rfl
  | x :: x' :: a, y :: y' :: b => rfl

private theorem divArrays_series {a b c : List K} (ha : a.length ≠ 1) (hb : 2 ≤ b.length) (h : divArrays a b = .ok c) : divSeries a b = .ok c := by
  by_cases hl : a.length = b.length
  · rw [divArrays_of_eq hl] at h
    rw [divSeries_ok]
    cases h
    exact ⟨hl, rfl⟩
  · rw [divArrays_err hl ha (by omega)] at h
    cases h

private theorem density_of {eng bw vals ys : List K} {c : Curve K} (hb : calcBinWidth eng = .ok bw) (hd : divSeries vals bw = .ok ys)
    (hc : curve eng ys = .ok c) : Density eng vals c := by
  obtain ⟨h1, h2, h3⟩ := calcBinWidth_ok hb
  rw [divSeries_ok] at hd
  obtain ⟨h4, rfl⟩ := hd
  rw [mp_curve_ok] at hc
  obtain ⟨h5, rfl⟩ := hc
  refine ⟨rfl, by simp [h4], by omega, h1, ?_⟩
  intro i v w hv hw hw0
  refine ⟨v / w, ?_, div_mul_cancel₀ v hw0⟩
  show (List.zipWith _ _ _)[i]? = _
  rw [List.getElem?_zipWith, hv, h3 i w hw]

private theorem density_of' {eng bw vals ys : List K} {c : Curve K} (hv : vals.length ≠ 1) (hb : calcBinWidth eng = .ok bw)
    (hd : divArrays vals bw = .ok ys) (hc : curve eng ys = .ok c) : Density eng vals c := by
  obtain ⟨h1, h2, _⟩ := calcBinWidth_ok hb
  exact density_of hb (divArrays_series hv (by omega) hd) hc

/-- The spectra of a tally: one per cell or surface for a table, one for a plain list. -/
def Spectra (t : McnpOutput.Tally K) (spectra : List (List K)) : Prop :=
  match t.result with
  | .table d => spectra = d.map (fun e => e.2.map (fun r => r.2.1))
  | .items xs => ∃ vals, xs = vals.map .num ∧ spectra = [vals]
  | .mat _ => False

private theorem tableCurves_ok {eng bw : List K} {r : McnpOutput.Res K} {cs : List (Curve K)} (hb : calcBinWidth eng = .ok bw)
    (h : tableCurves eng bw r = .ok cs) : ∃ d, r = .table d ∧ List.Forall₂ (Density eng) (d.map (fun e => e.2.map (fun r => r.2.1))) cs := by
  cases r with
  | items xs => cases h
  | mat m => cases h
  | table d =>
    refine ⟨d, rfl, ?_⟩
    unfold tableCurves at h
    rw [mapM_except_ok_iff] at h
    rw [List.forall₂_map_left_iff]
    refine h.imp ?_
    intro e c he
    simp only [ex_bind_ok] at he
    obtain ⟨y, h1, h2⟩ := he
    exact density_of hb h1 h2

private theorem errNumbers_ok {n : Nat} {xs : List (McnpOutput.Item K)} {ys : List K} (h : errNumbers n (.items xs) = .ok ys) :
    xs = ys.map .num ∧ ys.length = n := by
  simp only [errNumbers] at h
  split_ifs at h with hn
  rw [mapM_except_ok_iff] at h
  have hx : xs = ys.map .num := by
    clear hn
    induction h with
    | nil => rfl
    | @cons i y is ys hi _ ih => cases i <;> simp at hi; subst hi; rw [List.map_cons, ← ih]
  exact ⟨hx, by rw [← not_not.1 hn, hx, List.length_map]⟩

private theorem flatResult_ok {r : McnpOutput.Res K} {ys : List K} (h : flatResult r = .ok ys) : r = .items (ys.map .num) := by
  cases r with
  | mat m => cases h
  | table d => cases h
  | items xs =>
    unfold flatResult at h
    rw [mapM_except_ok_iff] at h
    congr 1
    induction h with
    | nil => rfl
    | @cons x y xs ys hx _ ih =>
      cases x with
      | num z => simp only [Except.ok.injEq] at hx; rw [List.map_cons, hx, ih]
      | list l => cases hx
      | mat m => cases hx

private theorem tallyCurves_ok {t : McnpOutput.Tally K} {eng bw : List K} {cs : List (Curve K)} (hb : calcBinWidth eng = .ok bw) (h1 : t.tallyType ≠ '1')
    (h2 : ∀ v, t.result ≠ .items [.num v]) (h : tallyCurves t eng bw = .ok cs) : ∃ sp, Spectra t sp ∧ List.Forall₂ (Density eng) sp cs := by
  unfold tallyCurves at h
  rw [if_neg h1] at h
  have htab : tableCurves eng bw t.result = .ok cs → ∃ sp, Spectra t sp ∧ List.Forall₂ (Density eng) sp cs := by
    intro h
    obtain ⟨d, hd, hf⟩ := tableCurves_ok hb h
    exact ⟨_, by unfold Spectra; rw [hd], hf⟩
  split at h
  · exact htab h
  · split at h
    · exact htab h
    · simp only [ex_bind_ok, ex_pure, Except.ok.injEq] at h
      obtain ⟨ys, hy, y, hd, c, hc, rfl⟩ := h
      have hv : ys.length ≠ 1 := by
        intro hl
        obtain ⟨v, rfl⟩ := List.length_eq_one_iff.1 hl
        exact h2 v (flatResult_ok hy)
      refine ⟨[ys], ?_, .cons (density_of' hv hb hd hc) .nil⟩
      unfold Spectra
      rw [flatResult_ok hy]
      exact ⟨ys, rfl, rfl⟩

private theorem spectraLoop_ok (err : Bool) (ts : List (McnpOutput.Tally K)) (cs : List (Curve K)) (bs : List (Bars K)) (last : Option (List K))
    (r : List (Curve K) × List (Bars K) × Option (List K)) (h : spectraLoop err ts cs bs last = .ok r) :
    ∃ news, List.Forall₂ (fun (t : McnpOutput.Tally K) new => ∃ eng bw, t.eng = some eng ∧ calcBinWidth eng = .ok bw ∧ tallyCurves t eng bw = .ok new) ts news ∧
      r.1 = cs ++ news.flatten ∧ r.2.2 = (news.flatten.getLast?.map (·.y)).or last ∧ (err = false → r.2.1 = bs) := by
  induction ts generalizing cs bs last with
  | nil =>
    simp only [spectraLoop, Except.ok.injEq] at h
    rw [← h]
    exact ⟨[], .nil, by simp, by simp, fun _ => rfl⟩
  | cons t ts ih =>
    simp only [spectraLoop, ex_bind_ok, orErr_ok_iff] at h
    obtain ⟨eng, he, bw, hb, new, hn, h⟩ := h
    have key : ∀ bs', (err = false → bs' = bs) → spectraLoop err ts (cs ++ new) bs' ((new.getLast?.map (·.y)).or last) = .ok r →
        ∃ news, List.Forall₂ (fun (t : McnpOutput.Tally K) new => ∃ eng bw, t.eng = some eng ∧ calcBinWidth eng = .ok bw ∧ tallyCurves t eng bw = .ok new) (t :: ts) news ∧
      r.1 = cs ++ news.flatten ∧ r.2.2 = (news.flatten.getLast?.map (·.y)).or last ∧ (err = false → r.2.1 = bs) := by
      intro bs' hbs h
      obtain ⟨news, h1, h2, h3, h4⟩ := ih _ _ _ h
      refine ⟨new :: news, .cons ⟨eng, bw, he, hb, hn⟩ h1, by rw [h2]; simp, ?_, fun he => by rw [h4 he, hbs he]⟩
      rw [h3, List.flatten_cons, List.getLast?_append]
      cases hl : news.flatten.getLast? <;> simp
    split at h
    · rename_i hE
      simp only [ex_bind_ok] at h
      obtain ⟨ys, _, b, _, h⟩ := h
      exact key _ (fun he => by rw [hE] at he; cases he) h
    · exact key _ (fun _ => rfl) h

theorem plotSpectra_loop {ts : List (McnpOutput.Tally K)} {err : Bool} {xlow : Option K} {fig : SpecFig K} (h : plotSpectra ts err xlow = .ok fig) :
    ∃ r, spectraLoop err ts [] [] none = .ok r ∧ fig.curves = r.1 ∧ fig.bars = r.2.1 ∧ (∀ x, xlow = some x → fig.xmin = some x) ∧
      (xlow = none → ∃ ys, r.2.2 = some ys ∧
        ((∃ i t eng x, findFirstNonZero ys = some (i + 1) ∧ ts.getLast? = some t ∧ t.eng = some eng ∧ eng[i + 1]? = some x ∧ fig.xmin = some x) ∨
         ((findFirstNonZero ys = none ∨ findFirstNonZero ys = some 0) ∧ fig.xmin = none))) := by
  unfold plotSpectra at h
  rw [ex_bind_ok] at h
  obtain ⟨r, hr, h⟩ := h
  refine ⟨r, hr, ?_⟩
  cases xlow with
  | some x =>
    simp only [ex_pure, Except.ok.injEq] at h
    rw [← h]
    exact ⟨rfl, rfl, fun y hy => hy, fun h => by cases h⟩
  | none =>
    simp only [ex_bind_ok, orErr_ok_iff] at h
    obtain ⟨ys, hy, h⟩ := h
    split at h
    · rename_i i hi
      simp only [ex_bind_ok, orErr_ok_iff, ex_pure, Except.ok.injEq] at h
      obtain ⟨t, ht, eng, he, x, hx, rfl⟩ := h
      exact ⟨rfl, rfl, (fun _ h => by cases h), fun _ => ⟨ys, hy, .inl ⟨i, t, eng, x, hi, ht, he, hx, rfl⟩⟩⟩
    · rename_i hn
      simp only [ex_pure, Except.ok.injEq] at h
      rw [← h]
      refine ⟨rfl, rfl, (fun _ h => by cases h), fun _ => ⟨ys, hy, .inr ⟨?_, rfl⟩⟩⟩
      cases hf : findFirstNonZero ys with
      | none => exact .inl rfl
      | some k =>
        cases k with
        | zero => exact .inr rfl
        | succ k => exact absurd hf (hn k)

/-! ### C151 -/

/-- Tallies other than currents (type 1): the curves are the spectra of all cells and surfaces, each divided by the bin widths (a result
    that is a single number, which belongs to no energy bins, is left out: `C151_single_number`). -/
theorem C151_density_partial {ts : List (McnpOutput.Tally K)} {err : Bool} {xlow : Option K} {fig : SpecFig K} (h1 : ∀ t ∈ ts, t.tallyType ≠ '1')
    (h2 : ∀ t ∈ ts, ∀ v, t.result ≠ .items [.num v]) (h : plotSpectra ts err xlow = .ok fig) :
    ∃ groups, fig.curves = groups.flatten ∧
      List.Forall₂ (fun (t : McnpOutput.Tally K) cs => ∃ eng sp, t.eng = some eng ∧ Spectra t sp ∧ List.Forall₂ (Density eng) sp cs) ts groups := by
  obtain ⟨r, hr, hc, _⟩ := plotSpectra_loop h
  obtain ⟨news, hn, hr1, _⟩ := spectraLoop_ok _ _ _ _ _ _ hr
  refine ⟨news, by rw [hc, hr1]; simp, ?_⟩
  clear * - hn h1 h2
  induction hn with
  | nil => exact .nil
  | cons hd _ ih =>
    refine .cons ?_ (ih (fun t ht => h1 t (by simp [ht])) (fun t ht => h2 t (by simp [ht])))
    obtain ⟨eng, bw, he, hb, ht⟩ := hd
    obtain ⟨sp, hs, hf⟩ := tallyCurves_ok hb (h1 _ (by simp)) (h2 _ (by simp)) ht
    exact ⟨eng, sp, he, hs, hf⟩

/-- It succeeds for tables of type 2 and 4 with one value per energy. -/
theorem C151_success_partial {t : McnpOutput.Tally K} {eng : List K} {d : Dict Nat (List (K × K × K))} (h1 : t.tallyType = '2' ∨ t.tallyType = '4') (he : t.eng = some eng)
    (hl : 2 ≤ eng.length) (hr : t.result = .table d) (hd : ∀ e ∈ d, e.2.length = eng.length) (x : K) : ∃ fig, plotSpectra [t] false (some x) = .ok fig := by
  have hb : calcBinWidth eng = .ok (List.zipWith (fun b a => b - a) eng (0 :: eng)) := by
    unfold calcBinWidth
    rw [if_neg (by omega)]
  have htab : ∃ cs, tableCurves eng (List.zipWith (fun b a => b - a) eng (0 :: eng)) (.table d) = .ok cs := by
    simp only [tableCurves]
    clear hr
    induction d with
    | nil => exact ⟨[], rfl⟩
    | cons e d ih =>
      obtain ⟨cs, h⟩ := ih (fun e' he' => hd e' (by simp [he']))
      have hel := hd e (by simp)
      refine ⟨⟨eng, List.zipWith (· / ·) (e.2.map (fun r => r.2.1)) (List.zipWith (fun b a => b - a) eng (0 :: eng))⟩ :: cs, ?_⟩
      rw [mapM_except_cons_ok (f := fun (e : Nat × List (K × K × K)) => (do
        let y ← divSeries (e.2.map (fun r => r.2.1)) (List.zipWith (fun b a => b - a) eng (0 :: eng))
        curve eng y)) (b := ⟨eng, List.zipWith (· / ·) (e.2.map (fun r => r.2.1)) (List.zipWith (fun b a => b - a) eng (0 :: eng))⟩), h]
      · rfl
      · simp only [ex_bind_ok, divSeries_ok, mp_curve_ok]
        exact ⟨_, ⟨by simp [hel], rfl⟩, by simp [hel], rfl⟩
  obtain ⟨cs, hcs⟩ := htab
  refine ⟨⟨cs, [], some x⟩, ?_⟩
  have ht : tallyCurves t eng (List.zipWith (fun b a => b - a) eng (0 :: eng)) = .ok cs := by
    unfold tallyCurves
    rcases h1 with h1 | h1 <;> rw [h1, hr] <;> simpa using hcs
  unfold plotSpectra
  simp only [spectraLoop, he, orErr, ex_ok_bind, hb, ht]
  simp [ex_ok_bind, ex_pure]

/-- Current tallies without angle bins cannot be plotted: the reader leaves `ang_bins` at None. -/
theorem C151_current_violated (t : McnpOutput.Tally K) (ts : List (McnpOutput.Tally K)) (eng : List K) (err : Bool) (xlow : Option K) (h1 : t.tallyType = '1')
    (ha : t.angBins = none) (he : t.eng = some eng) (hl : 2 ≤ eng.length) : plotSpectra (t :: ts) err xlow = .error .TypeError := by
  have ht : ∀ bw, tallyCurves t eng bw = .error .TypeError := by
    intro bw
    unfold tallyCurves
    rw [if_pos h1, ha]
    split <;> rfl
  have hb : calcBinWidth eng = .ok (List.zipWith (fun b a => b - a) eng (0 :: eng)) := by
    unfold calcBinWidth
    rw [if_neg (by omega)]
  unfold plotSpectra
  simp only [spectraLoop, he, orErr, ex_ok_bind, hb, ht, ex_err_bind]

/-- Heating tallies, which are tables as well, cannot be plotted either. -/
theorem C151_heating_violated (t : McnpOutput.Tally K) (ts : List (McnpOutput.Tally K)) (eng : List K) (d : Dict Nat (List (K × K × K))) (err : Bool) (xlow : Option K)
    (h1 : t.tallyType = '6') (hr : t.result = .table d) (he : t.eng = some eng) (hl : 2 ≤ eng.length) : plotSpectra (t :: ts) err xlow = .error .TypeError := by
  have ht : ∀ bw, tallyCurves t eng bw = .error .TypeError := by
    intro bw
    unfold tallyCurves
    rw [h1, hr]
    rfl
  have hb : calcBinWidth eng = .ok (List.zipWith (fun b a => b - a) eng (0 :: eng)) := by
    unfold calcBinWidth
    rw [if_neg (by omega)]
  unfold plotSpectra
  simp only [spectraLoop, he, orErr, ex_ok_bind, hb, ht, ex_err_bind]

example : plotSpectra ([{ number := 4, tallyType := '4', particle := p!"neutrons", nps := .inr 1, eng := some [1, 3], result := .table [(2, [(1, 5, 0), (3, 8, 0)])] }] : List (McnpOutput.Tally ℚ))
    false none = .ok ⟨[⟨[1, 3], [5, 4]⟩], [], none⟩ := by decide +kernel

/-- Currents of one surface with angle bins: one curve per angle, the spectrum of that angle divided by the bin widths. -/
theorem C151_angles_partial {t : McnpOutput.Tally K} {err : Bool} {xlow : Option K} {fig : SpecFig K} {angs : List K} {sp : List (List K)}
    (h1 : t.tallyType = '1') (hs : t.surfaces.length ≤ 1) (ha : t.angBins = some angs) (hn : 2 ≤ angs.length)
    (hres : t.result = .items (sp.map .list)) (hsp : ∀ s ∈ sp, s.length ≠ 1) (h : plotSpectra [t] err xlow = .ok fig) :
    ∃ eng, t.eng = some eng ∧ List.Forall₂ (Density eng) sp fig.curves := by
  obtain ⟨r, hr, hc, _⟩ := plotSpectra_loop h
  obtain ⟨news, hf, hr1, -⟩ := spectraLoop_ok _ _ _ _ _ _ hr
  cases hf with
  | cons hd htl =>
    cases htl
    obtain ⟨eng, bw, he, hb, ht⟩ := hd
    rw [hc, hr1]
    simp only [List.nil_append, List.flatten_cons, List.flatten_nil, List.append_nil]
    unfold tallyCurves at ht
    rw [if_pos h1, if_neg (by omega), ha] at ht
    simp only [orErr, ex_ok_bind] at ht
    rw [if_pos (by omega)] at ht
    rw [hres] at ht
    unfold angleCurves at ht
    rw [mapM_except_ok_iff, List.forall₂_map_left_iff] at ht
    refine ⟨eng, he, ?_⟩
    clear * - ht hsp hb
    induction ht with
    | nil => exact .nil
    | @cons l c sp cs hx _ ih =>
      refine .cons ?_ (ih (fun s h => hsp s (List.mem_cons_of_mem _ h)))
      simp only [ex_ok_bind, ex_bind_ok] at hx
      obtain ⟨y, h6, h7⟩ := hx
      exact density_of' (hsp l List.mem_cons_self) hb h6 h7

/-- A result that is a single number is repeated for all energies, each divided by the width of the bin. -/
theorem C151_single_number {t : McnpOutput.Tally K} {eng : List K} {v x : K} (h1 : t.tallyType ≠ '1' ∧ t.tallyType ≠ '2' ∧ t.tallyType ≠ '4')
    (he : t.eng = some eng) (hl : 2 ≤ eng.length) (hr : t.result = .items [.num v]) :
    ∃ c, plotSpectra [t] false (some x) = .ok ⟨[c], [], some x⟩ ∧ Density eng (List.replicate eng.length v) c := by
  have hb : calcBinWidth eng = .ok (List.zipWith (fun b a => b - a) eng (0 :: eng)) := by
    unfold calcBinWidth
    rw [if_neg (by omega)]
  have hlen : (List.zipWith (fun b a => b - a) eng (0 :: eng)).length = eng.length := by simp
  have hc : curve eng ((List.zipWith (fun b a => b - a) eng (0 :: eng)).map (v / ·)) =
      .ok ⟨eng, (List.zipWith (fun b a => b - a) eng (0 :: eng)).map (v / ·)⟩ := by
    rw [mp_curve_ok]
    exact ⟨by rw [List.length_map, hlen], rfl⟩
  refine ⟨⟨eng, (List.zipWith (fun b a => b - a) eng (0 :: eng)).map (v / ·)⟩, ?_, ?_⟩
  · have ht : tallyCurves t eng (List.zipWith (fun b a => b - a) eng (0 :: eng)) =
        .ok [⟨eng, (List.zipWith (fun b a => b - a) eng (0 :: eng)).map (v / ·)⟩] := by
      unfold tallyCurves
      rw [if_neg h1.1, if_neg h1.2.1, if_neg h1.2.2, hr]
      have hf : flatResult (.items [.num v]) = .ok [v] := rfl
      rw [hf, ex_ok_bind, divArrays_single v (by omega), ex_ok_bind, hc]
      rfl
    unfold plotSpectra
    simp only [spectraLoop, he, orErr, ex_ok_bind, hb, ht]
    simp [ex_ok_bind, ex_pure]
  · refine density_of (ys := (List.zipWith (fun b a => b - a) eng (0 :: eng)).map (v / ·)) hb ?_ hc
    rw [divSeries_ok]
    refine ⟨by simp, ?_⟩
    apply List.ext_getElem?
    intro i
    rw [List.getElem?_map, List.getElem?_zipWith (f := (· / ·)), List.getElem?_replicate]
    by_cases hi : i < eng.length
    · rw [if_pos hi]
      cases hq : (List.zipWith (fun b a => b - a) eng (0 :: eng))[i]? <;> rfl
    · rw [if_neg hi, List.getElem?_eq_none (by omega)]
      rfl

/-- A number over the widths is the spectrum that has this number in every bin. -/
theorem mp_density_repeat {eng bw ys : List K} {v : K} {c : Curve K} (hb : calcBinWidth eng = .ok bw) (hd : divArrays [v] bw = .ok ys)
    (hc : curve eng ys = .ok c) : Density eng (List.replicate eng.length v) c := by
  obtain ⟨h2, hl, -⟩ := calcBinWidth_ok hb
  rw [divArrays_single v (by omega)] at hd
  cases hd
  refine density_of hb ?_ hc
  rw [divSeries_ok]
  refine ⟨by simp [hl], ?_⟩
  apply List.ext_getElem?
  intro i
  rw [List.getElem?_map, List.getElem?_zipWith (f := (· / ·)), List.getElem?_replicate]
  by_cases hi : i < eng.length
  · rw [if_pos hi]
    cases hq : bw[i]? <;> rfl
  · rw [if_neg hi, List.getElem?_eq_none (by omega)]
    rfl

/-- A spectrum whose number of values is not the number of energies raises ValueError: a plain one, unless it is a single number, and one of
    a table. -/
theorem C151_mismatch {t : McnpOutput.Tally K} {eng : List K} (ts : List (McnpOutput.Tally K)) (err : Bool) (xlow : Option K)
    (he : t.eng = some eng) (hl : 2 ≤ eng.length) :
    (∀ vals : List K, t.tallyType ≠ '1' → t.tallyType ≠ '2' → t.tallyType ≠ '4' → t.result = .items (vals.map .num) →
      vals.length ≠ 1 → vals.length ≠ eng.length → plotSpectra (t :: ts) err xlow = .error .ValueError) ∧
    (∀ d : Dict Nat (List (K × K × K)), t.tallyType = '2' ∨ t.tallyType = '4' → t.result = .table d →
      (∃ e ∈ d, e.2.length ≠ eng.length) → plotSpectra (t :: ts) err xlow = .error .ValueError) := by
  have hb : calcBinWidth eng = .ok (List.zipWith (fun b a => b - a) eng (0 :: eng)) := by
    unfold calcBinWidth
    rw [if_neg (by omega)]
  have hlen : (List.zipWith (fun b a => b - a) eng (0 :: eng)).length = eng.length := by simp
  constructor
  · intro vals h1 h2 h4 hr hv hne
    have ht : tallyCurves t eng (List.zipWith (fun b a => b - a) eng (0 :: eng)) = .error .ValueError := by
      unfold tallyCurves
      rw [if_neg h1, if_neg h2, if_neg h4, hr]
      have hf : flatResult (.items (vals.map .num)) = .ok vals := by
        unfold flatResult
        rw [mapM_except_ok_iff, List.forall₂_map_left_iff, List.forall₂_same]
        intro _ _
        rfl
      rw [hf, ex_ok_bind, divArrays_err (by omega) hv (by omega)]
      rfl
    unfold plotSpectra
    simp only [spectraLoop, he, orErr, ex_ok_bind, hb, ht, ex_err_bind]
  · rintro d h1 hr ⟨e, hm, hne⟩
    have htab : tableCurves eng (List.zipWith (fun b a => b - a) eng (0 :: eng)) (.table d) = .error .ValueError := by
      have hs : ∀ a : Nat × List (K × K × K), a.2.length ≠ eng.length →
          divSeries (a.2.map (fun r => r.2.1)) (List.zipWith (fun b a => b - a) eng (0 :: eng)) = .error .ValueError := by
        intro a ha
        unfold divSeries
        rw [if_neg (by rw [List.length_map, hlen]; exact ha)]
      refine mapM_except_err_of (fun a _ x hx => ?_) ⟨e, hm, .ValueError, by rw [hs e hne]; rfl⟩
      by_cases ha : a.2.length = eng.length
      · have h1 : divSeries (a.2.map (fun r => r.2.1)) (List.zipWith (fun b a => b - a) eng (0 :: eng)) = .ok _ :=
          divSeries_ok.2 ⟨by rw [List.length_map, hlen]; exact ha, rfl⟩
        rw [h1, ex_ok_bind] at hx
        unfold curve at hx
        rw [if_pos (by rw [List.length_zipWith, hlen, List.length_map]; omega)] at hx
        cases hx
      · rw [hs a ha] at hx
        cases hx
        rfl
    have ht : tallyCurves t eng (List.zipWith (fun b a => b - a) eng (0 :: eng)) = .error .ValueError := by
      unfold tallyCurves
      rcases h1 with h1 | h1 <;> rw [h1, hr] <;> simpa using htab
    unfold plotSpectra
    simp only [spectraLoop, he, orErr, ex_ok_bind, hb, ht, ex_err_bind]

/-- Several surfaces with angle bins are refused. -/
theorem C151_surfaces_angles (t : McnpOutput.Tally K) (ts : List (McnpOutput.Tally K)) (eng angs : List K) (err : Bool) (xlow : Option K)
    (h1 : t.tallyType = '1') (hs : 2 ≤ t.surfaces.length) (ha : t.angBins = some angs) (hn : 2 ≤ angs.length) (he : t.eng = some eng)
    (hl : 2 ≤ eng.length) : plotSpectra (t :: ts) err xlow = .error .NotImplementedError := by
  have ht : ∀ bw, tallyCurves t eng bw = .error .NotImplementedError := by
    intro bw
    unfold tallyCurves
    rw [if_pos h1, if_pos (by omega), ha]
    simp only [orErr, ex_ok_bind]
    rw [if_pos (by omega)]
  have hb : calcBinWidth eng = .ok (List.zipWith (fun b a => b - a) eng (0 :: eng)) := by
    unfold calcBinWidth
    rw [if_neg (by omega)]
  unfold plotSpectra
  simp only [spectraLoop, he, orErr, ex_ok_bind, hb, ht, ex_err_bind]

example : plotSpectra ([{ number := 1, tallyType := '1', particle := p!"neutrons", nps := .inr 1, surfaces := [p!"5"], angBins := some [-1, 0, 1], eng := some [1, 3], result := .items [.list [5, 8], .list [2, 6]] }] : List (McnpOutput.Tally ℚ))
    false none = .ok ⟨[⟨[1, 3], [5, 4]⟩, ⟨[1, 3], [2, 3]⟩], [], none⟩ := by decide +kernel

example : plotSpectra ([{ number := 5, tallyType := '5', particle := p!"neutrons", nps := .inr 1, eng := some [1, 3, 4], result := .items [.num 5, .num 8] }] : List (McnpOutput.Tally ℚ))
    false none = .error .ValueError := by decide +kernel

/-! ### C152 -/

private theorem midPoints_get (l : List K) (i : Nat) (a b : K) (ha : l[i]? = some a) (hb : l[i + 1]? = some b) : (calcMidPoints l)[i]? = some ((a + b) / 2) := by
  induction l generalizing i with
  | nil => simp at ha
  | cons x l ih =>
    cases l with
    | nil => simp at hb
    | cons y l =>
      cases i with
      | zero =>
        simp only [List.getElem?_cons_zero, List.getElem?_cons_succ, Option.some.injEq] at ha hb
        simp [calcMidPoints, ha, hb]
      | succ i =>
        simp only [List.getElem?_cons_succ] at ha hb
        simp only [calcMidPoints, List.getElem?_cons_succ]
        exact ih i ha hb

private theorem bars_ok {x y e : List K} {b : Bars K} (he : e.length = y.length) (h : bars x y e = .ok b) :
    x.length = y.length ∧ (∀ v ∈ e, 0 ≤ v) ∧ b = ⟨x, y, e⟩ := by
  unfold bars at h
  split at h
  · cases h
  rename_i h1
  split at h
  · cases h
  rename_i h2
  simp only [List.any_eq_true, decide_eq_true_eq, not_exists, not_and, not_lt] at h2
  exact ⟨not_not.1 h1, h2, (Except.ok.inj h).symm⟩

private theorem bars_run {x y e : List K} (hx : x.length = y.length) (h0 : ∀ v ∈ e, 0 ≤ v) (he : e.length = y.length) : bars x y e = .ok ⟨x, y, e⟩ := by
  unfold bars
  rw [if_neg (not_not.2 hx), if_neg (by simpa [List.any_eq_true] using h0), if_pos he]

/-- The error bars of a plain spectrum: bar i sits in the middle of bin i+1 and at its value. Its length is the error of bin i times
    the value of bin i: the error of the bin before. -/
theorem C152_bars_partial {t : McnpOutput.Tally K} {xlow : Option K} {fig : SpecFig K} {eng vals errs : List K} (h1 : t.tallyType ≠ '1' ∧ t.tallyType ≠ '2' ∧ t.tallyType ≠ '4')
    (hv1 : vals.length ≠ 1) (he : t.eng = some eng) (hr : t.result = .items (vals.map .num)) (hE : t.err = .items (errs.map .num)) (h : plotSpectra [t] true xlow = .ok fig) :
    ∃ c b, fig.curves = [c] ∧ fig.bars = [b] ∧ Density eng vals c ∧ b.x.length + 1 = eng.length ∧
      ∀ i lo hi y y' e, eng[i]? = some lo → eng[i + 1]? = some hi → c.y[i]? = some y → c.y[i + 1]? = some y' → errs[i]? = some e →
        b.x[i]? = some ((lo + hi) / 2) ∧ b.y[i]? = some y' ∧ b.err[i]? = some (y * e) := by
  obtain ⟨r, hl, hc, hb, _⟩ := plotSpectra_loop h
  simp only [spectraLoop, ex_bind_ok, orErr_ok_iff, if_true, Except.ok.injEq] at hl
  obtain ⟨eng', he', bw, hw, new, hn, ys, hy, b, hbar, rfl⟩ := hl
  rw [he] at he'
  cases he'
  unfold tallyCurves at hn
  rw [if_neg h1.1, if_neg h1.2.1, if_neg h1.2.2, hr] at hn
  simp only [ex_bind_ok, ex_pure, Except.ok.injEq] at hn
  obtain ⟨v', hv', y, hd, c, hcv, rfl⟩ := hn
  have hinj : Function.Injective (McnpOutput.Item.num : K → McnpOutput.Item K) := fun a b h => by cases h; rfl
  have hvals : v' = vals := by
    have := flatResult_ok hv'
    simp only [McnpOutput.Res.items.injEq] at this
    exact (List.map_injective_iff.2 hinj this).symm
  subst hvals
  have hys : ys = c.y := by simpa using hy.symm
  subst hys
  unfold errorBars at hbar
  simp only [ex_bind_ok] at hbar
  obtain ⟨e', he', ab, hab, hbar⟩ := hbar
  have herr : e' = errs := by
    rw [hE] at he'
    exact (List.map_injective_iff.2 hinj (errNumbers_ok he').1).symm
  subst herr
  have hD := density_of' hv1 hw hd hcv
  have hab' : ab = List.zipWith (· * ·) c.y e' ∧ c.y.length = e'.length := by
    unfold calcErrAbs at hab
    split at hab
    · cases hab
    · rename_i hne; cases hab; exact ⟨rfl, not_not.1 hne⟩
  obtain ⟨hlen, -, rfl⟩ := bars_ok (by rw [hab'.1]; simp [← hab'.2]) hbar
  refine ⟨c, _, by simpa using hc, by simpa using hb, hD, ?_, ?_⟩
  · have := hD.2.1
    have := hD.2.2.1
    have := hD.2.2.2.1
    simp only at hlen ⊢
    rw [hlen, List.length_drop]
    omega
  · intro i lo hi yv y' e hlo hhi hyv hy' hev
    refine ⟨midPoints_get _ _ _ _ hlo hhi, by show (c.y.tail)[i]? = _; rw [List.getElem?_tail]; exact hy', ?_⟩
    have := (List.getElem?_eq_some_iff.1 hy').1
    rw [hab'.1, List.getElem?_dropLast, if_pos (by rw [List.length_zipWith, ← hab'.2]; omega), List.getElem?_zipWith, hyv, hev]

/-- A plain spectrum with its errors, as computed: the bars are drawn at all values but the first, with the lengths of all but the last. -/
private theorem plain_run {t : McnpOutput.Tally K} {eng vals errs : List K} (x : K) (h1 : t.tallyType ≠ '1' ∧ t.tallyType ≠ '2' ∧ t.tallyType ≠ '4')
    (he : t.eng = some eng) (h2 : 2 ≤ eng.length) (hr : t.result = .items (vals.map .num)) (hE : t.err = .items (errs.map .num))
    (hv : vals.length = eng.length) (hel : errs.length = eng.length) :
    plotSpectra [t] true (some x) = (do
      let b ← bars (calcMidPoints eng) ((List.zipWith (· / ·) vals (List.zipWith (fun b a => b - a) eng (0 :: eng))).drop 1)
        (List.zipWith (· * ·) (List.zipWith (· / ·) vals (List.zipWith (fun b a => b - a) eng (0 :: eng))) errs).dropLast
      pure ⟨[⟨eng, List.zipWith (· / ·) vals (List.zipWith (fun b a => b - a) eng (0 :: eng))⟩], [b], some x⟩) := by
  have hw : calcBinWidth eng = .ok (List.zipWith (fun b a => b - a) eng (0 :: eng)) := by unfold calcBinWidth; rw [if_neg (by omega)]
  generalize hbw : List.zipWith (fun b a => b - a) eng (0 :: eng) = bw at hw ⊢
  have hbl : bw.length = eng.length := by rw [← hbw]; simp
  have hf : ∀ l : List K, flatResult (.items (l.map .num)) = .ok l := by
    intro l
    unfold flatResult
    rw [mapM_except_ok_iff]
    induction l with
    | nil => exact .nil
    | cons a l ih => exact .cons rfl ih
  have ht : tallyCurves t eng bw = .ok [⟨eng, List.zipWith (· / ·) vals bw⟩] := by
    unfold tallyCurves
    rw [if_neg h1.1, if_neg h1.2.1, if_neg h1.2.2, hr, hf]
    simp only [ex_ok_bind]
    rw [divArrays_of_eq (by omega)]
    simp only [ex_ok_bind]
    unfold curve
    rw [if_pos (by simp; omega)]
    rfl
  unfold plotSpectra
  simp only [spectraLoop, he, orErr, ex_ok_bind, hw, ht, if_true, List.getLast?_singleton, Option.map_some, Option.some_or]
  unfold errorBars
  have hfe : ∀ n, errs.length = n → errNumbers n (.items (errs.map .num)) = .ok errs := by
    intro n hn
    simp only [errNumbers]
    rw [if_neg (by simp [hn]), mapM_except_ok_iff]
    clear hE hel hn
    induction errs with
    | nil => exact .nil
    | cons a l ih => exact .cons rfl ih
  rw [hE, hfe _ (by simp; omega)]
  simp only [ex_ok_bind]
  unfold calcErrAbs
  rw [if_neg (not_not.2 (by simp; omega))]
  simp only [ex_ok_bind]
  cases bars (calcMidPoints eng) ((List.zipWith (· / ·) vals bw).drop 1) (List.zipWith (· * ·) (List.zipWith (· / ·) vals bw) errs).dropLast <;> rfl

private theorem calcMidPoints_length : ∀ l : List K, (calcMidPoints l).length = l.length - 1
  | [] => rfl
  | [_] => rfl
  | a :: b :: l => by simp [calcMidPoints, calcMidPoints_length (b :: l)]

private theorem plain_err_get {eng vals errs : List K} {i : Nat} (hv : vals.length = eng.length) (hel : errs.length = eng.length) (hi : i + 1 < eng.length) :
    ∃ lo hi' v e, (0 :: eng)[i]? = some lo ∧ eng[i]? = some hi' ∧ vals[i]? = some v ∧ errs[i]? = some e ∧
      (List.zipWith (· * ·) (List.zipWith (· / ·) vals (List.zipWith (fun b a => b - a) eng (0 :: eng))) errs).dropLast[i]? = some (v / (hi' - lo) * e) := by
  have a1 : i < (0 :: eng).length := by simp; omega
  have a2 : i < eng.length := by omega
  have a3 : i < vals.length := by omega
  have a4 : i < errs.length := by omega
  refine ⟨_, _, _, _, List.getElem?_eq_getElem a1, List.getElem?_eq_getElem a2, List.getElem?_eq_getElem a3, List.getElem?_eq_getElem a4, ?_⟩
  rw [List.getElem?_dropLast, if_pos (by simp; omega), List.getElem?_zipWith, List.getElem?_zipWith, List.getElem?_zipWith, List.getElem?_eq_getElem a1,
    List.getElem?_eq_getElem a2, List.getElem?_eq_getElem a3, List.getElem?_eq_getElem a4]

/-- A plain spectrum with one value and one error per energy is drawn with its bars if no length comes out negative. -/
theorem C152_drawn_partial {t : McnpOutput.Tally K} {eng vals errs : List K} (x : K) (h1 : t.tallyType ≠ '1' ∧ t.tallyType ≠ '2' ∧ t.tallyType ≠ '4')
    (he : t.eng = some eng) (h2 : 2 ≤ eng.length) (hr : t.result = .items (vals.map .num)) (hE : t.err = .items (errs.map .num))
    (hv : vals.length = eng.length) (hel : errs.length = eng.length)
    (h0 : ∀ i lo hi v e, i + 1 < eng.length → (0 :: eng)[i]? = some lo → eng[i]? = some hi → vals[i]? = some v → errs[i]? = some e → 0 ≤ v / (hi - lo) * e) :
    ∃ fig, plotSpectra [t] true (some x) = .ok fig := by
  rw [plain_run x h1 he h2 hr hE hv hel, bars_run]
  · exact ⟨_, rfl⟩
  · rw [calcMidPoints_length]; simp; omega
  · intro y hy
    obtain ⟨i, hi⟩ := List.mem_iff_getElem?.1 hy
    have hl : i + 1 < eng.length := by
      have := (List.getElem?_eq_some_iff.1 hi).1
      simp at this
      omega
    obtain ⟨lo, hi', v, e, g1, g2, g3, g4, g5⟩ := plain_err_get hv hel hl
    rw [hi] at g5
    cases g5
    exact h0 i lo hi' v e hl g1 g2 g3 g4
  · simp; omega

/-- A negative value with an error, such as that of a tally with a negative multiplier, cannot be drawn: the length of its bar is negative,
    which matplotlib refuses. -/
theorem C152_negative_violated {t : McnpOutput.Tally K} {eng vals errs : List K} (x : K) (h1 : t.tallyType ≠ '1' ∧ t.tallyType ≠ '2' ∧ t.tallyType ≠ '4')
    (he : t.eng = some eng) (h2 : 2 ≤ eng.length) (hr : t.result = .items (vals.map .num)) (hE : t.err = .items (errs.map .num))
    (hv : vals.length = eng.length) (hel : errs.length = eng.length) {i : Nat} {lo hi v e : K} (hi1 : i + 1 < eng.length)
    (hlo : (0 :: eng)[i]? = some lo) (hhi : eng[i]? = some hi) (hw : lo < hi) (hvi : vals[i]? = some v) (hei : errs[i]? = some e) (hneg : v < 0) (hpos : 0 < e) :
    plotSpectra [t] true (some x) = .error .ValueError := by
  obtain ⟨lo', hi', v', e', g1, g2, g3, g4, g5⟩ := plain_err_get hv hel hi1
  rw [hlo] at g1
  rw [hhi] at g2
  rw [hvi] at g3
  rw [hei] at g4
  cases g1; cases g2; cases g3; cases g4
  rw [plain_run x h1 he h2 hr hE hv hel]
  unfold bars
  rw [if_neg (not_not.2 (by rw [calcMidPoints_length]; simp; omega)), if_pos]
  · rfl
  · rw [List.any_eq_true]
    refine ⟨_, List.mem_of_getElem? g5, ?_⟩
    rw [decide_eq_true_eq]
    exact mul_neg_of_neg_of_pos (div_neg_of_neg_of_pos hneg (sub_pos.2 hw)) hpos

example : plotSpectra [({ number := 5, tallyType := '5', particle := p!"neutrons", nps := .inr 1, eng := some [1, 2], result := .items [.num (-10), .num 10], err := .items [.num (1/2), .num 0] } : McnpOutput.Tally ℚ)] true (some 1)
    = .error .ValueError := by decide +kernel
example : (plotSpectra [({ number := 5, tallyType := '5', particle := p!"neutrons", nps := .inr 1, eng := some [1, 2], result := .items [.num 10, .num (-10)], err := .items [.num (1/2), .num (1/2)] } : McnpOutput.Tally ℚ)] true (some 1)).toOption
    = some ⟨[⟨[1, 2], [10, -10]⟩], [⟨[3/2], [-10], [5]⟩], some 1⟩ := by decide +kernel

/-- So the length of a bar is not the error of the value it is drawn at: here every value is 10 and the first bin alone has an error
    of 50 %, but the bar is drawn on the second bin, which is exact. -/
theorem C152_bars_violated : ∃ (t : McnpOutput.Tally ℚ) (fig : SpecFig ℚ) (c : Curve ℚ) (b : Bars ℚ),
    t.result = .items [.num 10, .num 10] ∧ t.err = .items [.num (1/2), .num 0] ∧ t.eng = some [1, 2] ∧ plotSpectra [t] true none = .ok fig ∧
      fig.curves = [c] ∧ fig.bars = [b] ∧ c.y = [10, 10] ∧ b.x = [3/2] ∧ b.y = [10] ∧ b.err = [5] :=
  ⟨{ number := 5, tallyType := '5', particle := p!"neutrons", nps := .inr 1, eng := some [1, 2], result := .items [.num 10, .num 10], err := .items [.num (1/2), .num 0] },
    ⟨[⟨[1, 2], [10, 10]⟩], [⟨[3/2], [10], [5]⟩], none⟩, ⟨[1, 2], [10, 10]⟩, ⟨[3/2], [10], [5]⟩, rfl, rfl, rfl, by decide +kernel, rfl, rfl, rfl, rfl, rfl, rfl⟩

private theorem mapM_curve_len {A : Type} {eng : List K} {f : A → Except Err (List K)} {l : List A} {cs : List (Curve K)}
    (h : l.mapM (fun a => do let y ← f a; curve eng y) = .ok cs) : ∀ c ∈ cs, c.y.length = eng.length := by
  rw [mapM_except_ok_iff] at h
  induction h with
  | nil => simp
  | cons hx _ ih =>
    intro c hc
    rcases List.mem_cons.1 hc with rfl | hc
    · simp only [ex_bind_ok, mp_curve_ok] at hx
      obtain ⟨y, _, hl, rfl⟩ := hx
      exact hl.symm
    · exact ih c hc

private theorem tableCurves_len {eng bw : List K} {r : McnpOutput.Res K} {cs : List (Curve K)} (h : tableCurves eng bw r = .ok cs) :
    ∀ c ∈ cs, c.y.length = eng.length := by
  cases r with
  | items xs => cases h
  | mat m => cases h
  | table d => exact mapM_curve_len h

private theorem angleCurves_len {eng bw : List K} {r : McnpOutput.Res K} {cs : List (Curve K)} (h : angleCurves eng bw r = .ok cs) :
    ∀ c ∈ cs, c.y.length = eng.length := by
  cases r with
  | items xs =>
    refine mapM_curve_len (f := fun i => do
      let ys ← (match i with | .list ys => Except.ok ys | .num x => .ok [x] | .mat _ => .error .ValueError)
      divArrays ys bw) (l := xs) ?_
    rw [← h]
    unfold angleCurves
    congr 1
    funext i
    cases i <;> rfl
  | mat m => exact mapM_curve_len h
  | table d => exact mapM_curve_len h

/-- Every curve of a tally has one value for each energy. -/
private theorem tallyCurves_len {t : McnpOutput.Tally K} {eng bw : List K} {cs : List (Curve K)} (h : tallyCurves t eng bw = .ok cs) :
    ∀ c ∈ cs, c.y.length = eng.length := by
  unfold tallyCurves at h
  split at h
  · split at h
    all_goals
      simp only [ex_bind_ok] at h
      obtain ⟨a, _, h⟩ := h
      split at h
    · cases h
    · exact tableCurves_len h
    · exact angleCurves_len h
    · exact tableCurves_len h
  · split at h
    · exact tableCurves_len h
    · split at h
      · exact tableCurves_len h
      · simp only [ex_bind_ok, ex_pure, Except.ok.injEq, mp_curve_ok] at h
        obtain ⟨_, _, y, _, c, ⟨hl, rfl⟩, rfl⟩ := h
        intro c hc
        simp only [List.mem_singleton] at hc
        rw [hc]
        exact hl.symm

/-- Tables keep their errors elsewhere, `err` stays empty: with error bars they are never plotted. -/
theorem C152_tables_violated (t : McnpOutput.Tally K) (ts : List (McnpOutput.Tally K)) (xlow : Option K) (d : Dict Nat (List (K × K × K))) (_hr : t.result = .table d) (hE : t.err = .items [])
    (fig : SpecFig K) : plotSpectra (t :: ts) true xlow ≠ .ok fig := by
  intro h
  obtain ⟨r, hl, -⟩ := plotSpectra_loop h
  simp only [spectraLoop, ex_bind_ok, orErr_ok_iff, if_true] at hl
  obtain ⟨eng, he, bw, hw, new, hn, ys, hy, b, hbar, -⟩ := hl
  have hyl : ys.length = eng.length ∧ 2 ≤ eng.length := by
    simp only [Option.or_none, Option.map_eq_some_iff] at hy
    obtain ⟨c, hc, rfl⟩ := hy
    exact ⟨tallyCurves_len hn c (List.mem_of_getLast? hc), (calcBinWidth_ok hw).1⟩
  unfold errorBars at hbar
  rw [hE] at hbar
  simp only [ex_bind_ok] at hbar
  obtain ⟨e', he', ab, hab, -⟩ := hbar
  have : e' = [] := by
    exact List.map_eq_nil_iff.1 (errNumbers_ok he').1.symm
  subst this
  unfold calcErrAbs at hab
  rw [if_pos (by simp only [List.length_nil]; omega)] at hab
  cases hab

/-! ### C153 -/

private theorem zipIdx_filter_head (l : List K) (k i : Nat) : (((l.zipIdx k).filter (fun e => decide (e.1 ≠ 0))).map (·.2)).head? = some i →
    k ≤ i ∧ (∃ v, l[i - k]? = some v ∧ v ≠ 0) ∧ ∀ j v, j < i - k → l[j]? = some v → v = 0 := by
  induction l generalizing k with
  | nil => simp
  | cons a l ih =>
    intro h
    rw [List.zipIdx_cons, List.filter_cons] at h
    by_cases ha : a = 0
    · rw [if_neg (by simpa using ha)] at h
      obtain ⟨h1, ⟨v, hv, hv0⟩, h3⟩ := ih (k + 1) h
      have e : i - k = (i - (k + 1)) + 1 := by omega
      refine ⟨by omega, ⟨v, by rw [e, List.getElem?_cons_succ]; exact hv, hv0⟩, ?_⟩
      intro j v hj hv
      cases j with
      | zero => simp only [List.getElem?_cons_zero, Option.some.injEq] at hv; rw [← hv]; exact ha
      | succ j => rw [List.getElem?_cons_succ] at hv; exact h3 j v (by omega) hv
    · rw [if_pos (by simpa using ha)] at h
      simp only [List.map_cons, List.head?_cons, Option.some.injEq] at h
      subst h
      exact ⟨le_refl _, ⟨a, by simp, ha⟩, fun j v hj => absurd hj (by omega)⟩

private theorem firstNonZero_spec {ys : List K} {i : Nat} (h : findFirstNonZero ys = some i) : (∃ v, ys[i]? = some v ∧ v ≠ 0) ∧ ∀ j v, j < i → ys[j]? = some v → v = 0 := by
  have := zipIdx_filter_head ys 0 i h
  simpa using this.2

/-- A limit that is given is used. -/
theorem C153_given {ts : List (McnpOutput.Tally K)} {err : Bool} {x : K} {fig : SpecFig K} (h : plotSpectra ts err (some x) = .ok fig) : fig.xmin = some x := by
  obtain ⟨r, _, _, _, hx, _⟩ := plotSpectra_loop h
  exact hx x rfl

/-- The automatic lower limit: if it is set, then to the upper edge of the first bin of the last curve that is not zero (not the first
    bin); all bins before are zero. If it is not set, the first bin of the last curve is not zero or all are zero. -/
theorem C153_auto_partial {ts : List (McnpOutput.Tally K)} {err : Bool} {fig : SpecFig K} (h : plotSpectra ts err none = .ok fig) :
    ∃ c t eng, fig.curves.getLast? = some c ∧ ts.getLast? = some t ∧ t.eng = some eng ∧
      ((∃ i x v, fig.xmin = some x ∧ eng[i + 1]? = some x ∧ c.y[i + 1]? = some v ∧ v ≠ 0 ∧ ∀ j v, j < i + 1 → c.y[j]? = some v → v = 0) ∨
       (fig.xmin = none ∧ ((∃ v, c.y[0]? = some v ∧ v ≠ 0) ∨ ∀ v ∈ c.y, v = 0))) := by
  obtain ⟨r, hl, hc, _, _, hx⟩ := plotSpectra_loop h
  obtain ⟨ys, hy, hx⟩ := hx rfl
  obtain ⟨news, hn, hr1, hr2, _⟩ := spectraLoop_ok _ _ _ _ _ _ hl
  rw [hy] at hr2
  simp only [Option.or_none] at hr2
  obtain ⟨c, hcl, rfl⟩ := Option.map_eq_some_iff.1 hr2.symm
  have hcl' : fig.curves.getLast? = some c := by rw [hc, hr1]; simpa using hcl
  obtain ⟨t, ht, eng, he⟩ : ∃ t, ts.getLast? = some t ∧ ∃ eng, t.eng = some eng := by
    have hne : ts ≠ [] := by
      rintro rfl
      cases hn
      simp at hcl
    refine ⟨ts.getLast hne, List.getLast?_eq_some_getLast hne, ?_⟩
    have hm := List.getLast_mem hne
    generalize ts.getLast hne = t at hm
    clear * - hn hm
    induction hn with
    | nil => simp at hm
    | cons h _ ih =>
      rcases List.mem_cons.1 hm with rfl | hm
      · obtain ⟨eng, _, he, _⟩ := h; exact ⟨eng, he⟩
      · exact ih hm
  refine ⟨c, t, eng, hcl', ht, he, ?_⟩
  rcases hx with ⟨i, t', eng', x, hf, ht', he', hx, hxm⟩ | ⟨hf, hxm⟩
  · rw [ht] at ht'
    cases ht'
    rw [he] at he'
    cases he'
    obtain ⟨⟨v, hv, hv0⟩, hz⟩ := firstNonZero_spec hf
    exact .inl ⟨i, x, v, hxm, hx, hv, hv0, hz⟩
  · refine .inr ⟨hxm, ?_⟩
    rcases hf with hf | hf
    · right
      intro v hv
      by_contra hv0
      unfold findFirstNonZero at hf
      rw [List.head?_eq_none_iff, List.map_eq_nil_iff, List.filter_eq_nil_iff] at hf
      obtain ⟨j, hj⟩ := List.mem_iff_getElem?.1 hv
      have := hf (v, j) (List.mem_zipIdx_iff_getElem?.2 hj)
      simp at this
      exact hv0 this
    · exact .inl (firstNonZero_spec hf).1

/-- A step curve draws bin i left of its upper edge, so the first bin that is not zero is always cut off: here the only one. -/
theorem C153_hidden_violated : ∃ (t : McnpOutput.Tally ℚ) (fig : SpecFig ℚ) (c : Curve ℚ), t.eng = some [1, 2, 3] ∧ t.result = .items [.num 0, .num 5, .num 0] ∧
    plotSpectra [t] false none = .ok fig ∧ fig.curves = [c] ∧ c.y = [0, 5, 0] ∧ fig.xmin = some 2 :=
  ⟨{ number := 5, tallyType := '5', particle := p!"neutrons", nps := .inr 1, eng := some [1, 2, 3], result := .items [.num 0, .num 5, .num 0] },
    ⟨[⟨[1, 2, 3], [0, 5, 0]⟩], [], some 2⟩, ⟨[1, 2, 3], [0, 5, 0]⟩, rfl, rfl, by decide +kernel, rfl, rfl, rfl⟩

/-- The limit looks at the last curve only; another curve can be cut off completely. -/
theorem C153_other_violated : ∃ (t1 t2 : McnpOutput.Tally ℚ) (fig : SpecFig ℚ), t1.eng = some [1, 2, 3] ∧ t2.eng = some [1, 2, 3] ∧
    plotSpectra [t1, t2] false none = .ok fig ∧ fig.curves = [⟨[1, 2, 3], [7, 7, 0]⟩, ⟨[1, 2, 3], [0, 0, 1]⟩] ∧ fig.xmin = some 3 :=
  ⟨{ number := 5, tallyType := '5', particle := p!"neutrons", nps := .inr 1, eng := some [1, 2, 3], result := .items [.num 7, .num 7, .num 0] },
   { number := 15, tallyType := '5', particle := p!"neutrons", nps := .inr 1, eng := some [1, 2, 3], result := .items [.num 0, .num 0, .num 1] },
    ⟨[⟨[1, 2, 3], [7, 7, 0]⟩, ⟨[1, 2, 3], [0, 0, 1]⟩], [], some 3⟩, rfl, rfl, by decide +kernel, rfl, rfl⟩

/-! ### C154 -/

/-- The ratio of two results whose first entries are spectra. -/
theorem C154_ratio_partial (t1 t2 : McnpOutput.Tally K) (a b eng : List K) (r1 r2 : List (McnpOutput.Item K)) (h1 : t1.result = .items (.list a :: r1))
    (h2 : t2.result = .items (.list b :: r2)) (he : t1.eng = some eng) (hl : a.length = b.length) (hl' : eng.length = a.length) (hb : ∀ v ∈ b, v ≠ 0) :
    ∃ c, plotSpectraRatio t1 t2 = .ok c ∧ c.x = eng ∧ c.y.length = eng.length ∧
      ∀ (i : Nat) (y v w : K), c.y[i]? = some y → a[i]? = some v → b[i]? = some w → y * w = v := by
  refine ⟨⟨eng, List.zipWith (· / ·) a b⟩, ?_, rfl, by simp [← hl, hl'], ?_⟩
  · unfold plotSpectraRatio
    simp only [h1, h2, firstResult, ex_ok_bind, divArrays_of_eq hl, ex_bind_ok, orErr_ok_iff, mp_curve_ok, he]
    exact ⟨eng, rfl, by simp [← hl, hl'], rfl⟩
  · intro i y v w hy hv hw
    simp only [List.getElem?_zipWith, hv, hw, Option.some.injEq] at hy
    rw [← hy]
    exact div_mul_cancel₀ v (hb w (List.mem_of_getElem? hw))

/-- Plain spectra, the result of detector tallies, are refused: only their first value is looked at. -/
theorem C154_plain_violated (t1 t2 : McnpOutput.Tally K) (a b : K) (as bs : List K) (eng : List K) (h1 : t1.result = .items ((a :: as).map .num))
    (h2 : t2.result = .items ((b :: bs).map .num)) (he : t1.eng = some eng) (hl : 2 ≤ eng.length) : plotSpectraRatio t1 t2 = .error .ValueError := by
  unfold plotSpectraRatio
  rw [h1, h2]
  simp only [List.map_cons, firstResult, ex_ok_bind, divArrays, List.length_singleton, if_true, he, orErr, List.zipWith_cons_cons, List.zipWith_nil_right]
  unfold curve
  rw [if_neg (by simp only [List.length_singleton]; omega)]

/-- Tables, the result of cell and surface tallies, are refused unless there is a cell 0. -/
theorem C154_table_violated (t1 t2 : McnpOutput.Tally K) (d : Dict Nat (List (K × K × K))) (h1 : t1.result = .table d) (h0 : d.get 0 = none) :
    plotSpectraRatio t1 t2 = .error .KeyError := by
  unfold plotSpectraRatio
  rw [h1]
  simp only [firstResult, h0, ex_err_bind]

example : plotSpectraRatio ({ number := 1, tallyType := '1', particle := p!"neutrons", nps := .inr 1, eng := some [1, 2], result := .items [.list [6, 4]] } : McnpOutput.Tally ℚ)
    { number := 1, tallyType := '1', particle := p!"neutrons", nps := .inr 1, eng := some [1, 2], result := .items [.list [3, 8]] } = .ok ⟨[1, 2], [2, 1/2]⟩ := by decide +kernel

/-! ### C155 -/

private theorem run_positions (n i : Nat) (x : K) (hx : ((List.range n).map (fun i => ((i + 1 : Nat) : K)))[i]? = some x) : i < n ∧ x = (i : K) + 1 := by
  rw [List.getElem?_map, Option.map_eq_some_iff] at hx
  obtain ⟨j, hj, rfl⟩ := hx
  obtain ⟨hj1, hj2⟩ := List.getElem?_eq_some_iff.1 hj
  rw [List.getElem_range] at hj2
  rw [List.length_range] at hj1
  subst hj2
  exact ⟨hj1, by push_cast; ring⟩

/-- `plot_run_comp`: run number n sits at n, with its own value and error, and all runs are inside the limits of the axis. -/
theorem C155_runs_partial (data err : List K) (hl : data.length = err.length) (h0 : ∀ e ∈ err, 0 ≤ e) :
    ∃ f, plotRunComp data err = .ok f ∧ f.bars.y = data ∧ f.bars.err = err ∧ f.bars.x.length = data.length ∧
      (∀ (i : Nat) (x : K), f.bars.x[i]? = some x → x = (i : K) + 1) ∧ ∀ x ∈ f.bars.x, f.xlim.1 + 1 ≤ x ∧ x + 1 ≤ f.xlim.2 := by
  unfold plotRunComp
  rw [bars_run (by simp) h0 hl.symm]
  refine ⟨_, rfl, rfl, rfl, by simp, fun i x hx => (run_positions _ i x hx).2, ?_⟩
  intro x hx
  obtain ⟨i, hi⟩ := List.mem_iff_getElem?.1 hx
  obtain ⟨h1, rfl⟩ := run_positions _ i x hi
  have h1' : (i : K) + 1 ≤ (data.length : K) := by exact_mod_cast h1
  refine ⟨by simp, ?_⟩
  push_cast
  linarith

/-- Another number of errors than of values is refused, unless it is one; so are negative errors. -/
theorem C155_refused_partial (data err : List K) (h : (data.length ≠ err.length ∧ err.length ≠ 1) ∨ ∃ e ∈ err, e < 0) :
    plotRunComp data err = .error .ValueError := by
  have : ∀ x : List K, x.length = data.length → bars x data err = .error .ValueError := by
    intro x hx
    unfold bars
    rw [if_neg (not_not.2 hx)]
    split
    · rfl
    · rename_i hn
      rcases h with ⟨h1, h2⟩ | ⟨e, he, hneg⟩
      · rw [if_neg (Ne.symm h1)]
        match err, h2 with
        | [], _ => rfl
        | _ :: _ :: _, _ => rfl
      · exact absurd (List.any_eq_true.2 ⟨e, he, by simpa using hneg⟩) hn
  unfold plotRunComp
  rw [this _ (by simp)]
  rfl

/-- One error for any number of values is not refused: it is drawn at every value. -/
theorem C155_one_error_violated (data : List K) (e : K) (hl : data.length ≠ 1) (h0 : 0 ≤ e) :
    ∃ f, plotRunComp data [e] = .ok f ∧ f.bars.y = data ∧ f.bars.err = List.replicate data.length e := by
  unfold plotRunComp bars
  rw [if_neg (by simp), if_neg (by simpa using h0), if_neg (by simpa using hl.symm)]
  exact ⟨_, rfl, rfl, rfl⟩

/-- `plot_raw_spectra`: one curve per cell or surface of every tally, with the values as they are. -/
theorem C155_raw {ts : List (McnpOutput.Tally K)} {cs : List (Curve K)} :
    plotRawSpectra ts = .ok cs ↔ ∃ groups, cs = groups.flatten ∧ List.Forall₂ (fun (t : McnpOutput.Tally K) g => ∃ d, t.result = .table d ∧
      List.Forall₂ (fun (e : Nat × List (K × K × K)) (c : Curve K) => t.eng = some c.x ∧ c.y = e.2.map (fun r => r.2.1) ∧ c.x.length = c.y.length) d g) ts groups := by
  unfold plotRawSpectra
  simp only [ex_bind_ok, ex_pure, Except.ok.injEq, mapM_except_ok_iff]
  have key : ∀ (t : McnpOutput.Tally K) g, (match t.result with
    | .table d => d.mapM (fun (e : Nat × List (K × K × K)) => do
        let eng ← orErr .ValueError t.eng
        curve eng (e.2.map (fun r => r.2.1)))
    | _ => .error .AttributeError) = Except.ok g ↔ ∃ d, t.result = .table d ∧
      List.Forall₂ (fun (e : Nat × List (K × K × K)) (c : Curve K) => t.eng = some c.x ∧ c.y = e.2.map (fun r => r.2.1) ∧ c.x.length = c.y.length) d g := by
    intro t g
    cases t.result with
    | items xs => simp
    | mat m => simp
    | table d =>
      simp only [mapM_except_ok_iff, ex_bind_ok, orErr_ok_iff, mp_curve_ok, McnpOutput.Res.table.injEq, exists_eq_left']
      constructor
      · intro h
        refine h.imp ?_
        rintro e c ⟨eng, he, hl, rfl⟩
        exact ⟨he, rfl, hl⟩
      · intro h
        refine h.imp ?_
        rintro e ⟨x, y⟩ ⟨he, hy, hl⟩
        simp only at he hy hl
        subst hy
        exact ⟨x, he, hl, rfl⟩
  constructor
  · rintro ⟨gs, hg, rfl⟩
    exact ⟨gs, rfl, hg.imp (fun t g h => (key t g).1 h)⟩
  · rintro ⟨gs, rfl, hg⟩
    exact ⟨gs, hg.imp (fun t g h => (key t g).2 h), rfl⟩

example : plotRunComp ([5, 7] : List ℚ) [1, 2] = .ok ⟨⟨[1, 2], [5, 7], [1, 2]⟩, 0, 3⟩ := by decide +kernel
example : plotRunComp ([5, 7, 6] : List ℚ) [1] = .ok ⟨⟨[1, 2, 3], [5, 7, 6], [1, 1, 1]⟩, 0, 4⟩ := by decide +kernel
example : plotRunComp ([5, 7] : List ℚ) [1, -1] = .error .ValueError := by decide +kernel
example : plotRunComp ([5, 7, 6] : List ℚ) [1, 2] = .error .ValueError := by decide +kernel
example : plotRawSpectra ([{ number := 4, tallyType := '4', particle := p!"neutrons", nps := .inr 1, eng := some [1, 3], result := .table [(2, [(1, 5, 0), (3, 8, 0)])] }] : List (McnpOutput.Tally ℚ))
    = .ok [⟨[1, 3], [5, 8]⟩] := by decide +kernel

end Props
