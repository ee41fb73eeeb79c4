/- Properties C158-C161 of the plotting functions of fispact_analysis.py. -/
import Verif.Model.FispactPlots
import Verif.Props.FispactAnalysis
import Verif.Proofs.Dict
import Verif.Proofs.MapM
import Verif.Proofs.Except
import Verif.Proofs.NeutUtilities

set_option linter.unusedSectionVars false
set_option linter.unusedSimpArgs false

namespace Props
open Py FispactAnalysis FispactPlots NeutUtilities
variable {K : Type} [Field K] [LinearOrder K] [IsStrictOrderedRing K]

/-! ### C158 -/

/-- `sel` are the entries of a column, in cooling steps only if wanted. -/
def ColumnRows (t : Table K) (cooling : Bool) (col : Str) (sel : List K) : Prop :=
  ∃ full, t.cols.get col = some full ∧
    (cooling = false → sel = full) ∧ (cooling = true → ∃ cs, t.cooling = some cs ∧ sel = ((full.zip cs).filter (·.2)).map (·.1))

private theorem dict_get_map {α β : Type} (d : Dict Str α) (f : α → β) (k : Str) : Dict.get (d.map (fun c => (c.1, f c.2))) k = (d.get k).map f := by
  induction d with
  | nil => rfl
  | cons e d ih =>
    obtain ⟨k', v⟩ := e
    simp only [Dict.get, List.map_cons, List.find?_cons] at ih ⊢
    by_cases h : k' = k
    · simp [h]
    · simp only [h, decide_false, beq_iff_eq] at ih ⊢
      simpa [h] using ih

private theorem chooseRows_ok {t t' : Table K} {cooling : Bool} (h : chooseRows t cooling = .ok t') (col : Str) (sel : List K)
    (hs : t'.cols.get col = some sel) : ColumnRows t cooling col sel := by
  unfold chooseRows at h
  split at h
  · rename_i hc
    unfold coolingRows at h
    cases ht : t.cooling with
    | none => rw [ht] at h; cases h
    | some cs =>
      rw [ht] at h
      simp only [Except.ok.injEq] at h
      subst h
      simp only at hs
      rw [dict_get_map t.cols (fun l : List K => ((l.zip cs).filter (·.2)).map (·.1)) col, Option.map_eq_some_iff] at hs
      obtain ⟨full, hf, rfl⟩ := hs
      exact ⟨full, hf, (fun h => by rw [hc] at h; cases h), fun _ => ⟨cs, ht, rfl⟩⟩
  · rename_i hc
    simp only [Except.ok.injEq] at h
    subst h
    exact ⟨sel, hs, fun _ => rfl, fun h => absurd h hc⟩

private theorem pyMax_ok {l : List K} {m : K} (h : pyMax l = .ok m) : l ≠ [] ∧ m ∈ l ∧ ∀ x ∈ l, x ≤ m := by
  cases l with
  | nil => cases h
  | cons a l =>
    simp only [pyMax, Except.ok.injEq] at h
    subst h
    refine ⟨by simp, ?_⟩
    induction l generalizing a with
    | nil => simp
    | cons b l ih =>
      obtain ⟨h1, h2⟩ := ih (max a b)
      rw [List.foldl_cons]
      constructor
      · rcases List.mem_cons.1 h1 with h | h
        · rcases le_total a b with hab | hab
          · rw [max_eq_right hab] at h ⊢
            rw [h]; simp
          · rw [max_eq_left hab] at h ⊢
            rw [h]; simp
        · simp [h]
      · intro x hx
        have h0 := h2 (max a b) (by simp)
        rcases List.mem_cons.1 hx with rfl | hx
        · exact le_trans (le_max_left _ _) h0
        · rcases List.mem_cons.1 hx with rfl | hx
          · exact le_trans (le_max_right _ _) h0
          · exact h2 x (by simp [hx])

private theorem pyMax_exists {l : List K} (h : l ≠ []) : ∃ m, pyMax l = .ok m := by
  cases l with
  | nil => exact absurd rfl h
  | cons a l => exact ⟨_, rfl⟩

private theorem columnLabel_fst (column : Str) (yu : Option Str) (data : List K) :
    (columnLabel column yu data).1 = data.map (· * (if column = p!"dose_rate" then 10 ^ 6 else 1)) := by
  unfold columnLabel
  by_cases h : column = p!"dose_rate"
  · simp only [h, if_true]
    congr 1
    funext x
    norm_num
  · simp only [h, if_false, mul_one, List.map_id']
    split
    · cases yu with
      | none => rfl
      | some u => simp only; split <;> rfl
    · split_ifs <;> rfl

/-- What is plotted: the rows (of the cooling phase if wanted) before the first zero, dose rates in µSv/h; the time axis is logarithmic
    if a time is above 10. -/
theorem C158_points_partial {t : Table K} {column xu : Str} {vl hl : List K} {yu : Option Str} {cooling : Bool} {fig : SummaryFig K}
    (h : plotSummary (some t) column vl hl xu yu cooling = .ok fig) :
    ∃ vals times n, ColumnRows t cooling column vals ∧ ColumnRows t cooling (checkTimeUnits xu) times ∧ vals.length = times.length ∧
      fig.x = times.take n ∧ fig.y = (vals.take n).map (· * (if column = p!"dose_rate" then 10 ^ 6 else 1)) ∧
      (∀ v ∈ vals.take n, v ≠ 0) ∧ (n = vals.length ∨ vals[n]? = some 0) ∧ fig.x ≠ [] ∧ (fig.logTime = true ↔ ∃ x ∈ fig.x, 10 < x) := by
  unfold plotSummary at h
  simp only [ex_bind_ok, orErr_ok_iff, Option.some.injEq] at h
  obtain ⟨t0, rfl, c0, _, t', ht', data, hd, times, htm, dt, hr, m, hm, h⟩ := h
  split at h
  · cases h
  · simp only [Except.ok.injEq] at h
    obtain ⟨v, tt⟩ := dt
    have hcl := (C43_reduce data times).1 .ValueError
    have hlen : data.length = times.length := by
      by_contra hne
      rw [(C43_reduce data times).1 .ValueError |>.2 ⟨rfl, hne⟩] at hr
      cases hr
    obtain ⟨h1, h2, h3, h4, h5, _⟩ := (C43_reduce data times).2 v tt hr
    obtain ⟨hne, hmm, hmx⟩ := pyMax_ok hm
    rw [List.prefix_iff_eq_take] at h1 h2
    refine ⟨data, times, v.length, chooseRows_ok ht' _ _ hd, chooseRows_ok ht' _ _ htm, hlen, ?_, ?_, ?_, ?_, ?_, ?_⟩
    · rw [← h, h3]; exact h2
    · rw [← h, ← h1]; exact columnLabel_fst _ _ _
    · rw [← h1]; exact h4
    · rcases h5 with h5 | h5
      · left; rw [h5]
      · right; exact h5
    · rw [← h]; exact hne
    · rw [← h]
      simp only [decide_eq_true_eq]
      exact ⟨fun h => ⟨m, hmm, h⟩, fun ⟨x, hx, h⟩ => lt_of_lt_of_le h (hmx x hx)⟩

/-- Label of the values. -/
theorem C158_label {t : Table K} {column xu : Str} {vl hl : List K} {yu : Option Str} {cooling : Bool} {fig : SummaryFig K}
    (h : plotSummary (some t) column vl hl xu yu cooling = .ok fig) :
    (column = p!"dose_rate" → fig.label = p!"Dose rate $\\mu$Sv/h") ∧
    (column = p!"act" → (∀ u, yu = some u → u ∈ [p!"Bq/kg", p!"Bq/g"] → fig.label = p!"Specific Activity " ++ u) ∧
      ((∀ u, yu = some u → u ∉ [p!"Bq/kg", p!"Bq/g"]) → fig.label = p!"Activity Bq")) ∧
    (∀ c l, (c, l) ∈ [(p!"heat_output", p!"Heat output (kW)"), (p!"ingestion_dose", p!"Ingestion dose (Sv)"),
      (p!"inhalation_dose", p!"Inhalation dose (Sv)"), (p!"tritium_activity", p!"Tritium activity (Bq)")] → column = c → fig.label = l) := by
  unfold plotSummary at h
  simp only [ex_bind_ok, orErr_ok_iff, Option.some.injEq] at h
  obtain ⟨t0, rfl, c0, _, t', ht', data, hd, times, htm, dt, hr, m, hm, h⟩ := h
  split at h
  · cases h
  · simp only [Except.ok.injEq] at h
    rw [← h]
    refine ⟨?_, ?_, ?_⟩
    · rintro rfl; rfl
    · rintro rfl
      refine ⟨?_, ?_⟩
      · rintro u rfl hu
        simp only [List.mem_cons, List.not_mem_nil, or_false] at hu
        rcases hu with rfl | rfl <;> rfl
      · intro hu
        cases yu with
        | none => rfl
        | some u =>
          have := hu u rfl
          simp only [List.mem_cons, List.not_mem_nil, or_false] at this
          unfold columnLabel
          rw [if_neg (by decide), if_pos rfl]
          simp only
          rw [if_neg this]
    · intro c l hc hcol
      subst hcol
      simp only [List.mem_cons, Prod.mk.injEq, List.not_mem_nil, or_false] at hc
      rcases hc with ⟨rfl, rfl⟩ | ⟨rfl, rfl⟩ | ⟨rfl, rfl⟩ | ⟨rfl, rfl⟩ <;> rfl

/-- A column that starts with a zero (activity before the irradiation, tritium) raises although the rest could be plotted. -/
theorem C158_zero_violated {t : Table K} {column xu : Str} {vl hl : List K} {yu : Option Str} {vals times : List K}
    (hv : t.cols.get column = some (0 :: vals)) (ht : t.cols.get (checkTimeUnits xu) = some times) :
    plotSummary (some t) column vl hl xu yu false = .error .ValueError := by
  unfold plotSummary
  simp only [orErr, ex_ok_bind, hv, ht, chooseRows, Bool.false_eq_true, if_false]
  unfold reduceToNonZero
  split
  · rfl
  · have : findFirstZero (0 :: vals) = some 0 := by simp [findFirstZero, List.zipIdx_cons]
    rw [this]
    simp [ex_ok_bind, pyMax, ex_err_bind]

/-- A zero in the middle hides everything after it. -/
theorem C158_later_violated : ∃ (t : Table ℚ) (fig : SummaryFig ℚ), t.cols.get p!"act" = some [3, 0, 5, 7] ∧
    plotSummary (some t) p!"act" [] [] p!"h" none false = .ok fig ∧ fig.y = [3] :=
  ⟨⟨[(p!"act", [3, 0, 5, 7]), (p!"time_hours", [1, 2, 3, 4])], none⟩, ⟨[1], [3], p!"Activity Bq", false⟩, by decide +kernel, by decide +kernel, rfl⟩

/-- With vertical or horizontal lines nothing is ever plotted. -/
theorem C158_lines_violated (t : Option (Table K)) (column xu : Str) (vl hl : List K) (yu : Option Str) (cooling : Bool) (fig : SummaryFig K)
    (hv : vl ≠ [] ∨ hl ≠ []) : plotSummary t column vl hl xu yu cooling ≠ .ok fig := by
  intro h
  unfold plotSummary at h
  simp only [ex_bind_ok] at h
  obtain ⟨_, _, _, _, _, _, _, _, _, _, _, _, _, _, h⟩ := h
  rw [if_pos hv] at h
  cases h

/-- Wrong arguments raise ValueError. -/
theorem C158_arguments (t : Table K) (column xu : Str) (vl hl : List K) (yu : Option Str) (cooling : Bool) :
    plotSummary (none : Option (Table K)) column vl hl xu yu cooling = .error .ValueError ∧
    (t.cols.get column = none → plotSummary (some t) column vl hl xu yu cooling = .error .ValueError) ∧
    (t.cols.get (checkTimeUnits xu) = none → plotSummary (some t) column vl hl xu yu false = .error .ValueError) := by
  refine ⟨rfl, ?_, ?_⟩
  · intro h
    unfold plotSummary
    simp only [orErr, ex_ok_bind, h, ex_err_bind]
  · intro h
    unfold plotSummary
    cases hc : t.cols.get column with
    | none => simp only [orErr, ex_ok_bind, hc, ex_err_bind]
    | some c => simp only [orErr, ex_ok_bind, hc, ex_err_bind, chooseRows, Bool.false_eq_true, if_false, h]

/-- The cooling steps of a table that does not say which steps they are: KeyError. -/
theorem C158_cooling_missing (t : Table K) (column xu : Str) (vl hl vals : List K) (yu : Option Str) (hc : t.cols.get column = some vals)
    (hn : t.cooling = none) : plotSummary (some t) column vl hl xu yu true = .error .KeyError := by
  unfold plotSummary
  simp only [orErr, ex_ok_bind, hc, chooseRows, if_true, coolingRows, hn, ex_err_bind]

example : plotSummary (some (⟨[(p!"dose_rate", [1, 2, 3]), (p!"time_hours", [1, 20, 30])], some [false, true, true]⟩ : Table ℚ)) p!"dose_rate" [] [] p!"H" none true
    = .ok ⟨[20, 30], [2000000, 3000000], p!"Dose rate $\\mu$Sv/h", true⟩ := by decide +kernel

/-! ### C159 -/

/-- The upper bounds of the 24 gamma groups of FISPACT in MeV, as fractions of 100. -/
def gammaGroups : List Nat := [1, 2, 5, 10, 20, 30, 40, 60, 80, 100, 122, 144, 166, 200, 250, 300, 400, 500, 650, 800, 1000, 1200, 1400, 2000]

/-- The gamma spectrum: 24 values against the 24 bounds, every value below the upper limit; other lengths are refused. -/
theorem C159_gamma (g : List K) :
    (g.length ≠ 24 → plotGamma g = .error .ValueError) ∧
    (g.length = 24 → ∃ fig, plotGamma g = .ok fig ∧ fig.y = g ∧ fig.x.map (· * 100) = gammaGroups.map (fun n => (n : K)) ∧
      ((∀ v ∈ g, 0 ≤ v) → ∀ v ∈ g, v ≤ fig.ymax) ∧ (∃ v ∈ g, fig.ymax = v * (3 / 2)) ∧ fig.ymin = 1 / 10 ^ 4) := by
  have hlen : (xbounds : List K).length = 24 := rfl
  unfold plotGamma
  constructor
  · intro h
    cases g with
    | nil => rfl
    | cons a l => simp only [pyMax, ex_ok_bind]; rw [if_neg (by rw [hlen]; exact fun h' => h h'.symm)]
  · intro h
    have hne : g ≠ [] := by rintro rfl; simp at h
    obtain ⟨m, hm⟩ := pyMax_exists hne
    obtain ⟨_, h1, h2⟩ := pyMax_ok hm
    simp only [hm, ex_ok_bind]
    rw [if_pos (by rw [hlen, h])]
    refine ⟨_, rfl, rfl, ?_, ?_, ⟨m, h1, ?_⟩, ?_⟩
    · simp only [xbounds, gammaGroups, List.map_cons, List.map_nil]
      norm_num
    · intro h0 v hv
      have h3 := h2 v hv
      have h4 : 0 ≤ m := le_trans (h0 v hv) h3
      have : (0 : K) ≤ m * 0.5 := mul_nonneg h4 (by norm_num)
      show v ≤ m + m * 0.5
      linarith
    · show m + m * 0.5 = m * (3 / 2)
      norm_num
      ring
    · show (1e-4 : K) = _
      norm_num

example : ∃ fig, plotGamma (List.replicate 24 (2 : ℚ)) = .ok fig ∧ fig.ymax = 3 := ⟨_, rfl, by decide +kernel⟩

/-! ### C160 -/

/-- The pie: the nuclides above the threshold in the order of the table, each with its part of the sum of those shown. -/
theorem C160_wedges_partial {t : Dominant K} {param : Str} {thres : K} {w : List (Str × K)} (h : plotPie t param thres = .ok w) :
    ∃ names vals pct shown, t.names.get (param ++ p!"_nuc") = some names ∧ t.nums.get param = some vals ∧ t.nums.get (param ++ p!"_percent") = some pct ∧
      List.Sublist shown (names.zip vals) ∧
      (∀ r, r ∈ shown ↔ ∃ p, (r, p) ∈ (names.zip vals).zip pct ∧ thres < p) ∧
      List.Forall₂ (fun (r : Str × K) (s : Str × K) => s.1 = r.1 ∧ 0 ≤ r.2 ∧ (0 < (shown.map (·.2)).sum → s.2 * (shown.map (·.2)).sum = r.2)) shown w := by
  unfold plotPie at h
  split at h
  · cases h
  · simp only [ex_bind_ok, orErr_ok_iff] at h
    obtain ⟨pct, hp, names, hn, vals, hv, h⟩ := h
    split at h
    · cases h
    · rename_i hneg
      simp only [Except.ok.injEq] at h
      refine ⟨names, vals, pct, (((names.zip vals).zip pct).filter (fun r => decide (thres < r.2))).map (·.1), hn, hv, hp, ?_, ?_, ?_⟩
      · have h1 : List.Sublist ((((names.zip vals).zip pct).filter (fun r => decide (thres < r.2))).map (·.1)) (((names.zip vals).zip pct).map (·.1)) :=
          (List.filter_sublist).map _
        have h2 : List.Sublist (((names.zip vals).zip pct).map (·.1)) (names.zip vals) := by
          clear * -
          generalize names.zip vals = l
          induction l generalizing pct with
          | nil => simp
          | cons a l ih =>
            cases pct with
            | nil => simp
            | cons b pct => simpa using ih pct
        exact h1.trans h2
      · rintro ⟨a, b⟩
        simp only [List.mem_map, List.mem_filter, decide_eq_true_eq]
        constructor
        · rintro ⟨⟨r, p⟩, ⟨hm, hlt⟩, he⟩
          simp only at he
          subst he
          exact ⟨p, hm, hlt⟩
        · rintro ⟨p, hm, hlt⟩
          exact ⟨⟨_, p⟩, ⟨hm, hlt⟩, rfl⟩
      · rw [← h, List.forall₂_map_right_iff]
        refine List.forall₂_same.2 ?_
        intro r hr
        refine ⟨rfl, ?_, fun h0 => div_mul_cancel₀ _ h0.ne'⟩
        simp only [List.any_eq_true, decide_eq_true_eq, not_exists, not_and, not_lt] at hneg
        exact hneg r hr

/-- The parts are not the percentages of the table: nuclides below the threshold are left out and the others grow. -/
theorem C160_share_violated : ∃ (t : Dominant ℚ) (w : List (Str × ℚ)), t.nums.get p!"act" = some [60, 30, 10] ∧ t.nums.get p!"act_percent" = some [60, 30, 10] ∧
    plotPie t p!"act" 20 = .ok w ∧ w = [(p!"Co60", 2 / 3), (p!"Fe55", 1 / 3)] :=
  ⟨⟨[(p!"act", [60, 30, 10]), (p!"act_percent", [60, 30, 10])], [(p!"act_nuc", [p!"Co60", p!"Fe55", p!"H3"])]⟩, _, by decide +kernel, by decide +kernel, by decide +kernel, rfl⟩

/-- An unknown parameter raises ValueError. -/
theorem C160_param (t : Dominant K) (param : Str) (thres : K) (h1 : t.nums.get param = none) (h2 : t.names.get param = none) :
    plotPie t param thres = .error .ValueError := by
  unfold plotPie
  rw [if_pos (by simp [h1, h2])]

/-! ### C161 -/

private theorem labelled_ok {l : Str} {x y : List K} {c : Str × List K × List K} : labelled l x y = .ok c ↔ x.length = y.length ∧ c = (l, x, y) := by
  unfold labelled
  split
  · rename_i h; simp [h, eq_comm]
  · rename_i h; simp [h]

/-- The curves of `plot_nuc_cont`: for every nuclide of the list one value per time step, that of the first row of the nuclide or 0,
    against the times of the summary; after them the total, if wanted. -/
theorem C161_curves (get : Row K → K) (sumdat : Table K) (steps : List (List Str × List (Row K))) (nucs : List Str) (param : Str) (total : Bool) (times : List K)
    (hc : ∀ s ∈ steps, p!"nuclide" ∈ s.1) (hn : nucs ≠ []) (ht : sumdat.cols.get p!"time_hours" = some times) (hl : times.length = steps.length) (h0 : times ≠ [])
    (htot : total = true → ∃ v, sumdat.cols.get param = some v ∧ v.length = times.length) :
    ∃ fig cs, plotNucCont get sumdat (steps.map (fun s => .frame s.1 s.2)) nucs param total = .ok fig ∧
      fig.curves = cs ++ (if total then [(p!"Total", times, (sumdat.cols.get param).getD [])] else []) ∧
      (fig.logTime = true ↔ ∃ x ∈ times, 10 < x) ∧
      List.Forall₂ (fun nuc (c : Str × List K × List K) => c.1 = nuc ∧ c.2.1 = times ∧ c.2.2.length = times.length ∧
        ∀ (i : Nat) (cols : List Str) (rows : List (Row K)), steps[i]? = some (cols, rows) →
          (∀ pre r post, rows = pre ++ r :: post → (∀ r' ∈ pre, r'.nuclide ≠ nuc) → r.nuclide = nuc → c.2.2[i]? = some (get r)) ∧
          ((∀ r ∈ rows, r.nuclide ≠ nuc) → c.2.2[i]? = some 0)) nucs cs := by
  obtain ⟨m, hm⟩ := pyMax_exists h0
  obtain ⟨_, hm1, hm2⟩ := pyMax_ok hm
  have hcs : ∃ cs, nucs.mapM (fun n => do
      let vals ← nucValues get n (steps.map (fun s : List Str × List (Row K) => Arg.frame s.1 s.2))
      labelled n times vals) = .ok cs ∧ List.Forall₂ (fun nuc (c : Str × List K × List K) => c.1 = nuc ∧ c.2.1 = times ∧ c.2.2.length = times.length ∧
        ∀ (i : Nat) (cols : List Str) (rows : List (Row K)), steps[i]? = some (cols, rows) →
          (∀ pre r post, rows = pre ++ r :: post → (∀ r' ∈ pre, r'.nuclide ≠ nuc) → r.nuclide = nuc → c.2.2[i]? = some (get r)) ∧
          ((∀ r ∈ rows, r.nuclide ≠ nuc) → c.2.2[i]? = some 0)) nucs cs := by
    clear hn
    induction nucs with
    | nil => exact ⟨[], rfl, .nil⟩
    | cons n nucs ih =>
      obtain ⟨cs, h1, h2⟩ := ih
      obtain ⟨vals, hv, hvl, hvs⟩ := C131_series get n steps hc
      refine ⟨(n, times, vals) :: cs, ?_, .cons ⟨rfl, rfl, by simp [hvl, hl], hvs⟩ h2⟩
      rw [mapM_except_cons_ok (f := fun n => do
        let vals ← nucValues get n (steps.map (fun s : List Str × List (Row K) => Arg.frame s.1 s.2))
        labelled n times vals) (b := (n, times, vals)), h1]
      · rfl
      · simp only [hv, ex_ok_bind, labelled_ok, and_true]
        omega
  obtain ⟨cs, h1, h2⟩ := hcs
  have htc : ∃ tot, totalCurve sumdat times param total = .ok tot ∧ tot = (if total then [(p!"Total", times, (sumdat.cols.get param).getD [])] else []) := by
    unfold totalCurve
    cases total with
    | false => exact ⟨[], rfl, rfl⟩
    | true =>
      obtain ⟨v, hv, hvl⟩ := htot rfl
      refine ⟨[(p!"Total", times, v)], ?_, by simp [hv]⟩
      simp only [if_true, hv, orErr, ex_ok_bind, labelled, hvl]
  obtain ⟨tot, h3, h4⟩ := htc
  refine ⟨⟨cs ++ tot, decide (10 < m), p!"Time hours", p!"bq/kg"⟩, cs, ?_, by rw [h4], ?_, h2⟩
  · unfold plotNucCont
    rw [if_neg hn]
    simp only [ht, orErr, ex_ok_bind, h1, h3, hm]
  · simp only [decide_eq_true_eq]
    exact ⟨fun h => ⟨m, hm1, h⟩, fun ⟨x, hx, h⟩ => lt_of_lt_of_le h (hm2 x hx)⟩

/-- No nuclides: ValueError. A number of times different from the number of time steps: ValueError. -/
theorem C161_errors (get : Row K → K) (sumdat : Table K) (steps : List (List Str × List (Row K))) (nucs : List Str) (param : Str) (total : Bool) :
    plotNucCont get sumdat (steps.map (fun s => .frame s.1 s.2)) [] param total = .error .ValueError ∧
    ∀ times, (∀ s ∈ steps, p!"nuclide" ∈ s.1) → nucs ≠ [] → sumdat.cols.get p!"time_hours" = some times → times.length ≠ steps.length →
      plotNucCont get sumdat (steps.map (fun s => .frame s.1 s.2)) nucs param total = .error .ValueError := by
  refine ⟨rfl, ?_⟩
  intro times hc hn ht hl
  unfold plotNucCont
  rw [if_neg hn]
  cases nucs with
  | nil => exact absurd rfl hn
  | cons n nucs =>
    obtain ⟨vals, hv, hvl, _⟩ := C131_series get n steps hc
    simp only [ht, orErr, ex_ok_bind]
    rw [mapM_except_cons_err (f := fun n => do
        let vals ← nucValues get n (steps.map (fun s : List Str × List (Row K) => Arg.frame s.1 s.2))
        labelled n times vals) (e := .ValueError)]
    · rfl
    · simp only [hv, ex_ok_bind, labelled]
      rw [if_neg (by omega)]

example : plotNucCont (fun _ => (5 : ℚ)) ⟨[(p!"time_hours", [1, 20])], none⟩ [.frame [p!"nuclide"] [], .frame [p!"nuclide"] [exRow p!"H" 3 5 1]] [p!"H3"] p!"act" false
    = .ok ⟨[(p!"H3", [1, 20], [0, 5])], true, p!"Time hours", p!"bq/kg"⟩ := by decide +kernel

end Props
