/- Property C219, the legend of `plot_spectra` (mcnp_analysis.py), and further behaviour of the plots of spectra (C151, C154). -/
import Verif.Model.Legends
import Verif.Props.McnpPlots3

set_option linter.unusedSectionVars false
set_option linter.unusedSimpArgs false

namespace Props
open Py McnpAnalysis McnpPlots NeutUtilities
variable {K : Type} [Field K] [LinearOrder K] [IsStrictOrderedRing K]

/-! ### C219: the legend -/

private theorem mapM_len {A B : Type} {f : A → Except Err B} {l : List A} {r : List B} (h : l.mapM f = .ok r) : r.length = l.length := by
  rw [mapM_except_ok_iff] at h
  exact h.length_eq.symm

private theorem labels_count {t : McnpOutput.Tally K} {eng bw : List K} {cs : List (Curve K)} (h : tallyCurves t eng bw = .ok cs) :
    (curveLabels t).length = cs.length := by
  have htab : ∀ {r}, tableCurves eng bw r = .ok cs → ∃ d, r = .table d ∧ cs.length = d.length := by
    intro r hr
    cases r with
    | table d => exact ⟨d, rfl, mapM_len hr⟩
    | items _ => cases hr
    | mat _ => cases hr
  unfold tallyCurves at h
  by_cases h1 : t.tallyType = '1'
  · rw [if_pos h1] at h
    split at h
    · rename_i hs
      simp only [ex_bind_ok, orErr_ok_iff] at h
      obtain ⟨a, ha, h⟩ := h
      split at h
      · cases h
      · obtain ⟨d, hd, hl⟩ := htab h
        have hb : byAngle t = false := by simp [byAngle]; intros; omega
        simp [curveLabels, hd, hb, hl]
    · rename_i hs
      simp only [ex_bind_ok, orErr_ok_iff] at h
      obtain ⟨a, ha, h⟩ := h
      split at h
      · rename_i hn
        have hb : byAngle t = true := by simp [byAngle, ha, h1]; omega
        cases hr : t.result with
        | items xs => rw [hr] at h; simp [curveLabels, hr, hb, mapM_len h]
        | mat rows => rw [hr] at h; simp [curveLabels, hr, hb, mapM_len h]
        | table d => rw [hr] at h; simp [curveLabels, hr, hb, mapM_len h]
      · rename_i hn
        obtain ⟨d, hd, hl⟩ := htab h
        have hb : byAngle t = false := by simp [byAngle, ha]; intros; omega
        simp [curveLabels, hd, hb, hl]
  · have hb : byAngle t = false := by simp [byAngle, h1]
    rw [if_neg h1] at h
    by_cases h24 : t.tallyType = '2' ∨ t.tallyType = '4'
    · have h : tableCurves eng bw t.result = .ok cs := by
        rcases h24 with e | e
        · rwa [if_pos e] at h
        · rw [if_neg (by rw [e]; decide), if_pos e] at h; exact h
      obtain ⟨d, hd, hl⟩ := htab h
      simp [curveLabels, hd, hb, hl]
    · rw [if_neg (fun e => h24 (.inl e)), if_neg (fun e => h24 (.inr e))] at h
      simp only [ex_bind_ok, ex_pure, Except.ok.injEq] at h
      obtain ⟨ys, hy, y, -, c, -, rfl⟩ := h
      have hnt : ∀ d, t.result ≠ .table d := by
        intro d hd
        rw [hd] at hy
        cases hy
      cases hr : t.result with
      | items xs => simp [curveLabels, hr, hb]
      | mat rows => simp [curveLabels, hr, hb]
      | table d => exact absurd hr (hnt d)

private theorem loop_count {ts : List (McnpOutput.Tally K)} : ∀ {cs : List (Curve K)} {bs last r}, spectraLoop false ts cs bs last = .ok r →
    r.1.length = cs.length + (ts.flatMap curveLabels).length := by
  induction ts with
  | nil => intro cs bs last r h; cases h; simp
  | cons t ts ih =>
    intro cs bs last r h
    simp only [spectraLoop, ex_bind_ok, orErr_ok_iff, Bool.false_eq_true, if_false] at h
    obtain ⟨eng, -, bw, -, new, hn, h⟩ := h
    have := ih h
    rw [this, List.flatMap_cons, List.length_append, List.length_append, labels_count hn]
    omega

private theorem step_labels (st : LegendSt K) (t : McnpOutput.Tally K) : (legendStep st t).labels = st.labels ++ curveLabels t := by
  unfold legendStep
  dsimp only
  split
  · split
    · rfl
    · split <;> rfl
  · split <;> rfl

private theorem fold_labels (ts : List (McnpOutput.Tally K)) : ∀ st : LegendSt K,
    (ts.foldl legendStep st).labels = st.labels ++ ts.flatMap curveLabels := by
  induction ts with
  | nil => intro st; simp
  | cons t ts ih => intro st; rw [List.foldl_cons, ih, step_labels]; simp

private theorem mem_givenLegend {n : Nat} {names : List (Name K)} {i : Nat} {x : Name K} :
    (i, x) ∈ givenLegend n names ↔ i < n ∧ names[i]? = some x := by
  unfold givenLegend
  rw [List.mem_iff_getElem?]
  constructor
  · rintro ⟨j, hj⟩
    rw [List.getElem?_zip_eq_some] at hj
    obtain ⟨h1, h2⟩ := hj
    have hj' : j < n := by simpa using (List.getElem?_eq_some_iff.1 h1).1
    rw [List.getElem?_range hj'] at h1
    cases h1
    exact ⟨hj', h2⟩
  · rintro ⟨h1, h2⟩
    exact ⟨i, by rw [List.getElem?_zip_eq_some, List.getElem?_range h1]; exact ⟨rfl, h2⟩⟩

private theorem mem_autoLegend {labels : List (Option (Name K))} {i : Nat} {x : Name K} :
    (i, x) ∈ autoLegend labels ↔ labels[i]? = some (some x) := by
  unfold autoLegend
  rw [List.mem_filterMap]
  constructor
  · rintro ⟨⟨o, j⟩, hm, h⟩
    rw [List.mem_zipIdx_iff_getElem?] at hm
    cases o with
    | none => cases h
    | some n => simp at h; rw [← h.1, ← h.2]; exact hm
  · intro h
    exact ⟨(some x, i), by rw [List.mem_zipIdx_iff_getElem?]; exact h, rfl⟩

/-- The objects of the curves, in the order of the figure: the surfaces or cells of all tables. -/
def objects (ts : List (McnpOutput.Tally K)) : List Nat :=
  ts.flatMap (fun t => match t.result with | .table d => d.map (·.1) | _ => [])

/-- A tally of type 2 or 4 with a table of results. -/
def FluxTable (t : McnpOutput.Tally K) : Prop := (t.tallyType = '2' ∨ t.tallyType = '4') ∧ ∃ d, t.result = .table d

private theorem flux_angle {t : McnpOutput.Tally K} (h : t.tallyType ≠ '1') : byAngle t = false := by simp [byAngle, h]

private theorem flux_labels {t : McnpOutput.Tally K} (h : FluxTable t) : curveLabels t = (objects [t]).map (fun n => some (.obj n)) := by
  obtain ⟨h1, d, hd⟩ := h
  have hb : byAngle t = false := flux_angle (by rcases h1 with h | h <;> rw [h] <;> decide)
  simp [curveLabels, hd, hb, objects]

private theorem flux_all {ts : List (McnpOutput.Tally K)} (h : ∀ t ∈ ts, FluxTable t) :
    ts.flatMap curveLabels = (objects ts).map (fun n => some (.obj n)) := by
  induction ts with
  | nil => rfl
  | cons t ts ih =>
    rw [List.flatMap_cons, ih (fun t ht => h t (by simp [ht])), flux_labels (h t (by simp))]
    simp [objects]

private theorem flux_step {st : LegendSt K} {t : McnpOutput.Tally K} (h : FluxTable t) :
    legendStep st t = ⟨st.labels ++ curveLabels t, some (autoLegend (st.labels ++ curveLabels t)), st.legend⟩ := by
  unfold legendStep
  dsimp only
  rw [if_neg (by rcases h.1 with h | h <;> rw [h] <;> decide), if_pos h.1]

private theorem flux_fold {ts : List (McnpOutput.Tally K)} (h : ∀ t ∈ ts, FluxTable t) (hne : ts ≠ []) (st : LegendSt K) :
    ts.foldl legendStep st = ⟨st.labels ++ ts.flatMap curveLabels, some (autoLegend (st.labels ++ ts.flatMap curveLabels)), st.legend⟩ := by
  induction ts generalizing st with
  | nil => exact absurd rfl hne
  | cons t ts ih =>
    rw [List.foldl_cons, flux_step (h t (by simp))]
    by_cases ht : ts = []
    · subst ht; simp
    · rw [ih (fun t ht => h t (by simp [ht])) ht]; simp

private theorem plain_fold {ts : List (McnpOutput.Tally K)} (h : ∀ t ∈ ts, byAngle t = false) (st : LegendSt K) :
    (ts.foldl legendStep st).legend = st.legend := by
  induction ts generalizing st with
  | nil => rfl
  | cons t ts ih =>
    rw [List.foldl_cons, ih (fun t ht => h t (by simp [ht]))]
    unfold legendStep
    dsimp only
    rw [h t (by simp)]
    split
    · split <;> rfl
    · split <;> rfl

/-- Fluxes of surfaces and cells: the legend names every curve, with the number of its own surface or cell. -/
theorem C219_objects_partial {ts : List (McnpOutput.Tally K)} (h : ∀ t ∈ ts, FluxTable t) (hne : ts ≠ []) {xlow : Option K} {fig : SpecFig K}
    (hp : plotSpectra ts false xlow = .ok fig) : (objects ts).length = fig.curves.length ∧ ∃ l, legendShown ts none = some l ∧
      ∀ i x, (i, x) ∈ l ↔ ∃ k, (objects ts)[i]? = some k ∧ x = .obj k := by
  obtain ⟨r, hr, hc, -⟩ := plotSpectra_loop hp
  refine ⟨?_, _, by unfold legendShown; rw [flux_fold h hne], ?_⟩
  · rw [hc, loop_count hr, flux_all h]; simp
  · intro i x
    rw [List.nil_append, mem_autoLegend, flux_all h, List.getElem?_map, Option.map_eq_some_iff]
    simp only [Option.some.injEq, eq_comm]

/-- Names given by the caller are those of the curves in order, if no tally has angle bins. -/
theorem C219_given_partial {ts : List (McnpOutput.Tally K)} (h : ∀ t ∈ ts, t.angBins = none) (names : List (Name K)) {xlow : Option K} {fig : SpecFig K}
    (hp : plotSpectra ts false xlow = .ok fig) : ∃ l, legendShown ts (some names) = some l ∧
      ∀ i x, (i, x) ∈ l ↔ i < fig.curves.length ∧ names[i]? = some x := by
  obtain ⟨r, hr, hc, -⟩ := plotSpectra_loop hp
  have hb : ∀ t ∈ ts, byAngle t = false := fun t ht => by simp [byAngle, h t ht]
  refine ⟨givenLegend fig.curves.length names, ?_, fun i x => mem_givenLegend⟩
  unfold legendShown
  dsimp only
  rw [plain_fold hb, fold_labels, hc, loop_count hr]
  simp

/-- A current on one surface by angle: `edges` are the boundaries of the cosine bins and `sp` the spectra of the bins. -/
def ByAngle (t : McnpOutput.Tally K) (edges : List K) (sp : List (List K)) : Prop :=
  t.tallyType = '1' ∧ t.surfaces.length ≤ 1 ∧ t.angBins = some edges ∧ t.result = .items (sp.map .list) ∧ edges.length = sp.length + 1 ∧ sp ≠ []

private theorem ByAngle.by {t : McnpOutput.Tally K} {edges : List K} {sp : List (List K)} (h : ByAngle t edges sp) : byAngle t = true := by
  obtain ⟨h1, h2, h3, h4, h5, h6⟩ := h
  have := List.length_pos_iff.2 h6
  simp [byAngle, h1, h3]
  omega

private theorem ByAngle.labels {t : McnpOutput.Tally K} {edges : List K} {sp : List (List K)} (h : ByAngle t edges sp) :
    curveLabels t = List.replicate sp.length none := by
  simp only [curveLabels, h.2.2.2.1, h.by, List.map_const', List.length_map]

private theorem ByAngle.step {t : McnpOutput.Tally K} {edges : List K} {sp : List (List K)} (h : ByAngle t edges sp) (st : LegendSt K) :
    legendStep st t = ⟨st.labels ++ curveLabels t, st.shown, some (edges.map .edge)⟩ := by
  unfold legendStep
  dsimp only
  have h2 := h.2.1
  have h6 := List.length_pos_iff.2 h.2.2.2.2.2
  rw [if_pos h.1, if_neg (by omega), if_pos h.by, h.2.2.1]
  rw [if_neg (by rw [h.labels]; simp [h.2.2.2.2.2])]
  rfl

/-- One current by angle: every curve is named by the lower boundary of its own cosine bin, whatever the caller asks for. -/
theorem C219_angles_partial {t : McnpOutput.Tally K} {edges : List K} {sp : List (List K)} (h : ByAngle t edges sp) (legend : Option (List (Name K))) :
    ∃ l, legendShown [t] legend = some l ∧ ∀ i x, (i, x) ∈ l ↔ i < sp.length ∧ ∃ lo, edges[i]? = some lo ∧ x = .edge lo := by
  refine ⟨givenLegend sp.length (edges.map .edge), ?_, ?_⟩
  · unfold legendShown
    simp only [List.foldl_cons, List.foldl_nil, h.step, h.labels]
    simp
  · intro i x
    rw [mem_givenLegend, List.getElem?_map, Option.map_eq_some_iff]
    simp only [eq_comm]

/-- The names given by the caller are discarded for a current by angle. -/
theorem C219_discarded_violated {t : McnpOutput.Tally K} {edges : List K} {sp : List (List K)} (h : ByAngle t edges sp) (names : List (Name K)) :
    legendShown [t] (some names) = legendShown [t] none := by
  unfold legendShown
  simp only [List.foldl_cons, List.foldl_nil, h.step]

/-- Two currents by angle: the second gives the names of all curves. The curves of the first are named with the bins of the second, and the
    curves of the second (from number `sp.length` on) with the bins further up, as far as there are any. -/
theorem C219_two_violated {t t' : McnpOutput.Tally K} {edges edges' : List K} {sp sp' : List (List K)} (h : ByAngle t edges sp)
    (h' : ByAngle t' edges' sp') (legend : Option (List (Name K))) : ∃ l, legendShown [t, t'] legend = some l ∧
      (∀ i lo x, i < sp.length → edges[i]? = some lo → (i, x) ∈ l → ∃ lo', edges'[i]? = some lo' ∧ x = .edge lo') ∧
      (∀ i x, i < sp'.length → ((sp.length + i, x) ∈ l ↔ ∃ lo', edges'[sp.length + i]? = some lo' ∧ x = .edge lo')) := by
  refine ⟨givenLegend (sp.length + sp'.length) (edges'.map .edge), ?_, ?_, ?_⟩
  · unfold legendShown
    simp only [List.foldl_cons, List.foldl_nil, h.step, h'.step, h.labels, h'.labels]
    simp
  · intro i lo x _ _ hm
    rw [mem_givenLegend, List.getElem?_map, Option.map_eq_some_iff] at hm
    obtain ⟨-, a, ha, rfl⟩ := hm
    exact ⟨a, ha, rfl⟩
  · intro i x hi
    rw [mem_givenLegend, List.getElem?_map, Option.map_eq_some_iff]
    simp only [eq_comm, show sp.length + i < sp.length + sp'.length by omega, true_and]

/-- Fluxes of surfaces and cells followed by a spectrum of another type, as of a detector: its curve is not in the legend. -/
theorem C219_detector_violated {ts : List (McnpOutput.Tally K)} {t : McnpOutput.Tally K} (h : ∀ t ∈ ts, FluxTable t) (hne : ts ≠ [])
    (ht : t.tallyType ≠ '1' ∧ t.tallyType ≠ '2' ∧ t.tallyType ≠ '4') : ∃ l, legendShown (ts ++ [t]) none = some l ∧
      ∀ x, ((objects ts).length, x) ∉ l := by
  refine ⟨autoLegend (ts.flatMap curveLabels), ?_, ?_⟩
  · unfold legendShown
    rw [List.foldl_append, flux_fold h hne]
    simp only [List.foldl_cons, List.foldl_nil, legendStep, if_neg ht.1, ht.2.1, ht.2.2, or_self, if_false, List.nil_append]
  · intro x
    rw [mem_autoLegend, flux_all h, List.getElem?_map, List.getElem?_eq_none (le_refl _)]
    simp

/-- Currents through several surfaces get labels, but no legend is shown. -/
theorem C219_surfaces_violated {t : McnpOutput.Tally K} {d : Dict Nat (List (K × K × K))} (h1 : t.tallyType = '1') (hs : 2 ≤ t.surfaces.length)
    (hr : t.result = .table d) : legendShown [t] none = none ∧ ∀ e ∈ d, some (Name.obj e.1) ∈ curveLabels t := by
  have hb : byAngle t = false := by simp [byAngle]; intros; omega
  constructor
  · unfold legendShown
    simp only [List.foldl_cons, List.foldl_nil, legendStep, if_pos h1, if_pos (show t.surfaces.length > 1 by omega)]
  · intro e he
    simp only [curveLabels, hr, hb, List.mem_map]
    exact ⟨e, he, rfl⟩

/-- Two tallies of the same surface or cell, as of neutrons and photons: two curves with the same name. -/
theorem C219_same_violated {t t' : McnpOutput.Tally K} (h : FluxTable t) (h' : FluxTable t') {k : Nat} (hk : k ∈ objects [t]) (hk' : k ∈ objects [t']) :
    ∃ l i j, legendShown [t, t'] none = some l ∧ i ≠ j ∧ (i, .obj k) ∈ l ∧ (j, .obj k) ∈ l := by
  have hall : ∀ u ∈ [t, t'], FluxTable u := by
    intro u hu
    simp only [List.mem_cons, List.not_mem_nil, or_false] at hu
    rcases hu with rfl | rfl
    · exact h
    · exact h'
  have ho : objects [t, t'] = objects [t] ++ objects [t'] := by simp [objects]
  obtain ⟨i, hi⟩ := List.mem_iff_getElem?.1 hk
  obtain ⟨j, hj⟩ := List.mem_iff_getElem?.1 hk'
  have hi' := (List.getElem?_eq_some_iff.1 hi).1
  refine ⟨_, i, (objects [t]).length + j, by unfold legendShown; rw [flux_fold hall (by simp)], by omega, ?_, ?_⟩
  · rw [List.nil_append, mem_autoLegend, flux_all hall, List.getElem?_map, ho, List.getElem?_append_left hi', hi]
    rfl
  · rw [List.nil_append, mem_autoLegend, flux_all hall, List.getElem?_map, ho, List.getElem?_append_right (by omega), Nat.add_sub_cancel_left, hj]
    rfl

/-- The axis is labelled as a current if one of the tallies is a current, else as a flux. -/
theorem C219_axis (ts : List (McnpOutput.Tally K)) :
    (axisQuantity ts = .current ↔ ∃ t ∈ ts, t.tallyType = '1') ∧ (axisQuantity ts = .flux ↔ ∀ t ∈ ts, t.tallyType ≠ '1') := by
  unfold axisQuantity
  by_cases h : ∃ t ∈ ts, t.tallyType = '1'
  · rw [if_pos (by simpa using h)]
    exact ⟨by simp [h], by simp; exact h⟩
  · rw [if_neg (by simpa using h)]
    refine ⟨by simp; simpa using h, by simpa using h⟩

private def tA : McnpOutput.Tally ℚ :=
  { number := 1, tallyType := '1', particle := p!"neutrons", nps := .inr 1, eng := some [1, 2], surfaces := [p!"3"], angBins := some [-1, 0, 1],
    result := .items [.list [1, 2], .list [3, 4]] }

private def tB : McnpOutput.Tally ℚ :=
  { number := 11, tallyType := '1', particle := p!"neutrons", nps := .inr 1, eng := some [1, 2], surfaces := [p!"3"], angBins := some [-1, 1/2, 1],
    result := .items [.list [1, 2], .list [3, 4]] }

private def tC (n : Nat) : McnpOutput.Tally ℚ :=
  { number := n, tallyType := '4', particle := p!"neutrons", nps := .inr 1, eng := some [1, 3], result := .table [(2, [(1, 5, 0), (3, 8, 0)])] }

example : ByAngle tA [-1, 0, 1] [[1, 2], [3, 4]] := ⟨rfl, by decide, rfl, rfl, rfl, by decide⟩
example : legendShown [tA] none = some [(0, .edge (-1)), (1, .edge 0)] := by decide +kernel
example : legendShown [tA, tB] none = some [(0, .edge (-1)), (1, .edge (1/2)), (2, .edge 1)] := by decide +kernel
example : (plotSpectra [tA, tB] false none).map (fun fig => fig.curves.length) = .ok 4 := by decide +kernel
example : FluxTable (tC 4) := ⟨.inr rfl, _, rfl⟩
example : legendShown [tC 4, tC 14] none = some [(0, .obj 2), (1, .obj 2)] := by decide +kernel
example : legendShown [tC 4] (some [.text p!"a", .text p!"b"]) = some [(0, .text p!"a")] := by decide +kernel
example : (plotSpectra [tC 4, tC 14] false none).map (fun fig => fig.curves.length) = .ok 2 := by decide +kernel
example : axisQuantity [tA, tC 4] = .current := rfl

/-! ### C151 and C154 -/

/-- The result of a current by angle is a table: its keys are drawn, each repeated for all energies and divided by the widths, not its values.
    (The reader gives tables without angle bins only.) -/
theorem C151_keys_violated {t : McnpOutput.Tally K} {eng angs : List K} {d : Dict Nat (List (K × K × K))} {xlow : Option K} {fig : SpecFig K}
    (h1 : t.tallyType = '1') (hs : t.surfaces.length ≤ 1) (ha : t.angBins = some angs) (hn : 2 ≤ angs.length) (hr : t.result = .table d)
    (he : t.eng = some eng) (h : plotSpectra [t] false xlow = .ok fig) :
    List.Forall₂ (fun e c => Density eng (List.replicate eng.length ((e.1 : Nat) : K)) c) d fig.curves := by
  obtain ⟨r, hl, hc, -⟩ := plotSpectra_loop h
  simp only [spectraLoop, ex_bind_ok, orErr_ok_iff, Bool.false_eq_true, if_false, Except.ok.injEq] at hl
  obtain ⟨eng', he', bw, hw, new, ht, rfl⟩ := hl
  rw [he] at he'
  cases he'
  rw [hc]
  unfold tallyCurves at ht
  rw [if_pos h1, if_neg (by omega), ha] at ht
  simp only [orErr, ex_ok_bind] at ht
  rw [if_pos (by omega), hr] at ht
  unfold angleCurves at ht
  rw [mapM_except_ok_iff] at ht
  simp only [List.nil_append]
  refine ht.imp ?_
  intro e c hx
  rw [ex_bind_ok] at hx
  obtain ⟨y, h6, h7⟩ := hx
  exact mp_density_repeat hw h6 h7

example : plotSpectra [({ tA with result := .table [(3, [(1, 5, 0), (2, 8, 0)])] } : McnpOutput.Tally ℚ)] false none = .ok ⟨[⟨[1, 2], [3, 3]⟩], [], none⟩ := by
  decide +kernel

/-- A spectrum over a plain result: every bin is divided by the first number of the second result. -/
theorem C154_first_violated (t1 t2 : McnpOutput.Tally K) (a bs eng : List K) (b : K) (r1 : List (McnpOutput.Item K)) (h1 : t1.result = .items (.list a :: r1))
    (h2 : t2.result = .items ((b :: bs).map .num)) (he : t1.eng = some eng) (hl : eng.length = a.length) :
    plotSpectraRatio t1 t2 = .ok ⟨eng, a.map (· / b)⟩ := by
  have hd : divArrays a [b] = .ok (a.map (· / b)) := by
    match a with
    | [] => rfl
    | [x] => rfl
    | x :: y :: a => rfl
  unfold plotSpectraRatio
  simp only [h1, h2, List.map_cons, firstResult, ex_ok_bind, hd, he, orErr]
  rw [mp_curve_ok]
  exact ⟨by simp [hl], rfl⟩

/-- A plain result over a spectrum: the first number of the first result is divided by every bin. -/
theorem C154_over_violated (t1 t2 : McnpOutput.Tally K) (as b eng : List K) (a : K) (r2 : List (McnpOutput.Item K)) (h1 : t1.result = .items ((a :: as).map .num))
    (h2 : t2.result = .items (.list b :: r2)) (he : t1.eng = some eng) (hl : eng.length = b.length) :
    plotSpectraRatio t1 t2 = .ok ⟨eng, b.map (a / ·)⟩ := by
  have hd : divArrays [a] b = .ok (b.map (a / ·)) := by
    match b with
    | [] => rfl
    | [x] => rfl
    | x :: y :: a => rfl
  unfold plotSpectraRatio
  simp only [h1, h2, List.map_cons, firstResult, ex_ok_bind, hd, he, orErr]
  rw [mp_curve_ok]
  exact ⟨by simp [hl], rfl⟩

example : plotSpectraRatio tA { tA with result := .items [.num 2, .num 5] } = .ok ⟨[1, 2], [1/2, 1]⟩ := by decide +kernel

end Props
