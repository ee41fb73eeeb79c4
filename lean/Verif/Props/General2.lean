/- Violations that were shown by one input, now for all inputs of their kind. -/
import Verif.Props.FispactOutput
import Verif.Props.FispactPlots
import Verif.Props.McnpInput4
import Verif.Props.McnpCells
import Verif.Props.MeshPlots
import Verif.Props.Misc2
import Verif.Props.McnpPlots3

set_option linter.unusedSectionVars false
set_option linter.unusedSimpArgs false

namespace Props
open Py

section field
variable {K : Type} [Field K] [LinearOrder K] [IsStrictOrderedRing K]

/-! ### C69 -/

open FispactOutput in
/-- The base column time_days: it is overwritten first, and the hours and seconds come from the overwritten days. Every time that is not zero
    has hours that are not 24 times its days. -/
theorem C69_days_violated (cols : Dict Str (List K)) (c : List K) (hc : cols.get p!"time_days" = some c) :
    ∃ out d h, addTimeColumns (.frame cols) p!"time_days" = .ok out ∧ out.get p!"time_days" = some d ∧ out.get p!"time_hours" = some h ∧
      ∀ (i : Nat) x, c[i]? = some x → x ≠ 0 → ∃ y z, d[i]? = some y ∧ h[i]? = some z ∧ z ≠ y * 24 := by
  have d12 : p!"time_days" ≠ p!"time_hours" := by decide
  have d13 : p!"time_days" ≠ p!"time_secs" := by decide
  have d23 : p!"time_hours" ≠ p!"time_secs" := by decide
  refine ⟨((cols.set p!"time_days" (c.map (· * 365.4))).set p!"time_hours" ((c.map (· * 365.4)).map (· * (365.4 * 24)))).set p!"time_secs"
    ((c.map (· * 365.4)).map (· * (365.4 * 24 * 3600))), c.map (· * 365.4), (c.map (· * 365.4)).map (· * (365.4 * 24)), ?_, ?_, ?_, ?_⟩
  · simp [addTimeColumns, hc, orErr, Dict.get_set_self, Dict.get_set_ne _ _ d12, bind, Except.bind, pure, Except.pure]
  · rw [Dict.get_set_ne _ _ d13, Dict.get_set_ne _ _ d12, Dict.get_set_self]
  · rw [Dict.get_set_ne _ _ d23, Dict.get_set_self]
  · intro i x hx hne
    refine ⟨x * 365.4, x * 365.4 * (365.4 * 24), by simp [hx], by simp [hx, mul_assoc], ?_⟩
    intro h
    have hx4 : x * 365.4 ≠ 0 := mul_ne_zero hne (by norm_num)
    have := mul_left_cancel₀ hx4 h
    norm_num at this

open FispactOutput in
/-- The base column time_hours: the seconds come from the overwritten hours. Every time that is not zero has seconds that are not 3600
    times its hours. -/
theorem C69_hours_violated (cols : Dict Str (List K)) (c : List K) (hc : cols.get p!"time_hours" = some c) :
    ∃ out h s, addTimeColumns (.frame cols) p!"time_hours" = .ok out ∧ out.get p!"time_hours" = some h ∧ out.get p!"time_secs" = some s ∧
      ∀ (i : Nat) x, c[i]? = some x → x ≠ 0 → ∃ y z, h[i]? = some y ∧ s[i]? = some z ∧ z ≠ y * 3600 := by
  have d12 : p!"time_hours" ≠ p!"time_days" := by decide
  have d23 : p!"time_hours" ≠ p!"time_secs" := by decide
  refine ⟨((cols.set p!"time_days" (c.map (· * 365.4))).set p!"time_hours" (c.map (· * (365.4 * 24)))).set p!"time_secs"
    ((c.map (· * (365.4 * 24))).map (· * (365.4 * 24 * 3600))), c.map (· * (365.4 * 24)), (c.map (· * (365.4 * 24))).map (· * (365.4 * 24 * 3600)), ?_, ?_, ?_, ?_⟩
  · simp [addTimeColumns, hc, orErr, Dict.get_set_self, Dict.get_set_ne _ _ d12, bind, Except.bind, pure, Except.pure]
  · rw [Dict.get_set_ne _ _ d23, Dict.get_set_self]
  · rw [Dict.get_set_self]
  · intro i x hx hne
    refine ⟨x * (365.4 * 24), x * (365.4 * 24) * (365.4 * 24 * 3600), by simp [hx], by simp [hx, mul_assoc], ?_⟩
    intro h
    have hx4 : x * (365.4 * 24) ≠ 0 := mul_ne_zero hne (by norm_num)
    have := mul_left_cancel₀ hx4 h
    norm_num at this

open FispactOutput in
example : addTimeColumns (.frame [(p!"time_days", [(1 : ℚ)])]) p!"time_days" = .ok [(p!"time_days", [365.4]), (p!"time_hours", [365.4 * (365.4 * 24)]),
    (p!"time_secs", [365.4 * (365.4 * 24 * 3600)])] := by decide +kernel

/-! ### C158 -/

open FispactPlots in
/-- A zero hides everything after it: only the values before the first zero are drawn, whatever follows. -/
theorem C158_hidden_violated {t : Table K} {column xu : Str} {vl hl : List K} {yu : Option Str} {fig : SummaryFig K} {pre post : List K}
    (hv : t.cols.get column = some (pre ++ 0 :: post)) (hnz : ∀ v ∈ pre, v ≠ 0)
    (h : plotSummary (some t) column vl hl xu yu false = .ok fig) : fig.x.length = pre.length ∧ fig.y.length = pre.length := by
  obtain ⟨vals, times, n, h1, h2, h3, h4, h5, h6, h7, _⟩ := C158_points_partial h
  have hvals : vals = pre ++ 0 :: post := by
    have := h1
    simp only [ColumnRows] at this
    rw [hv] at this
    simpa [eq_comm] using this
  have hn : n = pre.length := by
    subst hvals
    rcases h7 with h7 | h7
    · exfalso
      have : (0 : K) ∈ (pre ++ 0 :: post).take n := by rw [h7, List.take_length]; simp
      exact h6 0 this rfl
    · rcases lt_trichotomy n pre.length with hlt | heq | hgt
      · exfalso
        rw [List.getElem?_append_left hlt] at h7
        exact hnz 0 (List.mem_of_getElem? h7) rfl
      · exact heq
      · exfalso
        have : (0 : K) ∈ (pre ++ 0 :: post).take n := by
          rw [List.take_append, List.mem_append]
          right
          obtain ⟨k, hk⟩ := Nat.exists_eq_add_of_lt hgt
          rw [show n - pre.length = k + 1 by omega]
          simp
        exact h6 0 this rfl
  have hl : pre.length ≤ times.length := by rw [← h3, hvals]; simp
  have hl' : pre.length ≤ vals.length := by rw [hvals]; simp
  rw [h4, h5, hn]
  simp [hl, hl']

open FispactPlots in
example : plotSummary (some ⟨[(p!"act", [3, 4, 0, 5, 7]), (p!"time_hours", [1, 2, 3, 4, 5])], none⟩) p!"act" [] [] p!"h" none false =
    .ok (⟨[1, 2], [3, 4], p!"Activity Bq", false⟩ : SummaryFig ℚ) := by decide +kernel

/-! ### C152 -/

open McnpAnalysis McnpPlots in
/-- The bar at the upper bin of two neighbours has the length of the error of the lower one, so it is wrong unless both errors agree. -/
theorem C152_length_violated {t : McnpOutput.Tally K} {xlow : Option K} {fig : SpecFig K} {eng vals errs : List K} (h1 : t.tallyType ≠ '1' ∧ t.tallyType ≠ '2' ∧ t.tallyType ≠ '4')
    (hv1 : vals.length ≠ 1) (he : t.eng = some eng) (hr : t.result = .items (vals.map .num)) (hE : t.err = .items (errs.map .num)) (h : plotSpectra [t] true xlow = .ok fig) :
    ∃ c b, fig.curves = [c] ∧ fig.bars = [b] ∧ ∀ (i : Nat) lo hi y y' e e', eng[i]? = some lo → eng[i + 1]? = some hi → c.y[i]? = some y → c.y[i + 1]? = some y' →
      errs[i]? = some e → errs[i + 1]? = some e' → y * e ≠ y' * e' → b.y[i]? = some y' ∧ b.err[i]? ≠ some (y' * e') := by
  obtain ⟨c, b, hc, hb, -, -, hall⟩ := C152_bars_partial h1 hv1 he hr hE h
  refine ⟨c, b, hc, hb, ?_⟩
  intro i lo hi y y' e e' a1 a2 a3 a4 a5 _ hne
  obtain ⟨-, b2, b3⟩ := hall i lo hi y y' e a1 a2 a3 a4 a5
  refine ⟨b2, ?_⟩
  rw [b3]
  intro hh
  exact hne (Option.some.inj hh)

open McnpAnalysis McnpPlots in
example : plotSpectra ([{ number := 5, tallyType := '5', particle := p!"neutrons", nps := .inr 1, eng := some [1, 2], result := .items [.num 10, .num 10], err := .items [.num (1/2), .num 0] }] : List (McnpOutput.Tally ℚ)) true none = .ok ⟨[⟨[1, 2], [10, 10]⟩], [⟨[3/2], [10], [5]⟩], none⟩ := by decide +kernel

/-! ### C175 -/

open Meshtal in
/-- The boundary drawn between two neighbouring voxels, from a to b and from b to c, is at b only if they have the same width. -/
theorem C175_boundary_violated {m : Mesh K (Frame K)} {value : K} {plane : Str} {lmin lmax : K} {err : Bool} {erg time : Option K}
    {fig : SliceFig K} (h : plotSlice m value plane lmin lmax err erg time = .ok fig) {i : Nat} {a b c : K}
    (h1 : fig.slice.sliceI[i]? = some ((a + b) / 2)) (h2 : fig.slice.sliceI[i + 1]? = some ((b + c) / 2)) :
    ∃ e, fig.main.xEdges[i + 1]? = some e ∧ (e = b ↔ b - a = c - b) := by
  obtain ⟨g1, _, g3, _⟩ := plotSlice_ok h
  obtain ⟨s1, _⟩ := slice_sizes g1
  obtain ⟨_, _, c3, _⟩ := createPlot_ok s1 g3
  refine ⟨_, by rw [c3]; exact edges_mid _ _ _ _ h1 h2, ?_⟩
  constructor
  · intro h
    linarith
  · intro h
    linarith

open Meshtal in
/-- The title names the requested position. It is not that of the plane drawn unless the request was the mid point of a voxel. -/
theorem C175_request_violated [FloorRing K] {m : Mesh K (Frame K)} {value : K} {plane : Str} {lmin lmax : K} {err : Bool} {erg time : Option K}
    {fig : SliceFig K} (h : plotSlice m value plane lmin lmax err erg time = .ok fig) (hx : value ∉ m.xM) (hy : value ∉ m.yM) (hz : value ∉ m.zM) :
    fig.titleAt = value ∧ fig.titleAt ≠ fig.slice.value := by
  obtain ⟨g1, g2, _⟩ := plotSlice_ok h
  refine ⟨g2, ?_⟩
  rw [g2]
  unfold extractSlice at g1
  simp only [ex_bind_ok] at g1
  obtain ⟨f, -, ⟨i, j, v⟩, hp, at', hat, vs, -, es, -, hs⟩ := g1
  simp only [ex_pure, Except.ok.injEq] at hs
  rw [← hs]
  have hmem : at' ∈ m.mids v := by
    obtain ⟨n1, n2, _⟩ := C53_nearest value (m.mids v)
    have hne : m.mids v ≠ [] := by
      intro h0
      rw [(n2 .ValueError).2 ⟨h0, rfl⟩] at hat
      cases hat
    obtain ⟨k, r, hk, hn⟩ := n1 hne
    rw [hk] at hat
    cases hat
    exact List.mem_of_getElem? hn.1
  rintro rfl
  cases v
  · exact hx hmem
  · exact hy hmem
  · exact hz hmem

open Meshtal in
example : ∃ fig, plotSlice exGrid 100 p!"XZ" 1 2 false none none = .ok fig ∧ fig.slice.sliceI = [(-1 + 1) / 2, (1 + 1) / 2] ∧
    (100 : ℚ) ∉ exGrid.xM ∧ (100 : ℚ) ∉ exGrid.yM ∧ (100 : ℚ) ∉ exGrid.zM := by
  obtain ⟨fig, h, -, -⟩ := C175_title_violated
  refine ⟨fig, h, ?_, by decide +kernel, by decide +kernel, by decide +kernel⟩
  have h1 := (plotSlice_ok h).1
  have h2 : extractSlice exGrid 100 p!"XZ" none none =
    .ok ⟨[0, 1], [0, 1], 5, [[some 0, some 10], [some 1, some 11]], [[some 0, some 2], [some 1, some 3]]⟩ := by decide +kernel
  rw [h2] at h1
  rw [← Except.ok.inj h1]
  norm_num

end field

/-! ### C189 -/

open Geom in
/-- A card with a negative last entry, as that of a sphere or a cylinder: the points inside the surface down to twice the last entry are said
    to be on the outer side. -/
theorem C189_inside_violated (a b c d e f g h j k : ℝ) (p : V3) (h0 : gqCard a b c d e f g h j k p < 0) (h1 : 2 * k < gqCard a b c d e f g h j k p) :
    findSenseGq p ⟨a, b, c, d, e, f, g, h, j⟩ (-k) = 1 ∧ findSenseGq p ⟨a, b, c, d, e, f, g, h, j⟩ k = -1 := by
  unfold findSenseGq sense
  rw [C189_negated_partial, C189_violated]
  exact ⟨by rw [if_neg (by linarith), if_pos h0], by rw [if_pos (by linarith)]⟩

open Geom in
example : gqCard 1 1 1 0 0 0 0 0 0 (-25) ⟨3, 0, 0⟩ < 0 ∧ 2 * (-25) < gqCard 1 1 1 0 0 0 0 0 0 (-25) ⟨3, 0, 0⟩ := by
  unfold gqCard
  norm_num

/-! ### C169 -/

section input
variable {F : Type}
open McnpInput Spec.Mcnp

/-- Of two mx cards of the same material, for two particles say, only the first is kept, whatever stands in the second. -/
theorem C169_further_mx_violated {flt : Str → Option F} {n : Nat} {pre body rest : List Str} {first second : Str} {m : Material F}
    (hpre : ∀ l ∈ pre, ¬ CardHead (p!"mx" ++ natStr n) l) (h1 : CardHead (p!"mx" ++ natStr n) first)
    (hb : ∀ l ∈ body, Cont l ∨ Comment l ∨ l = []) (_h2 : CardHead (p!"mx" ++ natStr n) second)
    (h2c : ¬ (Cont second ∨ Comment second ∨ second = [])) (h : readMaterialLines flt n (pre ++ first :: (body ++ second :: rest)) = .ok m) :
    m.mx = cardText first body :=
  (C169_cards_partial h).2.2.1 first body ⟨pre, second :: rest, rfl, hpre, h1, hb, by simpa using h2c⟩

private def num2 (s : Str) : Option Int := pyInt s

example : (readMaterialLines num2 1 [p!"m1 1001 1", p!"mx1:n 1001.70c", p!"mx1:p 1001.70u"]).toOption.map (·.mx) = some [p!"mx1:n 1001.70c"] := by
  decide +kernel

/-! ### C85 -/

private theorem geom_conts (flt : Str → Option F) {conts : List Str} (hc : ∀ l ∈ conts, Cont l) :
    ∀ {st st' : GeomSt F}, conts.foldlM (geomStep flt) st = .ok st' → st'.surfaces = st.surfaces := by
  induction conts with
  | nil => intro st st' h; cases h; rfl
  | cons l ls ih =>
    intro st st' h
    rw [List.foldlM_cons, ex_bind_ok] at h
    obtain ⟨s1, h1, h2⟩ := h
    rw [ih (fun l hl => hc l (by simp [hl])) h2, C85_surfaces_lost_violated flt st s1 l (hc l (by simp)) h1]

private theorem cell_conts (flt : Str → Option F) {conts : List Str} (hc : ∀ l ∈ conts, Cont l) (d : Dict Int (Cell F)) (c : Cell F) :
    ∀ g, conts.foldlM (cellStep flt) (⟨d, some (c, g)⟩ : CellSt F) = .ok ⟨d, some (c, g ++ conts)⟩ := by
  induction conts with
  | nil => intro g; simp [ex_pure]
  | cons l ls ih =>
    intro g
    rw [List.foldlM_cons, cellStep_cont flt d c g (hc l (by simp)), ex_ok_bind, ih (fun l hl => hc l (by simp [hl]))]
    simp

/-- A card of any number of lines: the cell has the surfaces of the first line, and none of the lines behind it adds one. -/
theorem C85_lines_violated (flt : Str → Option F) {first : Str} {conts : List Str} {d : Dict Int (Cell F)} (hf : ∃ c ∈ first.head?, isDigit c = true)
    (hc : ∀ l ∈ conts, Cont l) (h : processCellBlock flt (first :: conts) = .ok d) :
    ∃ d0 n c0 c, processCellBlock flt [first] = .ok d0 ∧ d0.get n = some c0 ∧ d.get n = some c ∧ c.surfaces = c0.surfaces := by
  obtain ⟨ch, hch, hdig⟩ := hf
  have hstart : ∀ r, cellStep flt (⟨[], none⟩ : CellSt F) first = .ok r → ∃ cur, r = ⟨[], some cur⟩ := by
    intro r hr
    unfold cellStep at hr
    have h0 : first[0]? = some ch := by rw [← List.head?_eq_getElem?]; exact hch
    rw [h0] at hr
    simp only [orErr, ex_ok_bind, hdig, if_true, ex_pure, ex_bind_ok, Except.ok.injEq] at hr
    obtain ⟨cur, -, rfl⟩ := hr
    exact ⟨cur, rfl⟩
  unfold processCellBlock at h
  rw [List.foldlM_cons, ex_bind_ok] at h
  obtain ⟨st, hst, h⟩ := h
  rw [ex_bind_ok] at hst
  obtain ⟨r, hr, hst⟩ := hst
  obtain ⟨⟨c, g⟩, rfl⟩ := hstart r hr
  rw [cell_conts flt hc] at hst
  cases hst
  simp only [finishCell, processGeom, ex_bind_ok, ex_pure, Except.ok.injEq] at h
  obtain ⟨c1, ⟨gs, hgs, rfl⟩, rfl⟩ := h
  rw [List.foldlM_append, ex_bind_ok] at hgs
  obtain ⟨g1, hg1, hg2⟩ := hgs
  refine ⟨Dict.set [] c.number { c with geom := g, surfaces := g1.surfaces, imp := g1.imp, comments := g1.comments }, c.number,
    { c with geom := g, surfaces := g1.surfaces, imp := g1.imp, comments := g1.comments },
    { c with geom := g ++ conts, surfaces := gs.surfaces, imp := gs.imp, comments := gs.comments }, ?_, ?_, ?_, ?_⟩
  · unfold processCellBlock
    rw [List.foldlM_cons, hr, ex_ok_bind]
    show finishCell flt [] (c, g) = _
    simp only [finishCell, processGeom, hg1, ex_ok_bind, ex_pure]
  · exact Dict.get_set_self _ _ _
  · exact Dict.get_set_self _ _ _
  · exact geom_conts flt hc hg2

example : (processCellBlock num2 [p!"1 0 -1", p!"     2 -3", p!"     4"]).toOption.bind (fun d => (d.get 1).map (·.surfaces)) = some [1] := by decide +kernel
example : ∃ c ∈ (p!"1 0 -1").head?, isDigit c = true := ⟨'1', rfl, by decide⟩

end input

end Props
