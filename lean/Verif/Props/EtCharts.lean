/-
C240: the charts of energy and time bins (mcnp_analysis.py `time_slice`, `energy_slice`, `plot_ET_heatmap`) of tallies that were read from
an MCNP output (mcnp_output_reader.py `process_e_t_userbin`, `read_type_5`).
-/
import Verif.Props.McnpOutput8
import Verif.Props.McnpPlots2
import Verif.Props.PlotErrors
import Mathlib.Data.Rat.Floor

namespace Props
open Py McnpOutput McnpPlots McnpAnalysis
variable {K : Type} [Field K] [LinearOrder K] [IsStrictOrderedRing K]

/-- The pairs of value and error printed for the `i`-th energy, over all blocks of times. -/
def etPairs (bs : List (EtBlock K)) (i : Nat) : List (K × K) := bs.flatMap (fun b => (b.rows[i]?.map (·.pairs)).getD [])

/-- How MCNP prints energy and time bins: ascending energies, the same in every block, ascending times, shared out among the blocks, and for
    every energy one pair per time, followed by `tot` pairs more (one with the column of the total over time, none without). -/
structure EtPrinted (es ts : List K) (tot : Nat) (bs : List (EtBlock K)) : Prop where
  energies : es.Pairwise (· < ·)
  times : ts.Pairwise (· < ·)
  blocks : bs ≠ []
  shared : bs.flatMap (·.times) = ts
  same : ∀ b ∈ bs, b.rows.map (·.energy) = es
  full : ∀ i < es.length, (etPairs bs i).length = ts.length + tot

omit [Field K] [IsStrictOrderedRing K] in
private theorem sortedOnce_eq {l r r' : List K} (h : SortedOnce l r) (hs : r'.Pairwise (· < ·)) (hm : ∀ x, x ∈ r' ↔ x ∈ l) : r = r' :=
  List.Perm.eq_of_pairwise' (h.1.imp le_of_lt) (hs.imp le_of_lt)
    ((List.perm_ext_iff_of_nodup (h.1.imp ne_of_lt) (hs.imp ne_of_lt)).2 (fun x => by rw [h.2, hm]))

omit [Field K] [LinearOrder K] [IsStrictOrderedRing K] in
private theorem pairs_fst (bs : List (EtBlock K)) (i : Nat) (f : K × K → K) :
    bs.flatMap (fun b => (b.rows[i]?.map (fun r => r.pairs.map f)).getD []) = (etPairs bs i).map f := by
  unfold etPairs
  rw [List.map_flatMap]
  congr 1
  funext b
  cases b.rows[i]? <;> rfl

omit [Field K] [IsStrictOrderedRing K] in
/-- The tally holds the energies and times as printed, and row `i` of its result is what is printed for energy `i`. -/
theorem C240_shape {es ts V U tt ee} {tot : Nat} {bs : List (EtBlock K)} (hp : EtPrinted es ts tot bs)
    (h : EtData es.length bs tt ee V U) :
    tt = ts ∧ ee = es ∧ V = (List.range es.length).map (fun i => (etPairs bs i).map (·.1)) ∧
      U = (List.range es.length).map (fun i => (etPairs bs i).map (·.2)) ∧ ∀ row ∈ V, row.length = ts.length + tot := by
  obtain ⟨h1, h2, h3, h4, h5⟩ := h
  have hV : V = (List.range es.length).map (fun i => (etPairs bs i).map (·.1)) := by
    apply List.ext_getElem?
    intro i
    rw [List.getElem?_map]
    by_cases hi : i < es.length
    · rw [(h5 i hi).1, List.getElem?_range hi, pairs_fst]; rfl
    · rw [List.getElem?_eq_none (by omega), List.getElem?_eq_none (by simpa using hi)]; rfl
  have hU : U = (List.range es.length).map (fun i => (etPairs bs i).map (·.2)) := by
    apply List.ext_getElem?
    intro i
    rw [List.getElem?_map]
    by_cases hi : i < es.length
    · rw [(h5 i hi).2, List.getElem?_range hi, pairs_fst]; rfl
    · rw [List.getElem?_eq_none (by omega), List.getElem?_eq_none (by simpa using hi)]; rfl
  refine ⟨?_, ?_, hV, hU, ?_⟩
  · exact sortedOnce_eq h1 hp.times (fun x => by rw [hp.shared])
  · refine sortedOnce_eq h2 hp.energies (fun x => ?_)
    obtain ⟨b, bs', hb⟩ := List.exists_cons_of_ne_nil hp.blocks
    rw [List.mem_flatMap]
    constructor
    · intro hx
      exact ⟨b, by simp [hb], by rw [hp.same b (by simp [hb])]; exact hx⟩
    · rintro ⟨c, hc, hx⟩
      rwa [hp.same c hc] at hx
  · rw [hV]
    intro row hr
    obtain ⟨i, hi, rfl⟩ := List.mem_map.1 hr
    rw [List.length_map]
    exact hp.full i (List.mem_range.1 hi)

/-- The spectrum at a time of such a tally: the printed values of the nearest time, times the factor, over the printed energies. -/
theorem C240_time_slice {es ts V U tt ee} {tot : Nat} {bs : List (EtBlock K)} (hp : EtPrinted es ts tot bs)
    (h : EtData es.length bs tt ee V U) (ht : ts ≠ []) (target f : K) :
    ∃ c ti, timeSlice target ee tt V f = .ok c ∧ Nearest ts target ti ∧ c.x = es ∧ c.y.length = es.length ∧
      ∀ i < es.length, ∃ p, (etPairs bs i)[ti]? = some p ∧ c.y[i]? = some (p.1 * f) := by
  obtain ⟨rfl, rfl, hV, _, hr⟩ := C240_shape hp h
  have hVl : V.length = ee.length := by simp [hV]
  obtain ⟨c, hc⟩ := C146_success target ee tt V f ht (fun row hrow => by rw [hr row hrow]; omega) hVl
  obtain ⟨ti, hn, hx, _, hy⟩ := (C146_time_slice ..).1 hc
  refine ⟨c, ti, hc, hn, hx, by rw [← hy.length_eq, hVl], ?_⟩
  intro i hi
  have hi' : i < V.length := by omega
  have hyl : i < c.y.length := by rw [← hy.length_eq]; exact hi'
  obtain ⟨v, hv, he⟩ := List.Forall₂.get hy hi' hyl
  simp only [List.get_eq_getElem] at hv he
  have hrow : V[i] = (etPairs bs i).map (·.1) := by
    have : V[i]? = some ((etPairs bs i).map (·.1)) := by rw [hV, List.getElem?_map, List.getElem?_range hi]; rfl
    rw [List.getElem?_eq_getElem hi'] at this
    exact Option.some.inj this
  rw [hrow, List.getElem?_map, Option.map_eq_some_iff] at hv
  obtain ⟨p, hp1, hp2⟩ := hv
  exact ⟨p, hp1, by rw [List.getElem?_eq_getElem hyl, he, ← hp2]⟩

/-- With the column of the total, the time distributions are drawn: for every target the printed values of the nearest energy, without the
    total, times the factor, over the printed times in microseconds. -/
theorem C240_energy_slice_partial {es ts V U tt ee} {bs : List (EtBlock K)} (hp : EtPrinted es ts 1 bs)
    (h : EtData es.length bs tt ee V U) (he : es ≠ []) (ht : ts ≠ []) {targets : List K} (h1 : targets ≠ []) (minT maxT : Option K)
    (window : Nat) (f : K) (pt : Bool) :
    ∃ fig, energySlice targets ee tt V minT maxT window f pt = .ok fig ∧
      List.Forall₂ (fun te (c : Curve K) => ∃ ei, Nearest es te ei ∧ List.Forall₂ Microseconds ts c.x ∧
        c.y = ((etPairs bs ei).take ts.length).map (fun p => p.1 * f)) targets fig.curves := by
  obtain ⟨rfl, rfl, hV, _, hr⟩ := C240_shape hp h
  obtain ⟨fig, hfig⟩ := C147_success targets ee tt V minT maxT window f pt h1 he ht (by simp [hV]) hr
  refine ⟨fig, hfig, (C147_curves hfig).imp ?_⟩
  rintro te c ⟨ei, row, hn, hrow, hx, hy⟩
  refine ⟨ei, hn, hx, ?_⟩
  rw [hV, List.getElem?_map, Option.map_eq_some_iff] at hrow
  obtain ⟨i, hi, hi'⟩ := hrow
  obtain ⟨hlt, hi⟩ := List.getElem?_eq_some_iff.1 hi
  rw [List.getElem_range] at hi
  subst hi
  rw [List.length_range] at hlt
  have hl := hp.full ei hlt
  rw [hy, ← hi', List.dropLast_eq_take, List.length_map, hl, Nat.add_sub_cancel, ← List.map_take, List.map_map]
  rfl

/-- With the column of the total, the heat map is drawn, with the printed energies and times as edges; the cell above energy `i` and behind
    time `j` shows what is printed for energy `i` and time `j`. (These are the upper edges of the bin printed there: C150_late_violated.) -/
theorem C240_heat_map_partial {V' : Type} (lg : K → V') {es ts V U tt ee} {bs : List (EtBlock K)} (hp : EtPrinted es ts 1 bs)
    (h : EtData es.length bs tt ee V U) (he : 2 ≤ es.length) (ht : ts ≠ []) (f : K) :
    ∃ fig, heatmap lg ee tt V f = .ok fig ∧ fig.energies = es ∧ List.Forall₂ Microseconds ts fig.times ∧
      fig.cells.length + 1 = es.length ∧ (∀ cells ∈ fig.cells, cells.length + 1 = ts.length) ∧
      ∀ i j, i + 1 < es.length → j + 1 < ts.length → ∃ cells p, fig.cells[i]? = some cells ∧ (etPairs bs i)[j]? = some p ∧
        cells[j]? = some (if 0 < p.1 then some (lg (p.1 * f)) else none) := by
  obtain ⟨rfl, rfl, hV, _, hr⟩ := C240_shape hp h
  obtain ⟨fig, h1, h2, h3, h4, h5, h6⟩ := C150_cells lg ee tt V f (by simp [hV]; omega) hr (by simp [hV]) ht
  refine ⟨fig, h1, h2, h3, h4, h5, ?_⟩
  intro i j hi hj
  have hl := hp.full i (by omega)
  obtain ⟨cells, hc, hcj⟩ := h6 i ((etPairs bs i).map (·.1)) (by rw [hV, List.getElem?_map, List.getElem?_range (by omega)]; rfl) hi
  have hjl : j < (etPairs bs i).length := by omega
  exact ⟨cells, _, hc, List.getElem?_eq_getElem hjl, hcj j _ (by rw [List.getElem?_map, List.getElem?_eq_getElem hjl]; rfl) hj⟩

/-- Without the column of the total (MCNP leaves it out on request) neither the time distributions nor the heat map are drawn. -/
theorem C240_no_total_violated {V' : Type} (lg : K → V') {es ts V U tt ee} {bs : List (EtBlock K)} (hp : EtPrinted es ts 0 bs)
    (h : EtData es.length bs tt ee V U) (he : 2 ≤ es.length) (ht : 2 ≤ ts.length) :
    (∀ f, heatmap lg ee tt V f = .error .TypeError) ∧
    ∀ targets minT maxT window f pt, targets ≠ [] → energySlice targets ee tt V minT maxT window f pt = .error .ValueError := by
  obtain ⟨rfl, rfl, hV, _, hr⟩ := C240_shape hp h
  refine ⟨fun f => C150_shape_violated lg ee tt V f (by simp [hV]; omega) hr ht, ?_⟩
  intro targets minT maxT window f pt hne
  obtain ⟨te, targets', rfl⟩ := List.exists_cons_of_ne_nil hne
  have hee : ee ≠ [] := by rintro rfl; simp at he
  obtain ⟨idx, hidx⟩ : ∃ idx, (te :: targets').mapM (fun te => argmin (ee.map (fun e => |e - te|))) = .ok idx := by
    generalize te :: targets' = l
    induction l with
    | nil => exact ⟨[], rfl⟩
    | cons a l ih =>
      obtain ⟨idx, h⟩ := ih
      obtain ⟨i, hi, _⟩ := argmin_spec (l := ee.map (fun e => |e - a|)) (by simpa using hee)
      exact ⟨i :: idx, by rw [mapM_except_cons_ok (f := fun te => argmin (ee.map (fun e => |e - te|))) hi, h]; rfl⟩
  have hf := (mapM_except_ok_iff ..).1 hidx
  obtain ⟨ei, idx', hei, _, rfl⟩ := List.forall₂_cons_left_iff.1 hf
  rw [mp_argmin_nearest] at hei
  obtain ⟨a, ha, _⟩ := hei
  have hel := (List.getElem?_eq_some_iff.1 ha).1
  have hVl : V.length = ee.length := by simp [hV]
  have hrow : V[ei]? = some V[ei] := List.getElem?_eq_getElem (by omega)
  have hrl := hr _ (List.mem_of_getElem? hrow)
  generalize V[ei] = row at hrow hrl
  have hcv : energyCurve (tt.map Constants.shakeToMs) V f ei = .error .ValueError := by
    unfold energyCurve
    have hne : (normalise row f).take (tt.map Constants.shakeToMs).length ≠ [] := by
      intro h0
      have := congrArg List.length h0
      rw [List.length_take, normalise, List.length_map, List.length_map, List.length_nil] at this
      omega
    obtain ⟨p, hp, v, hv, _⟩ := argmax_spec hne
    have hpl : p < tt.length := by
      have := (List.getElem?_eq_some_iff.1 hv).1
      simp [normalise] at this
      omega
    rw [hrow, orErr, ex_ok_bind]
    show (argmax _ >>= fun _ => _) = _
    rw [hp, ex_ok_bind, hv, orErr, ex_ok_bind, List.getElem?_eq_getElem (by simpa using hpl), orErr, ex_ok_bind, curve, if_neg]
    · rfl
    · simp [normalise]; omega
  unfold energySlice
  rw [hidx, ex_ok_bind]
  simp only [List.mapM_cons, hcv]
  rfl

/-- A point detector read from the output: its charts, as far as they depend on what was read. -/
theorem C240_read_partial {flt : Str → Option K} {t t' : Tally K} {es ts : List K} {bs : List (EtBlock K)} (hq : EtPrinted es ts 1 bs)
    (he : 2 ≤ es.length) (hts : ts ≠ []) (hb : ∀ b ∈ bs, ∃ n, b.WF flt es.length n) {pre gap post : List Str} {det nxt : Str}
    (hg : ∀ l ∈ gap, ¬ p!"time:" <+: strip l) (hp : ∀ l ∈ pre, ¬ p!" detector located" <+: l) (hd : p!" detector located" <+: det)
    (hn : ∀ l ∈ bs.flatMap EtBlock.lines ++ gap, ¬ p!" det" <+: l) (hx : p!" det" <+: nxt)
    (h : readType5 flt t (pre ++ det :: (bs.flatMap EtBlock.lines ++ gap ++ nxt :: post)) = .ok t') :
    t'.times = some (.nums ts) ∧ t'.eng = some es ∧ ∃ V U, t'.result = .mat V ∧ t'.err = .mat U ∧
      (∀ target f, ∃ c, timeSlice target es ts V f = .ok c) ∧
      (∀ targets minT maxT window f pt, targets ≠ [] → ∃ fig, energySlice targets es ts V minT maxT window f pt = .ok fig) ∧
      ∀ f, ∃ fig, heatmap (fun x : K => x) es ts V f = .ok fig := by
  obtain ⟨tt, ee, V, U, h1, h2, h3, h4, h5⟩ := C139_energy_time_partial (by omega) hq.blocks hb hg hp hd hn hx h
  obtain ⟨rfl, rfl, _⟩ := C240_shape hq h5
  refine ⟨h1, h2, V, U, h3, h4, ?_, ?_, ?_⟩
  · intro target f
    obtain ⟨c, _, hc, _⟩ := C240_time_slice hq h5 hts target f
    exact ⟨c, hc⟩
  · intro targets minT maxT window f pt hne
    obtain ⟨fig, hf, _⟩ := C240_energy_slice_partial hq h5 (by rintro rfl; simp at he) hts hne minT maxT window f pt
    exact ⟨fig, hf⟩
  · intro f
    obtain ⟨fig, hf, _⟩ := C240_heat_map_partial (fun x : K => x) hq h5 he hts f
    exact ⟨fig, hf⟩

/-- Two energies, two times in two blocks, the total in the second. -/
private def sampleBlocks : List (EtBlock ℚ) :=
  [⟨p!" time: 100", [100], p!" energy", [⟨p!" 1 5 0", 1, [(5, 0)]⟩, ⟨p!" 2 6 0", 2, [(6, 0)]⟩], p!" total 11 0"⟩,
   ⟨p!" time: 200 total", [200], p!" energy", [⟨p!" 1 7 0 12 0", 1, [(7, 0), (12, 0)]⟩, ⟨p!" 2 8 0 14 0", 2, [(8, 0), (14, 0)]⟩], p!" total"⟩]

private theorem samplePrinted : EtPrinted [1, 2] [100, 200] 1 sampleBlocks :=
  ⟨by decide +kernel, by decide +kernel, by simp [sampleBlocks], by decide +kernel, by
    intro b hb
    simp only [sampleBlocks, List.mem_cons, List.not_mem_nil, or_false] at hb
    rcases hb with rfl | rfl <;> rfl, by decide +kernel⟩

private theorem sampleData : EtData 2 sampleBlocks [100, 200] [1, 2] [[5, 7, 12], [6, 8, 14]] [[0, 0, 0], [0, 0, 0]] := by
  refine ⟨⟨by decide +kernel, fun x => ?_⟩, ⟨by decide +kernel, fun x => ?_⟩, rfl, rfl, by decide +kernel⟩
  · simp [sampleBlocks]
  · simp [sampleBlocks]; tauto

example : ∃ fig, energySlice [2] [1, 2] [100, 200] [[5, 7, 12], [6, 8, 14]] none none 1 (1 : ℚ) true = .ok fig := by
  obtain ⟨fig, h, _⟩ := C240_energy_slice_partial samplePrinted sampleData (by simp) (by simp) (targets := [2]) (by simp) none none 1 1 true
  exact ⟨fig, h⟩

example : ∃ fig, heatmap (fun x : ℚ => x) [1, 2] [100, 200] [[5, 7, 12], [6, 8, 14]] 1 = .ok fig := by
  obtain ⟨fig, h, _⟩ := C240_heat_map_partial (fun x : ℚ => x) samplePrinted sampleData (by simp) (by simp) 1
  exact ⟨fig, h⟩

end Props
