/-
C259: selections of meshes and peaks in another unit of length, energy or time.
-/
import Verif.Props.Scale

set_option linter.unusedSectionVars false

namespace Props
open Py Meshtal
variable {K : Type} [Field K] [LinearOrder K] [IsStrictOrderedRing K]

/-! ### Meshes -/

/-- A voxel in another unit of length. -/
def unitRow (c : K) (r : Nat × MRow K) : Nat × MRow K :=
  (r.1, { r.2 with x := r.2.x.map (c * ·), y := r.2.y.map (c * ·), z := r.2.z.map (c * ·) })

/-- The voxels and mid points of a mesh in another unit of length. -/
def unitMesh (c : K) (m : Mesh K (Frame K)) : Mesh K (Frame K) :=
  { m with data := ⟨m.data.kind, m.data.rows.map (unitRow c)⟩, xM := m.xM.map (c * ·), yM := m.yM.map (c * ·), zM := m.zM.map (c * ·) }

private def unitFrame (c : K) (f : Frame K) : Frame K := ⟨f.kind, f.rows.map (unitRow c)⟩

private theorem nearestAux_unit {c : K} (hc : 0 < c) (v : K) (l : List K) : ∀ b, nearestAux (c * v) (c * b) (l.map (c * ·)) = c * nearestAux v b l := by
  induction l with
  | nil => intro b; rfl
  | cons x l ih =>
    intro b
    simp only [List.map_cons, nearestAux, ← mul_sub, abs_mul, abs_of_pos hc, mul_lt_mul_iff_right₀ hc]
    split_ifs <;> exact ih _

private theorem nearest_unit {c : K} (hc : 0 < c) (v : K) (l : List K) :
    findNearestMid (c * v) (l.map (c * ·)) = (findNearestMid v l).map (c * ·) := by
  cases l with
  | nil => rfl
  | cons x l =>
    simp only [List.map_cons, findNearestMid, Except.map, nearestAux_unit hc]

private theorem keep_unit (c : K) (f : Frame K) (p p' : MRow K → Bool) (hp : ∀ r, p (unitRow c r).2 = p' r.2) :
    (unitFrame c f).keep p = unitFrame c (f.keep p') := by
  unfold unitFrame Frame.keep
  congr 1
  dsimp only
  rw [List.filter_map]
  congr 1
  apply List.filter_congr
  intro r _
  exact hp r

private theorem one_unit (c : K) (kind : CType) (v : Option K) (f : Frame K) :
    filterOne kind v (unitFrame c f) = (filterOne kind v f).map (unitFrame c) := by
  unfold filterOne
  cases v with
  | none => rfl
  | some v =>
    dsimp only
    split_ifs with h1 h2 h3
    · rfl
    · rw [keep_unit c f _ (fun r => closeTo v r.et) (fun r => rfl)]; rfl
    · exact absurd h2 h3
    · rename_i h3; exact absurd h3 h2
    · rfl

private theorem bind_map' {α β γ δ : Type} (x : Except Err α) (g : α → β) (k : β → Except Err γ) (k' : α → Except Err δ) (h : δ → γ)
    (hk : ∀ a, k (g a) = (k' a).map h) : (x.map g >>= k) = (x >>= k').map h := by
  cases x with
  | error e => rfl
  | ok a => exact hk a

private theorem bind_eq {α β γ : Type} (x : Except Err α) (g : α → β) (k : β → Except Err γ) (k' : α → Except Err γ)
    (hk : ∀ a, k (g a) = k' a) : (x.map g >>= k) = (x >>= k') := by
  cases x with
  | error e => rfl
  | ok a => exact hk a

private theorem energy_unit (c : K) (f : Frame K) (erg time : Option K) :
    filterEnergyTime (unitFrame c f) erg time = (filterEnergyTime f erg time).map (unitFrame c) := by
  unfold filterEnergyTime
  rw [one_unit]
  exact bind_map' _ _ _ _ _ (fun g => one_unit c _ _ g)

private theorem values_unit (c : K) (f : Frame K) : (unitFrame c f).rows.map (fun r => r.2.value) = f.rows.map (fun r => r.2.value) := by
  unfold unitFrame
  rw [List.map_map]
  rfl

private theorem at_unit {c : K} (hc : 0 < c) (o : Option K) (x : K) : decide (o.map (c * ·) = some (c * x)) = decide (o = some x) := by
  cases o with
  | none => simp
  | some y => simp [hc.ne']

/-- C259 (part that holds): a point looked up in another unit of length. Missing: mid points calculated from the bounds in the other unit
    (`C259_mids_violated`), energies and times (`C259_energy_violated`). -/
theorem C259_point_partial {c : K} (hc : 0 < c) (m : Mesh K (Frame K)) (x y z : K) (erg time : Option K) :
    pickPoint (c * x) (c * y) (c * z) (unitMesh c m) erg time = pickPoint x y z m erg time := by
  unfold pickPoint
  have ex : (unitMesh c m).xM = m.xM.map (c * ·) := rfl
  have ey : (unitMesh c m).yM = m.yM.map (c * ·) := rfl
  have ez : (unitMesh c m).zM = m.zM.map (c * ·) := rfl
  rw [ex, ey, ez, nearest_unit hc, nearest_unit hc, nearest_unit hc]
  refine bind_eq _ _ _ _ (fun x => bind_eq _ _ _ _ (fun y => bind_eq _ _ _ _ (fun z => ?_)))
  change (filterEnergyTime ((((unitFrame c m.data).keep _).keep _).keep _) erg time >>= _) = _
  rw [keep_unit c _ _ (fun r => decide (r.x = some x)) (fun r => at_unit hc r.2.x x),
    keep_unit c _ _ (fun r => decide (r.y = some y)) (fun r => at_unit hc r.2.y y),
    keep_unit c _ _ (fun r => decide (r.z = some z)) (fun r => at_unit hc r.2.z z), energy_unit]
  exact bind_eq _ _ _ _ (fun f => congrArg Except.ok (values_unit c f))

private def lstep (c : Prop) [Decidable c] (v : K) (mids : List K) (p : K → MRow K → Bool) (f : Frame K) : Except Err (Frame K) :=
  if c then findNearestMid v mids >>= fun x => pure (f.keep (p x)) else pure f

private theorem line_steps (m : Mesh K (Frame K)) (p1 p2 : K × K × K) (erg time : Option K) :
    extractLine m p1 p2 erg time =
      (lstep (p1.1 = p2.1) p1.1 m.xM (fun x r => decide (r.x = some x)) m.data >>= fun f =>
        lstep (p1.2.1 = p2.2.1) p1.2.1 m.yM (fun y r => decide (r.y = some y)) f >>= fun f =>
          lstep (p1.2.2 = p2.2.2) p1.2.2 m.zM (fun z r => decide (r.z = some z)) f >>= fun f =>
            filterEnergyTime f erg time >>= fun f => pure (f.rows.map (fun r => r.2.value))) := by
  unfold extractLine lstep
  split_ifs <;> simp only [bind_assoc, pure_bind]

private theorem lstep_unit {c : K} (hc : 0 < c) (u v : K) (mids : List K) (p : K → MRow K → Bool)
    (hp : ∀ x r, p (c * x) (unitRow c r).2 = p x r.2) (f : Frame K) :
    lstep (c * u = c * v) (c * u) (mids.map (c * ·)) p (unitFrame c f) = (lstep (u = v) u mids p f).map (unitFrame c) := by
  unfold lstep
  by_cases h : u = v
  · rw [if_pos h, if_pos (by rw [h]), nearest_unit hc]
    exact bind_map' _ _ _ _ _ (fun x => congrArg Except.ok (keep_unit c f _ _ (hp x)))
  · rw [if_neg h, if_neg (fun h' => h (mul_left_cancel₀ hc.ne' h'))]
    rfl

/-- A point in another unit of length. -/
def unitPoint (c : K) (p : K × K × K) : K × K × K := (c * p.1, c * p.2.1, c * p.2.2)

/-- C259 (part that holds): a line looked up in another unit of length. Missing: as for points. -/
theorem C259_line_partial {c : K} (hc : 0 < c) (m : Mesh K (Frame K)) (p1 p2 : K × K × K) (erg time : Option K) :
    extractLine (unitMesh c m) (unitPoint c p1) (unitPoint c p2) erg time = extractLine m p1 p2 erg time := by
  rw [line_steps, line_steps]
  change (lstep (c * p1.1 = c * p2.1) (c * p1.1) (m.xM.map (c * ·)) _ (unitFrame c m.data) >>= _) = _
  rw [lstep_unit hc _ _ _ _ (fun x r => at_unit hc r.2.x x)]
  refine bind_eq _ _ _ _ (fun f => ?_)
  change (lstep (c * p1.2.1 = c * p2.2.1) (c * p1.2.1) (m.yM.map (c * ·)) _ (unitFrame c f) >>= _) = _
  rw [lstep_unit hc _ _ _ _ (fun x r => at_unit hc r.2.y x)]
  refine bind_eq _ _ _ _ (fun f => ?_)
  change (lstep (c * p1.2.2 = c * p2.2.2) (c * p1.2.2) (m.zM.map (c * ·)) _ (unitFrame c f) >>= _) = _
  rw [lstep_unit hc _ _ _ _ (fun x r => at_unit hc r.2.z x)]
  refine bind_eq _ _ _ _ (fun f => ?_)
  rw [energy_unit]
  exact bind_eq _ _ _ _ (fun f => congrArg Except.ok (values_unit c f))

/-- The axes of a slice in another unit. -/
def unitSlice (c : K) (p : Slice K) : Slice K := { p with sliceI := p.sliceI.map (c * ·), sliceJ := p.sliceJ.map (c * ·), value := c * p.value }

/-- C259 (part that holds): a slice taken in another unit of length. Missing: as for points. -/
theorem C259_slice_partial {c : K} (hc : 0 < c) (m : Mesh K (Frame K)) (value : K) (plane : Str) (erg time : Option K) :
    extractSlice (unitMesh c m) (c * value) plane erg time = (extractSlice m value plane erg time).map (unitSlice c) := by
  unfold extractSlice
  change (filterEnergyTime (unitFrame c m.data) erg time >>= _) = _
  rw [energy_unit]
  have bind_same : ∀ {α β γ : Type} (x : Except Err α) (k : α → Except Err β) (k' : α → Except Err γ) (h : γ → β)
    (_ : ∀ a, k a = (k' a).map h), (x >>= k) = (x >>= k').map h := by
    intro α β γ x k k' h hk
    cases x with
    | error e => rfl
    | ok a => exact hk a
  refine bind_map' _ _ _ _ _ (fun f => bind_same _ _ _ _ (fun a => ?_))
  obtain ⟨i, j, v⟩ := a
  have hm : ∀ a, (unitMesh c m).mids a = (m.mids a).map (c * ·) := by intro a; cases a <;> rfl
  have hat : ∀ (a : Axis) (r : Nat × MRow K) (x : K), decide ((unitRow c r).2.coord a = some (c * x)) = decide (r.2.coord a = some x) := by
    intro a r x
    cases a
    · exact at_unit hc r.2.x x
    · exact at_unit hc r.2.y x
    · exact at_unit hc r.2.z x
  dsimp only
  simp only [hm]
  rw [nearest_unit hc]
  refine bind_map' _ _ _ _ _ (fun x => ?_)
  rw [keep_unit c f _ (fun r => decide (r.coord v = some x)) (fun r => hat v r x)]
  generalize f.keep (fun r => decide (r.coord v = some x)) = g
  have hcol : ∀ {β : Type} (a : Axis) (get : MRow K → β) (_ : ∀ r, get (unitRow c r).2 = get r.2),
      ((m.mids i).map (c * ·)).map (fun x => (((unitFrame c g).rows.map (·.2)).filter (fun r => decide (r.coord a = some x))).map get) =
        (m.mids i).map (fun x => ((g.rows.map (·.2)).filter (fun r => decide (r.coord a = some x))).map get) := by
    intro β a get hget
    rw [List.map_map]
    apply List.map_congr_left
    intro x _
    simp only [Function.comp_apply, unitFrame, List.map_map, List.filter_map]
    have : (List.filter ((fun r => decide (r.coord a = some (c * x))) ∘ (fun x => x.2) ∘ unitRow c) g.rows) =
        List.filter ((fun r => decide (r.coord a = some x)) ∘ fun x => x.2) g.rows := by
      apply List.filter_congr
      intro r _
      exact hat a r x
    rw [this]
    apply List.map_congr_left
    intro r _
    exact hget r
  rw [hcol i _ (fun r => rfl), hcol j _ (fun r => rfl)]
  exact bind_same _ _ _ _ (fun vs => bind_same _ _ _ _ (fun es => rfl))

/-- C259 (part that holds): mid points calculated from the bounds in the other unit, up to the rounding to five decimals. Missing: equality
    (`C259_mids_violated`). -/
theorem C259_mids_partial [FloorRing K] (flt : Str → Option K) {c : K} (hc : 0 < c) (b m m' : List K)
    (h : calcMidPoints flt (b.map Bnd.num) = .ok m) (h' : calcMidPoints flt ((b.map (c * ·)).map Bnd.num) = .ok m') :
    List.Forall₂ (fun x x' => |x' - c * x| ≤ (1 + c) / 200000) m m' := by
  have num : ∀ l : List K, (l.map Bnd.num).mapM (Bnd.toF flt) = .ok l := by
    intro l
    induction l with
    | nil => rfl
    | cons a l ih => rw [List.map_cons, List.mapM_cons, ih]; rfl
  unfold calcMidPoints at h h'
  rw [num] at h h'
  cases h
  cases h'
  have gen : ∀ u l : List K, List.Forall₂ (fun x x' => |x' - c * x| ≤ (1 + c) / 200000)
      (List.zipWith (fun u l => round5 ((u + l) * (1 / 2))) u l)
      (List.zipWith (fun u l => round5 ((u + l) * (1 / 2))) (u.map (c * ·)) (l.map (c * ·))) := by
    intro u
    induction u with
    | nil => intro l; exact .nil
    | cons a u ih =>
      intro l
      cases l with
      | nil => exact .nil
      | cons a' l =>
        refine .cons ?_ (ih l)
        have h1 := round5_close ((a + a') * (1 / 2))
        have h2 := round5_close ((c * a + c * a') * (1 / 2))
        dsimp only
        generalize round5 ((a + a') * (1 / 2)) = r at h1 ⊢
        generalize round5 ((c * a + c * a') * (1 / 2)) = r' at h2 ⊢
        rw [abs_le] at h1 h2 ⊢
        have k1 := mul_le_mul_of_nonneg_left h1.1 hc.le
        have k2 := mul_le_mul_of_nonneg_left h1.2 hc.le
        constructor <;> linarith
  rw [← List.map_tail]
  exact gen b.tail b

/-- C259 is violated by the mid points, which are rounded to five decimals: a voxel of 10 micrometres has its middle at 0 if the bounds are
    given in metres. -/
theorem C259_mids_violated : ∃ (c : ℚ) (b : List ℚ) (m m' : List ℚ), 0 < c ∧ calcMidPoints (fun _ => none) (b.map Bnd.num) = .ok m ∧
    calcMidPoints (fun _ => none) ((b.map (c * ·)).map Bnd.num) = .ok m' ∧ m' ≠ m.map (c * ·) :=
  ⟨100, [0, 1 / 100000], [0], [1 / 2000], by norm_num, by decide +kernel, by decide +kernel, by decide +kernel⟩

/-- C259 is violated by the uniformity test, which has an absolute tolerance. -/
theorem C259_uniform_violated : ∃ (c : ℚ) (b : List ℚ), 0 < c ∧ checkUniform (fun _ => none) (b.map Bnd.num) = .ok true ∧
    checkUniform (fun _ => none) ((b.map (c * ·)).map Bnd.num) = .ok false :=
  ⟨1000000000, [0, 1 / 1000000000, 3 / 1000000000], by norm_num, by decide +kernel, by decide +kernel⟩

/-- C259 is violated by the choice of an energy, which has an absolute tolerance: thermal energies in MeV are all the same, in eV they are not. -/
theorem C259_energy_violated : ∃ (c e : ℚ) (f f' : Frame ℚ), 0 < c ∧ f'.kind = f.kind ∧
    f'.rows = f.rows.map (fun r => (r.1, { r.2 with et := r.2.et.map (c * ·) })) ∧
    (filterEnergyTime f (some e) none).map (fun g => g.rows.map (·.1)) = .ok [0, 1] ∧
    (filterEnergyTime f' (some (c * e)) none).map (fun g => g.rows.map (·.1)) = .ok [0] :=
  ⟨1000000, 1 / 1000000000, ⟨.e6, [(0, ⟨some (1 / 1000000000), none, none, none, none, none⟩), (1, ⟨some (2 / 1000000000), none, none, none, none, none⟩)]⟩,
    ⟨.e6, [(0, ⟨some (1 / 1000), none, none, none, none, none⟩), (1, ⟨some (2 / 1000), none, none, none, none, none⟩)]⟩, by norm_num, rfl,
    by decide +kernel, by decide +kernel, by decide +kernel⟩

/-! ### Spectra and peaks -/

private theorem argminAux_unit {s : K} (hs : 0 < s) (l : List K) : ∀ b bi i, argminAux (s * b) bi i (l.map (s * ·)) = argminAux b bi i l := by
  induction l with
  | nil => intro b bi i; rfl
  | cons x l ih =>
    intro b bi i
    simp only [List.map_cons, argminAux, mul_lt_mul_iff_right₀ hs, ih]

private theorem nearest_index {s : K} (hs : 0 < s) (l : List K) (v : K) :
    argmin ((l.map (s * ·)).map (fun e => |e - s * v|)) = argmin (l.map (fun e => |e - v|)) := by
  have : (l.map (s * ·)).map (fun e => |e - s * v|) = (l.map (fun e => |e - v|)).map (s * ·) := by
    simp only [List.map_map]
    apply List.map_congr_left
    intro e _
    simp only [Function.comp_apply, ← mul_sub, abs_mul, abs_of_pos hs]
  rw [this]
  cases l with
  | nil => rfl
  | cons x l => simp only [List.map_cons, argmin, argminAux_unit hs]

/-- C259: the peak in other units of energy and time. -/
theorem C259_peak {e t : K} (he : 0 < e) (target : K) (energies times : List K) (results : List (List K)) :
    McnpAnalysis.findPeakTime (e * target) (energies.map (e * ·)) (times.map (t * ·)) results =
      (McnpAnalysis.findPeakTime target energies times results).map (t * ·) := by
  unfold McnpAnalysis.findPeakTime
  rw [nearest_index he, List.length_map]
  cases argmin (energies.map (fun e => |e - target|)) with
  | error x => rfl
  | ok ei =>
    simp only [ex_ok_bind]
    cases results[ei]? with
    | none => rfl
    | some row =>
      simp only [orErr, ex_ok_bind]
      cases argmax (row.take times.length) with
      | error x => rfl
      | ok pi =>
        simp only [ex_ok_bind, List.getElem?_map]
        cases times[pi]? <;> rfl

/-- C259: the spectrum at a time in other units of energy and time. -/
theorem C259_spectrum {e t : K} (ht : 0 < t) (target : K) (energies times : List K) (results : List (List K)) (factor : K) :
    McnpPlots.timeSlice (t * target) (energies.map (e * ·)) (times.map (t * ·)) results factor =
      (McnpPlots.timeSlice target energies times results factor).map (fun c => ⟨c.x.map (e * ·), c.y⟩) := by
  unfold McnpPlots.timeSlice
  rw [nearest_index ht]
  cases argmin (times.map (fun e => |e - target|)) with
  | error x => rfl
  | ok ti =>
    simp only [ex_ok_bind]
    cases results.mapM (fun row => orErr Err.IndexError row[ti]?) with
    | error x => rfl
    | ok col =>
      simp only [ex_ok_bind, McnpPlots.curve, List.length_map]
      split_ifs <;> rfl

/-- C259: widths and mid points of bins in another unit. -/
theorem C259_bins (e : K) (bins : List K) :
    McnpAnalysis.calcBinWidth (bins.map (e * ·)) = (McnpAnalysis.calcBinWidth bins).map (List.map (e * ·)) ∧
    McnpAnalysis.calcMidPoints (bins.map (e * ·)) = (McnpAnalysis.calcMidPoints bins).map (e * ·) := by
  constructor
  · unfold McnpAnalysis.calcBinWidth
    rw [List.length_map]
    split_ifs
    · rfl
    · simp only [Except.map]
      congr 1
      have : (0 : K) :: bins.map (e * ·) = (0 :: bins).map (e * ·) := by simp
      rw [this, List.zipWith_map, List.map_zipWith]
      congr 1
      funext a b
      ring
  · induction bins with
    | nil => rfl
    | cons a l ih =>
      cases l with
      | nil => rfl
      | cons b l =>
        simp only [List.map_cons, McnpAnalysis.calcMidPoints] at ih ⊢
        rw [ih]
        congr 1
        ring

example : pickPoint (1 / 2) (1 / 2) (1 / 2) (⟨none, none, [], [], [], [], [], ⟨.c5, [(0, ⟨none, some (1 / 2), some (1 / 2), some (1 / 2), some 7, none⟩),
    (1, ⟨none, some (3 / 2), some (1 / 2), some (1 / 2), some 8, none⟩)]⟩, [1 / 2, 3 / 2], [1 / 2], [1 / 2], none⟩ : Mesh ℚ (Frame ℚ)) none none =
    .ok [some 7] := by decide +kernel

example : McnpAnalysis.findPeakTime (1 : ℚ) [1, 2] [10, 20] [[3, 5], [4, 1]] = .ok 20 := by decide +kernel

end Props
