/-
C257: meshes whose values are all multiplied by a factor (another source strength or another unit).
C258: results that do not depend on the source strength.
-/
import Verif.Props.MeshtalAnalysis
import Verif.Props.McnpAnalysis
import Verif.Model.FispactPlots
import Verif.Model.McnpPlots
import Verif.Model.Misc
import Verif.Proofs.Except

set_option linter.unusedSectionVars false

namespace Props
open Py Meshtal
variable {K : Type} [Field K] [LinearOrder K]

/-! ### Meshes -/

/-- A row with its value multiplied; the relative error stays. -/
def timesRow (s : K) (r : Nat × MRow K) : Nat × MRow K := (r.1, { r.2 with value := r.2.value.map (s * ·) })

/-- A mesh with all values multiplied. -/
def timesMesh (s : K) (m : Mesh K (Frame K)) : Mesh K (Frame K) := { m with data := ⟨m.data.kind, m.data.rows.map (timesRow s)⟩ }

/-- A table with all values multiplied. -/
private def timesFrame (s : K) (f : Frame K) : Frame K := ⟨f.kind, f.rows.map (timesRow s)⟩

private theorem filter_times (s : K) (rows : List (Nat × MRow K)) (p : MRow K → Bool) (hp : ∀ r, p (timesRow s r).2 = p r.2) :
    (rows.map (timesRow s)).filter (fun r => p r.2) = (rows.filter (fun r => p r.2)).map (timesRow s) := by
  rw [List.filter_map]
  congr 1
  apply List.filter_congr
  intro r _
  exact hp r

private theorem keep_times (s : K) (f : Frame K) (p : MRow K → Bool) (hp : ∀ r, p (timesRow s r).2 = p r.2) :
    (timesFrame s f).keep p = timesFrame s (f.keep p) := by
  unfold timesFrame Frame.keep
  rw [filter_times s _ p hp]

private theorem one_times (s : K) (kind : CType) (v : Option K) (f : Frame K) :
    filterOne kind v (timesFrame s f) = (filterOne kind v f).map (timesFrame s) := by
  unfold filterOne
  cases v with
  | none => rfl
  | some v =>
    dsimp only
    split_ifs with h1 h2 h3
    · rfl
    · rw [keep_times s f _ (fun r => rfl)]; rfl
    · exact absurd h2 h3
    · rename_i h3; exact absurd h3 h2
    · rfl

private theorem bind_map {α β γ δ : Type} (x : Except Err α) (g : α → β) (k : β → Except Err γ) (k' : α → Except Err δ) (h : δ → γ)
    (hk : ∀ a, k (g a) = (k' a).map h) : (x.map g >>= k) = (x >>= k').map h := by
  cases x with
  | error e => rfl
  | ok a => exact hk a

private theorem bind_same {α β γ : Type} (x : Except Err α) (k : α → Except Err β) (k' : α → Except Err γ) (h : γ → β)
    (hk : ∀ a, k a = (k' a).map h) : (x >>= k) = (x >>= k').map h := by
  cases x with
  | error e => rfl
  | ok a => exact hk a

private theorem energy_times (s : K) (f : Frame K) (erg time : Option K) :
    filterEnergyTime (timesFrame s f) erg time = (filterEnergyTime f erg time).map (timesFrame s) := by
  unfold filterEnergyTime
  rw [one_times]
  exact bind_map _ _ _ _ _ (fun g => one_times s _ _ g)

private theorem values_times (s : K) (f : Frame K) :
    (timesFrame s f).rows.map (fun r => r.2.value) = (f.rows.map (fun r => r.2.value)).map (Option.map (s * ·)) := by
  unfold timesFrame
  simp only [List.map_map]
  rfl

/-- C257: a point of a mesh with all values multiplied. -/
theorem C257_point (s : K) (m : Mesh K (Frame K)) (x y z : K) (erg time : Option K) :
    pickPoint x y z (timesMesh s m) erg time = (pickPoint x y z m erg time).map (List.map (Option.map (s * ·))) := by
  unfold pickPoint
  refine bind_same _ _ _ _ (fun x => bind_same _ _ _ _ (fun y => bind_same _ _ _ _ (fun z => ?_)))
  change (filterEnergyTime ((((timesFrame s m.data).keep _).keep _).keep _) erg time >>= _) = _
  rw [keep_times s _ _ (fun r => rfl), keep_times s _ _ (fun r => rfl), keep_times s _ _ (fun r => rfl), energy_times]
  exact bind_map _ _ _ _ _ (fun f => congrArg Except.ok (values_times s f))

/-- C257: a line of a mesh with all values multiplied. -/
theorem C257_line (s : K) (m : Mesh K (Frame K)) (p1 p2 : K × K × K) (erg time : Option K) :
    extractLine (timesMesh s m) p1 p2 erg time = (extractLine m p1 p2 erg time).map (List.map (Option.map (s * ·))) := by
  have last : ∀ f : Frame K, (filterEnergyTime (timesFrame s f) erg time >>= fun f => pure (f.rows.map (fun r => r.2.value))) =
      (filterEnergyTime f erg time >>= fun f => (pure (f.rows.map (fun r => r.2.value)) : Except Err _)).map (List.map (Option.map (s * ·))) := by
    intro f
    rw [energy_times]
    exact bind_map _ _ _ _ _ (fun f => congrArg Except.ok (values_times s f))
  have hz : ∀ f : Frame K, ((if p1.2.2 = p2.2.2 then do
        let z ← findNearestMid p1.2.2 m.zM
        pure ((timesFrame s f).keep (fun r => decide (r.z = some z)))
      else pure (timesFrame s f)) : Except Err (Frame K)) = (if p1.2.2 = p2.2.2 then do
        let z ← findNearestMid p1.2.2 m.zM
        pure (f.keep (fun r => decide (r.z = some z)))
      else pure f : Except Err (Frame K)).map (timesFrame s) := by
    intro f
    split_ifs
    · exact bind_same _ _ _ _ (fun z => congrArg Except.ok (keep_times s f _ (fun r => rfl)))
    · rfl
  have hy : ∀ f : Frame K, ((if p1.2.1 = p2.2.1 then do
        let z ← findNearestMid p1.2.1 m.yM
        pure ((timesFrame s f).keep (fun r => decide (r.y = some z)))
      else pure (timesFrame s f)) : Except Err (Frame K)) = (if p1.2.1 = p2.2.1 then do
        let z ← findNearestMid p1.2.1 m.yM
        pure (f.keep (fun r => decide (r.y = some z)))
      else pure f : Except Err (Frame K)).map (timesFrame s) := by
    intro f
    split_ifs
    · exact bind_same _ _ _ _ (fun z => congrArg Except.ok (keep_times s f _ (fun r => rfl)))
    · rfl
  have hx : ∀ f : Frame K, ((if p1.1 = p2.1 then do
        let z ← findNearestMid p1.1 m.xM
        pure ((timesFrame s f).keep (fun r => decide (r.x = some z)))
      else pure (timesFrame s f)) : Except Err (Frame K)) = (if p1.1 = p2.1 then do
        let z ← findNearestMid p1.1 m.xM
        pure (f.keep (fun r => decide (r.x = some z)))
      else pure f : Except Err (Frame K)).map (timesFrame s) := by
    intro f
    split_ifs
    · exact bind_same _ _ _ _ (fun z => congrArg Except.ok (keep_times s f _ (fun r => rfl)))
    · rfl
  have key : ∀ m : Mesh K (Frame K), extractLine m p1 p2 erg time = ((if p1.1 = p2.1 then do
        let z ← findNearestMid p1.1 m.xM
        pure (m.data.keep (fun r => decide (r.x = some z)))
      else pure m.data : Except Err (Frame K)) >>= fun f => (if p1.2.1 = p2.2.1 then do
        let z ← findNearestMid p1.2.1 m.yM
        pure (f.keep (fun r => decide (r.y = some z)))
      else pure f : Except Err (Frame K)) >>= fun f => (if p1.2.2 = p2.2.2 then do
        let z ← findNearestMid p1.2.2 m.zM
        pure (f.keep (fun r => decide (r.z = some z)))
      else pure f : Except Err (Frame K)) >>= fun f => filterEnergyTime f erg time >>= fun f => pure (f.rows.map (fun r => r.2.value))) := by
    intro m
    unfold extractLine
    split_ifs <;> first | rfl | simp only [bind_assoc, pure_bind]
  rw [key, key]
  change ((if p1.1 = p2.1 then do
        let z ← findNearestMid p1.1 m.xM
        pure ((timesFrame s m.data).keep (fun r => decide (r.x = some z)))
      else pure (timesFrame s m.data)) >>= _) = _
  rw [hx]
  refine bind_map _ _ _ _ _ (fun f => ?_)
  change ((if p1.2.1 = p2.2.1 then do
        let z ← findNearestMid p1.2.1 m.yM
        pure ((timesFrame s f).keep (fun r => decide (r.y = some z)))
      else pure (timesFrame s f)) >>= _) = _
  rw [hy]
  refine bind_map _ _ _ _ _ (fun f => ?_)
  change ((if p1.2.2 = p2.2.2 then do
        let z ← findNearestMid p1.2.2 m.zM
        pure ((timesFrame s f).keep (fun r => decide (r.z = some z)))
      else pure (timesFrame s f)) >>= _) = _
  rw [hz]
  exact bind_map _ _ _ _ _ last

/-- A slice with all values multiplied. -/
def timesSlice (s : K) (p : Slice K) : Slice K := { p with values := p.values.map (List.map (Option.map (s * ·))) }

private theorem arrayT_map {α β : Type} (g : α → β) (cols : List (List α)) :
    arrayT (cols.map (List.map g)) = (arrayT cols).map (List.map (List.map g)) := by
  cases cols with
  | nil => rfl
  | cons c cs =>
    simp only [arrayT, List.map_cons, List.all_map, List.length_map]
    have : (cs.all ((fun d => decide (d.length = c.length)) ∘ List.map g)) = cs.all (fun d => decide (d.length = c.length)) := by
      congr 1; funext d; simp
    rw [this]
    split_ifs
    · simp only [Except.map, List.map_map]
      congr 1
      apply List.map_congr_left
      intro k _
      simp only [Function.comp_apply, List.filterMap_cons, List.getElem?_map, List.filterMap_map]
      have e : (cs.filterMap (fun d => d[k]?.map g)) = (cs.filterMap (fun d => d[k]?)).map g := by
        rw [List.map_filterMap]
      rw [e]
      cases c[k]? <;> rfl
    · rfl

/-- C257: a slice of a mesh with all values multiplied; the errors stay. -/
theorem C257_slice (s : K) (m : Mesh K (Frame K)) (value : K) (plane : Str) (erg time : Option K) :
    extractSlice (timesMesh s m) value plane erg time = (extractSlice m value plane erg time).map (timesSlice s) := by
  unfold extractSlice
  change (filterEnergyTime (timesFrame s m.data) erg time >>= _) = _
  rw [energy_times]
  refine bind_map _ _ _ _ _ (fun f => bind_same _ _ _ _ (fun a => ?_))
  obtain ⟨i, j, v⟩ := a
  have hm : (timesMesh s m).mids = m.mids := by funext a; cases a <;> rfl
  dsimp only
  rw [hm]
  refine bind_same _ _ _ _ (fun c => ?_)
  have hrow : ∀ (rows : List (Nat × MRow K)) (a : Axis) (x : K),
      ((rows.map (timesRow s)).map (·.2)).filter (fun r => decide (r.coord a = some x)) =
        ((rows.filter (fun r => decide (r.2.coord a = some x))).map (timesRow s)).map (·.2) := by
    intro rows a x
    rw [List.filter_map]
    congr 1
    exact filter_times s rows (fun r => decide (r.coord a = some x)) (fun r => by cases a <;> rfl)
  have hrow' : ∀ (rows : List (Nat × MRow K)) (a : Axis) (x : K), (rows.map (·.2)).filter (fun r => decide (r.coord a = some x)) =
        (rows.filter (fun r => decide (r.2.coord a = some x))).map (·.2) := by
    intro rows a x
    rw [List.filter_map]
    rfl
  rw [keep_times s f _ (fun r => by cases v <;> rfl)]
  generalize f.keep (fun r => decide (r.coord v = some c)) = g
  have e1 : ((m.mids i).map (fun c => ((timesFrame s g).rows.map (·.2)).filter (fun r => decide (r.coord i = some c)) |>.map (·.value))) =
      ((m.mids i).map (fun c => (g.rows.map (·.2)).filter (fun r => decide (r.coord i = some c)) |>.map (·.value))).map
        (List.map (Option.map (s * ·))) := by
    rw [List.map_map]
    apply List.map_congr_left
    intro c _
    simp only [Function.comp_apply]
    unfold timesFrame
    rw [hrow, hrow']
    simp only [List.map_map]
    rfl
  have e2 : ((m.mids i).map (fun c => ((timesFrame s g).rows.map (·.2)).filter (fun r => decide (r.coord j = some c)) |>.map (·.err))) =
      ((m.mids i).map (fun c => (g.rows.map (·.2)).filter (fun r => decide (r.coord j = some c)) |>.map (·.err))) := by
    apply List.map_congr_left
    intro c _
    unfold timesFrame
    rw [hrow, hrow']
    simp only [List.map_map]
    rfl
  rw [e1, e2, arrayT_map]
  exact bind_map _ _ _ _ _ (fun vs => bind_same _ _ _ _ (fun es => rfl))

/-- C257: the upper and the lower values of a mesh with all values multiplied. -/
theorem C257_bounds (s : K) (m : Mesh K (Frame K)) :
    upperVals (timesMesh s m).data = (upperVals m.data).map (Option.map (s * ·)) ∧
    lowerVals (timesMesh s m).data = (lowerVals m.data).map (Option.map (s * ·)) := by
  unfold upperVals lowerVals timesMesh
  simp only [List.map_map]
  constructor <;> apply List.map_congr_left <;> intro r _ <;> simp only [Function.comp_apply, timesRow] <;>
    cases r.2.value <;> cases r.2.err <;> simp <;> ring

private theorem lookup_times (s : K) (rows : List (Nat × MRow K)) (k : Nat) :
    lookup (rows.map (timesRow s)) k = (lookup rows k).map (fun r => { r with value := r.value.map (s * ·) }) := by
  unfold lookup
  rw [List.find?_map]
  simp only [Option.map_map]
  rfl

private theorem labels_times (s : K) (rows : List (Nat × MRow K)) : (rows.map (timesRow s)).map (·.1) = rows.map (·.1) := by
  rw [List.map_map]
  rfl

/-- The rows of a sum. -/
private def sumRows (sqrt : K → K) (l1 l2 : List (Nat × MRow K)) : List (Nat × MRow K) :=
  (joinIndex (l1.map (·.1)) (l2.map (·.1))).map (fun k =>
    let r1 := lookup l1 k
    let r2 := lookup l2 k
    (k, { et := r1.bind (·.et), x := r1.bind (·.x), y := r1.bind (·.y), z := r1.bind (·.z)
          value := do
            let a ← r1.bind (·.value)
            let b ← r2.bind (·.value)
            pure (a + b)
          err := do
            let a ← r1.bind (·.err)
            let b ← r2.bind (·.err)
            pure (sqrt (a ^ 2 + b ^ 2)) : MRow K }))

private theorem addMesh_eq [FloorRing K] (flt : Str → Option K) (sqrt : K → K) (m1 m2 : Mesh K (Frame K)) :
    addMesh flt sqrt m1 m2 =
      if m1.xB ≠ m2.xB ∨ m1.yB ≠ m2.yB ∨ m1.zB ≠ m2.zB then .error .ValueError
      else if m1.ctype = some .e6 ∧ m1.eB ≠ m2.eB then .error .ValueError
      else if m1.ctype = some .t6 ∧ m1.tB ≠ m2.tB then .error .ValueError
      else if m1.ctype ≠ m2.ctype then .error .ValueError
      else if m1.ctype ≠ some .e6 ∧ m1.ctype ≠ some .t6 then .error .UnboundLocalError
      else calcMidPoints flt m1.xB >>= fun xM => calcMidPoints flt m1.yB >>= fun yM => calcMidPoints flt m1.zB >>= fun zM =>
        .ok { idnum := none, ptype := none, xB := m1.xB, yB := m1.yB, zB := m1.zB
              eB := if m1.ctype = some .e6 then m1.eB else []
              tB := if m1.ctype = some .t6 then m1.tB else []
              data := ⟨m1.data.kind, sumRows sqrt m1.data.rows m2.data.rows⟩
              xM := xM, yM := yM, zM := zM, ctype := m1.ctype } := by
  unfold addMesh
  by_cases h1 : m1.xB ≠ m2.xB ∨ m1.yB ≠ m2.yB ∨ m1.zB ≠ m2.zB
  · rw [if_pos h1, if_pos h1]; rfl
  rw [if_neg h1, if_neg h1]
  by_cases h2 : m1.ctype = some .e6 ∧ m1.eB ≠ m2.eB
  · rw [if_pos h2, if_pos h2]; rfl
  rw [if_neg h2, if_neg h2]
  by_cases h3 : m1.ctype = some .t6 ∧ m1.tB ≠ m2.tB
  · rw [if_pos h3, if_pos h3]; rfl
  rw [if_neg h3, if_neg h3]
  by_cases h4 : m1.ctype ≠ m2.ctype
  · rw [if_pos h4, if_pos h4]; rfl
  rw [if_neg h4, if_neg h4]
  by_cases h5 : m1.ctype ≠ some .e6 ∧ m1.ctype ≠ some .t6
  · rw [if_pos h5, if_pos h5]; rfl
  rw [if_neg h5, if_neg h5]
  rfl

private theorem sumRows_times (sqrt : K → K) (s : K) (l1 l2 : List (Nat × MRow K)) :
    sumRows sqrt (l1.map (timesRow s)) (l2.map (timesRow s)) = (sumRows sqrt l1 l2).map (timesRow s) := by
  unfold sumRows
  rw [labels_times, labels_times, List.map_map]
  apply List.map_congr_left
  intro k _
  simp only [lookup_times, Function.comp_apply, timesRow]
  cases lookup l1 k with
  | none => rfl
  | some r =>
    cases lookup l2 k with
    | none => cases hr : r.value <;> simp [hr]
    | some r' => cases hr : r.value <;> cases hr' : r'.value <;> simp [hr, hr', mul_add]

/-- C257: the sum of two meshes with all values multiplied by the same factor; the errors stay. -/
theorem C257_sum [FloorRing K] (flt : Str → Option K) (sqrt : K → K) (s : K) (m1 m2 : Mesh K (Frame K)) :
    addMesh flt sqrt (timesMesh s m1) (timesMesh s m2) = (addMesh flt sqrt m1 m2).map (timesMesh s) := by
  rw [addMesh_eq, addMesh_eq]
  change (if m1.xB ≠ m2.xB ∨ m1.yB ≠ m2.yB ∨ m1.zB ≠ m2.zB then Except.error Err.ValueError else _) = _
  by_cases h1 : m1.xB ≠ m2.xB ∨ m1.yB ≠ m2.yB ∨ m1.zB ≠ m2.zB
  · rw [if_pos h1, if_pos h1]; rfl
  rw [if_neg h1, if_neg h1]
  change (if m1.ctype = some .e6 ∧ m1.eB ≠ m2.eB then Except.error Err.ValueError else _) = _
  by_cases h2 : m1.ctype = some .e6 ∧ m1.eB ≠ m2.eB
  · rw [if_pos h2, if_pos h2]; rfl
  rw [if_neg h2, if_neg h2]
  change (if m1.ctype = some .t6 ∧ m1.tB ≠ m2.tB then Except.error Err.ValueError else _) = _
  by_cases h3 : m1.ctype = some .t6 ∧ m1.tB ≠ m2.tB
  · rw [if_pos h3, if_pos h3]; rfl
  rw [if_neg h3, if_neg h3]
  change (if m1.ctype ≠ m2.ctype then Except.error Err.ValueError else _) = _
  by_cases h4 : m1.ctype ≠ m2.ctype
  · rw [if_pos h4, if_pos h4]; rfl
  rw [if_neg h4, if_neg h4]
  change (if m1.ctype ≠ some .e6 ∧ m1.ctype ≠ some .t6 then Except.error Err.UnboundLocalError else _) = _
  by_cases h5 : m1.ctype ≠ some .e6 ∧ m1.ctype ≠ some .t6
  · rw [if_pos h5, if_pos h5]; rfl
  rw [if_neg h5, if_neg h5]
  refine bind_same (calcMidPoints flt m1.xB) _ _ _ (fun _ => bind_same (calcMidPoints flt m1.yB) _ _ _
    (fun _ => bind_same (calcMidPoints flt m1.zB) _ _ _ (fun _ => ?_)))
  have := sumRows_times sqrt s m1.data.rows m2.data.rows
  simp only [Except.map, timesMesh, this]
  rfl

/-- C257: the arrays of a mesh with all values multiplied. -/
theorem C257_array (s : K) (m : Mesh K (Frame K)) :
    convertTo3dArray (timesMesh s m) = (convertTo3dArray m).map (fun a => (fun i j k => (a.1 i j k).map (s * ·), a.2)) := by
  unfold convertTo3dArray
  have hz : ((fun _ _ _ => some 0, fun _ _ _ => some 0) : Arr (Option K) × Arr (Option K)) =
      (fun a : Arr (Option K) × Arr (Option K) => ((fun i j k => (a.1 i j k).map (s * ·), a.2) : Arr (Option K) × Arr (Option K)))
        (fun _ _ _ => some 0, fun _ _ _ => some 0) := by
    simp
  have gen : ∀ (rows : List (Nat × MRow K)) (a : Arr (Option K) × Arr (Option K)),
      ((rows.map (timesRow s)).map (fun r => r.2.cells m.data.kind)).foldlM (arrayStep m.xM m.yM m.zM)
        ((fun i j k => (a.1 i j k).map (s * ·), a.2) : Arr (Option K) × Arr (Option K)) =
      ((rows.map (fun r => r.2.cells m.data.kind)).foldlM (arrayStep m.xM m.yM m.zM) a).map
        (fun a => (fun i j k => (a.1 i j k).map (s * ·), a.2)) := by
    intro rows
    induction rows with
    | nil => intro a; rfl
    | cons r rows ih =>
      intro a
      simp only [List.map_cons, List.foldlM_cons]
      have step : arrayStep m.xM m.yM m.zM ((fun i j k => (a.1 i j k).map (s * ·), a.2) : Arr (Option K) × Arr (Option K))
          ((timesRow s r).2.cells m.data.kind) = (arrayStep m.xM m.yM m.zM a (r.2.cells m.data.kind)).map
            (fun a => ((fun i j k => (a.1 i j k).map (s * ·), a.2) : Arr (Option K) × Arr (Option K))) := by
        by_cases h : m.data.kind = .c5
        · have five : ∀ (a : Arr (Option K) × Arr (Option K)) (r : MRow K), arrayStep m.xM m.yM m.zM a (r.cells m.data.kind) = .error .IndexError := by
            intro a r
            rw [h]
            unfold arrayStep MRow.cells
            change (broadcast3 (whereEq m.xM r.y) (whereEq m.yM r.z) (whereEq m.zM r.value) >>= fun ps => Except.error Err.IndexError) = _
            unfold broadcast3
            dsimp only
            split <;> rfl
          rw [five, five]
          rfl
        have hc : ∀ r : MRow K, r.cells m.data.kind = [r.et, r.x, r.y, r.z, r.value, r.err] := by
          intro r
          unfold MRow.cells
          cases hk : m.data.kind <;> first | rfl | exact absurd hk h
        rw [hc, hc]
        unfold arrayStep
        change (broadcast3 _ _ _ >>= _) = _
        refine bind_same (broadcast3 (whereEq m.xM r.2.x) (whereEq m.yM r.2.y) (whereEq m.zM r.2.z)) _ _ _ (fun ps => ?_)
        change Except.ok _ = Except.ok _
        congr 2
        funext i j k
        simp only [Arr.put]
        split_ifs <;> rfl
      rw [step]
      exact bind_map _ _ _ _ _ (fun b => ih b)
  conv_lhs => rw [hz]
  exact gen m.data.rows _

/-- C258: the number of zeros in a mesh. -/
theorem C258_zeros (s : K) (hs : s ≠ 0) (m : Mesh K (Frame K)) : countZeros (timesMesh s m).data = countZeros m.data := by
  have : (timesMesh s m).data.rows.countP (fun r => decide (r.2.value = some 0)) = m.data.rows.countP (fun r => decide (r.2.value = some 0)) := by
    unfold timesMesh
    dsimp only
    rw [List.countP_map]
    congr 1
    funext r
    cases hv : r.2.value with
    | none => simp [timesRow, hv]
    | some v => simp [timesRow, hv, hs]
  unfold countZeros
  rw [this]

/-! ### Other results -/

variable [IsStrictOrderedRing K]

private theorem argmaxAux_times {s : K} (hs : 0 < s) (l : List K) : ∀ b bi i, argmaxAux (s * b) bi i (l.map (s * ·)) = argmaxAux b bi i l := by
  induction l with
  | nil => intro b bi i; rfl
  | cons x l ih =>
    intro b bi i
    simp only [List.map_cons, argmaxAux, mul_lt_mul_iff_right₀ hs, ih]

private theorem argmax_times {s : K} (hs : 0 < s) (l : List K) : argmax (l.map (s * ·)) = argmax l := by
  cases l with
  | nil => rfl
  | cons x l => simp only [List.map_cons, argmax, argmaxAux_times hs]

/-- C258: the time of the peak. -/
theorem C258_peak {s : K} (hs : 0 < s) (target : K) (energies times : List K) (results : List (List K)) :
    McnpAnalysis.findPeakTime target energies times (results.map (List.map (s * ·))) = McnpAnalysis.findPeakTime target energies times results := by
  unfold McnpAnalysis.findPeakTime
  congr 1
  funext ei
  rw [List.getElem?_map]
  cases results[ei]? with
  | none => rfl
  | some row =>
    change (argmax ((row.map (s * ·)).take times.length) >>= _) = (argmax (row.take times.length) >>= _)
    rw [← List.map_take, argmax_times hs]

private theorem foldl_max_times {s : K} (hs : 0 < s) (l : List K) : ∀ a, (l.map (s * ·)).foldl max (s * a) = s * l.foldl max a := by
  induction l with
  | nil => intro a; rfl
  | cons x l ih =>
    intro a
    simp only [List.map_cons, List.foldl_cons]
    rw [← mul_max_of_nonneg a x hs.le, ih]

/-- C258: the weights of a normalised mesh. -/
theorem C258_weights (hasNpFloat : Bool) {s : K} (hs : 0 < s) (values : List K) :
    Magic.normaliseMesh hasNpFloat (values.map (s * ·)) = Magic.normaliseMesh hasNpFloat values := by
  unfold Magic.normaliseMesh
  cases values with
  | nil => rfl
  | cons a l =>
    simp only [List.map_cons, foldl_max_times hs, mul_eq_zero, hs.ne', false_or]
    split_ifs with h1 h2
    · simp [Function.comp_def]
    · simp only [List.map_map, Except.ok.injEq, List.cons.injEq, Option.some.injEq]
      have e : ∀ v, s * v * (1 / 2 / (s * l.foldl max a)) = v * (1 / 2 / l.foldl max a) := by
        intro v
        have := hs.ne'
        field_simp
      refine ⟨e a, ?_⟩
      apply List.map_congr_left
      intro v _
      simp only [Function.comp_apply, e]
    · rfl

/-- A table of dominant nuclides for another source strength: the column `param` is multiplied, the percentages and names stay. -/
structure SameShare (s : K) (param : Str) (t t' : FispactPlots.Dominant K) : Prop where
  names : t'.names = t.names
  pct : t'.nums.get (param ++ p!"_percent") = t.nums.get (param ++ p!"_percent")
  vals : t'.nums.get param = (t.nums.get param).map (List.map (s * ·))

private theorem sum_times (s : K) (l : List K) : (l.map (s * ·)).sum = s * l.sum := by
  induction l with
  | nil => simp
  | cons a l ih => simp [ih, mul_add]

/-- C258: the wedges of the pie chart. -/
theorem C258_pie {s : K} (hs : 0 < s) (param : Str) {t t' : FispactPlots.Dominant K} (h : SameShare s param t t') (thres : K) :
    FispactPlots.plotPie t' param thres = FispactPlots.plotPie t param thres := by
  unfold FispactPlots.plotPie
  rw [h.names, h.pct, h.vals]
  simp only [Option.isNone_map]
  split_ifs with h0
  · rfl
  · cases t.nums.get (param ++ p!"_percent") with
    | none => rfl
    | some pct =>
      cases t.names.get (param ++ p!"_nuc") with
      | none => rfl
      | some names =>
        cases t.nums.get param with
        | none => rfl
        | some vals =>
          simp only [Option.map_some, orErr, ex_ok_bind]
          have e : (((names.zip (vals.map (s * ·))).zip pct).filter (fun r => decide (thres < r.2))).map (·.1) =
              ((((names.zip vals).zip pct).filter (fun r => decide (thres < r.2))).map (·.1)).map (fun r => (r.1, s * r.2)) := by
            have : (names.zip (vals.map (s * ·))).zip pct = ((names.zip vals).zip pct).map (fun r => ((r.1.1, s * r.1.2), r.2)) := by
              rw [List.zip_map_right, List.zip_map_left]
              rfl
            rw [this, List.filter_map, List.map_map, List.map_map]
            rfl
          rw [e]
          generalize (((names.zip vals).zip pct).filter (fun r => decide (thres < r.2))).map (·.1) = shown
          have e2 : (shown.map (fun r => (r.1, s * r.2))).any (fun r => decide (r.2 < 0)) = shown.any (fun r => decide (r.2 < 0)) := by
            rw [List.any_map]
            congr 1
            funext r
            simp only [Function.comp_apply, decide_eq_decide]
            exact ⟨fun h => (pos_iff_neg_of_mul_neg h).1 hs, fun h => mul_neg_of_pos_of_neg hs h⟩
          rw [e2]
          split_ifs
          · rfl
          · congr 1
            rw [List.map_map, List.map_map]
            have e3 : (shown.map ((fun x => x.2) ∘ fun r => (r.1, s * r.2))).sum = s * (shown.map (·.2)).sum := by
              rw [← sum_times, List.map_map]
              rfl
            rw [e3]
            apply List.map_congr_left
            intro r _
            simp only [Function.comp_apply, mul_div_mul_left _ _ hs.ne']

/-- The first spectrum of a tally with all values multiplied. -/
private theorem div_times {s : K} (hs : s ≠ 0) (a b : List K) : McnpPlots.divArrays (a.map (s * ·)) (b.map (s * ·)) = McnpPlots.divArrays a b := by
  have z : List.zipWith (· / ·) (a.map (s * ·)) (b.map (s * ·)) = List.zipWith (· / ·) a b := by
    rw [List.zipWith_map]
    congr 1
    funext x y
    exact mul_div_mul_left _ _ hs
  unfold McnpPlots.divArrays
  rw [z]
  simp only [List.length_map]
  split_ifs
  · rfl
  · rcases a with _ | ⟨x, _ | ⟨x', a⟩⟩ <;> rcases b with _ | ⟨y, _ | ⟨y', b⟩⟩ <;> simp [mul_div_mul_left _ _ hs]

/-- The results of a tally with all values multiplied, the errors stay. -/
def timesItem (s : K) : McnpOutput.Item K → McnpOutput.Item K
  | .num x => .num (s * x)
  | .list xs => .list (xs.map (s * ·))
  | .mat xs => .mat (xs.map (List.map (s * ·)))

/-- The results of a tally with all values multiplied, the errors stay. -/
def timesRes (s : K) : McnpOutput.Res K → McnpOutput.Res K
  | .items xs => .items (xs.map (timesItem s))
  | .mat xs => .mat (xs.map (List.map (s * ·)))
  | .table d => .table (d.map (fun e => (e.1, e.2.map (fun r => (r.1, s * r.2.1, r.2.2)))))

private theorem first_times (s : K) (r : McnpOutput.Res K) : McnpPlots.firstResult (timesRes s r) = (McnpPlots.firstResult r).map (List.map (s * ·)) := by
  cases r with
  | items xs =>
    cases xs with
    | nil => rfl
    | cons x xs => cases x <;> rfl
  | mat xs => cases xs <;> rfl
  | table d =>
    unfold McnpPlots.firstResult timesRes
    have : Dict.get (List.map (fun e : Nat × List (K × K × K) => (e.1, e.2.map (fun r => (r.1, s * r.2.1, r.2.2)))) d : Dict Nat _) 0 =
        (Dict.get d 0).map (List.map (fun r => (r.1, s * r.2.1, r.2.2))) := by
      induction d with
      | nil => rfl
      | cons e d ih =>
        by_cases he : e.1 = 0
        · simp [Dict.get, List.find?, he]
        · simpa [Dict.get, List.find?, he] using ih
    dsimp only
    rw [this]
    cases Dict.get d 0 with
    | none => rfl
    | some rows =>
      simp only [Option.map_some, Except.map, List.map_map]
      rfl

/-- C258: the ratio of two spectra. -/
theorem C258_ratio {s : K} (hs : s ≠ 0) (t1 t2 : McnpOutput.Tally K) :
    McnpPlots.plotSpectraRatio { t1 with result := timesRes s t1.result } { t2 with result := timesRes s t2.result } =
      McnpPlots.plotSpectraRatio t1 t2 := by
  unfold McnpPlots.plotSpectraRatio
  dsimp only
  rw [first_times, first_times]
  cases McnpPlots.firstResult t1.result with
  | error e => rfl
  | ok a =>
    cases McnpPlots.firstResult t2.result with
    | error e => rfl
    | ok b =>
      simp only [Except.map, ex_ok_bind]
      rw [div_times hs]

/-- C258: where a curve is cut off. -/
theorem C258_cut {T : Type} {s : K} (hs : s ≠ 0) (values : List K) (times : List T) :
    FispactAnalysis.reduceToNonZero (values.map (s * ·)) times =
      (FispactAnalysis.reduceToNonZero values times).map (fun r => (r.1.map (s * ·), r.2)) := by
  have gen : ∀ (l : List K) n, ((((l.map (s * ·)).zipIdx n).filter (fun e => decide (e.1 = 0))).map (·.2)) =
      (((l.zipIdx n).filter (fun e => decide (e.1 = 0))).map (·.2)) := by
    intro l
    induction l with
    | nil => intro n; rfl
    | cons x l ih =>
      intro n
      simp only [List.map_cons, List.zipIdx_cons, List.filter_cons, mul_eq_zero, hs, false_or]
      split_ifs <;> simp [ih]
  have e : NeutUtilities.findFirstZero (values.map (s * ·)) = NeutUtilities.findFirstZero values := by
    unfold NeutUtilities.findFirstZero
    rw [gen]
  unfold FispactAnalysis.reduceToNonZero
  rw [e]
  simp only [List.length_map]
  split_ifs
  · rfl
  · cases NeutUtilities.findFirstZero values with
    | none => rfl
    | some z => simp [Except.map, List.map_take]

/-! ### Samples -/

private def exScale : Mesh ℚ (Frame ℚ) :=
  ⟨none, none, [.num 0, .num 1, .num 2], [.num 0, .num 1], [.num 0, .num 1], [.num 0, .num 1], [], ⟨.e6, [(0, ⟨some 1, some (1 / 2), some (1 / 2), some (1 / 2),
    some 7, some (1 / 10)⟩), (1, ⟨some 1, some (3 / 2), some (1 / 2), some (1 / 2), some 0, some 0⟩)]⟩, [1 / 2, 3 / 2], [1 / 2], [1 / 2], some .e6⟩

example : pickPoint (1 / 2) (1 / 2) (1 / 2) exScale none none = .ok [some 7] ∧
    pickPoint (1 / 2) (1 / 2) (1 / 2) (timesMesh 3 exScale) none none = .ok [some 21] := by
  constructor <;> decide +kernel

example : extractLine exScale (0, 0, 0) (2, 0, 0) none none = .ok [some 7, some 0] := by decide +kernel

example : (extractSlice exScale (1 / 2) p!"YZ" none none).map (fun s => (s.values, s.errors)) = .ok ([[some 7]], [[some (1 / 10)]]) := by
  decide +kernel

example : (addMesh (fun _ => none) id exScale exScale).isOk = true ∧ upperVals exScale.data = [some (77 / 10), some 0] ∧
    countZeros exScale.data = .ok 1 ∧ (convertTo3dArray exScale).isOk = true :=
  ⟨by decide +kernel, by decide +kernel, by decide +kernel, by with_unfolding_all rfl⟩

example : McnpAnalysis.findPeakTime (1 : ℚ) [1, 2] [10, 20] [[3, 5], [4, 1]] = .ok 20 := by decide +kernel

example : Magic.normaliseMesh true ([1, 2, 4] : List ℚ) = .ok [some (1 / 8), some (1 / 4), some (1 / 2)] := by decide +kernel

example : SameShare (3 : ℚ) p!"heat" ⟨[(p!"heat", [1, 2]), (p!"heat_percent", [30, 60])], [(p!"heat_nuc", [p!"H1", p!"Fe56"])]⟩
    ⟨[(p!"heat", [3, 6]), (p!"heat_percent", [30, 60])], [(p!"heat_nuc", [p!"H1", p!"Fe56"])]⟩ :=
  ⟨rfl, by decide +kernel, by decide +kernel⟩

example : FispactAnalysis.reduceToNonZero ([1, 2, 0, 3] : List ℚ) [10, 20, 30, 40] = .ok ([1, 2], [10, 20]) := by decide +kernel

end Props
