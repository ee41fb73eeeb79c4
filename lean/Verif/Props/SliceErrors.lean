/- Property C56 for all complete meshes: what becomes of the relative errors of a slice (meshtal_analysis.py). -/
import Verif.Props.MeshtalAnalysis
import Verif.Proofs.Except

set_option linter.unusedSectionVars false
set_option linter.unusedSimpArgs false

namespace Props
open Py Meshtal
variable {K : Type} [Field K] [LinearOrder K] [IsStrictOrderedRing K] [FloorRing K]

/-- The plane of a complete mesh: mid points along its two directions and of the direction across, and the row of the voxel at `(a, b)` in
    the plane at `at'`. -/
inductive InPlane (m : Mesh K (Frame K)) (row : K → K → K → MRow K) (at' : K) : Str → List K → List K → List K → (K → K → MRow K) → Prop
  | xz : InPlane m row at' p!"XZ" m.xM m.zM m.yM (fun a b => row a at' b)
  | xy : InPlane m row at' p!"XY" m.xM m.yM m.zM (fun a b => row a b at')
  | yz : InPlane m row at' p!"YZ" m.yM m.zM m.xM (fun a b => row at' a b)

/-- The rows of a plane. -/
private def grid2 (I J : List K) (r : K → K → MRow K) : List (MRow K) := I.flatMap (fun a => J.map (fun b => r a b))

private theorem flatMap_single {α β : Type} (l : List α) (f : α → β) : l.flatMap (fun a => [f a]) = l.map f := by
  induction l with
  | nil => rfl
  | cons a l ih => rw [List.flatMap_cons, ih]; rfl

private theorem line_none {J : List K} {r : K → MRow K} {coord : MRow K → Option K} (hr : ∀ b, coord (r b) = some b) {c : K} (hc : c ∉ J) :
    (J.map r).filter (fun q => decide (coord q = some c)) = [] := by
  rw [List.filter_eq_nil_iff]
  intro q hq
  obtain ⟨b, hb, rfl⟩ := List.mem_map.1 hq
  rw [hr b]
  simp only [Option.some.injEq, decide_eq_true_eq]
  rintro rfl
  exact hc hb

private theorem line_one {J : List K} {r : K → MRow K} {coord : MRow K → Option K} (hr : ∀ b, coord (r b) = some b) (hJ : J.Nodup) {c : K}
    (hc : c ∈ J) : (J.map r).filter (fun q => decide (coord q = some c)) = [r c] := by
  rw [← flatMap_single, filter_flatMap_key J (fun b => [r b]) _ c hJ hc]
  intro a _ b hb
  simp only [List.mem_singleton] at hb
  subst hb
  simp [hr a]

private theorem grid2_i {I J : List K} {r : K → K → MRow K} {coord : MRow K → Option K} (hr : ∀ a b, coord (r a b) = some a) (hI : I.Nodup)
    {c : K} (hc : c ∈ I) : (grid2 I J r).filter (fun q => decide (coord q = some c)) = J.map (fun b => r c b) := by
  unfold grid2
  rw [filter_flatMap_key I _ _ c hI hc]
  intro a _ b hb
  obtain ⟨y, _, rfl⟩ := List.mem_map.1 hb
  simp [hr a y]

private theorem grid2_j {I J : List K} {r : K → K → MRow K} {coord : MRow K → Option K} (hr : ∀ a b, coord (r a b) = some b) (hJ : J.Nodup)
    (c : K) : (grid2 I J r).filter (fun q => decide (coord q = some c)) = if c ∈ J then I.map (fun a => r a c) else [] := by
  unfold grid2
  rw [filter_flatMap]
  by_cases hc : c ∈ J
  · rw [if_pos hc, ← flatMap_single]
    congr 1
    funext a
    exact line_one (hr a) hJ hc
  · rw [if_neg hc, List.flatMap_eq_nil_iff]
    intro a _
    exact line_none (hr a) hc

/-- The columns of a slice. -/
private theorem slice_eq {m : Mesh K (Frame K)} {erg time : Option K} {f : Frame K} {row : K → K → K → MRow K}
    (hf : filterEnergyTime m.data erg time = .ok f) (hgrid : f.rows.map (·.2) = gridRows m.xM m.yM m.zM row)
    (hr : HasCoords row) (hx : m.xM.Nodup) (hy : m.yM.Nodup) (hz : m.zM.Nodup) {value at' : K} {plane : Str} {I J V : List K}
    {r : K → K → MRow K} (hp : InPlane m row at' plane I J V r) (hv : findNearestMid value V = .ok at') :
    extractSlice m value plane erg time = (do
      let values ← arrayT (I.map (fun c => J.map (fun b => (r c b).value)))
      let errors ← arrayT (I.map (fun c => if c ∈ J then I.map (fun a => (r a c).err) else []))
      pure ⟨I, J, at', values, errors⟩) := by
  have mem : at' ∈ V := by
    obtain ⟨i, r', h', hi, _⟩ := (C53_nearest value V).1 (by rintro rfl; simp [findNearestMid] at hv)
    rw [h'] at hv
    injection hv with hv
    subst hv
    exact List.mem_of_getElem? hi
  have gen : ∀ (i j v : Axis), planeAxes plane = .ok (i, j, v) → m.mids i = I → m.mids j = J → m.mids v = V → I.Nodup → J.Nodup →
      (∀ a b, (r a b).coord i = some a ∧ (r a b).coord j = some b) →
      (gridRows m.xM m.yM m.zM row).filter (fun q => decide (q.coord v = some at')) = grid2 I J r →
      extractSlice m value plane erg time = (do
        let values ← arrayT (I.map (fun c => J.map (fun b => (r c b).value)))
        let errors ← arrayT (I.map (fun c => if c ∈ J then I.map (fun a => (r a c).err) else []))
        pure ⟨I, J, at', values, errors⟩) := by
    intro i j v hpl hi hj hvv hI hJ hco hfil
    have hrows : ((f.keep (fun r => decide (r.coord v = some at'))).rows.map (·.2)) = grid2 I J r := by
      rw [keep_rows, ← hfil, ← hgrid, List.filter_map]
      rfl
    unfold extractSlice
    rw [hf, hpl]
    simp only [ex_ok_bind]
    rw [hvv, hv, ex_ok_bind, hrows, hi, hj]
    have h1 : I.map (fun c => ((grid2 I J r).filter (fun q => decide (q.coord i = some c))).map (·.value)) =
        I.map (fun c => J.map (fun b => (r c b).value)) := by
      apply List.map_congr_left
      intro c hc
      rw [grid2_i (coord := fun q => q.coord i) (fun a b => (hco a b).1) hI hc, List.map_map]
      rfl
    have h2 : I.map (fun c => ((grid2 I J r).filter (fun q => decide (q.coord j = some c))).map (·.err)) =
        I.map (fun c => if c ∈ J then I.map (fun a => (r a c).err) else []) := by
      apply List.map_congr_left
      intro c hc
      rw [grid2_j (coord := fun q => q.coord j) (fun a b => (hco a b).2) hJ c]
      split
      · rw [List.map_map]; rfl
      · rfl
    rw [h1, h2]
  cases hp with
  | xz =>
    refine gen .x .z .y rfl rfl rfl rfl hx hz (fun a b => ⟨(hr a at' b).1, (hr a at' b).2.2⟩) ?_
    unfold gridRows grid2
    rw [filter_flatMap]
    congr 1
    funext x
    exact plane_y (fun y z => (hr x y z).2.1) hy mem
  | xy =>
    refine gen .x .y .z rfl rfl rfl rfl hx hy (fun a b => ⟨(hr a b at').1, (hr a b at').2.1⟩) ?_
    unfold gridRows grid2
    rw [filter_flatMap]
    congr 1
    funext x
    rw [filter_flatMap, ← flatMap_single]
    congr 1
    funext y
    exact line_z (fun z => (hr x y z).2.2) hz mem
  | yz =>
    refine gen .y .z .x rfl rfl rfl rfl hy hz (fun a b => ⟨(hr at' a b).2.1, (hr at' a b).2.2⟩) ?_
    exact grid_x hr hx mem

/-- Where the two directions of the plane share all mid points, the array of errors is that of the transposed plane: its entry at
    `(a, c)` belongs to the voxel whose value stands at `(c, a)`. -/
theorem C56_transposed_violated {m : Mesh K (Frame K)} {erg time : Option K} {f : Frame K} {row : K → K → K → MRow K}
    (hf : filterEnergyTime m.data erg time = .ok f) (hgrid : f.rows.map (·.2) = gridRows m.xM m.yM m.zM row)
    (hr : HasCoords row) (hx : m.xM.Nodup) (hy : m.yM.Nodup) (hz : m.zM.Nodup) {value at' : K} {plane : Str} {I J V : List K}
    {r : K → K → MRow K} (hp : InPlane m row at' plane I J V r) (hv : findNearestMid value V = .ok at') (hne : I ≠ [])
    (hIJ : ∀ c ∈ I, c ∈ J) :
    extractSlice m value plane erg time = .ok ⟨I, J, at', J.map (fun b => I.map (fun a => (r a b).value)),
      I.map (fun a => I.map (fun c => (r a c).err))⟩ := by
  rw [slice_eq hf hgrid hr hx hy hz hp hv, arrayT_grid _ _ _ hne, ex_ok_bind]
  have : I.map (fun c => if c ∈ J then I.map (fun a => (r a c).err) else []) = I.map (fun c => I.map (fun a => (r a c).err)) := by
    apply List.map_congr_left
    intro c hc
    rw [if_pos (hIJ c hc)]
  rw [this, arrayT_grid I I (fun c a => (r a c).err) hne, ex_ok_bind]
  rfl

private theorem arrayT_nils (n : Nat) : arrayT (List.replicate n ([] : List (Option K))) = .ok [] := by
  cases n with
  | zero => rfl
  | succ n =>
    rw [List.replicate_succ]
    rw [arrayT, if_pos (by simp)]
    rfl

/-- Where they share no mid point, the array of errors is empty. -/
theorem C56_no_errors_violated {m : Mesh K (Frame K)} {erg time : Option K} {f : Frame K} {row : K → K → K → MRow K}
    (hf : filterEnergyTime m.data erg time = .ok f) (hgrid : f.rows.map (·.2) = gridRows m.xM m.yM m.zM row)
    (hr : HasCoords row) (hx : m.xM.Nodup) (hy : m.yM.Nodup) (hz : m.zM.Nodup) {value at' : K} {plane : Str} {I J V : List K}
    {r : K → K → MRow K} (hp : InPlane m row at' plane I J V r) (hv : findNearestMid value V = .ok at') (hne : I ≠ [])
    (hIJ : ∀ c ∈ I, c ∉ J) :
    extractSlice m value plane erg time = .ok ⟨I, J, at', J.map (fun b => I.map (fun a => (r a b).value)), []⟩ := by
  rw [slice_eq hf hgrid hr hx hy hz hp hv, arrayT_grid _ _ _ hne, ex_ok_bind]
  have : I.map (fun c => if c ∈ J then I.map (fun a => (r a c).err) else []) = List.replicate I.length [] := by
    rw [List.eq_replicate_iff]
    refine ⟨by simp, ?_⟩
    intro l hl
    obtain ⟨c, hc, rfl⟩ := List.mem_map.1 hl
    rw [if_neg (hIJ c hc)]
  rw [this, arrayT_nils, ex_ok_bind]
  rfl

/-- Where they share some but not all, there is no slice at all: the call raises ValueError. -/
theorem C56_ragged_violated {m : Mesh K (Frame K)} {erg time : Option K} {f : Frame K} {row : K → K → K → MRow K}
    (hf : filterEnergyTime m.data erg time = .ok f) (hgrid : f.rows.map (·.2) = gridRows m.xM m.yM m.zM row)
    (hr : HasCoords row) (hx : m.xM.Nodup) (hy : m.yM.Nodup) (hz : m.zM.Nodup) {value at' : K} {plane : Str} {I J V : List K}
    {r : K → K → MRow K} (hp : InPlane m row at' plane I J V r) (hv : findNearestMid value V = .ok at')
    (h1 : ∃ c ∈ I, c ∈ J) (h2 : ∃ c ∈ I, c ∉ J) : extractSlice m value plane erg time = .error .ValueError := by
  obtain ⟨c1, hc1, hj1⟩ := h1
  obtain ⟨c2, hc2, hj2⟩ := h2
  have hne : I ≠ [] := List.ne_nil_of_mem hc1
  rw [slice_eq hf hgrid hr hx hy hz hp hv, arrayT_grid _ _ _ hne, ex_ok_bind]
  have key : arrayT (I.map (fun c => if c ∈ J then I.map (fun a => (r a c).err) else [])) = .error .ValueError := by
    have hm1 : I.map (fun a => (r a c1).err) ∈ I.map (fun c => if c ∈ J then I.map (fun a => (r a c).err) else []) :=
      List.mem_map.2 ⟨c1, hc1, by rw [if_pos hj1]⟩
    have hm2 : [] ∈ I.map (fun c => if c ∈ J then I.map (fun a => (r a c).err) else []) :=
      List.mem_map.2 ⟨c2, hc2, by rw [if_neg hj2]⟩
    generalize I.map (fun c => if c ∈ J then I.map (fun a => (r a c).err) else []) = cols at hm1 hm2
    cases cols with
    | nil => simp at hm1
    | cons d ds =>
      rw [arrayT, if_neg]
      intro hall
      have hlen : ∀ l ∈ d :: ds, l.length = d.length := by
        intro l hl
        rcases List.mem_cons.1 hl with rfl | hl
        · rfl
        · simpa using List.all_eq_true.1 hall l hl
      have e1 := hlen _ hm1
      have e2 := hlen _ hm2
      rw [← e2] at e1
      simp only [List.length_map, List.length_nil, List.length_eq_zero_iff] at e1
      exact hne e1
  rw [key]; rfl

/-- The slice with values and errors of its plane is what is returned only if no error changes when the two directions are exchanged. -/
theorem C56_right_only_if_symmetric {m : Mesh K (Frame K)} {erg time : Option K} {f : Frame K} {row : K → K → K → MRow K}
    (hf : filterEnergyTime m.data erg time = .ok f) (hgrid : f.rows.map (·.2) = gridRows m.xM m.yM m.zM row)
    (hr : HasCoords row) (hx : m.xM.Nodup) (hy : m.yM.Nodup) (hz : m.zM.Nodup) {value at' : K} {plane : Str} {I J V : List K}
    {r : K → K → MRow K} (hp : InPlane m row at' plane I J V r) (hv : findNearestMid value V = .ok at') (hne : I ≠ []) (hJ : J ≠ []) :
    extractSlice m value plane erg time = .ok ⟨I, J, at', J.map (fun b => I.map (fun a => (r a b).value)),
      J.map (fun b => I.map (fun a => (r a b).err))⟩ ↔
    (∀ c ∈ I, c ∈ J) ∧ J.map (fun b => I.map (fun a => (r a b).err)) = I.map (fun a => I.map (fun c => (r a c).err)) := by
  by_cases h1 : ∀ c ∈ I, c ∈ J
  · rw [C56_transposed_violated hf hgrid hr hx hy hz hp hv hne h1]
    simp only [Except.ok.injEq, Slice.mk.injEq, true_and]
    exact ⟨fun h => ⟨h1, h.symm⟩, fun h => h.2.symm⟩
  · refine ⟨fun h => ?_, fun h => absurd h.1 h1⟩
    exfalso
    by_cases h2 : ∃ c ∈ I, c ∈ J
    · push Not at h1
      rw [C56_ragged_violated hf hgrid hr hx hy hz hp hv h2 h1] at h
      cases h
    · push Not at h2
      rw [C56_no_errors_violated hf hgrid hr hx hy hz hp hv hne h2] at h
      simp only [Except.ok.injEq, Slice.mk.injEq, true_and] at h
      have := congrArg List.length h
      simp only [List.length_nil, List.length_map] at this
      exact hJ (List.length_eq_zero_iff.1 this.symm)

/-- A mesh with other mid points in each direction, and one where x and z share one of two. -/
private def gridOf (xs ys zs : List ℚ) : Mesh ℚ (Frame ℚ) :=
  ⟨some 4, none, [], [], [], [], [],
    ⟨.e6, (gridRows xs ys zs (fun x y z => ⟨some 1, some x, some y, some z, some (10 * x + z), some (x + 2 * z)⟩)).zipIdx.map (fun e => (e.2, e.1))⟩,
    xs, ys, zs, some .e6⟩

example : extractSlice (gridOf [0, 1] [5] [3, 4, 7]) 5 p!"XZ" none none =
    .ok ⟨[0, 1], [3, 4, 7], 5, [[some 3, some 13], [some 4, some 14], [some 7, some 17]], []⟩ := by decide +kernel
example : extractSlice (gridOf [0, 1] [5] [1, 2]) 5 p!"XZ" none none = .error .ValueError := by decide +kernel
example : InPlane exGrid (fun x y z => ⟨some 1, some x, some y, some z, some (10 * x + z), some (x + 2 * z)⟩) 5 p!"XZ" [0, 1] [0, 1] [5]
    (fun a b => ⟨some 1, some a, some 5, some b, some (10 * a + b), some (a + 2 * b)⟩) := .xz

end Props
