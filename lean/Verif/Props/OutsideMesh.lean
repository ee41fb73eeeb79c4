/-
C307: places, energies and times outside a mesh.
-/
import Verif.Props.LookupOrder
import Verif.Proofs.Except

set_option linter.unusedSectionVars false

namespace Props
open Py Meshtal
variable {K : Type} [Field K] [LinearOrder K] [IsStrictOrderedRing K] [FloorRing K]

/-- The place `v` lies behind the last mid point `c`, or in front of the first one. -/
def BeyondMid (v : K) (mids : List K) (c : K) : Prop :=
  c ∈ mids ∧ ((∀ a ∈ mids, a ≤ c) ∧ c ≤ v ∨ (∀ a ∈ mids, c ≤ a) ∧ v ≤ c)

private theorem beyond_mid {v c : K} {mids : List K} (h : BeyondMid v mids c) : findNearestMid v mids = findNearestMid c mids := by
  obtain ⟨hc, h⟩ := h
  have e := (C53_nearest c mids).2.2 hc
  obtain ⟨i, r, hr, hn⟩ := (C53_nearest v mids).1 (List.ne_nil_of_mem hc)
  have hm := List.mem_of_getElem? hn.1
  rw [hr, e]
  rcases h with ⟨h1, h2⟩ | ⟨h1, h2⟩
  · exact congrArg _ (le_antisymm (h1 r hm) (C292_order h2 e hr))
  · exact congrArg _ (le_antisymm (C292_order h2 hr e) (h1 r hm))

/-- C307 is violated: a point outside the mesh gets the value of the outermost voxel, however far away it is. -/
theorem C307_point_violated (m : Mesh K (Frame K)) {x y z cx cy cz : K} (hx : x = cx ∨ BeyondMid x m.xM cx) (hy : y = cy ∨ BeyondMid y m.yM cy)
    (hz : z = cz ∨ BeyondMid z m.zM cz) (erg time : Option K) : pickPoint x y z m erg time = pickPoint cx cy cz m erg time := by
  have ex : findNearestMid x m.xM = findNearestMid cx m.xM := by rcases hx with rfl | h; exacts [rfl, beyond_mid h]
  have ey : findNearestMid y m.yM = findNearestMid cy m.yM := by rcases hy with rfl | h; exacts [rfl, beyond_mid h]
  have ez : findNearestMid z m.zM = findNearestMid cz m.zM := by rcases hz with rfl | h; exacts [rfl, beyond_mid h]
  unfold pickPoint
  rw [ex, ey, ez]

/-- C307 is violated: a plane outside the mesh gives the outermost slice. -/
theorem C307_slice_violated (m : Mesh K (Frame K)) {plane : Str} {i j ax : Axis} (hp : planeAxes plane = .ok (i, j, ax)) {v c : K}
    (h : BeyondMid v (m.mids ax) c) (erg time : Option K) : extractSlice m v plane erg time = extractSlice m c plane erg time := by
  unfold extractSlice
  simp only [hp, ex_ok_bind, beyond_mid h]

/-- C307 is violated: a line outside the mesh gives the values of a line inside, here for lines along z. -/
theorem C307_line_violated (m : Mesh K (Frame K)) {x y z z' cx cy : K} (hx : x = cx ∨ BeyondMid x m.xM cx) (hy : y = cy ∨ BeyondMid y m.yM cy)
    (erg time : Option K) : extractLine m (x, y, z) (x, y, z') erg time = extractLine m (cx, cy, z) (cx, cy, z') erg time := by
  have ex : findNearestMid x m.xM = findNearestMid cx m.xM := by rcases hx with rfl | h; exacts [rfl, beyond_mid h]
  have ey : findNearestMid y m.yM = findNearestMid cy m.yM := by rcases hy with rfl | h; exacts [rfl, beyond_mid h]
  unfold extractLine
  simp only [if_true, ex, ey]

/-- C307 (part that holds): for an energy, other than 0, that is not close to any energy of the mesh no value is returned, so the caller
    notices. Missing: places (`C307_point_violated` and the other theorems) and the energy 0 (C55). -/
theorem C307_energy_partial (m : Mesh K (Frame K)) (hk : m.data.kind = .e6) {v : K} (hv : v ≠ 0) (hno : ∀ r ∈ m.data.rows, ¬ CloseTo v r.2.et)
    (x y z : K) {out : List (Option K)} (h : pickPoint x y z m (some v) none = .ok out) : out = [] := by
  unfold pickPoint filterEnergyTime filterOne at h
  obtain ⟨cx, _, h⟩ := ex_bind_ok.1 h
  obtain ⟨cy, _, h⟩ := ex_bind_ok.1 h
  obtain ⟨cz, _, h⟩ := ex_bind_ok.1 h
  simp only [Frame.keep, hk, if_neg hv, if_true, ex_ok_bind, ex_pure, Except.ok.injEq] at h
  subst h
  rw [List.map_eq_nil_iff, List.filter_eq_nil_iff]
  intro r hr hc
  exact hno r (List.mem_of_mem_filter (List.mem_of_mem_filter (List.mem_of_mem_filter hr))) ((closeTo_iff v r.2.et).1 hc)

/-- C307 (part that holds): the same for a time. -/
theorem C307_time_partial (m : Mesh K (Frame K)) (hk : m.data.kind = .t6) {v : K} (hv : v ≠ 0) (hno : ∀ r ∈ m.data.rows, ¬ CloseTo v r.2.et)
    (x y z : K) {out : List (Option K)} (h : pickPoint x y z m none (some v) = .ok out) : out = [] := by
  unfold pickPoint filterEnergyTime filterOne at h
  obtain ⟨cx, _, h⟩ := ex_bind_ok.1 h
  obtain ⟨cy, _, h⟩ := ex_bind_ok.1 h
  obtain ⟨cz, _, h⟩ := ex_bind_ok.1 h
  simp only [Frame.keep, hk, if_neg hv, if_true, ex_ok_bind, ex_pure, Except.ok.injEq] at h
  subst h
  rw [List.map_eq_nil_iff, List.filter_eq_nil_iff]
  intro r hr hc
  exact hno r (List.mem_of_mem_filter (List.mem_of_mem_filter (List.mem_of_mem_filter hr))) ((closeTo_iff v r.2.et).1 hc)

/-- A place a million units behind the last mid point. -/
example : BeyondMid (1000000 : ℚ) [1, 2, 3] 3 ∧ BeyondMid (-7 : ℚ) [1, 2, 3] 1 := by
  refine ⟨⟨by simp, .inl ⟨?_, by norm_num⟩⟩, ⟨by simp, .inr ⟨?_, by norm_num⟩⟩⟩ <;> intro a ha <;> simp at ha <;> rcases ha with rfl | rfl | rfl <;> norm_num

example : ¬ CloseTo (7 : ℚ) (some 5) := by
  rintro ⟨a, ha, hc⟩
  simp only [Option.some.injEq] at ha
  subst ha
  unfold Agrees at hc
  norm_num at hc

end Props
