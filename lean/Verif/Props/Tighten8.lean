/- Further parts of C52 and C66: bounds given as numbers, and a single bound. -/
import Verif.Proofs.Except
import Verif.Props.MeshtalAnalysis

set_option linter.unusedSectionVars false

namespace Props
open Py Meshtal
variable {K : Type} [Field K] [LinearOrder K] [IsStrictOrderedRing K]

/-- C66: a single bound has no spacing: IndexError. -/
theorem C66_single (flt : Str → Option K) (bounds : List (Bnd K)) (b0 : K) (h : Denotes flt bounds [b0]) :
    checkUniform flt bounds = .error .IndexError := by
  unfold Denotes at h
  cases h with
  | @cons t _ _ _ h1 h2 =>
    cases h2
    cases t with
    | num y => rfl
    | str s =>
      simp only at h1
      simp only [checkUniform, List.mapM_cons, List.mapM_nil, Bnd.toF, h1]
      rfl

private theorem foldl_min_le (l : List K) : ∀ x : K, l.foldl min x ≤ x ∧ (∀ y ∈ l, l.foldl min x ≤ y) ∧ l.foldl min x ∈ x :: l := by
  induction l with
  | nil => intro x; simp
  | cons a l ih =>
    intro x
    obtain ⟨h1, h2, h3⟩ := ih (min x a)
    simp only [List.foldl_cons]
    refine ⟨h1.trans (min_le_left _ _), ?_, ?_⟩
    · intro y hy
      rcases List.mem_cons.1 hy with rfl | hy
      · exact h1.trans (min_le_right _ _)
      · exact h2 y hy
    · rcases List.mem_cons.1 h3 with h | h
      · rw [h]; rcases min_choice x a with h | h <;> rw [h] <;> simp
      · simp [h]

private theorem le_foldl_max (l : List K) : ∀ x : K, x ≤ l.foldl max x ∧ (∀ y ∈ l, y ≤ l.foldl max x) ∧ l.foldl max x ∈ x :: l := by
  induction l with
  | nil => intro x; simp
  | cons a l ih =>
    intro x
    obtain ⟨h1, h2, h3⟩ := ih (max x a)
    simp only [List.foldl_cons]
    refine ⟨(le_max_left _ _).trans h1, ?_, ?_⟩
    · intro y hy
      rcases List.mem_cons.1 hy with rfl | hy
      · exact (le_max_right _ _).trans h1
      · exact h2 y hy
    · rcases List.mem_cons.1 h3 with h | h
      · rw [h]; rcases max_choice x a with h | h <;> rw [h] <;> simp
      · simp [h]

private theorem allNum_map (b : List K) : allNum (b.map Bnd.num) = some b := by
  unfold allNum
  induction b with
  | nil => rfl
  | cons a b ih => rw [List.map_cons, List.mapM_cons, ih]; rfl

/-- The numbers `b` extend from `lo` to `hi`. -/
structure Extends (b : List K) (lo hi : K) : Prop where
  lo_mem : lo ∈ b
  hi_mem : hi ∈ b
  between : ∀ x ∈ b, lo ≤ x ∧ x ≤ hi

private theorem extent (b : List K) (lo hi : K) (h : Extends b lo hi) :
    axisExtent (b.map Bnd.num) = if lo = 0 then .ok (hi - lo) else .error .ValueError := by
  unfold axisExtent
  rw [allNum_map]
  cases b with
  | nil => exact absurd h.lo_mem (by simp)
  | cons x xs =>
    obtain ⟨a1, a2, a3⟩ := foldl_min_le xs x
    obtain ⟨b1, b2, b3⟩ := le_foldl_max xs x
    have hmin : xs.foldl min x = lo := by
      refine le_antisymm ?_ (h.between _ a3).1
      rcases List.mem_cons.1 h.lo_mem with h' | h'
      · rw [h']; exact a1
      · exact a2 _ h'
    have hmax : xs.foldl max x = hi := by
      refine le_antisymm (h.between _ b3).2 ?_
      rcases List.mem_cons.1 h.hi_mem with h' | h'
      · rw [h']; exact b1
      · exact b2 _ h'
    simp only [hmin, hmax]
    by_cases h0 : lo = 0
    · rw [if_pos h0, if_pos h0, h0, sub_zero, abs_of_nonneg (by rw [← h0]; exact (h.between _ h.hi_mem).1)]
    · rw [if_neg h0, if_neg h0]

private theorem notUniform {D : Type} (flt : Str → Option K) (m : Mesh K D) (ux uy uz : Bool) (hx : checkUniform flt m.xB = .ok ux)
    (hy : checkUniform flt m.yB = .ok uy) (hz : checkUniform flt m.zB = .ok uz) (hu : ¬ (ux = true ∧ uy = true ∧ uz = true)) :
    voxelUniformVolume flt m = voxelAverageVolume m := by
  have : allUniform flt m = .ok false := by
    unfold allUniform
    rw [hx, hy, hz]
    cases ux <;> cases uy <;> cases uz <;> first | rfl | exact absurd ⟨rfl, rfl, rfl⟩ hu
  unfold voxelUniformVolume
  rw [this]; rfl

/-- C52 (part that holds): bounds given as numbers that start at 0 in all directions, not equally spaced in all of them: the volume of the
    whole mesh divided by the number of voxels. -/
theorem C52_average_partial {D : Type} (flt : Str → Option K) (m : Mesh K D) (x y z : List K) (X Y Z : K) (ux uy uz : Bool)
    (ex : m.xB = x.map .num) (ey : m.yB = y.map .num) (ez : m.zB = z.map .num)
    (hX : Extends x 0 X) (hY : Extends y 0 Y) (hZ : Extends z 0 Z)
    (hx : checkUniform flt m.xB = .ok ux) (hy : checkUniform flt m.yB = .ok uy) (hz : checkUniform flt m.zB = .ok uz)
    (hu : ¬ (ux = true ∧ uy = true ∧ uz = true)) (hn : m.xM ≠ [] ∧ m.yM ≠ [] ∧ m.zM ≠ []) :
    voxelUniformVolume flt m = .ok (some (X * Y * Z / ((m.xM.length * m.yM.length * m.zM.length : Nat) : K))) := by
  rw [notUniform flt m ux uy uz hx hy hz hu]
  unfold voxelAverageVolume
  rw [ex, ey, ez, extent _ _ _ hX, extent _ _ _ hY, extent _ _ _ hZ]
  have h0 : numberVoxels m ≠ 0 := by
    simp only [numberVoxels, ne_eq, mul_eq_zero, List.length_eq_zero_iff, not_or]
    exact ⟨⟨hn.1, hn.2.1⟩, hn.2.2⟩
  simp only [if_true, ex_ok_bind, if_neg h0, sub_zero]
  rfl

/-- C52 (violated): bounds given as numbers, not equally spaced in all directions, with an axis that does not start at 0: always ValueError. -/
theorem C52_numbers_violated {D : Type} (flt : Str → Option K) (m : Mesh K D) (x y z : List K) (x0 y0 z0 X Y Z : K) (ux uy uz : Bool)
    (ex : m.xB = x.map .num) (ey : m.yB = y.map .num) (ez : m.zB = z.map .num)
    (hX : Extends x x0 X) (hY : Extends y y0 Y) (hZ : Extends z z0 Z)
    (hx : checkUniform flt m.xB = .ok ux) (hy : checkUniform flt m.yB = .ok uy) (hz : checkUniform flt m.zB = .ok uz)
    (hu : ¬ (ux = true ∧ uy = true ∧ uz = true)) (h0 : ¬ (x0 = 0 ∧ y0 = 0 ∧ z0 = 0)) :
    voxelUniformVolume flt m = .error .ValueError := by
  rw [notUniform flt m ux uy uz hx hy hz hu]
  unfold voxelAverageVolume
  rw [ex, ey, ez, extent _ _ _ hX, extent _ _ _ hY, extent _ _ _ hZ]
  by_cases a : x0 = 0
  · by_cases b : y0 = 0
    · have c : z0 ≠ 0 := fun c => h0 ⟨a, b, c⟩
      simp only [if_pos a, if_pos b, if_neg c]; rfl
    · simp only [if_pos a, if_neg b]; rfl
  · simp only [if_neg a]; rfl

/-- C52 (violated): such a mesh whose mid points were not calculated has no average volume, only infinity or NaN. -/
theorem C52_no_mids_violated {D : Type} (flt : Str → Option K) (m : Mesh K D) (x y z : List K) (X Y Z : K) (ux uy uz : Bool)
    (ex : m.xB = x.map .num) (ey : m.yB = y.map .num) (ez : m.zB = z.map .num)
    (hX : Extends x 0 X) (hY : Extends y 0 Y) (hZ : Extends z 0 Z)
    (hx : checkUniform flt m.xB = .ok ux) (hy : checkUniform flt m.yB = .ok uy) (hz : checkUniform flt m.zB = .ok uz)
    (hu : ¬ (ux = true ∧ uy = true ∧ uz = true)) (hn : m.xM = [] ∨ m.yM = [] ∨ m.zM = []) :
    voxelUniformVolume flt m = .ok none := by
  rw [notUniform flt m ux uy uz hx hy hz hu]
  unfold voxelAverageVolume
  rw [ex, ey, ez, extent _ _ _ hX, extent _ _ _ hY, extent _ _ _ hZ]
  have h0 : numberVoxels m = 0 := by
    simp only [numberVoxels, mul_eq_zero, List.length_eq_zero_iff]
    tauto
  simp only [if_true, ex_ok_bind, if_pos h0]
  rfl

/-- C52 (violated): a mesh without bounds on its first axis raises ValueError. -/
theorem C52_no_bounds_violated {D : Type} (flt : Str → Option K) (m : Mesh K D) (h : m.xB = []) :
    voxelUniformVolume flt m = .error .ValueError := by
  have : allUniform flt m = .ok false := by unfold allUniform; rw [h]; rfl
  unfold voxelUniformVolume voxelAverageVolume
  rw [this, h]; rfl

private def handMesh (x : List (Bnd ℚ)) : Mesh ℚ Unit :=
  ⟨none, none, x, [.num 0, .num 1], [.num 0, .num 2], [], [], (), [1 / 2, 2], [1 / 2], [1], none⟩

example : voxelUniformVolume meshFlt (handMesh [.num 0, .num 1, .num 3]) = .ok (some 3) := by
  have h := C52_average_partial meshFlt (handMesh [.num 0, .num 1, .num 3]) [0, 1, 3] [0, 1] [0, 2] 3 1 2 false true true rfl rfl rfl
    ⟨by decide, by decide, by decide +kernel⟩ ⟨by decide, by decide, by decide +kernel⟩ ⟨by decide, by decide, by decide +kernel⟩
    (by decide +kernel) (by decide +kernel) (by decide +kernel) (by decide) (by decide)
  rw [h]
  norm_num [handMesh]

example : voxelUniformVolume meshFlt (handMesh [.num 1, .num 2, .num 4]) = .error .ValueError :=
  C52_numbers_violated meshFlt (handMesh [.num 1, .num 2, .num 4]) [1, 2, 4] [0, 1] [0, 2] 1 0 0 4 1 2 false true true rfl rfl rfl
    ⟨by decide, by decide, by decide +kernel⟩ ⟨by decide, by decide, by decide +kernel⟩ ⟨by decide, by decide, by decide +kernel⟩
    (by decide +kernel) (by decide +kernel) (by decide +kernel) (by decide) (by decide)

example : checkUniform meshFlt [.str p!"1"] = .error .IndexError := C66_single meshFlt _ 1 (.cons (by decide +kernel) .nil)

example : voxelUniformVolume meshFlt { handMesh [.num 0, .num 1, .num 3] with yM := [] } = .ok none :=
  C52_no_mids_violated meshFlt { handMesh [.num 0, .num 1, .num 3] with yM := [] } [0, 1, 3] [0, 1] [0, 2] 3 1 2 false true true rfl rfl rfl
    ⟨by decide, by decide, by decide +kernel⟩ ⟨by decide, by decide, by decide +kernel⟩ ⟨by decide, by decide, by decide +kernel⟩
    (by decide +kernel) (by decide +kernel) (by decide +kernel) (by decide) (.inr (.inl rfl))

end Props
