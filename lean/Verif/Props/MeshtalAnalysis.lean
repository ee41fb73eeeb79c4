/- Properties C51-C63 and C66 of meshtal_analysis.py. -/
import Verif.Proofs.Meshtal
import Verif.Proofs.Str
import Mathlib.Analysis.Real.Sqrt

set_option linter.unusedSectionVars false

namespace Props
open Py Meshtal
variable {K : Type} [Field K] [LinearOrder K] [IsStrictOrderedRing K] [FloorRing K]

/-- The numbers denoted by a list of bounds. -/
def Denotes (flt : Str → Option K) (bounds : List (Bnd K)) (b : List K) : Prop :=
  List.Forall₂ (fun t x => match t with
    | .str s => flt s = some x
    | .num y => y = x) bounds b

private theorem denotes_iff (flt : Str → Option K) (bounds : List (Bnd K)) (b : List K) :
    Denotes flt bounds b ↔ bounds.mapM (Bnd.toF flt) = .ok b := by
  rw [mapM_except_ok_iff]
  unfold Denotes
  constructor <;> intro h <;> refine List.Forall₂.imp ?_ h <;> intro t x ht <;> cases t with
    | str s => cases hs : flt s <;> simp_all [Bnd.toF, orErr]
    | num y => simpa [Bnd.toF] using ht

/-! ### C51 -/

/-- C51: one mid point per interval, at its centre rounded to five decimals. -/
theorem C51_mids (flt : Str → Option K) (bounds : List (Bnd K)) (b : List K) (h : Denotes flt bounds b) :
    ∃ mids, calcMidPoints flt bounds = .ok mids ∧ mids.length = bounds.length - 1 ∧
      ∀ (i : Nat) (lo hi : K), b[i]? = some lo → b[i + 1]? = some hi →
        ∃ c, mids[i]? = some c ∧ |c - (lo + hi) / 2| ≤ 1 / 200000 ∧ ∃ n : Int, c = n / 100000 := by
  have hl := h.length_eq
  rw [denotes_iff] at h
  refine ⟨_, by unfold calcMidPoints; rw [h]; rfl, by simp [hl], ?_⟩
  intro i lo hi h1 h2
  refine ⟨round5 ((hi + lo) * (1 / 2)), ?_, ?_, rint ((hi + lo) * (1 / 2) * 100000), rfl⟩
  · rw [List.getElem?_zipWith_eq_some]
    exact ⟨hi, lo, by rw [List.getElem?_tail]; exact h2, h1, rfl⟩
  · have : (lo + hi) / 2 = (hi + lo) * (1 / 2) := by ring
    rw [this]
    exact round5_close _

/-- C51: centres with at most five decimals are not changed by the rounding. -/
theorem C51_exact (flt : Str → Option K) (bounds : List (Bnd K)) (b mids : List K) (h : Denotes flt bounds b)
    (hm : calcMidPoints flt bounds = .ok mids) (i : Nat) (lo hi : K) (n : Int) (h1 : b[i]? = some lo)
    (h2 : b[i + 1]? = some hi) (hn : (lo + hi) / 2 = n / 100000) : mids[i]? = some ((lo + hi) / 2) := by
  rw [denotes_iff] at h
  unfold calcMidPoints at hm
  rw [h] at hm
  have hm' : List.zipWith (fun u l => round5 ((u + l) * (1 / 2))) b.tail b = mids := by
    injection hm
  rw [← hm', List.getElem?_zipWith_eq_some]
  refine ⟨hi, lo, by rw [List.getElem?_tail]; exact h2, h1, ?_⟩
  have : (hi + lo) * (1 / 2) = (lo + hi) / 2 := by ring
  rw [this, hn]
  exact round5_grid n

/-- C51: bounds that are not numbers raise ValueError. -/
theorem C51_error (flt : Str → Option K) (bounds : List (Bnd K)) (h : ∃ s, .str s ∈ bounds ∧ flt s = none) :
    calcMidPoints flt bounds = .error .ValueError := by
  obtain ⟨s, hs, hn⟩ := h
  have : bounds.mapM (Bnd.toF flt) = .error .ValueError := by
    apply mapM_except_err_of
    · intro a _ e' he
      cases a with
      | str t => cases ht : flt t <;> simp_all [Bnd.toF, orErr]
      | num x => simp [Bnd.toF] at he
    · exact ⟨_, hs, .ValueError, by simp [Bnd.toF, hn, orErr]⟩
  unfold calcMidPoints
  rw [this]; rfl

/-- C51: the number of voxels is the product of the numbers of intervals. -/
theorem C51_count {D : Type} (flt : Str → Option K) (m : Mesh K D) (hx : calcMidPoints flt m.xB = .ok m.xM)
    (hy : calcMidPoints flt m.yB = .ok m.yM) (hz : calcMidPoints flt m.zB = .ok m.zM) :
    numberVoxels m = (m.xB.length - 1) * (m.yB.length - 1) * (m.zB.length - 1) := by
  have key : ∀ (bounds : List (Bnd K)) (mids : List K), calcMidPoints flt bounds = .ok mids →
      mids.length = bounds.length - 1 := by
    intro bounds mids h
    cases hb : bounds.mapM (Bnd.toF flt) with
    | error e => unfold calcMidPoints at h; rw [hb] at h; injection h
    | ok b =>
      obtain ⟨mids', h', hl, _⟩ := C51_mids flt bounds b ((denotes_iff _ _ _).2 hb)
      rw [h'] at h
      injection h with h
      rw [← h, hl]
  unfold numberVoxels
  rw [key _ _ hx, key _ _ hy, key _ _ hz]

/-- A parser for the examples: an optional sign and decimal digits. -/
def meshFlt (s : Str) : Option ℚ := (pyInt s).map (fun n => (n : ℚ))

example : calcMidPoints meshFlt [.str p!"0", .str p!"1", .str p!"4"] = .ok [1 / 2, 5 / 2] := by decide +kernel

/-! ### C66 -/

/-- The spacing agrees with the first one within numpy's default tolerance. -/
def Agrees (d d0 : K) : Prop := |d - d0| ≤ 1 / 10 ^ 8 + 1 / 10 ^ 5 * |d0|

private theorem isclose_iff (d d0 : K) : isclose d d0 = true ↔ Agrees d d0 := by
  unfold isclose Agrees
  norm_num

/-- C66: the uniformity test. -/
theorem C66_uniform (flt : Str → Option K) (bounds : List (Bnd K)) (b0 b1 : K) (b : List K)
    (h : Denotes flt bounds (b0 :: b1 :: b)) :
    ∃ r, checkUniform flt bounds = .ok r ∧
      (r = true ↔ ∀ (i : Nat) (lo hi : K), (b0 :: b1 :: b)[i]? = some lo → (b0 :: b1 :: b)[i + 1]? = some hi →
        Agrees (hi - lo) (b1 - b0)) := by
  have hne : bounds ≠ [] := by rintro rfl; cases h
  rw [denotes_iff] at h
  refine ⟨_, by
    unfold checkUniform
    split
    · exact absurd rfl hne
    · rw [h]; rfl, ?_⟩
  rw [List.all_eq_true]
  have hd : (b1 - b0) :: List.zipWith (fun u l => u - l) b (b1 :: b) = diff (b0 :: b1 :: b) := rfl
  constructor
  · intro hall i lo hi h1 h2
    rw [← isclose_iff]
    apply hall
    change _ ∈ diff (b0 :: b1 :: b)
    apply List.mem_of_getElem? (i := i)
    unfold diff
    rw [List.getElem?_zipWith_eq_some]
    exact ⟨hi, lo, by rw [List.getElem?_tail]; exact h2, h1, rfl⟩
  · intro hall d hd
    change d ∈ diff (b0 :: b1 :: b) at hd
    obtain ⟨i, hi⟩ := List.mem_iff_getElem?.1 hd
    unfold diff at hi
    rw [List.getElem?_zipWith_eq_some] at hi
    obtain ⟨u, l, h1, h2, rfl⟩ := hi
    rw [List.getElem?_tail] at h1
    rw [isclose_iff]
    exact hall i l u h2 h1

/-- C66: equal spacings pass. -/
theorem C66_equal (flt : Str → Option K) (bounds : List (Bnd K)) (b0 b1 : K) (b : List K)
    (h : Denotes flt bounds (b0 :: b1 :: b))
    (heq : ∀ (i : Nat) (lo hi : K), (b0 :: b1 :: b)[i]? = some lo → (b0 :: b1 :: b)[i + 1]? = some hi →
      hi - lo = b1 - b0) : checkUniform flt bounds = .ok true := by
  obtain ⟨r, hr, hri⟩ := C66_uniform flt bounds b0 b1 b h
  rw [hr, hri.2]
  intro i lo hi h1 h2
  rw [heq i lo hi h1 h2]
  unfold Agrees
  rw [sub_self, abs_zero]
  positivity

/-- C66: no bounds are not uniform. -/
theorem C66_empty (flt : Str → Option K) : checkUniform flt [] = .ok false := rfl

example : checkUniform meshFlt [.str p!"0", .str p!"1", .str p!"2"] = .ok true ∧
    checkUniform meshFlt [.str p!"0", .str p!"1", .str p!"3"] = .ok false := by decide +kernel

/-! ### C52 -/

private theorem firstWidth_eq (flt : Str → Option K) (bounds : List (Bnd K)) (b0 b1 : K) (b : List K)
    (h : Denotes flt bounds (b0 :: b1 :: b)) : firstWidth flt bounds = .ok |b1 - b0| := by
  rw [denotes_iff, mapM_except_ok_iff] at h
  cases h with
  | cons h1 h2 =>
    cases h2 with
    | cons h2 _ => simp only [firstWidth, h1, h2]; rfl

/-- C52 (part that holds): for equally spaced bounds in all directions the result is the volume of every voxel. Missing:
    the average for non-uniform meshes (`C52_violated`). -/
theorem C52_uniform_partial {D : Type} (flt : Str → Option K) (m : Mesh K D) (x y z : Nat → K) (nx ny nz : Nat)
    (dx dy dz : K)
    (hx : Denotes flt m.xB ((List.range (nx + 2)).map x)) (hdx : ∀ i, x (i + 1) - x i = dx)
    (hy : Denotes flt m.yB ((List.range (ny + 2)).map y)) (hdy : ∀ i, y (i + 1) - y i = dy)
    (hz : Denotes flt m.zB ((List.range (nz + 2)).map z)) (hdz : ∀ i, z (i + 1) - z i = dz) :
    voxelUniformVolume flt m = .ok (some (|dx| * |dy| * |dz|)) := by
  have key : ∀ (bounds : List (Bnd K)) (f : Nat → K) (n : Nat) (d : K), Denotes flt bounds ((List.range (n + 2)).map f) →
      (∀ i, f (i + 1) - f i = d) → checkUniform flt bounds = .ok true ∧ firstWidth flt bounds = .ok |d| := by
    intro bounds f n d h hd
    have hr : (List.range (n + 2)).map f = f 0 :: f 1 :: (List.range n).map (fun i => f (i + 2)) := by
      rw [List.range_succ_eq_map, List.range_succ_eq_map]
      simp [Function.comp_def]
    rw [hr] at h
    constructor
    · apply C66_equal flt bounds (f 0) (f 1) _ h
      intro i lo hi h1 h2
      rw [← hr, List.getElem?_map, Option.map_eq_some_iff] at h1 h2
      obtain ⟨a, ha, rfl⟩ := h1
      obtain ⟨c, hc, rfl⟩ := h2
      have ha' := List.getElem?_eq_some_iff.1 ha
      have hc' := List.getElem?_eq_some_iff.1 hc
      obtain ⟨_, rfl⟩ := ha'
      obtain ⟨_, rfl⟩ := hc'
      simp only [List.getElem_range]
      rw [hd, hd 0]
    · rw [firstWidth_eq flt bounds _ _ _ h, hd 0]
  obtain ⟨x1, x2⟩ := key _ _ _ _ hx hdx
  obtain ⟨y1, y2⟩ := key _ _ _ _ hy hdy
  obtain ⟨z1, z2⟩ := key _ _ _ _ hz hdz
  unfold voxelUniformVolume allUniform
  rw [x1, y1, z1, x2, y2, z2]
  rfl

/-- C52 is violated: for a non-uniform mesh read from a file the call always raises TypeError, and for one with bounds
    given as numbers it raises ValueError when an axis does not start at 0. -/
theorem C52_violated :
    (∀ (D : Type) (flt : Str → Option K) (m : Mesh K D), allUniform flt m = .ok false →
      (∃ s, .str s ∈ m.xB) → voxelUniformVolume flt m = .error .TypeError) ∧
    ∃ m : Mesh ℚ Unit, m.xB = [.num 1, .num 2, .num 4] ∧ m.yB = [.num 0, .num 1] ∧ m.zB = [.num 0, .num 1] ∧
      voxelUniformVolume meshFlt m = .error .ValueError := by
  constructor
  · rintro D flt m hu ⟨s, hs⟩
    have hnone : ∀ l : List (Bnd K), .str s ∈ l → allNum l = none := by
      intro l hl
      unfold allNum
      induction l with
      | nil => simp at hl
      | cons a l ih =>
        rw [List.mapM_cons]
        cases a with
        | str t => rfl
        | num x =>
          have := ih (by simpa using hl)
          rw [this]; rfl
    have hext : axisExtent m.xB = .error .TypeError := by
      unfold axisExtent; rw [hnone _ hs]
    unfold voxelUniformVolume voxelAverageVolume
    rw [hu, hext]
    rfl
  · exact ⟨⟨none, none, [.num 1, .num 2, .num 4], [.num 0, .num 1], [.num 0, .num 1], [], [], (), [3 / 2, 3], [1 / 2],
      [1 / 2], none⟩, rfl, rfl, rfl, by decide +kernel⟩

example : allUniform meshFlt (⟨none, none, [.str p!"0", .str p!"1", .str p!"3"], [], [], [], [], (), [], [], [], none⟩ :
    Mesh ℚ Unit) = .ok false := by decide +kernel

/-! ### C53 -/

/-- `r` is at position `i` and nearest to `v`; all earlier elements are farther away. -/
def NearestAt (v : K) (l : List K) (i : Nat) (r : K) : Prop :=
  l[i]? = some r ∧ (∀ x ∈ l, |r - v| ≤ |x - v|) ∧ ∀ (j : Nat) (x : K), j < i → l[j]? = some x → |r - v| < |x - v|

/-- C53: the first nearest element; ValueError exactly for an empty list. -/
theorem C53_nearest (v : K) (mids : List K) :
    (mids ≠ [] → ∃ i r, findNearestMid v mids = .ok r ∧ NearestAt v mids i r) ∧
    (∀ e, findNearestMid v mids = .error e ↔ mids = [] ∧ e = .ValueError) ∧
    (v ∈ mids → findNearestMid v mids = .ok v) := by
  have main : mids ≠ [] → ∃ i r, findNearestMid v mids = .ok r ∧ NearestAt v mids i r := by
    intro h
    cases mids with
    | nil => exact absurd rfl h
    | cons m ms =>
      obtain ⟨i, h1, h2⟩ := nearestAux_spec v ms [m] m 0 rfl (by
        intro j x hx
        cases j with
        | zero => simp at hx; subst hx; exact ⟨le_refl _, fun h => absurd h (lt_irrefl _)⟩
        | succ j => simp at hx)
      refine ⟨i, _, rfl, h1, ?_, ?_⟩
      · intro x hx
        obtain ⟨j, hj⟩ := List.mem_iff_getElem?.1 hx
        exact (h2 j x hj).1
      · intro j x hj hx
        exact (h2 j x hx).2 hj
  refine ⟨main, ?_, ?_⟩
  · intro e
    cases mids with
    | nil => simp [findNearestMid, eq_comm]
    | cons m ms => simp [findNearestMid]
  · intro hv
    obtain ⟨i, r, hr, _, h2, _⟩ := main (List.ne_nil_of_mem hv)
    have := h2 v hv
    rw [sub_self, abs_zero, abs_nonpos_iff, sub_eq_zero] at this
    rw [hr, this]

example : findNearestMid (2 : ℚ) [0, 1, 3, 5] = .ok 1 := by decide +kernel

/-! ### C55 -/

/-- The cell is a number close to the requested value. -/
def CloseTo (v : K) (c : Option K) : Prop := ∃ a, c = some a ∧ Agrees a v

theorem closeTo_iff (v : K) (c : Option K) : closeTo v c = true ↔ CloseTo v c := by
  unfold closeTo CloseTo
  cases c with
  | none => simp
  | some a => simp [isclose_iff]

open Classical in
/-- C55 (part that holds): requests other than 0 select exactly the close rows; without a request nothing is removed; a
    request for a column the table does not have raises KeyError. Missing: the request 0 (`C55_violated`). -/
theorem C55_filter_partial (rows : List (Nat × MRow K)) (v : K) (hv : v ≠ 0) :
    (∀ f : Frame K, filterEnergyTime f none none = .ok f) ∧
    filterEnergyTime ⟨.e6, rows⟩ (some v) none =
      .ok ⟨.e6, rows.filter (fun r => decide (CloseTo v r.2.et))⟩ ∧
    filterEnergyTime ⟨.t6, rows⟩ none (some v) =
      .ok ⟨.t6, rows.filter (fun r => decide (CloseTo v r.2.et))⟩ ∧
    (∀ k, k ≠ .e6 → ∀ t, filterEnergyTime ⟨k, rows⟩ (some v) t = .error .KeyError) ∧
    (∀ k, k ≠ .t6 → filterEnergyTime ⟨k, rows⟩ none (some v) = .error .KeyError) := by
  have hf : (fun r : Nat × MRow K => decide (CloseTo v r.2.et)) = (fun r => closeTo v r.2.et) := by
    funext r
    rw [Bool.eq_iff_iff, decide_eq_true_eq, closeTo_iff]
  refine ⟨fun f => rfl, ?_, ?_, ?_, ?_⟩
  · rw [hf]; simp only [filterEnergyTime, filterOne, hv, if_false, if_true]; rfl
  · rw [hf]
    change filterOne .t6 (some v) ⟨.t6, rows⟩ = _
    simp only [filterOne, hv, if_false, if_true]; rfl
  · intro k hk t
    simp only [filterEnergyTime, filterOne, hv, if_false, hk]; rfl
  · intro k hk
    change filterOne .t6 (some v) ⟨k, rows⟩ = _
    simp only [filterOne, hv, if_false, hk]

/-- C55 is violated: a request for 0 is ignored, so a row with energy 5 is returned. -/
theorem C55_violated : ∃ f : Frame ℚ, ∃ r ∈ f.rows, ¬ CloseTo 0 r.2.et ∧ filterEnergyTime f (some 0) none = .ok f := by
  refine ⟨⟨.e6, [(0, ⟨some 5, none, none, none, none, none⟩)]⟩, (0, ⟨some 5, none, none, none, none, none⟩), by simp, ?_, rfl⟩
  rintro ⟨a, ha, hc⟩
  simp only [Option.some.injEq] at ha
  subst ha
  unfold Agrees at hc
  norm_num at hc

/-! ### C54 -/

/-- `mids` are the centres of equal intervals of width `h` starting at `b0`. -/
def EqualMids (b0 h : K) (mids : List K) : Prop :=
  ∀ (i : Nat) (c : K), mids[i]? = some c → c = b0 + i * h + h / 2

private theorem nearest_equal (b0 h : K) (mids : List K) (hm : EqualMids b0 h mids) (i : Nat) (c x : K)
    (hi : mids[i]? = some c) (hx1 : b0 + i * h < x) (hx2 : x < b0 + (i + 1) * h) : findNearestMid x mids = .ok c := by
  have hh : 0 < h := by
    have := lt_trans hx1 hx2
    linarith
  obtain ⟨j, r, hr, hj, hmin, _⟩ := (C53_nearest x mids).1 (by rintro rfl; simp at hi)
  rw [hr]
  congr 1
  have hc := hm i c hi
  have hrv := hm j r hj
  have hle := hmin c (List.mem_of_getElem? hi)
  have hclt : |c - x| < h / 2 := by
    rw [hc, abs_lt]
    constructor <;> linarith
  have hrlt : |r - x| < h / 2 := lt_of_le_of_lt hle hclt
  have hd : |r - c| < h := by
    have : r - c = (r - x) - (c - x) := by ring
    rw [this]
    calc |r - x - (c - x)| ≤ |r - x| + |c - x| := abs_sub _ _
      _ < h := by linarith
  rw [hrv, hc] at hd
  have : b0 + (j : K) * h + h / 2 - (b0 + i * h + h / 2) = ((j : Int) - (i : Int) : Int) * h := by push_cast; ring
  rw [this, abs_mul, abs_of_pos hh] at hd
  have h1 : |(((j : Int) - (i : Int) : Int) : K)| < 1 := by
    by_contra hcon
    push Not at hcon
    have := mul_le_mul_of_nonneg_right hcon (le_of_lt hh)
    linarith
  rw [← Int.cast_abs] at h1
  have h2 : |(j : Int) - (i : Int)| < 1 := by exact_mod_cast h1
  have h3 : (j : Int) - (i : Int) = 0 := Int.abs_lt_one_iff.1 h2
  have : j = i := by omega
  subst this
  rw [hrv, hc]

/-- C54 (part that holds): on a mesh with equal intervals in each direction (and mid points that need no rounding), a point
    strictly inside voxel (i, j, k) gives the values of exactly that voxel. Missing: meshes with unequal intervals
    (`C54_violated`). -/
theorem C54_uniform_partial (m : Mesh K (Frame K)) (x0 hx y0 hy z0 hz : K) (mx : EqualMids x0 hx m.xM)
    (my : EqualMids y0 hy m.yM) (mz : EqualMids z0 hz m.zM) (i j k : Nat) (cx cy cz x y z : K)
    (hi : m.xM[i]? = some cx) (hj : m.yM[j]? = some cy) (hk : m.zM[k]? = some cz)
    (x1 : x0 + i * hx < x) (x2 : x < x0 + (i + 1) * hx) (y1 : y0 + j * hy < y) (y2 : y < y0 + (j + 1) * hy)
    (z1 : z0 + k * hz < z) (z2 : z < z0 + (k + 1) * hz) :
    pickPoint x y z m none none = .ok ((m.data.rows.filter
      (fun r => decide (r.2.x = some cx ∧ r.2.y = some cy ∧ r.2.z = some cz))).map (fun r => r.2.value)) := by
  unfold pickPoint
  rw [nearest_equal x0 hx _ mx i cx x hi x1 x2, nearest_equal y0 hy _ my j cy y hj y1 y2,
    nearest_equal z0 hz _ mz k cz z hk z1 z2]
  change Except.ok _ = _
  simp only [keep_rows, List.filter_filter]
  congr 2
  apply List.filter_congr
  intro r _
  simp only [Bool.decide_and]
  ac_rfl

/-- Mesh with the bounds 0, 1, 10 in x and one interval in y and z; the values of the two voxels are 7 and 8. -/
def exMesh : Mesh ℚ (Frame ℚ) :=
  ⟨some 4, none, [.num 0, .num 1, .num 10], [.num 0, .num 1], [.num 0, .num 1], [], [],
    ⟨.e6, [(0, ⟨some 1, some (1 / 2), some (1 / 2), some (1 / 2), some 7, some (1 / 10)⟩),
      (1, ⟨some 1, some (11 / 2), some (1 / 2), some (1 / 2), some 8, some (1 / 10)⟩)]⟩,
    [1 / 2, 11 / 2], [1 / 2], [1 / 2], some .e6⟩

/-- C54 is violated: the point x = 2 lies in the second voxel [1, 10] but the value of the first one is returned. -/
theorem C54_violated : calcMidPoints meshFlt exMesh.xB = .ok exMesh.xM ∧
    pickPoint 2 (1 / 2) (1 / 2) exMesh none none = .ok [some 7] := by
  constructor <;> decide +kernel

example : EqualMids (0 : ℚ) 1 exMesh.yM := by
  intro i c h
  match i with
  | 0 => simp [exMesh] at h; subst h; norm_num
  | n + 1 => simp [exMesh] at h

/-! ### C57 -/

/-- C57: exactly the rows on the line, in file order. Stated for lines along x, y and z. -/
theorem C57_line (m : Mesh K (Frame K)) (p1 p2 : K × K × K) (cx cy cz : K) :
    (p1.1 ≠ p2.1 → p1.2.1 = p2.2.1 → p1.2.2 = p2.2.2 → findNearestMid p1.2.1 m.yM = .ok cy →
      findNearestMid p1.2.2 m.zM = .ok cz → extractLine m p1 p2 none none =
        .ok ((m.data.rows.filter (fun r => decide (r.2.y = some cy ∧ r.2.z = some cz))).map (fun r => r.2.value))) ∧
    (p1.1 = p2.1 → p1.2.1 ≠ p2.2.1 → p1.2.2 = p2.2.2 → findNearestMid p1.1 m.xM = .ok cx →
      findNearestMid p1.2.2 m.zM = .ok cz → extractLine m p1 p2 none none =
        .ok ((m.data.rows.filter (fun r => decide (r.2.x = some cx ∧ r.2.z = some cz))).map (fun r => r.2.value))) ∧
    (p1.1 = p2.1 → p1.2.1 = p2.2.1 → p1.2.2 ≠ p2.2.2 → findNearestMid p1.1 m.xM = .ok cx →
      findNearestMid p1.2.1 m.yM = .ok cy → extractLine m p1 p2 none none =
        .ok ((m.data.rows.filter (fun r => decide (r.2.x = some cx ∧ r.2.y = some cy))).map (fun r => r.2.value))) := by
  have fin : ∀ (rows : List (Nat × MRow K)) (p q : MRow K → Prop) [DecidablePred p] [DecidablePred q],
      (rows.filter (fun r => decide (p r.2))).filter (fun r => decide (q r.2)) =
        rows.filter (fun r => decide (p r.2 ∧ q r.2)) := by
    intro rows p q _ _
    rw [List.filter_filter]
    apply List.filter_congr
    intro r _
    simp only [Bool.decide_and]
    ac_rfl
  refine ⟨?_, ?_, ?_⟩
  · intro h1 h2 h3 hy hz
    unfold extractLine
    simp only [if_neg h1, if_pos h2, if_pos h3, pure_bind, hy, hz]
    change Except.ok _ = _
    simp only [keep_rows]
    rw [fin m.data.rows (fun r => r.y = some cy) (fun r => r.z = some cz)]
  · intro h1 h2 h3 hx hz
    unfold extractLine
    simp only [if_pos h1, if_neg h2, if_pos h3, pure_bind, hx, hz]
    change Except.ok _ = _
    simp only [keep_rows]
    rw [fin m.data.rows (fun r => r.x = some cx) (fun r => r.z = some cz)]
  · intro h1 h2 h3 hx hy
    unfold extractLine
    simp only [if_pos h1, if_pos h2, if_neg h3, pure_bind, hx, hy]
    change Except.ok _ = _
    simp only [keep_rows]
    rw [fin m.data.rows (fun r => r.x = some cx) (fun r => r.y = some cy)]

/-- C57: a degenerate line is the point. -/
theorem C57_point (m : Mesh K (Frame K)) (p : K × K × K) (erg time : Option K) :
    extractLine m p p erg time = pickPoint p.1 p.2.1 p.2.2 m erg time := by
  unfold extractLine pickPoint
  simp only [if_true]
  cases findNearestMid p.1 m.xM <;> cases findNearestMid p.2.1 m.yM <;> cases findNearestMid p.2.2 m.zM <;> rfl

example : extractLine exMesh (0, 0, 0) (10, 0, 0) none none = .ok [some 7, some 8] := by decide +kernel

/-! ### C56 -/

/-- The rows of a complete table with one bin: x outermost, z innermost, `row x y z` at each combination of mid points. -/
def gridRows (xM yM zM : List K) (row : K → K → K → MRow K) : List (MRow K) :=
  xM.flatMap (fun x => yM.flatMap (fun y => zM.map (fun z => row x y z)))

/-- Each row carries its own coordinates. -/
def HasCoords (row : K → K → K → MRow K) : Prop :=
  ∀ x y z, (row x y z).x = some x ∧ (row x y z).y = some y ∧ (row x y z).z = some z

theorem grid_x {xM yM zM : List K} {row : K → K → K → MRow K} (hr : HasCoords row) (hx : xM.Nodup) {c : K}
    (hc : c ∈ xM) : (gridRows xM yM zM row).filter (fun r => decide (r.x = some c)) =
      yM.flatMap (fun y => zM.map (fun z => row c y z)) := by
  unfold gridRows
  rw [filter_flatMap_key xM _ _ c hx hc]
  intro a _ b hb
  simp only [List.mem_flatMap, List.mem_map] at hb
  obtain ⟨y, _, z, _, rfl⟩ := hb
  simp [(hr a y z).1]

theorem plane_y {yM zM : List K} {row : K → K → MRow K} (hr : ∀ y z, (row y z).y = some y) (hy : yM.Nodup) {c : K}
    (hc : c ∈ yM) : (yM.flatMap (fun y => zM.map (fun z => row y z))).filter (fun r => decide (r.y = some c)) =
      zM.map (fun z => row c z) := by
  rw [filter_flatMap_key yM _ _ c hy hc]
  intro a _ b hb
  simp only [List.mem_map] at hb
  obtain ⟨z, _, rfl⟩ := hb
  simp [hr a z]

theorem line_z {zM : List K} {row : K → MRow K} (hr : ∀ z, (row z).z = some z) (hz : zM.Nodup) {c : K}
    (hc : c ∈ zM) : (zM.map row).filter (fun r => decide (r.z = some c)) = [row c] := by
  have h := filter_flatMap_key zM (fun z => [row z]) (fun r => decide (r.z = some c)) c hz hc (by
    intro a _ b hb
    simp only [List.mem_singleton] at hb
    subst hb
    simp [hr a])
  have : zM.map row = zM.flatMap (fun z => [row z]) := by
    clear hz hc h
    induction zM with
    | nil => rfl
    | cons z zs ih => simp [List.flatMap_cons, ih]
  rw [this]
  exact h

/-- C56 (part that holds): the values. For a complete table with one bin (after the energy / time selection) and distinct mid
    points, entry (j, i) of the values is the value of the voxel at (i, j) in the plane nearest to the requested position.
    Missing: the relative errors (`C56_violated`). The errors are computed before returning, so the statement is for calls
    that return. -/
theorem C56_values_partial (m : Mesh K (Frame K)) (erg time : Option K) (f : Frame K) (row : K → K → K → MRow K)
    (hf : filterEnergyTime m.data erg time = .ok f) (hgrid : f.rows.map (·.2) = gridRows m.xM m.yM m.zM row)
    (hr : HasCoords row) (hx : m.xM.Nodup) (hy : m.yM.Nodup) (hz : m.zM.Nodup) (value : K) (s : Slice K) :
    (extractSlice m value p!"XZ" erg time = .ok s → m.xM ≠ [] → findNearestMid value m.yM = .ok s.value ∧
      s.sliceI = m.xM ∧ s.sliceJ = m.zM ∧
      s.values = m.zM.map (fun z => m.xM.map (fun x => (row x s.value z).value))) ∧
    (extractSlice m value p!"XY" erg time = .ok s → m.xM ≠ [] → findNearestMid value m.zM = .ok s.value ∧
      s.sliceI = m.xM ∧ s.sliceJ = m.yM ∧
      s.values = m.yM.map (fun y => m.xM.map (fun x => (row x y s.value).value))) ∧
    (extractSlice m value p!"YZ" erg time = .ok s → m.yM ≠ [] → findNearestMid value m.xM = .ok s.value ∧
      s.sliceI = m.yM ∧ s.sliceJ = m.zM ∧
      s.values = m.zM.map (fun z => m.yM.map (fun y => (row s.value y z).value))) := by
  have gen : ∀ (plane : Str) (i j v : Axis), planeAxes plane = .ok (i, j, v) →
      extractSlice m value plane erg time = .ok s → ∃ rows : List (MRow K),
        rows = (gridRows m.xM m.yM m.zM row).filter (fun r => decide (r.coord v = some s.value)) ∧
        findNearestMid value (m.mids v) = .ok s.value ∧ s.sliceI = m.mids i ∧ s.sliceJ = m.mids j ∧
        arrayT ((m.mids i).map (fun c => (rows.filter (fun r => decide (r.coord i = some c))).map (·.value))) =
          .ok s.values := by
    intro plane i j v hp h
    unfold extractSlice at h
    rw [hf, hp] at h
    simp only [bind, Except.bind] at h
    cases hn : findNearestMid value (m.mids v) with
    | error e => rw [hn] at h; simp at h
    | ok at' =>
      rw [hn] at h
      simp only at h
      have hrows : ((f.keep (fun r => decide (r.coord v = some at'))).rows.map (·.2)) =
          (gridRows m.xM m.yM m.zM row).filter (fun r => decide (r.coord v = some at')) := by
        rw [keep_rows, ← hgrid, List.filter_map]
        rfl
      rw [hrows] at h
      split at h
      · simp at h
      · rename_i values hv
        split at h
        · simp at h
        · injection h with h
          subst h
          exact ⟨_, rfl, rfl, rfl, rfl, hv⟩
  have mem : ∀ {l : List K} {v r : K}, findNearestMid v l = .ok r → r ∈ l := by
    intro l v r h
    obtain ⟨i, r', h', hi, _⟩ := (C53_nearest v l).1 (by rintro rfl; simp [findNearestMid] at h)
    rw [h'] at h
    injection h with h
    subst h
    exact List.mem_of_getElem? hi
  refine ⟨?_, ?_, ?_⟩
  · intro h hne
    obtain ⟨rows, rfl, h1, h2, h3, h4⟩ := gen p!"XZ" .x .z .y rfl h
    refine ⟨h1, h2, h3, ?_⟩
    change findNearestMid value m.yM = .ok s.value at h1
    have : ((m.mids .x).map (fun c => (((gridRows m.xM m.yM m.zM row).filter
        (fun r => decide (r.coord .y = some s.value))).filter (fun r => decide (r.coord .x = some c))).map (·.value))) =
        m.xM.map (fun x => m.zM.map (fun z => (row x s.value z).value)) := by
      apply List.map_congr_left
      intro c hc
      rw [List.filter_comm]
      change List.map _ (List.filter (fun r : MRow K => decide (r.y = some s.value))
        (List.filter (fun r : MRow K => decide (r.x = some c)) _)) = _
      rw [grid_x hr hx hc, plane_y (fun y z => (hr c y z).2.1) hy (mem h1), List.map_map]
      rfl
    rw [this, arrayT_grid _ _ _ hne] at h4
    injection h4 with h4
    exact h4.symm
  · intro h hne
    obtain ⟨rows, rfl, h1, h2, h3, h4⟩ := gen p!"XY" .x .y .z rfl h
    refine ⟨h1, h2, h3, ?_⟩
    change findNearestMid value m.zM = .ok s.value at h1
    have : ((m.mids .x).map (fun c => (((gridRows m.xM m.yM m.zM row).filter
        (fun r => decide (r.coord .z = some s.value))).filter (fun r => decide (r.coord .x = some c))).map (·.value))) =
        m.xM.map (fun x => m.yM.map (fun y => (row x y s.value).value)) := by
      apply List.map_congr_left
      intro c hc
      rw [List.filter_comm]
      change List.map _ (List.filter (fun r : MRow K => decide (r.z = some s.value))
        (List.filter (fun r : MRow K => decide (r.x = some c)) _)) = _
      rw [grid_x hr hx hc, filter_flatMap]
      have : ∀ y, (m.zM.map (fun z => row c y z)).filter (fun r => decide (r.z = some s.value)) = [row c y s.value] :=
        fun y => line_z (fun z => (hr c y z).2.2) hz (mem h1)
      simp only [this]
      clear h4 hgrid hy gen
      induction m.yM with
      | nil => rfl
      | cons a l ih => rw [List.flatMap_cons, List.map_append, ih]; rfl
    rw [this, arrayT_grid _ _ _ hne] at h4
    injection h4 with h4
    exact h4.symm
  · intro h hne
    obtain ⟨rows, rfl, h1, h2, h3, h4⟩ := gen p!"YZ" .y .z .x rfl h
    refine ⟨h1, h2, h3, ?_⟩
    change findNearestMid value m.xM = .ok s.value at h1
    have : ((m.mids .y).map (fun c => (((gridRows m.xM m.yM m.zM row).filter
        (fun r => decide (r.coord .x = some s.value))).filter (fun r => decide (r.coord .y = some c))).map (·.value))) =
        m.yM.map (fun y => m.zM.map (fun z => (row s.value y z).value)) := by
      apply List.map_congr_left
      intro c hc
      change List.map _ (List.filter (fun r : MRow K => decide (r.y = some c))
        (List.filter (fun r : MRow K => decide (r.x = some s.value)) _)) = _
      rw [grid_x hr hx (mem h1), plane_y (fun y z => (hr s.value y z).2.1) hy hc, List.map_map]
      rfl
    rw [this, arrayT_grid _ _ _ hne] at h4
    injection h4 with h4
    exact h4.symm

/-- C56: other plane names raise ValueError. -/
theorem C56_plane_partial (m : Mesh K (Frame K)) (value : K) (plane : Str) (erg time : Option K) (f : Frame K)
    (hf : filterEnergyTime m.data erg time = .ok f) (h : plane ∉ [p!"XZ", p!"XY", p!"YZ"]) :
    extractSlice m value plane erg time = .error .ValueError := by
  simp only [List.mem_cons, List.not_mem_nil, or_false, not_or] at h
  unfold extractSlice
  rw [hf]
  simp only [planeAxes, h, if_false]
  rfl

/-- A 2 x 1 x 2 mesh for the examples; the errors differ from voxel to voxel. -/
def exGrid : Mesh ℚ (Frame ℚ) :=
  ⟨some 4, none, [], [], [], [], [],
    ⟨.e6, (gridRows [0, 1] [5] [0, 1] (fun x y z => ⟨some 1, some x, some y, some z, some (10 * x + z),
      some (x + 2 * z)⟩)).zipIdx.map (fun e => (e.2, e.1))⟩, [0, 1], [5], [0, 1], some .e6⟩

/-- C56 is violated: the errors come out transposed with respect to the values; at (x, z) = (1, 0) the error 2 of the voxel
    (0, 1) is reported instead of 1. -/
theorem C56_violated : ∃ s, extractSlice exGrid 5 p!"XZ" none none = .ok s ∧
    s.values = [[some 0, some 10], [some 1, some 11]] ∧ s.errors = [[some 0, some 2], [some 1, some 3]] :=
  ⟨⟨[0, 1], [0, 1], 5, [[some 0, some 10], [some 1, some 11]], [[some 0, some 2], [some 1, some 3]]⟩, by decide +kernel, rfl, rfl⟩

/-! ### C58 -/

/-- C58: bands around the value. -/
theorem C58_bands (f : Frame K) (i k : Nat) (r : MRow K) (v e : K) (h : f.rows[i]? = some (k, r)) (hv : r.value = some v)
    (he : r.err = some e) :
    ∃ u l, (upperVals f)[i]? = some (some u) ∧ (lowerVals f)[i]? = some (some l) ∧ u = v * (1 + e) ∧ l = v * (1 - e) ∧
      (u + l) / 2 = v ∧ (0 ≤ v → 0 ≤ e → l ≤ v ∧ v ≤ u) := by
  refine ⟨v + v * e, v - v * e, ?_, ?_, by ring, by ring, by ring, ?_⟩
  · simp only [upperVals, List.getElem?_map, h, Option.map_some, hv, he]; rfl
  · simp only [lowerVals, List.getElem?_map, h, Option.map_some, hv, he]; rfl
  · intro h1 h2
    have := mul_nonneg h1 h2
    constructor <;> linarith

example : upperVals exMesh.data = [some (77 / 10), some (88 / 10)] := by decide +kernel

/-! ### C59, C60 -/

private theorem lookup_eq {α : Type} {l : List (Nat × α)} (hnd : (l.map (·.1)).Nodup) {k : Nat} {r : α}
    (h : (k, r) ∈ l) : lookup l k = some r := by
  unfold lookup
  induction l with
  | nil => simp at h
  | cons a l ih =>
    rw [List.map_cons, List.nodup_cons] at hnd
    rw [List.find?_cons]
    rcases List.mem_cons.1 h with rfl | h
    · simp
    · have : a.1 ≠ k := by
        rintro rfl
        exact hnd.1 (List.mem_map.2 ⟨(a.1, r), h, rfl⟩)
      simp only [this, decide_false]
      exact ih hnd.2 h

private theorem mem_joinIndex {a b : List Nat} {k : Nat} : k ∈ joinIndex a b ↔ k ∈ a ∨ k ∈ b := by
  unfold joinIndex
  split
  · next h => subst h; simp
  · rw [List.mem_insertionSort, List.mem_dedup, List.mem_append]

/-- The conditions under which `add_mesh` returns for six-column meshes. -/
def SameShape (m1 m2 : Mesh K (Frame K)) : Prop :=
  m1.xB = m2.xB ∧ m1.yB = m2.yB ∧ m1.zB = m2.zB ∧ m1.ctype = m2.ctype ∧
  (m1.ctype = some .e6 → m1.eB = m2.eB) ∧ (m1.ctype = some .t6 → m1.tB = m2.tB)

private theorem addMesh_ok (flt : Str → Option K) (sqrt : K → K) (m1 m2 : Mesh K (Frame K)) (hs : SameShape m1 m2)
    (h6 : m1.ctype = some .e6 ∨ m1.ctype = some .t6) (xs ys zs : List K) (hx : calcMidPoints flt m1.xB = .ok xs)
    (hy : calcMidPoints flt m1.yB = .ok ys) (hz : calcMidPoints flt m1.zB = .ok zs) :
    ∃ s, addMesh flt sqrt m1 m2 = .ok s ∧ s.xB = m1.xB ∧ s.yB = m1.yB ∧ s.zB = m1.zB ∧ s.xM = xs ∧ s.yM = ys ∧
      s.zM = zs ∧ s.ctype = m1.ctype ∧
      s.data.rows.map (·.1) = joinIndex (m1.data.rows.map (·.1)) (m2.data.rows.map (·.1)) ∧
      ∀ k ∈ joinIndex (m1.data.rows.map (·.1)) (m2.data.rows.map (·.1)),
        ∃ r, (k, r) ∈ s.data.rows ∧ r.x = (lookup m1.data.rows k).bind (·.x) ∧ r.y = (lookup m1.data.rows k).bind (·.y) ∧
          r.z = (lookup m1.data.rows k).bind (·.z) ∧ r.et = (lookup m1.data.rows k).bind (·.et) ∧
          r.value = (do
            let a ← (lookup m1.data.rows k).bind (·.value)
            let b ← (lookup m2.data.rows k).bind (·.value)
            pure (a + b)) ∧
          r.err = (do
            let a ← (lookup m1.data.rows k).bind (·.err)
            let b ← (lookup m2.data.rows k).bind (·.err)
            pure (sqrt (a ^ 2 + b ^ 2))) := by
  obtain ⟨h1, h2, h3, h4, h5, h7⟩ := hs
  unfold addMesh
  rw [if_neg (by simp [h1, h2, h3]), if_neg (by rintro ⟨a, b⟩; exact b (h5 a)), if_neg (by rintro ⟨a, b⟩; exact b (h7 a)),
    if_neg (by simp [h4]), if_neg (by rintro ⟨a, b⟩; rcases h6 with h | h; exact a h; exact b h), hx, hy, hz]
  refine ⟨_, rfl, rfl, rfl, rfl, rfl, rfl, rfl, rfl, ?_, ?_⟩
  · simp [Function.comp_def]
  · intro k hk
    exact ⟨_, List.mem_map.2 ⟨k, hk, rfl⟩, rfl, rfl, rfl, rfl, rfl, rfl⟩

/-- C59 (part that holds): six-column meshes of the same shape are added voxel by voxel, coordinates kept, commutative in
    values and errors. Missing: five-column meshes (`C59_violated`). -/
theorem C59_sum_partial (flt : Str → Option K) (sqrt : K → K) (m1 m2 : Mesh K (Frame K)) (hs : SameShape m1 m2)
    (h6 : m1.ctype = some .e6 ∨ m1.ctype = some .t6) (xs ys zs : List K) (hx : calcMidPoints flt m1.xB = .ok xs)
    (hy : calcMidPoints flt m1.yB = .ok ys) (hz : calcMidPoints flt m1.zB = .ok zs)
    (hidx : m1.data.rows.map (·.1) = m2.data.rows.map (·.1)) (hnd : (m1.data.rows.map (·.1)).Nodup) :
    ∃ s s', addMesh flt sqrt m1 m2 = .ok s ∧ addMesh flt sqrt m2 m1 = .ok s' ∧
      s.data.rows.map (·.1) = m1.data.rows.map (·.1) ∧
      ∀ k r1 r2, (k, r1) ∈ m1.data.rows → (k, r2) ∈ m2.data.rows →
        ∃ r r', (k, r) ∈ s.data.rows ∧ (k, r') ∈ s'.data.rows ∧
          r.x = r1.x ∧ r.y = r1.y ∧ r.z = r1.z ∧ r.et = r1.et ∧ r'.value = r.value ∧ r'.err = r.err ∧
          ∀ v1 v2, r1.value = some v1 → r2.value = some v2 → r.value = some (v1 + v2) := by
  obtain ⟨s, h1, -, -, -, -, -, -, -, h2, h3⟩ := addMesh_ok flt sqrt m1 m2 hs h6 xs ys zs hx hy hz
  have hs' : SameShape m2 m1 := by
    obtain ⟨a, b, c, d, e, f⟩ := hs
    exact ⟨a.symm, b.symm, c.symm, d.symm, fun h => (e (d.trans h)).symm, fun h => (f (d.trans h)).symm⟩
  obtain ⟨s', h1', -, -, -, -, -, -, -, -, h3'⟩ := addMesh_ok flt sqrt m2 m1 hs' (by rw [← hs.2.2.2.1]; exact h6) xs ys zs
    (by rw [← hs.1]; exact hx) (by rw [← hs.2.1]; exact hy) (by rw [← hs.2.2.1]; exact hz)
  refine ⟨s, s', h1, h1', ?_, ?_⟩
  · rw [h2, joinIndex, if_pos hidx]
  · intro k r1 r2 hr1 hr2
    have l1 := lookup_eq hnd hr1
    have l2 := lookup_eq (hidx ▸ hnd) hr2
    obtain ⟨r, g1, g2, g3, g4, g5, g6, g7⟩ := h3 k (mem_joinIndex.2 (Or.inl (List.mem_map.2 ⟨_, hr1, rfl⟩)))
    obtain ⟨r', g1', -, -, -, -, g6', g7'⟩ := h3' k (mem_joinIndex.2 (Or.inl (List.mem_map.2 ⟨_, hr2, rfl⟩)))
    rw [l1] at g2 g3 g4 g5
    rw [l1, l2] at g6 g7 g6' g7'
    refine ⟨r, r', g1, g1', g2, g3, g4, g5, ?_, ?_, ?_⟩
    · rw [g6, g6']
      simp only [Option.bind_some]
      cases r1.value <;> cases r2.value <;> simp [add_comm]
    · rw [g7, g7']
      simp only [Option.bind_some]
      cases r1.err <;> cases r2.err <;> simp [add_comm]
    · intro v1 v2 hv1 hv2
      rw [g6]
      simp [hv1, hv2]

/-- C59: meshes of different shape are refused. -/
theorem C59_refused_partial (flt : Str → Option K) (sqrt : K → K) (m1 m2 : Mesh K (Frame K)) (hs : ¬ SameShape m1 m2) :
    addMesh flt sqrt m1 m2 = .error .ValueError := by
  unfold addMesh
  by_cases h1 : m1.xB ≠ m2.xB ∨ m1.yB ≠ m2.yB ∨ m1.zB ≠ m2.zB
  · rw [if_pos h1]; rfl
  · rw [if_neg h1]
    by_cases h2 : m1.ctype = some .e6 ∧ m1.eB ≠ m2.eB
    · rw [if_pos h2]; rfl
    · rw [if_neg h2]
      by_cases h3 : m1.ctype = some .t6 ∧ m1.tB ≠ m2.tB
      · rw [if_pos h3]; rfl
      · rw [if_neg h3]
        by_cases h4 : m1.ctype ≠ m2.ctype
        · rw [if_pos h4]; rfl
        · exfalso
          apply hs
          push Not at h1 h2 h3 h4
          exact ⟨h1.1, h1.2.1, h1.2.2, h4, h2, h3⟩

/-- C59 is violated: two five-column meshes of the same shape can never be added. -/
theorem C59_violated (flt : Str → Option K) (sqrt : K → K) (m1 m2 : Mesh K (Frame K)) (hs : SameShape m1 m2)
    (h5 : m1.ctype = some .c5) : addMesh flt sqrt m1 m2 = .error .UnboundLocalError := by
  obtain ⟨h1, h2, h3, h4, -, -⟩ := hs
  unfold addMesh
  rw [if_neg (by simp [h1, h2, h3]), if_neg (by simp [h5]), if_neg (by simp [h5]), if_neg (by simp [h4]),
    if_pos (by simp [h5])]
  rfl

example : SameShape exMesh exMesh ∧ exMesh.ctype = some .e6 := ⟨⟨rfl, rfl, rfl, rfl, fun _ => rfl, fun _ => rfl⟩, rfl⟩

/-- The relative error of the sum of two independent values with given relative errors. -/
noncomputable def combined (v1 e1 v2 e2 : ℝ) : ℝ := Real.sqrt ((v1 * e1) ^ 2 + (v2 * e2) ^ 2) / (v1 + v2)

/-- C60 (part that holds): the reported relative error is never smaller than the correct one for non-negative values, and is
    correct exactly when each value is alone or exact. Missing: correctness in general (`C60_violated`). -/
theorem C60_bound_partial (flt : Str → Option ℝ) (m1 m2 s : Mesh ℝ (Frame ℝ)) (hs : SameShape m1 m2)
    (hok : addMesh flt Real.sqrt m1 m2 = .ok s) (h6 : m1.ctype = some .e6 ∨ m1.ctype = some .t6)
    (hidx : m1.data.rows.map (·.1) = m2.data.rows.map (·.1)) (hnd : (m1.data.rows.map (·.1)).Nodup)
    (xs ys zs : List ℝ) (hx : calcMidPoints flt m1.xB = .ok xs) (hy : calcMidPoints flt m1.yB = .ok ys)
    (hz : calcMidPoints flt m1.zB = .ok zs) (k : Nat) (r1 r2 : MRow ℝ) (hr1 : (k, r1) ∈ m1.data.rows)
    (hr2 : (k, r2) ∈ m2.data.rows) (v1 e1 v2 e2 : ℝ) (_hv1 : r1.value = some v1) (he1 : r1.err = some e1)
    (_hv2 : r2.value = some v2) (he2 : r2.err = some e2) (p1 : 0 ≤ v1) (p2 : 0 ≤ v2) (p3 : 0 < v1 + v2) :
    ∃ r e, (k, r) ∈ s.data.rows ∧ r.err = some e ∧ combined v1 e1 v2 e2 ≤ e ∧
      (combined v1 e1 v2 e2 = e ↔ (v2 = 0 ∨ e1 = 0) ∧ (v1 = 0 ∨ e2 = 0)) := by
  obtain ⟨s0, h1, -, -, -, -, -, -, -, h2, h3⟩ := addMesh_ok flt Real.sqrt m1 m2 hs h6 xs ys zs hx hy hz
  rw [hok] at h1
  injection h1 with h1
  subst h1
  obtain ⟨r, g1, -, -, -, -, -, g7⟩ := h3 k (mem_joinIndex.2 (Or.inl (List.mem_map.2 ⟨_, hr1, rfl⟩)))
  rw [lookup_eq hnd hr1, lookup_eq (hidx ▸ hnd) hr2] at g7
  refine ⟨r, Real.sqrt (e1 ^ 2 + e2 ^ 2), g1, by simp [g7, he1, he2], ?_⟩
  have hcomb : combined v1 e1 v2 e2 = Real.sqrt (((v1 * e1) ^ 2 + (v2 * e2) ^ 2) / (v1 + v2) ^ 2) := by
    unfold combined
    rw [Real.sqrt_div (by positivity), Real.sqrt_sq (le_of_lt p3)]
  have hp : 0 < (v1 + v2) ^ 2 := by positivity
  have hdiff : (e1 ^ 2 + e2 ^ 2) * (v1 + v2) ^ 2 - ((v1 * e1) ^ 2 + (v2 * e2) ^ 2) =
      (2 * v1 + v2) * v2 * e1 ^ 2 + (2 * v2 + v1) * v1 * e2 ^ 2 := by ring
  have t1 : 0 ≤ (2 * v1 + v2) * v2 * e1 ^ 2 := by positivity
  have t2 : 0 ≤ (2 * v2 + v1) * v1 * e2 ^ 2 := by positivity
  rw [hcomb]
  constructor
  · apply Real.sqrt_le_sqrt
    rw [div_le_iff₀ hp]
    linarith
  · rw [Real.sqrt_inj (by positivity) (by positivity), div_eq_iff (ne_of_gt hp)]
    constructor
    · intro h
      have z1 : (2 * v1 + v2) * v2 * e1 ^ 2 = 0 := by linarith
      have z2 : (2 * v2 + v1) * v1 * e2 ^ 2 = 0 := by linarith
      constructor
      · rcases mul_eq_zero.1 z1 with h | h
        · rcases mul_eq_zero.1 h with h | h
          · left; linarith
          · exact Or.inl h
        · right; exact pow_eq_zero_iff (two_ne_zero) |>.1 h
      · rcases mul_eq_zero.1 z2 with h | h
        · rcases mul_eq_zero.1 h with h | h
          · left; linarith
          · exact Or.inl h
        · right; exact pow_eq_zero_iff (two_ne_zero) |>.1 h
    · rintro ⟨h1, h2⟩
      have z1 : (2 * v1 + v2) * v2 * e1 ^ 2 = 0 := by rcases h1 with h | h <;> simp [h]
      have z2 : (2 * v2 + v1) * v1 * e2 ^ 2 = 0 := by rcases h2 with h | h <;> simp [h]
      linarith

/-- One-voxel mesh with the given value and error. -/
noncomputable def exOne (v e : ℝ) : Mesh ℝ (Frame ℝ) :=
  ⟨none, none, [.num 0, .num 1], [.num 0, .num 1], [.num 0, .num 1], [], [],
    ⟨.e6, [(0, ⟨some 1, some (1 / 2), some (1 / 2), some (1 / 2), some v, some e⟩)]⟩, [1 / 2], [1 / 2], [1 / 2], some .e6⟩

/-- C60 is violated: 1 with relative error 1 plus 1 with relative error 0 has relative error 1/2, not 1. -/
theorem C60_violated : ∃ s r e, addMesh (fun _ => none) Real.sqrt (exOne 1 1) (exOne 1 0) = .ok s ∧ (0, r) ∈ s.data.rows ∧
    r.err = some e ∧ e = 1 ∧ combined 1 1 1 0 = 1 / 2 := by
  have hm : ∃ l, calcMidPoints (fun _ => none) ([.num 0, .num 1] : List (Bnd ℝ)) = .ok l := ⟨_, rfl⟩
  obtain ⟨l, hl⟩ := hm
  obtain ⟨s, h1, -, -, -, -, -, -, -, h2, h3⟩ := addMesh_ok (fun _ => none) Real.sqrt (exOne 1 1) (exOne 1 0)
    ⟨rfl, rfl, rfl, rfl, fun _ => rfl, fun _ => rfl⟩ (Or.inl rfl) l l l hl hl hl
  obtain ⟨r, g1, -, -, -, -, -, g7⟩ := h3 0 (mem_joinIndex.2 (Or.inl (by simp [exOne])))
  refine ⟨s, r, 1, h1, g1, ?_, rfl, ?_⟩
  · rw [g7]
    simp [exOne, lookup]
  · unfold combined; norm_num

/-! ### C61 -/

/-- The row belongs to voxel (i, j, k). -/
def At (m : Mesh K (Frame K)) (i j k : Nat) (r : MRow K) : Prop :=
  ∃ x y z, m.xM[i]? = some x ∧ m.yM[j]? = some y ∧ m.zM[k]? = some z ∧ r.x = some x ∧ r.y = some y ∧ r.z = some z

open Classical in
/-- C61 (part that holds): for six-column meshes with distinct mid points every array entry is that of the last row of its
    voxel, and 0 if there is none. Missing: five-column meshes (`C61_violated`). -/
theorem C61_array_partial (m : Mesh K (Frame K)) (h6 : m.data.kind ≠ .c5) (hx : m.xM.Nodup) (hy : m.yM.Nodup)
    (hz : m.zM.Nodup) :
    ∃ vals errs, convertTo3dArray m = .ok (vals, errs) ∧
      ∀ i j k, vals i j k = (((m.data.rows.filter (fun r => decide (At m i j k r.2))).getLast?).map
          (fun r => r.2.value)).getD (some 0) ∧
        errs i j k = (((m.data.rows.filter (fun r => decide (At m i j k r.2))).getLast?).map
          (fun r => r.2.err)).getD (some 0) := by
  have hcells : ∀ r : MRow K, r.cells m.data.kind = [r.et, r.x, r.y, r.z, r.value, r.err] := by
    intro r
    unfold MRow.cells
    cases hk : m.data.kind <;> simp_all
  have step : ∀ (s : Arr (Option K) × Arr (Option K)) (r : MRow K), ∃ ps,
      arrayStep m.xM m.yM m.zM s (r.cells m.data.kind) = .ok (s.1.put ps r.value, s.2.put ps r.err) ∧
      ∀ i j k, (i, j, k) ∈ ps ↔ At m i j k r := by
    intro s r
    rw [hcells]
    have hbr : ∃ ps, broadcast3 (whereEq m.xM r.x) (whereEq m.yM r.y) (whereEq m.zM r.z) = .ok ps ∧
        ∀ i j k, (i, j, k) ∈ ps ↔ At m i j k r := by
      have no : ∀ {M : List K} {c : Option K}, (∀ m ∈ M, some m ≠ c) → ∀ (i : Nat) (x : K), M[i]? = some x → c ≠ some x :=
        fun h i x hi hc => h x (List.mem_of_getElem? hi) hc.symm
      have one : ∀ {M : List K} {c : Option K}, (whereEq M c).length ≤ 1 ∨ ¬ M.Nodup := by
        intro M c
        by_cases hM : M.Nodup
        · left
          rcases whereEq_cases hM c with ⟨i, x, -, -, h⟩ | ⟨-, h⟩ <;> simp [h]
        · exact Or.inr hM
      have lx := (one (M := m.xM) (c := r.x)).resolve_right (by simpa using hx)
      have ly := (one (M := m.yM) (c := r.y)).resolve_right (by simpa using hy)
      have lz := (one (M := m.zM) (c := r.z)).resolve_right (by simpa using hz)
      rcases whereEq_cases hx r.x with ⟨i0, x, rx, hi, wx⟩ | ⟨nx, wx⟩
      · rcases whereEq_cases hy r.y with ⟨j0, y, ry, hj, wy⟩ | ⟨ny, wy⟩
        · rcases whereEq_cases hz r.z with ⟨k0, z, rz, hk, wz⟩ | ⟨nz, wz⟩
          · refine ⟨[(i0, j0, k0)], by rw [wx, wy, wz]; rfl, ?_⟩
            intro i j k
            simp only [List.mem_singleton, Prod.mk.injEq]
            constructor
            · rintro ⟨rfl, rfl, rfl⟩
              exact ⟨x, y, z, hi, hj, hk, rx, ry, rz⟩
            · rintro ⟨x', y', z', hx', hy', hz', ex, ey, ez⟩
              have inj : ∀ {M : List K}, M.Nodup → ∀ {a b : Nat} {c : K}, M[a]? = some c → M[b]? = some c → a = b := by
                intro M hM a b c ha hb
                obtain ⟨ha1, ha2⟩ := List.getElem?_eq_some_iff.1 ha
                obtain ⟨hb1, hb2⟩ := List.getElem?_eq_some_iff.1 hb
                exact (List.Nodup.getElem_inj_iff hM).1 (by rw [ha2, hb2])
              rw [rx] at ex; rw [ry] at ey; rw [rz] at ez
              simp only [Option.some.injEq] at ex ey ez
              subst ex ey ez
              exact ⟨inj hx hx' hi, inj hy hy' hj, inj hz hz' hk⟩
          · refine ⟨[], broadcast3_empty _ _ _ lx ly lz (Or.inr (Or.inr wz)), ?_⟩
            intro i j k
            simp only [List.not_mem_nil, false_iff]
            rintro ⟨x', y', z', hx', hy', hz', ex, ey, ez⟩
            exact no nz k z' hz' ez
        · refine ⟨[], broadcast3_empty _ _ _ lx ly lz (Or.inr (Or.inl wy)), ?_⟩
          intro i j k
          simp only [List.not_mem_nil, false_iff]
          rintro ⟨x', y', z', hx', hy', hz', ex, ey, ez⟩
          exact no ny j y' hy' ey
      · refine ⟨[], broadcast3_empty _ _ _ lx ly lz (Or.inl wx), ?_⟩
        intro i j k
        simp only [List.not_mem_nil, false_iff]
        rintro ⟨x', y', z', hx', hy', hz', ex, ey, ez⟩
        exact no nx i x' hx' ex
    obtain ⟨ps, hps, hmem⟩ := hbr
    refine ⟨ps, ?_, hmem⟩
    unfold arrayStep
    simp only [List.getElem?_cons_succ, List.getElem?_cons_zero, orErr, bind, Except.bind, hps, pure, Except.pure]
  have key : ∀ (rows : List (Nat × MRow K)) (s : Arr (Option K) × Arr (Option K)),
      ∃ vals errs, (rows.map (fun r => r.2.cells m.data.kind)).foldlM (arrayStep m.xM m.yM m.zM) s = .ok (vals, errs) ∧
        ∀ i j k, vals i j k = (((rows.filter (fun r => decide (At m i j k r.2))).getLast?).map
            (fun r => r.2.value)).getD (s.1 i j k) ∧
          errs i j k = (((rows.filter (fun r => decide (At m i j k r.2))).getLast?).map
            (fun r => r.2.err)).getD (s.2 i j k) := by
    intro rows
    induction rows with
    | nil => intro s; exact ⟨s.1, s.2, rfl, fun i j k => by simp⟩
    | cons r rows ih =>
      intro s
      obtain ⟨ps, h1, h2⟩ := step s r.2
      obtain ⟨vals, errs, h3, h4⟩ := ih (s.1.put ps r.2.value, s.2.put ps r.2.err)
      refine ⟨vals, errs, ?_, ?_⟩
      · rw [List.map_cons, List.foldlM_cons, h1]
        exact h3
      · intro i j k
        obtain ⟨h5, h6⟩ := h4 i j k
        rw [h5, h6, List.filter_cons]
        by_cases hat : At m i j k r.2
        · have hin := (h2 i j k).2 hat
          simp only [hat, decide_true, if_true, Arr.put, hin]
          rw [List.getLast?_cons]
          cases (rows.filter _).getLast? <;> simp
        · have hin : (i, j, k) ∉ ps := fun h => hat ((h2 i j k).1 h)
          simp only [hat, decide_false, Arr.put, hin, if_false]
          exact ⟨rfl, rfl⟩
  exact key m.data.rows _

/-- C61: when every voxel occurs exactly once the array determines the values and errors of the table. -/
theorem C61_faithful_partial (m : Mesh K (Frame K)) (h6 : m.data.kind ≠ .c5) (hx : m.xM.Nodup) (hy : m.yM.Nodup)
    (hz : m.zM.Nodup) (i j k n : Nat) (r : MRow K) (hr : (n, r) ∈ m.data.rows) (hat : At m i j k r)
    (honce : ∀ q ∈ m.data.rows, At m i j k q.2 → q = (n, r)) :
    ∃ vals errs, convertTo3dArray m = .ok (vals, errs) ∧ vals i j k = r.value ∧ errs i j k = r.err := by
  classical
  obtain ⟨vals, errs, h1, h2⟩ := C61_array_partial m h6 hx hy hz
  refine ⟨vals, errs, h1, ?_⟩
  obtain ⟨h3, h4⟩ := h2 i j k
  have hmem : (n, r) ∈ m.data.rows.filter (fun q => decide (At m i j k q.2)) := by
    rw [List.mem_filter, decide_eq_true_eq]; exact ⟨hr, hat⟩
  have hlast : (m.data.rows.filter (fun q => decide (At m i j k q.2))).getLast? = some (n, r) := by
    rw [List.getLast?_eq_some_getLast (List.ne_nil_of_mem hmem)]
    have := List.getLast_mem (List.ne_nil_of_mem hmem)
    rw [List.mem_filter, decide_eq_true_eq] at this
    rw [honce _ this.1 this.2]
  rw [h3, h4]
  simp only [hlast, Option.map_some, Option.getD_some, and_self]

/-- C61 is violated: a five-column mesh with data always raises IndexError (the columns are taken by fixed positions), if the
    mid points are distinct. -/
theorem C61_violated (m : Mesh K (Frame K)) (h5 : m.data.kind = .c5) (hne : m.data.rows ≠ []) (hx : m.xM.Nodup)
    (hy : m.yM.Nodup) (hz : m.zM.Nodup) : convertTo3dArray m = .error .IndexError := by
  unfold convertTo3dArray
  cases hrows : m.data.rows with
  | nil => exact absurd hrows hne
  | cons r rows =>
    have len : ∀ {M : List K} (c : Option K), M.Nodup → (whereEq M c).length ≤ 1 := by
      intro M c hM
      rcases whereEq_cases hM c with ⟨i, x, -, -, h⟩ | ⟨-, h⟩ <;> simp [h]
    have hb : ∀ i j k : List Nat, i.length ≤ 1 → j.length ≤ 1 → k.length ≤ 1 → ∃ ps, broadcast3 i j k = .ok ps := by
      intro i j k hi hj hk
      by_cases h : i = [] ∨ j = [] ∨ k = []
      · exact ⟨_, broadcast3_empty i j k hi hj hk h⟩
      · push Not at h
        obtain ⟨h1, h2, h3⟩ := h
        rcases i with _ | ⟨a, _ | ⟨_, _⟩⟩ <;> rcases j with _ | ⟨b, _ | ⟨_, _⟩⟩ <;> rcases k with _ | ⟨c, _ | ⟨_, _⟩⟩ <;>
          simp_all [broadcast3]
    obtain ⟨ps, hps⟩ := hb _ _ _ (len r.2.y hx) (len r.2.z hy) (len r.2.value hz)
    have hstep : ∀ s, arrayStep m.xM m.yM m.zM s (r.2.cells m.data.kind) = .error .IndexError := by
      intro s
      rw [h5]
      unfold arrayStep MRow.cells
      simp only [List.getElem?_cons_succ, List.getElem?_cons_zero, orErr, bind, Except.bind, hps]
      rfl
    rw [List.map_cons, List.foldlM_cons, hstep]
    rfl

example : exMesh.data.kind ≠ .c5 ∧ exMesh.xM.Nodup ∧ At exMesh 1 0 0 ⟨some 1, some (11 / 2), some (1 / 2), some (1 / 2),
    some 8, some (1 / 10)⟩ :=
  ⟨by decide, by decide +kernel, 11 / 2, 1 / 2, 1 / 2, rfl, rfl, rfl, rfl, rfl, rfl⟩

/-! ### C62 -/

/-- C62 (part that holds): the count, when there is at least one. Missing: a mesh without zeros (`C62_violated`). -/
theorem C62_count_partial (f : Frame K) (h : ∃ r ∈ f.rows, r.2.value = some 0) :
    countZeros f = .ok (f.rows.filter (fun r => decide (r.2.value = some 0))).length := by
  unfold countZeros
  rw [← List.countP_eq_length_filter]
  have : 0 < f.rows.countP (fun r => decide (r.2.value = some 0)) := by
    rw [List.countP_pos_iff]
    simpa using h
  simp only [Nat.ne_of_gt this, if_false]

/-- C62 is violated: every mesh without a zero voxel raises KeyError instead of returning 0. -/
theorem C62_violated (f : Frame K) (h : ∀ r ∈ f.rows, r.2.value ≠ some 0) : countZeros f = .error .KeyError := by
  unfold countZeros
  have : f.rows.countP (fun r => decide (r.2.value = some 0)) = 0 := by
    rw [List.countP_eq_zero]
    simpa using h
  simp only [this, if_true]

example : countZeros exGrid.data = .ok 1 ∧ countZeros exMesh.data = .error .KeyError := by decide +kernel

/-! ### C63 -/

/-- Line `l` announces tally `t`: it contains the words and its last space separated field is the number. -/
def Announces (l : Str) (t : Int) : Prop :=
  p!"Mesh Tally Number" <:+: l ∧ ∃ pre w, l = pre ++ ' ' :: w ∧ ' ' ∉ w ∧ pyInt w = some t

private theorem lastInt_spec {l : Str} (h : hasSub p!"Mesh Tally Number" l = true) :
    (∃ t, lastInt l = .ok t ∧ ∀ t', Announces l t' ↔ t' = t) ∨ (lastInt l = .error .ValueError ∧ ∀ t, ¬ Announces l t) := by
  have hm := hasSub_iff.1 h
  have hsp : ' ' ∈ l := by
    obtain ⟨a, b, rfl⟩ := hm
    simp
  obtain ⟨pre, w, hl, hw⟩ : ∃ pre w, l = pre ++ ' ' :: w ∧ ' ' ∉ w := by
    have h1 : ' ' ∈ l.reverse := by simpa using hsp
    obtain ⟨a, b, hab, ha⟩ := List.eq_append_cons_of_mem h1
    refine ⟨b.reverse, a.reverse, ?_, by simpa using ha⟩
    have := congrArg List.reverse hab
    simpa using this
  have key : ∀ pre w : Str, ' ' ∉ w → (splitOn ' ' (pre ++ ' ' :: w)).getLast? = some w := by
    intro pre w hw
    unfold splitOn
    have h1 : splitP (· == ' ') w = [w] := splitP_of_not_mem (by
      intro c hc
      simp only [beq_eq_false_iff_ne]
      rintro rfl
      exact hw hc)
    rw [splitP_append_sep (by simp), h1]
    simp
  have uniq : ∀ t, Announces l t ↔ pyInt w = some t := by
    intro t
    constructor
    · rintro ⟨-, pre', w', hl', hw', ht⟩
      have h1 := key pre w hw
      have h2 := key pre' w' hw'
      rw [← hl] at h1
      rw [← hl', h1] at h2
      simp only [Option.some.injEq] at h2
      rw [h2]; exact ht
    · intro ht
      exact ⟨hm, pre, w, hl, hw, ht⟩
  have hlast : lastInt l = orErr .ValueError (pyInt w) := by
    unfold lastInt
    rw [hl, key pre w hw]
  cases hp : pyInt w with
  | none => exact Or.inr ⟨by rw [hlast, hp]; rfl, fun t ht => by rw [uniq, hp] at ht; simp at ht⟩
  | some t => exact Or.inl ⟨t, by rw [hlast, hp]; rfl, fun t' => by rw [uniq, hp]; simp [eq_comm]⟩

/-- Position `i` is the last one in `data` whose line announces `t`. -/
def LastAnnounced (data : List Str) (t : Int) (i : Nat) : Prop :=
  (∃ l, data[i]? = some l ∧ Announces l t) ∧ ∀ (j : Nat) (l : Str), i < j → data[j]? = some l → ¬ Announces l t

private theorem tallyNumbersFrom_spec (ls : List Str) : ∀ (d : Dict Int Nat) (i : Nat) (d' : Dict Int Nat),
    tallyNumbersFrom d i ls = .ok d' → (∀ t, (∃ j, LastAnnounced ls t j ∧ d'.get t = some (i + j)) ∨
      ((∀ l ∈ ls, ¬ Announces l t) ∧ d'.get t = d.get t)) ∧ (d.keys.Nodup → d'.keys.Nodup) := by
  induction ls with
  | nil =>
    intro d i d' h
    simp only [tallyNumbersFrom, Except.ok.injEq] at h
    subst h
    exact ⟨fun t => Or.inr ⟨by simp, rfl⟩, fun h => h⟩
  | cons l ls ih =>
    intro d i d' h
    have lift : ∀ (t : Int) (j : Nat), LastAnnounced ls t j → LastAnnounced (l :: ls) t (j + 1) := by
      rintro t j ⟨⟨l', h1, h2⟩, h3⟩
      refine ⟨⟨l', by simpa using h1, h2⟩, ?_⟩
      intro j' l'' hj hl''
      obtain ⟨j'', rfl⟩ : ∃ j'', j' = j'' + 1 := ⟨j' - 1, by omega⟩
      exact h3 j'' l'' (by omega) (by simpa using hl'')
    rw [tallyNumbersFrom] at h
    split at h
    · next hsub =>
      rcases lastInt_spec hsub with ⟨t0, ht0, huniq⟩ | ⟨he, -⟩
      · rw [ht0] at h
        obtain ⟨h1, h2⟩ := ih _ _ _ h
        refine ⟨?_, fun hn => h2 (Dict.nodup_keys_set hn)⟩
        intro t
        rcases h1 t with ⟨j, hj, hg⟩ | ⟨hno, hg⟩
        · exact Or.inl ⟨j + 1, lift t j hj, by rw [hg]; congr 1; omega⟩
        · by_cases ht : t = t0
          · subst ht
            refine Or.inl ⟨0, ⟨⟨l, rfl, (huniq t).2 rfl⟩, ?_⟩, by rw [hg, Dict.get_set_self]; rfl⟩
            intro j l' hj hl'
            obtain ⟨j', rfl⟩ : ∃ j', j = j' + 1 := ⟨j - 1, by omega⟩
            exact hno l' (List.mem_of_getElem? (by simpa using hl'))
          · refine Or.inr ⟨?_, by rw [hg, Dict.get_set_ne _ _ ht]⟩
            intro l' hl'
            rcases List.mem_cons.1 hl' with rfl | hl'
            · rw [huniq]; exact ht
            · exact hno l' hl'
      · rw [he] at h; simp at h
    · next hsub =>
      obtain ⟨h1, h2⟩ := ih _ _ _ h
      refine ⟨?_, h2⟩
      intro t
      rcases h1 t with ⟨j, hj, hg⟩ | ⟨hno, hg⟩
      · exact Or.inl ⟨j + 1, lift t j hj, by rw [hg]; congr 1; omega⟩
      · refine Or.inr ⟨?_, hg⟩
        intro l' hl'
        rcases List.mem_cons.1 hl' with rfl | hl'
        · rintro ⟨hm, -⟩
          exact hsub (hasSub_iff.2 hm)
        · exact hno l' hl'

private theorem tallyNumbersFrom_err (ls : List Str) : ∀ (d : Dict Int Nat) (i : Nat),
    ((∃ d', tallyNumbersFrom d i ls = .ok d') ∧ ∀ l ∈ ls, p!"Mesh Tally Number" <:+: l → ∃ t, Announces l t) ∨
    (tallyNumbersFrom d i ls = .error .ValueError ∧ ∃ l ∈ ls, p!"Mesh Tally Number" <:+: l ∧ ∀ t, ¬ Announces l t) := by
  induction ls with
  | nil => intro d i; exact Or.inl ⟨⟨d, rfl⟩, by simp⟩
  | cons l ls ih =>
    intro d i
    rw [tallyNumbersFrom]
    by_cases hsub : hasSub p!"Mesh Tally Number" l = true
    · rw [if_pos hsub]
      rcases lastInt_spec hsub with ⟨t0, ht0, huniq⟩ | ⟨he, hno⟩
      · rw [ht0]
        rcases ih (d.set t0 i) (i + 1) with ⟨h1, h2⟩ | ⟨h1, l', hl', h2⟩
        · refine Or.inl ⟨h1, ?_⟩
          intro l' hl' hm
          rcases List.mem_cons.1 hl' with rfl | hl'
          · exact ⟨t0, (huniq t0).2 rfl⟩
          · exact h2 l' hl' hm
        · exact Or.inr ⟨h1, l', by simp [hl'], h2⟩
      · rw [he]
        exact Or.inr ⟨rfl, l, by simp, hasSub_iff.1 hsub, hno⟩
    · rw [if_neg hsub]
      rcases ih d (i + 1) with ⟨h1, h2⟩ | ⟨h1, l', hl', h2⟩
      · refine Or.inl ⟨h1, ?_⟩
        intro l' hl' hm
        rcases List.mem_cons.1 hl' with rfl | hl'
        · exact absurd (hasSub_iff.2 hm) hsub
        · exact h2 l' hl' hm
      · exact Or.inr ⟨h1, l', by simp [hl'], h2⟩

/-- C63: each tally number is mapped to the last line that announces it; there are no other entries. -/
theorem C63_index (data : List Str) (d : Dict Int Nat) (h : findMeshTallyNumbers data = .ok d) :
    d.keys.Nodup ∧ ∀ t i, d.get t = some i ↔ LastAnnounced data t i := by
  obtain ⟨h1, h2⟩ := tallyNumbersFrom_spec data [] 0 d h
  refine ⟨h2 List.nodup_nil, ?_⟩
  intro t i
  rcases h1 t with ⟨j, hj, hg⟩ | ⟨hno, hg⟩
  · rw [hg]
    simp only [Nat.zero_add, Option.some.injEq]
    constructor
    · rintro rfl; exact hj
    · rintro ⟨⟨l, hl, ha⟩, hi⟩
      obtain ⟨⟨l', hl', ha'⟩, hj'⟩ := hj
      rcases Nat.lt_trichotomy i j with hlt | heq | hgt
      · exact absurd ha' (hi j l' hlt hl')
      · exact heq.symm
      · exact absurd ha (hj' i l hgt hl)
  · rw [hg]
    constructor
    · intro h; simp [Dict.get] at h
    · rintro ⟨⟨l, hl, ha⟩, -⟩
      exact absurd ha (hno l (List.mem_of_getElem? hl))

/-- C63: the only failure is a line with the words whose last field is not an integer. -/
theorem C63_index_error (data : List Str) :
    ((∃ d, findMeshTallyNumbers data = .ok d) ↔ ∀ l ∈ data, p!"Mesh Tally Number" <:+: l → ∃ t, Announces l t) ∧
    ∀ e, findMeshTallyNumbers data = .error e → e = .ValueError := by
  rcases tallyNumbersFrom_err data [] 0 with ⟨⟨d, h1⟩, h2⟩ | ⟨h1, l, hl, hm, hno⟩
  · refine ⟨⟨fun _ => h2, fun _ => ⟨d, h1⟩⟩, ?_⟩
    intro e he
    unfold findMeshTallyNumbers at he
    rw [h1] at he
    simp at he
  · constructor
    · constructor
      · rintro ⟨d, hd⟩
        unfold findMeshTallyNumbers at hd
        rw [h1] at hd
        simp at hd
      · intro h
        obtain ⟨t, ht⟩ := h l hl hm
        exact absurd ht (hno t)
    · intro e he
      unfold findMeshTallyNumbers at he
      rw [h1] at he
      simp only [Except.error.injEq] at he
      exact he.symm

private theorem nextFrom_skip (t : Int) (d : Dict Int Nat) (pre rest : List Int) (h : t ∉ pre) :
    nextFrom t d (pre ++ rest) = nextFrom t d rest := by
  induction pre with
  | nil => rfl
  | cons a pre ih =>
    simp only [List.mem_cons, not_or] at h
    rw [List.cons_append, nextFrom.eq_def]
    simp only [if_neg (Ne.symm h.1)]
    exact ih h.2

/-- C63: the start of the next larger tally number; -1 for the largest; nothing for a number that is not there. -/
theorem C63_next (d : Dict Int Nat) (hnd : d.keys.Nodup) (t : Int) :
    (t ∈ d.keys → (∀ k ∈ d.keys, k ≤ t) → findNextMesh t d = .ok (some (-1))) ∧
    (∀ w n, t ∈ d.keys → t < w → (∀ k ∈ d.keys, t < k → w ≤ k) → d.get w = some n →
      findNextMesh t d = .ok (some (n : Int))) ∧
    (t ∉ d.keys → d.keys ≠ [] → findNextMesh t d = .ok none) ∧
    (d.keys = [] → findNextMesh t d = .error .IndexError) := by
  have hmem : ∀ k, k ∈ d.keys.insertionSort (· ≤ ·) ↔ k ∈ d.keys := fun k => List.mem_insertionSort _
  have hsort : (d.keys.insertionSort (· ≤ ·)).Pairwise (· ≤ ·) := List.pairwise_insertionSort _ _
  have hnd' : (d.keys.insertionSort (· ≤ ·)).Nodup := (List.perm_insertionSort (· ≤ ·) d.keys).nodup_iff.2 hnd
  have hnil : d.keys.insertionSort (· ≤ ·) = [] ↔ d.keys = [] := by
    rw [List.eq_nil_iff_forall_not_mem, List.eq_nil_iff_forall_not_mem]
    simp only [hmem]
  unfold findNextMesh
  generalize hks : d.keys.insertionSort (· ≤ ·) = ks at *
  refine ⟨?_, ?_, ?_, ?_⟩
  · intro ht hmax
    have hne : ks ≠ [] := List.ne_nil_of_mem ((hmem t).2 ht)
    simp only [List.getLast?_eq_some_getLast hne]
    rw [if_pos]
    apply le_antisymm
    · obtain ⟨pre, last, rfl⟩ : ∃ pre last, ks = pre ++ [last] := ⟨_, _, (List.dropLast_append_getLast hne).symm⟩
      simp only [List.getLast_append_singleton]
      rcases List.mem_append.1 ((hmem t).2 ht) with h | h
      · exact (List.pairwise_append.1 hsort).2.2 t h last (by simp)
      · simp only [List.mem_singleton] at h
        exact le_of_eq h
    · exact hmax _ ((hmem _).1 (List.getLast_mem hne))
  · intro w n ht hw hleast hget
    have hwk : w ∈ d.keys := Dict.get_isSome_iff.1 (by rw [hget]; rfl)
    obtain ⟨pre, post, rfl⟩ := List.append_of_mem ((hmem t).2 ht)
    rw [List.pairwise_append, List.pairwise_cons] at hsort
    rw [List.nodup_append, List.nodup_cons] at hnd'
    obtain ⟨-, ⟨hs2, hs3⟩, hs4⟩ := hsort
    obtain ⟨-, ⟨hn2, hn3⟩, hn4⟩ := hnd'
    have hpre : t ∉ pre := fun h => hn4 t h t (by simp) rfl
    have hwpost : w ∈ post := by
      rcases List.mem_append.1 ((hmem w).2 hwk) with h | h
      · have := hs4 w h t (by simp)
        omega
      · rcases List.mem_cons.1 h with h | h
        · omega
        · exact h
    cases post with
    | nil => simp at hwpost
    | cons v post =>
      have hvw : v = w := by
        have h1 : t ≤ v := hs2 v (by simp)
        have h2 : t ≠ v := fun h => hn2 (by simp [h])
        have h3 := hleast v ((hmem v).1 (by simp)) (lt_of_le_of_ne h1 h2)
        rcases List.mem_cons.1 hwpost with h | h
        · exact h.symm
        · have := (List.pairwise_cons.1 hs3).1 w h
          omega
      subst hvw
      have hlast : ∃ last, (pre ++ t :: v :: post).getLast? = some last ∧ t ≠ last := by
        refine ⟨(v :: post).getLast (by simp), by simp [List.getLast?_eq_some_getLast], ?_⟩
        intro h
        apply hn2
        rw [h]
        exact List.getLast_mem _
      obtain ⟨last, hl1, hl2⟩ := hlast
      simp only [hl1, if_neg hl2]
      rw [nextFrom_skip t d pre _ hpre, nextFrom]
      simp only [if_true, hget]
  · intro ht hne
    have hne' : ks ≠ [] := fun h => hne (hnil.1 h)
    simp only [List.getLast?_eq_some_getLast hne']
    rw [if_neg]
    · have := nextFrom_skip t d ks [] (fun h => ht ((hmem t).1 h))
      rw [List.append_nil] at this
      rw [this]; rfl
    · intro h
      exact ht ((hmem t).1 (h ▸ List.getLast_mem hne'))
  · intro h
    rw [hnil.2 h]
    rfl

example : findMeshTallyNumbers [p!" Mesh Tally Number 14\n", p!"x", p!"Mesh Tally Number 4\n"] = .ok [(14, 0), (4, 2)] ∧
    findNextMesh 4 [(14, 0), (4, 2)] = .ok (some 0) ∧ findNextMesh 14 [(14, 0), (4, 2)] = .ok (some (-1)) := by
  decide +kernel

end Props
