/- Property C245: selections from tables stored in single precision. -/
import Verif.Model.MeshDowncast
import Verif.Props.MeshFloat
import Mathlib.Algebra.Order.Archimedean.Basic
import Mathlib.Data.Int.Log

set_option linter.unusedSectionVars false

namespace Props
open Py Meshtal
variable {K : Type} [Field K] [LinearOrder K] [IsStrictOrderedRing K] [FloorRing K]

/-! ### Rounding to 24 binary digits -/

/-- `r` rounds every number to a nearest one with 24 binary digits (ties either way; the range of exponents is not limited). -/
def RoundsTo24 (r : K → K) : Prop := ∀ x, Binary32 (r x) ∧ ∀ y, Binary32 y → |r x - x| ≤ |y - x|

/-- Some number with 24 binary digits is closer to `x` than `x / 2^24`. -/
theorem binary32_near (x : K) : ∃ y, Binary32 y ∧ |y - x| ≤ |x| / 2 ^ 24 := by
  rcases eq_or_ne x 0 with rfl | hx
  · exact ⟨0, ⟨0, 0, by norm_num, by simp⟩, by simp⟩
  · obtain ⟨e, h1, h2⟩ := exists_mem_Ico_zpow (abs_pos.2 hx) (show (1 : K) < 2 by norm_num)
    set u : K := 2 ^ (e - 23) with hu
    have hu0 : 0 < u := zpow_pos (by norm_num) _
    have he : (2 : K) ^ e = u * 2 ^ 23 := by
      rw [hu, ← zpow_natCast, ← zpow_add₀ (by norm_num)]
      congr 1
      push_cast
      ring
    have he1 : (2 : K) ^ (e + 1) = u * 2 ^ 24 := by
      rw [zpow_add₀ (by norm_num), he]
      ring
    have hr : |(round (x / u) : K) - x / u| ≤ 1 / 2 := by
      rw [abs_sub_comm]; exact abs_sub_round (x / u)
    have herr : |(round (x / u) : K) * u - x| ≤ |x| / 2 ^ 24 := by
      have : (round (x / u) : K) * u - x = ((round (x / u) : K) - x / u) * u := by
        rw [sub_mul, div_mul_cancel₀ _ hu0.ne']
      rw [this, abs_mul, abs_of_pos hu0]
      calc |(round (x / u) : K) - x / u| * u ≤ 1 / 2 * u := by gcongr
        _ = u * 2 ^ 23 / 2 ^ 24 := by ring
        _ ≤ |x| / 2 ^ 24 := by rw [← he]; gcongr
    have hle : |round (x / u)| ≤ (2 : ℤ) ^ 24 := by
      have hx24 : |x / u| < 2 ^ 24 := by
        rw [abs_div, abs_of_pos hu0, div_lt_iff₀ hu0, mul_comm, ← he1]
        exact h2
      have h3 : |(round (x / u) : K)| < 2 ^ 24 + 1 := by
        have := abs_add_le ((round (x / u) : K) - x / u) (x / u)
        rw [sub_add_cancel] at this
        linarith
      have h4 : ((|round (x / u)| : ℤ) : K) < ((2 ^ 24 + 1 : ℤ) : K) := by
        rw [Int.cast_abs, Int.cast_add, Int.cast_pow, Int.cast_one, Int.cast_ofNat]; exact h3
      have := Int.cast_lt.1 h4
      omega
    refine ⟨(round (x / u) : K) * u, ?_, herr⟩
    rcases hle.lt_or_eq with h | h
    · exact ⟨round (x / u), e - 23, h, rfl⟩
    · rcases abs_eq (by norm_num : (0 : ℤ) ≤ 2 ^ 24) |>.1 h with h | h
      · refine ⟨1, e + 1, by norm_num, ?_⟩
        rw [h, he1]; push_cast; ring
      · refine ⟨-1, e + 1, by norm_num, ?_⟩
        rw [h, he1]; push_cast; ring

/-- Numbers that are stored alike differ by at most 1 / 2^24 of their sum. -/
theorem round_apart {r : K → K} (hr : RoundsTo24 r) {a b : K} (h : r a = r b) : |a - b| ≤ (|a| + |b|) / 2 ^ 24 := by
  have hnear : ∀ x, |r x - x| ≤ |x| / 2 ^ 24 := by
    intro x
    obtain ⟨y, hy, hd⟩ := binary32_near x
    exact ((hr x).2 y hy).trans hd
  have h1 := hnear a
  have h2 := hnear b
  rw [h] at h1
  have h3 : |a - b| ≤ |r b - a| + |r b - b| := by
    have := abs_sub_le a (r b) b
    rw [abs_sub_comm a (r b)] at this
    exact this
  rw [add_div]
  linarith

/-- Rounding to 24 binary digits, halves upwards. -/
def round24 (x : K) : K :=
  let u : K := 2 ^ (Int.log 2 |x| - 23)
  (round (x / u) : K) * u

/-- There is such a rounding. -/
theorem round24_rounds : RoundsTo24 (round24 : K → K) := by
  intro x
  rcases eq_or_ne x 0 with rfl | hx
  · have h0 : round24 (0 : K) = 0 := by simp [round24]
    rw [h0]
    exact ⟨⟨0, 0, by norm_num, by simp⟩, fun y _ => by simp⟩
  have hx0 : 0 < |x| := abs_pos.2 hx
  have h1 : (2 : K) ^ Int.log 2 |x| ≤ |x| := by
    have := Int.zpow_log_le_self (b := 2) (r := |x|) (by norm_num) hx0
    exact_mod_cast this
  have h2 : |x| < (2 : K) ^ (Int.log 2 |x| + 1) := by
    have := Int.lt_zpow_succ_log_self (b := 2) (by norm_num) |x|
    exact_mod_cast this
  unfold round24
  generalize Int.log 2 |x| = e at h1 h2 ⊢
  simp only
  set u : K := 2 ^ (e - 23) with hu
  have hu0 : 0 < u := zpow_pos (by norm_num) _
  have he : (2 : K) ^ e = u * 2 ^ 23 := by
    rw [hu, ← zpow_natCast, ← zpow_add₀ (by norm_num)]
    congr 1
    push_cast
    ring
  have he1 : (2 : K) ^ (e + 1) = u * 2 ^ 24 := by
    rw [zpow_add₀ (by norm_num), he]
    ring
  have hmul : ∀ n : ℤ, |(round (x / u) : K) * u - x| ≤ |(n : K) * u - x| := by
    intro n
    have key : ∀ k : ℤ, (k : K) * u - x = ((k : K) - x / u) * u := by
      intro k; rw [sub_mul, div_mul_cancel₀ _ hu0.ne']
    rw [key, key, abs_mul, abs_mul]
    gcongr 1
    rw [abs_sub_comm, abs_sub_comm (n : K)]
    exact round_le (x / u) n
  constructor
  · have hle : |round (x / u)| ≤ (2 : ℤ) ^ 24 := by
      have hr : |(round (x / u) : K) - x / u| ≤ 1 / 2 := by
        rw [abs_sub_comm]; exact abs_sub_round (x / u)
      have hx24 : |x / u| < 2 ^ 24 := by
        rw [abs_div, abs_of_pos hu0, div_lt_iff₀ hu0, mul_comm, ← he1]
        exact h2
      have h3 : |(round (x / u) : K)| < 2 ^ 24 + 1 := by
        have := abs_add_le ((round (x / u) : K) - x / u) (x / u)
        rw [sub_add_cancel] at this
        linarith
      have h4 : ((|round (x / u)| : ℤ) : K) < ((2 ^ 24 + 1 : ℤ) : K) := by
        rw [Int.cast_abs, Int.cast_add, Int.cast_pow, Int.cast_one, Int.cast_ofNat]; exact h3
      have := Int.cast_lt.1 h4
      omega
    rcases hle.lt_or_eq with h | h
    · exact ⟨round (x / u), e - 23, h, rfl⟩
    · rcases abs_eq (by norm_num : (0 : ℤ) ≤ 2 ^ 24) |>.1 h with h | h
      · refine ⟨1, e + 1, by norm_num, ?_⟩
        rw [h, he1]; push_cast; ring
      · refine ⟨-1, e + 1, by norm_num, ?_⟩
        rw [h, he1]; push_cast; ring
  · rintro y ⟨m, k, hm, rfl⟩
    rcases le_or_gt (e - 23) k with hk | hk
    · obtain ⟨n, hn⟩ := Int.eq_ofNat_of_zero_le (show 0 ≤ k - (e - 23) by omega)
      have : (2 : K) ^ k = 2 ^ n * u := by
        rw [hu, ← zpow_natCast, ← zpow_add₀ (by norm_num)]
        congr 1
        omega
      have h := hmul (m * 2 ^ n)
      rw [this, ← mul_assoc]
      push_cast at h
      exact h
    · have hy : |(m : K) * 2 ^ k| ≤ 2 ^ e := by
        rw [abs_mul, abs_of_pos (zpow_pos (by norm_num : (0 : K) < 2) k)]
        have hm' : |(m : K)| ≤ 2 ^ 24 := by
          have := Int.cast_le (R := K) |>.2 hm.le
          rw [Int.cast_abs, Int.cast_pow, Int.cast_ofNat] at this
          exact this
        have hk' : (2 : K) ^ k ≤ 2 ^ (e - 24) := zpow_le_zpow_right₀ (by norm_num) (by omega)
        calc |(m : K)| * 2 ^ k ≤ 2 ^ 24 * 2 ^ (e - 24) :=
            mul_le_mul hm' hk' (zpow_pos (by norm_num) k).le (by positivity)
          _ = 2 ^ e := by
            rw [← zpow_natCast, ← zpow_add₀ (by norm_num)]
            congr 1
            push_cast
            ring
      have hd : |x| - 2 ^ e ≤ |(m : K) * 2 ^ k - x| := by
        have := abs_sub_abs_le_abs_sub x ((m : K) * 2 ^ k)
        rw [abs_sub_comm] at this
        linarith
      refine le_trans ?_ hd
      rcases lt_or_gt_of_ne hx with hneg | hpos
      · have h := hmul (-(2 ^ 23))
        rw [abs_of_neg hneg] at h1 ⊢
        have e2 : ((-(2 ^ 23) : ℤ) : K) * u - x = -x - 2 ^ e := by rw [he]; push_cast; ring
        rw [e2, abs_of_nonneg (sub_nonneg.2 h1)] at h
        exact h
      · have h := hmul (2 ^ 23)
        rw [abs_of_pos hpos] at h1 ⊢
        have e2 : ((2 ^ 23 : ℤ) : K) * u - x = -(x - 2 ^ e) := by rw [he]; push_cast; ring
        rw [e2, abs_neg, abs_of_nonneg (sub_nonneg.2 h1)] at h
        exact h

/-! ### Selections -/

/-- The coordinates in the file are among the mid points, or at least are not mistaken for one of them when rounded. -/
def TellsApart (r : K → K) (m : Mesh K (Frame K)) : Prop :=
  ∀ (a b : Axis), ∀ c ∈ m.mids b, ∀ q ∈ m.data.rows, ∀ d, q.2.coord a = some d → r d = r c → d = c

/-- The request for an energy or a time picks the same rows before and after rounding. -/
def SameBins (r : K → K) (m : Mesh K (Frame K)) (v : Option K) : Prop :=
  ∀ w, v = some w → ∀ q ∈ m.data.rows, (CloseTo w (q.2.et.map r) ↔ CloseTo w q.2.et)

private theorem coord_stored (r : K → K) (q : MRow K) (a : Axis) : (q.stored r).coord a = (q.coord a).map r := by
  cases a <;> rfl

private theorem keep_stored {r : K → K} {f : Frame K} {p q : MRow K → Bool} (h : ∀ e ∈ f.rows, p (e.2.stored r) = q e.2) :
    (f.stored r).keep p = (f.keep q).stored r := by
  unfold Frame.keep Frame.stored
  simp only [Frame.mk.injEq, true_and]
  rw [List.filter_map]
  congr 1
  apply List.filter_congr
  intro e he
  exact h e he

private theorem keep_sub {f : Frame K} {p : MRow K → Bool} : ∀ e ∈ (f.keep p).rows, e ∈ f.rows := by
  intro e he
  exact List.mem_of_mem_filter he

private theorem coord_eq {r : K → K} {a : Axis} {c : K} {q : MRow K} (h : ∀ d, q.coord a = some d → r d = r c → d = c) :
    decide ((q.stored r).coord a = some (r c)) = decide (q.coord a = some c) := by
  rw [decide_eq_decide, coord_stored]
  constructor
  · intro hq
    rw [Option.map_eq_some_iff] at hq
    obtain ⟨d, hd, hrd⟩ := hq
    rw [hd, h d hd hrd]
  · intro hq
    rw [hq]; rfl

private theorem filterOne_stored {r : K → K} {f : Frame K} {kind : CType} {v : Option K}
    (h : ∀ w, v = some w → ∀ q ∈ f.rows, (CloseTo w (q.2.et.map r) ↔ CloseTo w q.2.et)) :
    filterOne kind v (f.stored r) = (filterOne kind v f).map (Frame.stored r) := by
  cases v with
  | none => rfl
  | some w =>
    simp only [filterOne]
    by_cases hw : w = 0
    · rw [if_pos hw, if_pos hw]; rfl
    · rw [if_neg hw, if_neg hw]
      by_cases hk : f.kind = kind
      · rw [if_pos hk, if_pos (show (f.stored r).kind = kind from hk)]
        simp only [Except.map]
        congr 1
        apply keep_stored
        intro e he
        rw [Bool.eq_iff_iff, closeTo_iff, closeTo_iff]
        exact h w rfl e he
      · rw [if_neg hk, if_neg (show (f.stored r).kind ≠ kind from hk)]; rfl

private theorem filterOne_sub {kind : CType} {v : Option K} {f g : Frame K} (h : filterOne kind v f = .ok g) : ∀ e ∈ g.rows, e ∈ f.rows := by
  cases v with
  | none => cases h; exact fun _ h => h
  | some w =>
    simp only [filterOne] at h
    split_ifs at h
    · cases h; exact fun _ h => h
    · cases h; exact keep_sub

private theorem filter_stored {r : K → K} {f : Frame K} {erg time : Option K}
    (he : ∀ w, erg = some w → ∀ q ∈ f.rows, (CloseTo w (q.2.et.map r) ↔ CloseTo w q.2.et))
    (ht : ∀ w, time = some w → ∀ q ∈ f.rows, (CloseTo w (q.2.et.map r) ↔ CloseTo w q.2.et)) :
    filterEnergyTime (f.stored r) erg time = (filterEnergyTime f erg time).map (Frame.stored r) := by
  unfold filterEnergyTime
  rw [filterOne_stored he]
  cases h : filterOne .e6 erg f with
  | error e => rfl
  | ok g => exact filterOne_stored (fun w hw q hq => ht w hw q (filterOne_sub h q hq))

private theorem filter_sub {erg time : Option K} {f g : Frame K} (h : filterEnergyTime f erg time = .ok g) : ∀ e ∈ g.rows, e ∈ f.rows := by
  unfold filterEnergyTime at h
  rw [ex_bind_ok] at h
  obtain ⟨g1, h1, h2⟩ := h
  exact fun e he => filterOne_sub h1 e (filterOne_sub h2 e he)

private theorem values_stored (r : K → K) (f : Frame K) :
    (f.stored r).rows.map (fun q => q.2.value) = (f.rows.map (fun q => q.2.value)).map (Option.map r) := by
  simp [Frame.stored, MRow.stored, List.map_map, Function.comp_def]

private theorem nearest_mem {v x : K} {l : List K} (h : findNearestMid v l = .ok x) : x ∈ l := by
  have := C53_nearest v l
  cases l with
  | nil => cases h
  | cons a l =>
    have key : ∀ (l : List K) (b : K), nearestAux v b l ∈ b :: l := by
      intro l
      induction l with
      | nil => intro b; simp [nearestAux]
      | cons c l ih =>
        intro b
        unfold nearestAux
        split_ifs
        · exact List.mem_cons_of_mem _ (ih c)
        · rcases List.mem_cons.1 (ih b) with h | h
          · rw [h]; simp
          · simp [h]
    cases h
    exact key l a

/-- C245 (part that holds): a point picked from a stored table is the one of the table in the file, rounded. Missing: mid points that
    are rounded to the same number. -/
theorem C245_point_partial (r : K → K) (m : Mesh K (Frame K)) (x y z : K) (erg time : Option K) (ha : TellsApart r m) (he : SameBins r m erg)
    (ht : SameBins r m time) :
    pickPoint32 r x y z (m.withData (m.data.stored r)) erg time = (pickPoint x y z m erg time).map (List.map (Option.map r)) := by
  unfold pickPoint32 pickPoint
  simp only [Mesh.withData]
  cases hx : findNearestMid x m.xM with
  | error e => rfl
  | ok x' =>
    cases hy : findNearestMid y m.yM with
    | error e => rfl
    | ok y' =>
      cases hz : findNearestMid z m.zM with
      | error e => rfl
      | ok z' =>
        simp only [ex_ok_bind]
        rw [keep_stored (q := fun q => decide (q.x = some x')) (fun e h => coord_eq (a := .x) (ha .x .x x' (nearest_mem hx) e h)),
          keep_stored (q := fun q => decide (q.y = some y')) (fun e h => coord_eq (a := .y) (ha .y .y y' (nearest_mem hy) e (keep_sub e h))),
          keep_stored (q := fun q => decide (q.z = some z'))
            (fun e h => coord_eq (a := .z) (ha .z .z z' (nearest_mem hz) e (keep_sub e (keep_sub e h)))),
          filter_stored (fun w hw q hq => he w hw q (keep_sub q (keep_sub q (keep_sub q hq))))
            (fun w hw q hq => ht w hw q (keep_sub q (keep_sub q (keep_sub q hq))))]
        generalize filterEnergyTime _ erg time = o
        cases o with
        | error e => rfl
        | ok g => exact congrArg Except.ok (values_stored r g)

private theorem axis_step {r : K → K} {f : Frame K} (a : Axis) (mids : List K) (v w : K)
    (h : ∀ c ∈ mids, ∀ q ∈ f.rows, ∀ d, q.2.coord a = some d → r d = r c → d = c) :
    (if v = w then findNearestMid v mids >>= fun c => pure ((f.stored r).keep (fun q => decide (q.coord a = some (r c)))) else pure (f.stored r)) =
      Except.map (Frame.stored r) (if v = w then findNearestMid v mids >>= fun c => pure (f.keep (fun q => decide (q.coord a = some c))) else pure f) := by
  split_ifs
  · cases hx : findNearestMid v mids with
    | error e => rfl
    | ok x => exact congrArg Except.ok (keep_stored (fun e he => coord_eq (h x (nearest_mem hx) e he)))
  · rfl

private theorem axis_sub {f g : Frame K} {a : Axis} {mids : List K} {v w : K}
    (h : (if v = w then findNearestMid v mids >>= fun c => pure (f.keep (fun q => decide (q.coord a = some c))) else pure f) = (.ok g : Except Err (Frame K))) :
    ∀ e ∈ g.rows, e ∈ f.rows := by
  split_ifs at h
  · rw [ex_bind_ok] at h
    obtain ⟨c, _, h⟩ := h
    cases h
    exact keep_sub
  · cases h
    exact fun _ h => h

private abbrev stepOf (g : K → K) (a : Axis) (mids : List K) (v w : K) (f : Frame K) : Except Err (Frame K) :=
  if v = w then findNearestMid v mids >>= fun c => pure (f.keep (fun q => decide (q.coord a = some (g c)))) else pure f

private theorem line32_eq (r : K → K) (m : Mesh K (Frame K)) (p1 p2 : K × K × K) (erg time : Option K) :
    extractLine32 r m p1 p2 erg time = stepOf r .x m.xM p1.1 p2.1 m.data >>= fun f => stepOf r .y m.yM p1.2.1 p2.2.1 f >>= fun f =>
      stepOf r .z m.zM p1.2.2 p2.2.2 f >>= fun f => filterEnergyTime f erg time >>= fun f => pure (f.rows.map (fun q => q.2.value)) := by
  unfold extractLine32 stepOf
  simp only [MRow.coord]
  split_ifs <;> simp only [bind_assoc, pure_bind] <;> rfl

private theorem line_eq (m : Mesh K (Frame K)) (p1 p2 : K × K × K) (erg time : Option K) :
    extractLine m p1 p2 erg time = extractLine32 id m p1 p2 erg time := rfl

/-- C245 (part that holds): the same for a line. -/
theorem C245_line_partial (r : K → K) (m : Mesh K (Frame K)) (p1 p2 : K × K × K) (erg time : Option K) (ha : TellsApart r m)
    (he : SameBins r m erg) (ht : SameBins r m time) :
    extractLine32 r (m.withData (m.data.stored r)) p1 p2 erg time = (extractLine m p1 p2 erg time).map (List.map (Option.map r)) := by
  rw [line_eq, line32_eq, line32_eq]
  simp only [Mesh.withData]
  rw [show stepOf r .x m.xM p1.1 p2.1 (m.data.stored r) = (stepOf id .x m.xM p1.1 p2.1 m.data).map (Frame.stored r) from
    axis_step .x m.xM p1.1 p2.1 (fun c hc q hq => ha .x .x c hc q hq)]
  cases h1 : stepOf id .x m.xM p1.1 p2.1 m.data with
  | error e => rfl
  | ok f1 =>
    have s1 := axis_sub (a := .x) h1
    simp only [Except.map, ex_ok_bind]
    rw [show stepOf r .y m.yM p1.2.1 p2.2.1 (f1.stored r) = (stepOf id .y m.yM p1.2.1 p2.2.1 f1).map (Frame.stored r) from
      axis_step .y m.yM p1.2.1 p2.2.1 (fun c hc q hq => ha .y .y c hc q (s1 q hq))]
    cases h2 : stepOf id .y m.yM p1.2.1 p2.2.1 f1 with
    | error e => rfl
    | ok f2 =>
      have s2 := axis_sub (a := .y) h2
      simp only [Except.map, ex_ok_bind]
      rw [show stepOf r .z m.zM p1.2.2 p2.2.2 (f2.stored r) = (stepOf id .z m.zM p1.2.2 p2.2.2 f2).map (Frame.stored r) from
        axis_step .z m.zM p1.2.2 p2.2.2 (fun c hc q hq => ha .z .z c hc q (s1 q (s2 q hq)))]
      cases h3 : stepOf id .z m.zM p1.2.2 p2.2.2 f2 with
      | error e => rfl
      | ok f3 =>
        have s3 := axis_sub (a := .z) h3
        simp only [Except.map, ex_ok_bind]
        rw [filter_stored (fun w hw q hq => he w hw q (s1 q (s2 q (s3 q hq)))) (fun w hw q hq => ht w hw q (s1 q (s2 q (s3 q hq))))]
        cases filterEnergyTime f3 erg time with
        | error e => rfl
        | ok g => exact congrArg Except.ok (values_stored r g)

private theorem arrayT_map {α β : Type} (g : α → β) (cols : List (List α)) :
    arrayT (cols.map (List.map g)) = (arrayT cols).map (List.map (List.map g)) := by
  cases cols with
  | nil => rfl
  | cons c cs =>
    simp only [arrayT, List.map_cons]
    have hall : (cs.map (List.map g)).all (fun d => decide (d.length = (c.map g).length)) = cs.all (fun d => decide (d.length = c.length)) := by
      simp [List.all_map, Function.comp_def]
    rw [hall]
    split_ifs
    · simp only [Except.map, List.length_map, List.map_map, Except.ok.injEq]
      apply List.map_congr_left
      intro k _
      simp only [Function.comp_apply, ← List.map_cons, List.filterMap_map, List.map_filterMap]
      congr 1
      funext d
      simp
    · rfl

private theorem cols_stored {r : K → K} {rows : List (MRow K)} {mids : List K} {a : Axis} {g : MRow K → Option K}
    (hg : ∀ q, g (q.stored r) = (g q).map r) (h : ∀ c ∈ mids, ∀ q ∈ rows, ∀ d, q.coord a = some d → r d = r c → d = c) :
    mids.map (fun c => (((rows.map (MRow.stored r)).filter (fun q => decide (q.coord a = some (r c)))).map g)) =
      (mids.map (fun c => ((rows.filter (fun q => decide (q.coord a = some c))).map g))).map (List.map (Option.map r)) := by
  rw [List.map_map]
  apply List.map_congr_left
  intro c hc
  simp only [Function.comp_apply]
  rw [List.filter_map, List.map_map, List.map_map]
  have : rows.filter ((fun q => decide (q.coord a = some (r c))) ∘ MRow.stored r) = rows.filter (fun q => decide (q.coord a = some c)) := by
    apply List.filter_congr
    intro q hq
    exact coord_eq (h c hc q hq)
  rw [this]
  apply List.map_congr_left
  intro q _
  exact hg q

/-- C245 (part that holds): the same for a slice. -/
theorem C245_slice_partial (r : K → K) (m : Mesh K (Frame K)) (value : K) (plane : Str) (erg time : Option K) (ha : TellsApart r m)
    (he : SameBins r m erg) (ht : SameBins r m time) :
    extractSlice32 r (m.withData (m.data.stored r)) value plane erg time =
      (extractSlice m value plane erg time).map (fun s => ⟨s.sliceI, s.sliceJ, s.value, s.values.map (List.map (Option.map r)),
        s.errors.map (List.map (Option.map r))⟩) := by
  have hm : ∀ a, (m.withData (m.data.stored r)).mids a = m.mids a := by intro a; cases a <;> rfl
  unfold extractSlice32 extractSlice
  simp only [hm]
  rw [show (m.withData (m.data.stored r)).data = m.data.stored r from rfl,
    filter_stored (fun w hw q hq => he w hw q hq) (fun w hw q hq => ht w hw q hq)]
  cases hf : filterEnergyTime m.data erg time with
  | error e => rfl
  | ok f =>
    have hsub := filter_sub hf
    cases hp : planeAxes plane with
    | error e => rfl
    | ok p =>
      obtain ⟨i, j, v⟩ := p
      simp only [Except.map, ex_ok_bind]
      cases hn : findNearestMid value (m.mids v) with
      | error e => rfl
      | ok c =>
        simp only [ex_ok_bind]
        have hk : ((f.stored r).keep (fun q => decide (q.coord v = some (r c)))).rows.map (·.2) =
            ((f.keep (fun q => decide (q.coord v = some c))).rows.map (·.2)).map (MRow.stored r) := by
          rw [keep_stored (q := fun q => decide (q.coord v = some c)) (fun e h => coord_eq (ha v v c (nearest_mem hn) e (hsub e h)))]
          simp [Frame.stored, List.map_map, Function.comp_def]
        have hrows : ∀ q ∈ (f.keep (fun q => decide (q.coord v = some c))).rows.map (·.2), ∃ e ∈ m.data.rows, e.2 = q := by
          intro q hq
          obtain ⟨e, he, rfl⟩ := List.mem_map.1 hq
          exact ⟨e, hsub e (keep_sub e he), rfl⟩
        have happ : ∀ a, ∀ c' ∈ m.mids i, ∀ q ∈ (f.keep (fun q => decide (q.coord v = some c))).rows.map (·.2), ∀ d, q.coord a = some d → r d = r c' → d = c' := by
          intro a c' hc' q hq
          obtain ⟨e, he, rfl⟩ := hrows q hq
          exact ha a i c' hc' e he
        rw [hk, cols_stored (a := i) (g := (·.value)) (fun _ => rfl) (happ i), cols_stored (a := j) (g := (·.err)) (fun _ => rfl) (happ j),
          arrayT_map, arrayT_map]
        generalize arrayT (List.map (fun c_1 => List.map (fun q : MRow K => q.value) _) _) = o1
        cases o1 with
        | error e => rfl
        | ok vals =>
          simp only [Except.map, ex_ok_bind]
          generalize arrayT (List.map (fun c_1 => List.map (fun q : MRow K => q.err) _) _) = o2
          cases o2 with
          | error e => rfl
          | ok errs => rfl

/-- Mid points further apart than 1 / 2^24 of their sum are told apart by rounding to nearest. -/
theorem C245_apart_partial (r : K → K) (hr : RoundsTo24 r) (m : Mesh K (Frame K))
    (hfar : ∀ (a b : Axis), ∀ c ∈ m.mids b, ∀ q ∈ m.data.rows, ∀ d, q.2.coord a = some d → d ≠ c → (|d| + |c|) / 2 ^ 24 < |d - c|) : TellsApart r m := by
  intro a b c hc q hq d hd hrd
  by_contra hne
  exact absurd (round_apart hr hrd) (not_le.2 (hfar a b c hc q hq d hd hne))

/-- C245 (violated): two voxels of a row along x whose mid points are stored alike; picking a point of one returns the values of both. -/
theorem C245_two_voxels_violated (r : K → K) (a b y z va vb ea eb : K) (hab : a ≠ b) (hr : r a = r b) :
    let m : Mesh K (Frame K) := ⟨none, none, [], [], [], [], [], ⟨.c5, [(0, ⟨none, some a, some y, some z, some va, some ea⟩),
      (1, ⟨none, some b, some y, some z, some vb, some eb⟩)]⟩, [a, b], [y], [z], some .c5⟩
    pickPoint a y z m none none = .ok [some va] ∧
      pickPoint32 r a y z (m.withData (m.data.stored r)) none none = .ok [some (r va), some (r vb)] := by
  intro m
  have hna : findNearestMid a m.xM = .ok a := by
    simp [m, findNearestMid, nearestAux]
  have hny : findNearestMid y m.yM = .ok y := rfl
  have hnz : findNearestMid z m.zM = .ok z := rfl
  constructor
  · unfold pickPoint
    rw [hna, hny, hnz]
    simp [m, Frame.keep, filterEnergyTime, filterOne, ex_ok_bind, List.filter_cons, Ne.symm hab]
  · have hx : (m.withData (m.data.stored r)).xM = m.xM := rfl
    have hy : (m.withData (m.data.stored r)).yM = m.yM := rfl
    have hz : (m.withData (m.data.stored r)).zM = m.zM := rfl
    unfold pickPoint32
    rw [hx, hy, hz, hna, hny, hnz]
    simp [m, Mesh.withData, Frame.stored, MRow.stored, Frame.keep, filterEnergyTime, filterOne, ex_ok_bind, List.filter_cons, hr]

/-- Two different mid points stored alike: 2^24 + 1 needs 25 binary digits. -/
example : RoundsTo24 (round24 : ℚ → ℚ) ∧ round24 (16777217 : ℚ) = round24 16777218 := ⟨round24_rounds, by decide +kernel⟩
example : round24 (7 / 5 : ℚ) = 11744051 / 8388608 := by decide +kernel
/-- Rounding to even integers: 1 and 3 are told apart, the picked value is the stored one. -/
example : pickPoint32 (fun x : ℚ => 2 * (round (x / 2) : ℚ)) 3 1 1 ⟨none, none, [], [], [], [], [], ⟨.c5, [(0, ⟨none, some 2, some 2, some 2, some 6, some 0⟩),
    (1, ⟨none, some 4, some 2, some 2, some 8, some 0⟩)]⟩, [1, 3], [1], [1], some .c5⟩ none none = .ok [some 8] := by decide +kernel

end Props
