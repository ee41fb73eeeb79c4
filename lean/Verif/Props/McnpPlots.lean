/- Properties C146 and C147 of the plotting functions of mcnp_analysis.py: which data are plotted. -/
import Verif.Model.McnpPlots
import Verif.Proofs.Numpy
import Verif.Proofs.NeutUtilities
import Verif.Proofs.MapM
import Verif.Proofs.Except
import Mathlib.Algebra.BigOperators.Group.List.Basic
import Mathlib.Algebra.Order.Field.Basic
import Mathlib.Tactic.Ring
import Mathlib.Tactic.Linarith
import Mathlib.Tactic.NormNum
import Mathlib.Tactic.FieldSimp

set_option linter.unusedSectionVars false
set_option linter.unusedSimpArgs false

namespace Props
open Py McnpAnalysis McnpPlots NeutUtilities
variable {K : Type} [Field K] [LinearOrder K] [IsStrictOrderedRing K]

/-- `i` is the first position of an entry of `l` nearest to `target`. -/
def Nearest (l : List K) (target : K) (i : Nat) : Prop :=
  ∃ a, l[i]? = some a ∧ (∀ b ∈ l, |a - target| ≤ |b - target|) ∧ ∀ (j : Nat) (b : K), j < i → l[j]? = some b → |a - target| < |b - target|

/-- `i` is the first position of the largest entry of `l`. -/
def Peak (l : List K) (i : Nat) : Prop := ∃ a, l[i]? = some a ∧ (∀ b ∈ l, b ≤ a) ∧ ∀ (j : Nat) (b : K), j < i → l[j]? = some b → b < a

theorem mp_nearest_unique {l : List K} {target : K} {i j : Nat} (hi : Nearest l target i) (hj : Nearest l target j) : i = j := by
  obtain ⟨a, ha, ha1, ha2⟩ := hi
  obtain ⟨b, hb, hb1, hb2⟩ := hj
  rcases lt_trichotomy i j with h | h | h
  · have h1 := hb2 i a h ha
    have h2 := ha1 b (List.mem_of_getElem? hb)
    exact absurd h1 (not_lt.2 h2)
  · exact h
  · have h1 := ha2 j b h hb
    have h2 := hb1 a (List.mem_of_getElem? ha)
    exact absurd h1 (not_lt.2 h2)

theorem mp_argmin_nearest (l : List K) (target : K) (i : Nat) : argmin (l.map (fun t => |t - target|)) = .ok i ↔ Nearest l target i := by
  have fwd : ∀ i, argmin (l.map (fun t => |t - target|)) = .ok i → Nearest l target i := by
    intro i h
    have hne : l.map (fun t => |t - target|) ≠ [] := by
      intro h0; rw [h0] at h; cases h
    obtain ⟨i', hi', hs⟩ := argmin_spec hne
    rw [h] at hi'
    cases hi'
    obtain ⟨a, ha, h1, h2⟩ := hs
    rw [List.getElem?_map, Option.map_eq_some_iff] at ha
    obtain ⟨t, ht, rfl⟩ := ha
    refine ⟨t, ht, fun b hb => h1 _ (List.mem_map.2 ⟨b, hb, rfl⟩), fun j b hj hb => h2 j _ hj ?_⟩
    rw [List.getElem?_map, hb]; rfl
  refine ⟨fwd i, fun h => ?_⟩
  have hne : l.map (fun t => |t - target|) ≠ [] := by
    obtain ⟨a, ha, _⟩ := h
    intro h0
    rw [List.map_eq_nil_iff] at h0
    rw [h0] at ha; simp at ha
  obtain ⟨i', hi', _⟩ := argmin_spec hne
  rw [hi', mp_nearest_unique (fwd i' hi') h]

theorem mp_argmax_peak {l : List K} {i : Nat} (h : argmax l = .ok i) : Peak l i := by
  have hne : l ≠ [] := by rintro rfl; cases h
  obtain ⟨i', hi', a, h1, h2, h3⟩ := argmax_spec hne
  rw [h] at hi'
  cases hi'
  exact ⟨a, h1, h2, h3⟩

theorem mp_curve_ok {x y : List K} {c : Curve K} : curve x y = .ok c ↔ x.length = y.length ∧ c = ⟨x, y⟩ := by
  unfold curve
  split
  · rename_i h; simp [h, eq_comm]
  · rename_i h; simp [h]

/-! ### C146 -/

/-- The curve of `time_slice`: for every energy the normalised value in the time bin nearest to the target. -/
theorem C146_time_slice (target : K) (energies times : List K) (results : List (List K)) (f : K) (c : Curve K) :
    timeSlice target energies times results f = .ok c ↔
      ∃ ti, Nearest times target ti ∧ c.x = energies ∧ results.length = energies.length ∧
        List.Forall₂ (fun row y => ∃ v, row[ti]? = some v ∧ y = v * f) results c.y := by
  unfold timeSlice
  rw [ex_bind_ok]
  simp only [ex_bind_ok, mp_argmin_nearest, mapM_except_ok_iff, orErr_ok_iff, mp_curve_ok]
  constructor
  · rintro ⟨ti, h1, col, h2, h3, rfl⟩
    refine ⟨ti, h1, rfl, ?_, ?_⟩
    · rw [h3]; simpa [normalise] using h2.length_eq
    · show List.Forall₂ _ results (normalise col f)
      unfold normalise
      rw [List.forall₂_map_right_iff]
      exact h2.imp (fun row v h => ⟨v, h, rfl⟩)
  · rintro ⟨ti, h1, h2, h3, h4⟩
    have : ∃ col, List.Forall₂ (fun (row : List K) v => row[ti]? = some v) results col ∧ c.y = col.map (· * f) := by
      clear h3
      generalize c.y = ys at h4
      induction h4 with
      | nil => exact ⟨[], .nil, rfl⟩
      | cons h _ ih =>
        obtain ⟨col, hc1, hc2⟩ := ih
        obtain ⟨v, hv1, hv2⟩ := h
        exact ⟨v :: col, .cons hv1 hc1, by rw [hv2, hc2]; rfl⟩
    obtain ⟨col, hc1, hc2⟩ := this
    refine ⟨ti, h1, col, hc1, ?_, ?_⟩
    · rw [← h3, hc1.length_eq]; simp [normalise]
    · obtain ⟨x, y⟩ := c
      simp only at h2 hc2
      rw [h2, hc2]; rfl

/-- It fails (only) for no times, a row without the time bin, or a wrong number of energies. -/
theorem C146_success (target : K) (energies times : List K) (results : List (List K)) (f : K) (ht : times ≠ [])
    (hr : ∀ row ∈ results, times.length ≤ row.length) (hl : results.length = energies.length) :
    ∃ c, timeSlice target energies times results f = .ok c := by
  obtain ⟨ti, h1, _⟩ := argmin_spec (l := times.map (fun t => |t - target|)) (by simpa using ht)
  have hn := (mp_argmin_nearest times target ti).1 h1
  have hlt : ti < times.length := by
    obtain ⟨a, ha, _⟩ := hn
    exact (List.getElem?_eq_some_iff.1 ha).1
  have : ∃ ys, List.Forall₂ (fun (row : List K) y => ∃ v, row[ti]? = some v ∧ y = v * f) results ys := by
    clear hl
    induction results with
    | nil => exact ⟨[], .nil⟩
    | cons row rows ih =>
      obtain ⟨ys, h⟩ := ih (fun r hr' => hr r (by simp [hr']))
      have : ti < row.length := lt_of_lt_of_le hlt (hr row (by simp))
      exact ⟨row[ti] * f :: ys, .cons ⟨row[ti], List.getElem?_eq_getElem this, rfl⟩ h⟩
  obtain ⟨ys, h⟩ := this
  exact ⟨⟨energies, ys⟩, (C146_time_slice target energies times results f _).2 ⟨ti, hn, rfl, hl, h⟩⟩

example : timeSlice (2 : ℚ) [10, 20] [1, 3, 5] [[1, 2, 3], [4, 5, 6]] 2 = .ok ⟨[10, 20], [2, 8]⟩ := by decide +kernel

/-! ### C147 -/

theorem mp_energyCurve_ok {tc : List K} {results : List (List K)} {f : K} {ei : Nat} {r : Curve K × Nat × K} (h : energyCurve tc results f ei = .ok r) :
    ∃ row, results[ei]? = some row ∧ r.1 = ⟨tc, row.dropLast.map (· * f)⟩ ∧ tc.length + 1 = row.length ∧
      Peak (row.dropLast.map (· * f)) r.2.1 ∧ (row.dropLast.map (· * f))[r.2.1]? = some r.2.2 := by
  unfold energyCurve at h
  simp only [ex_bind_ok, orErr_ok_iff, mp_curve_ok, ex_pure, Except.ok.injEq] at h
  obtain ⟨row, h1, peak, h2, v, h3, t, h4, c, ⟨h5, rfl⟩, rfl⟩ := h
  have hd : (normalise row f).dropLast = row.dropLast.map (· * f) := by
    unfold normalise; rw [List.map_dropLast]
  rw [hd] at h5
  rw [List.length_map, List.length_dropLast] at h5
  have htc : 0 < tc.length := by
    have := (List.getElem?_eq_some_iff.1 h4).1
    omega
  have hlen : tc.length + 1 = row.length := by omega
  have htake : (normalise row f).take tc.length = row.dropLast.map (· * f) := by
    rw [← hd, List.dropLast_eq_take]
    congr 1
    simp [normalise]; omega
  rw [htake] at h2 h3
  exact ⟨row, h1, by rw [hd], hlen, mp_argmax_peak h2, h3⟩

theorem mp_totalCurve_ok {tc total : List K} {pt : Bool} {o : Option (Curve K)} : totalCurve tc total pt = .ok o ↔
    (pt = true ∧ ∃ c, curve tc total.dropLast = .ok c ∧ o = some c) ∨ (pt = false ∧ o = none) := by
  unfold totalCurve
  cases pt with
  | false => simp [eq_comm]
  | true =>
    simp only [if_true, true_and, Bool.true_eq_false, false_and, or_false]
    cases h : curve tc total.dropLast with
    | error e => simp [Except.map]
    | ok c => simp [Except.map, eq_comm]

theorem mp_energySlice_ok {targets energies times : List K} {results : List (List K)} {minT maxT : Option K} {window : Nat} {f : K} {pt : Bool}
    {fig : SliceFig K} (h : energySlice targets energies times results minT maxT window f pt = .ok fig) :
    ∃ (rs : List (Curve K × Nat × K)), List.Forall₂ (fun te r => ∃ ei, Nearest energies te ei ∧ energyCurve (times.map Constants.shakeToMs) results f ei = .ok r) targets rs ∧
      fig.curves = rs.map (·.1) ∧
      (pt = true → ∃ c, curve (times.map Constants.shakeToMs) (normalise (columnSums results) f).dropLast = .ok c ∧ fig.total = some c) ∧
      (pt = false → fig.total = none) ∧
      timeLimits (times.map Constants.shakeToMs) (rs.map (fun r => r.2.1)) minT maxT window = .ok fig.xlim ∧
      yLimit (normalise (columnSums results) f) pt (rs.map (fun r => r.2.1)) (rs.map (fun r => r.2.2)) = .ok fig.ymax := by
  unfold energySlice at h
  simp only [ex_bind_ok, mapM_except_ok_iff, mp_argmin_nearest, ex_pure, Except.ok.injEq] at h
  obtain ⟨idx, h1, rs, h2, tot, h3, xl, h4, ym, h5, rfl⟩ := h
  refine ⟨rs, ?_, rfl, ?_, ?_, h4, h5⟩
  · clear h3 h4 h5
    induction h1 generalizing rs with
    | nil => cases h2; exact .nil
    | cons h _ ih =>
      cases h2 with
      | cons h' h2 => exact .cons ⟨_, h, h'⟩ (ih _ h2)
  · rintro rfl
    rcases mp_totalCurve_ok.1 h3 with ⟨_, c, hc, rfl⟩ | ⟨h, _⟩
    · exact ⟨c, hc, rfl⟩
    · cases h
  · rintro rfl
    rcases mp_totalCurve_ok.1 h3 with ⟨h, _⟩ | ⟨_, h⟩
    · cases h
    · exact h

theorem mp_columnSums_get (results : List (List K)) (n : Nat) (hne : results ≠ []) (hr : ∀ row ∈ results, row.length = n) :
    (columnSums results).length = n ∧ ∀ j, j < n → (columnSums results)[j]? = some ((results.map (fun row => row[j]?.getD 0)).sum) := by
  induction results with
  | nil => exact absurd rfl hne
  | cons row rows ih =>
    cases rows with
    | nil =>
      have := hr row (by simp)
      refine ⟨this, fun j hj => ?_⟩
      simp [columnSums, List.getElem?_eq_getElem (show j < row.length by omega)]
    | cons row2 rows =>
      obtain ⟨h1, h2⟩ := ih (by simp) (fun r hr' => hr r (by simp [hr']))
      have hrow := hr row (by simp)
      refine ⟨by simp only [columnSums, List.length_zipWith]; omega, fun j hj => ?_⟩
      rw [columnSums, List.getElem?_zipWith, h2 j hj, List.getElem?_eq_getElem (show j < row.length by omega)]
      simp [List.getElem?_eq_getElem (show j < row.length by omega)]
      simp

/-- A time of the plot: a shake is 10⁻⁸ s, the axis is in units of 10⁻⁶ s. -/
def Microseconds (shakes : K) (x : K) : Prop := x * (1 / 10 ^ 6) = shakes * (1 / 10 ^ 8)

theorem mp_micro (t : K) : Microseconds t (Constants.shakeToMs t) := by
  unfold Microseconds Constants.shakeToMs
  field_simp
  ring

/-- The curves of `energy_slice`: one per target, with the normalised values of the nearest energy without the last entry; and the
    sum over all energies if wanted. -/
theorem C147_curves {targets energies times : List K} {results : List (List K)} {minT maxT : Option K} {window : Nat} {f : K} {pt : Bool}
    {fig : SliceFig K} (h : energySlice targets energies times results minT maxT window f pt = .ok fig) :
    List.Forall₂ (fun te (c : Curve K) => ∃ ei row, Nearest energies te ei ∧ results[ei]? = some row ∧ List.Forall₂ Microseconds times c.x ∧
      c.y = row.dropLast.map (· * f)) targets fig.curves := by
  obtain ⟨rs, h1, h2, _⟩ := mp_energySlice_ok h
  rw [h2, List.forall₂_map_right_iff]
  refine h1.imp ?_
  rintro te r ⟨ei, hn, hr⟩
  obtain ⟨row, hrow, hc, _⟩ := mp_energyCurve_ok hr
  refine ⟨ei, row, hn, hrow, ?_, by rw [hc]⟩
  rw [hc]
  show List.Forall₂ _ times (times.map Constants.shakeToMs)
  rw [List.forall₂_map_right_iff]
  exact List.forall₂_same.2 (fun t _ => mp_micro t)

theorem C147_total {targets energies times : List K} {results : List (List K)} {minT maxT : Option K} {window : Nat} {f : K} {pt : Bool}
    {fig : SliceFig K} (h : energySlice targets energies times results minT maxT window f pt = .ok fig) :
    (pt = false → fig.total = none) ∧
    (pt = true → ∀ n, results ≠ [] → (∀ row ∈ results, row.length = n) → ∃ c, fig.total = some c ∧ List.Forall₂ Microseconds times c.x ∧
      c.y.length = n - 1 ∧ ∀ j, j < n - 1 → c.y[j]? = some ((results.map (fun row => row[j]?.getD 0)).sum * f)) := by
  obtain ⟨rs, _, _, h3, h4, _⟩ := mp_energySlice_ok h
  refine ⟨h4, fun hp n hne hr => ?_⟩
  obtain ⟨c, hc, ht⟩ := h3 hp
  rw [mp_curve_ok] at hc
  obtain ⟨_, rfl⟩ := hc
  refine ⟨_, ht, ?_, ?_, ?_⟩
  · show List.Forall₂ _ times (times.map Constants.shakeToMs)
    rw [List.forall₂_map_right_iff]
    exact List.forall₂_same.2 (fun t _ => mp_micro t)
  · simp [normalise, (mp_columnSums_get results n hne hr).1]
  · intro j hj
    have hl := (mp_columnSums_get results n hne hr).1
    rw [List.getElem?_dropLast, if_pos (by simp [normalise, hl]; omega)]
    unfold normalise
    rw [List.getElem?_map, (mp_columnSums_get results n hne hr).2 j (by omega)]
    rfl

/-- With one more result than times in each row, at least one time, one energy and one target, it succeeds. -/
theorem C147_success (targets energies times : List K) (results : List (List K)) (minT maxT : Option K) (window : Nat) (f : K) (pt : Bool)
    (h1 : targets ≠ []) (h2 : energies ≠ []) (h3 : times ≠ []) (h4 : results.length = energies.length) (h5 : ∀ row ∈ results, row.length = times.length + 1) :
    ∃ fig, energySlice targets energies times results minT maxT window f pt = .ok fig := by
  have htl : 0 < times.length := List.length_pos_iff.2 h3
  have hidx : ∃ idx, targets.mapM (fun te => argmin (energies.map (fun e => |e - te|))) = .ok idx ∧ idx.length = targets.length ∧ ∀ i ∈ idx, i < energies.length := by
    clear h1
    induction targets with
    | nil => exact ⟨[], rfl, rfl, by simp⟩
    | cons te ts ih =>
      obtain ⟨idx, hi, hl, hb⟩ := ih
      obtain ⟨i, hi', a, ha, _⟩ := argmin_spec (l := energies.map (fun e => |e - te|)) (by simpa using h2)
      refine ⟨i :: idx, ?_, by simp [hl], ?_⟩
      · rw [mapM_except_cons_ok (f := fun te => argmin (energies.map (fun e => |e - te|))) hi', hi]; rfl
      · intro j hj
        rcases List.mem_cons.1 hj with rfl | hj
        · have := (List.getElem?_eq_some_iff.1 ha).1
          simpa using this
        · exact hb j hj
  obtain ⟨idx, hi, hl, hb⟩ := hidx
  have hcurve : ∀ i, i < energies.length → ∃ r, energyCurve (times.map Constants.shakeToMs) results f i = .ok r ∧ r.2.1 < times.length := by
    intro i hil
    have hir : i < results.length := by omega
    have hrow : results[i]? = some results[i] := List.getElem?_eq_getElem hir
    have hrl := h5 _ (List.getElem_mem hir)
    generalize results[i] = row at hrow hrl
    have hne : (normalise row f).take (times.map Constants.shakeToMs).length ≠ [] := by
      intro h0
      have := congrArg List.length h0
      rw [List.length_take, normalise, List.length_map, List.length_map, List.length_nil] at this
      omega
    obtain ⟨p, hp, v, hv, _⟩ := argmax_spec hne
    have hpl : p < times.length := by
      have := (List.getElem?_eq_some_iff.1 hv).1
      simp [normalise] at this
      omega
    refine ⟨(⟨times.map Constants.shakeToMs, (normalise row f).dropLast⟩, p, v), ?_, hpl⟩
    unfold energyCurve
    simp only [ex_bind_ok, orErr_ok_iff, mp_curve_ok, ex_pure, Except.ok.injEq]
    refine ⟨row, hrow, p, hp, v, hv, _, List.getElem?_eq_getElem (by simpa using hpl), _, ⟨?_, rfl⟩, rfl⟩
    simp [normalise]; omega
  have hrs : ∃ rs, idx.mapM (energyCurve (times.map Constants.shakeToMs) results f) = .ok rs ∧ rs.length = idx.length ∧ ∀ r ∈ rs, r.2.1 < times.length := by
    clear hi hl
    induction idx with
    | nil => exact ⟨[], rfl, rfl, by simp⟩
    | cons i is ih =>
      obtain ⟨rs, h, hl, hb'⟩ := ih (fun j hj => hb j (by simp [hj]))
      obtain ⟨r, hr, hrb⟩ := hcurve i (hb i (by simp))
      refine ⟨r :: rs, by rw [mapM_except_cons_ok hr, h]; rfl, by simp [hl], ?_⟩
      intro r' hr'
      rcases List.mem_cons.1 hr' with rfl | hr'
      · exact hrb
      · exact hb' r' hr'
  obtain ⟨rs, hrs, hrl, hrb⟩ := hrs
  have hrne : rs ≠ [] := by
    intro h0
    rw [h0] at hrl
    simp only [List.length_nil] at hrl
    have : 0 < targets.length := List.length_pos_iff.2 h1
    omega
  have hmed : ∀ l : List Nat, l ≠ [] → ∃ m, medianIndex l = .ok m := by
    intro l hl
    unfold medianIndex
    have hlen : 0 < (l.insertionSort (· ≤ ·)).length := by rw [List.length_insertionSort]; exact List.length_pos_iff.2 hl
    generalize l.insertionSort (· ≤ ·) = s at hlen
    simp only
    rw [if_neg (by omega)]
    split
    · exact ⟨_, orErr_ok_iff.2 (List.getElem?_eq_getElem (by omega))⟩
    · simp only [ex_bind_ok, orErr_ok_iff]
      exact ⟨_, _, List.getElem?_eq_getElem (show s.length / 2 - 1 < s.length by omega), _, List.getElem?_eq_getElem (show s.length / 2 < s.length by omega), rfl⟩
  obtain ⟨med, hmed⟩ := hmed (rs.map (fun r => r.2.1)) (by simpa using hrne)
  have hsum := mp_columnSums_get results (times.length + 1) (by
    intro h0; rw [h0] at h4; simp at h4; exact h2 (List.length_eq_zero_iff.1 h4.symm)) h5
  have hx : ∃ xl, timeLimits (times.map Constants.shakeToMs) (rs.map (fun r => r.2.1)) minT maxT window = .ok xl := by
    unfold timeLimits
    simp only [hmed, ex_bind_ok, ex_ok_bind, orErr_ok_iff, ex_pure, Except.ok.injEq]
    exact ⟨_, _, List.getElem?_eq_getElem (by simp; omega), _, List.getElem?_eq_getElem (by simp; omega), rfl⟩
  obtain ⟨xl, hx⟩ := hx
  have hy : ∃ ym, yLimit (normalise (columnSums results) f) pt (rs.map (fun r => r.2.1)) (rs.map (fun r => r.2.2)) = .ok ym := by
    unfold yLimit
    split
    · simp only [hmed, ex_bind_ok, ex_ok_bind, orErr_ok_iff, ex_pure, Except.ok.injEq]
      exact ⟨_, _, List.getElem?_eq_getElem (by simp [normalise, hsum.1]), rfl⟩
    · cases rs with
      | nil => exact absurd rfl hrne
      | cons r rs => exact ⟨_, rfl⟩
  obtain ⟨ym, hy⟩ := hy
  have ht : ∃ tot, totalCurve (times.map Constants.shakeToMs) (normalise (columnSums results) f) pt = .ok tot := by
    cases pt with
    | false => exact ⟨none, rfl⟩
    | true =>
      exact ⟨_, mp_totalCurve_ok.2 (.inl ⟨rfl, _, mp_curve_ok.2 ⟨by simp [normalise, hsum.1], rfl⟩, rfl⟩)⟩
  obtain ⟨tot, ht⟩ := ht
  refine ⟨⟨rs.map (·.1), tot, xl, ym⟩, ?_⟩
  unfold energySlice
  simp only [hi, ex_ok_bind, hrs, ht, hx, hy, ex_pure]

example : energySlice ([2] : List ℚ) [1, 2] [100, 200] [[1, 2, 3], [4, 3, 7]] none none 0 2 true =
    .ok ⟨[⟨[1, 2], [8, 6]⟩], some ⟨[1, 2], [10, 10]⟩, (1, 1), 10.5⟩ := by decide +kernel

end Props
