/- Property C203 and a further violation of C64: what becomes of the rows of a mesh tally file. -/
import Verif.Props.MeshtalReader
import Verif.Props.MeshtalAnalysis
import Verif.Proofs.MapM
import Verif.Proofs.Except
import Mathlib.Data.Rat.Floor

set_option linter.unusedSectionVars false

namespace Props
open Py Meshtal
variable {K : Type} [Field K] [LinearOrder K] [IsStrictOrderedRing K] [FloorRing K]

/-- C64 (violated): a row of a time mesh whose time bin ends at 0 is not in the table, though it is no total. -/
theorem C64_time_zero_violated (flt : Str → Option K) (numeric : Str → Option (Option K)) (pre : List Str) (secs : List Sec)
    (hne : secs ≠ []) (text : Str) (hf : FileOf flt pre secs text) (hd : ∀ s ∈ secs, DataWF numeric s)
    (hk : ∀ s ∈ secs.tail, s.kind ≠ .e6) {i : Nat} {s : Sec} (hs : secs[i]? = some s) (ht : s.kind = .t6) {k : Nat} {l : Str}
    (hl : s.body[k]? = some l) (hz : (splitWs l).head? = some p!"0.000E+00") :
    ∃ ms m, readMeshtallyText flt numeric none text = .ok (.all ms) ∧ ms[i]? = some m ∧ k ∉ m.data.rows.map (·.1) := by
  obtain ⟨ms, h1, h2⟩ := C64_all_partial flt numeric pre secs hne text hf hd hk
  obtain ⟨m, hm, _, hdata⟩ : ∃ m, ms[i]? = some m ∧ MeshOf flt numeric s m := by
    obtain ⟨hi, rfl⟩ := List.getElem?_eq_some_iff.1 hs
    have hi' : i < ms.length := by rw [← h2.length_eq]; exact hi
    exact ⟨ms[i], List.getElem?_eq_getElem hi', h2.get hi hi'⟩
  refine ⟨ms, m, h1, hm, ?_⟩
  rw [hdata]
  intro hmem
  simp only [List.map_map, List.mem_map, List.mem_filter, Function.comp_apply] at hmem
  obtain ⟨⟨l', k'⟩, ⟨hin, hkept⟩, rfl⟩ := hmem
  rw [List.mem_zipIdx_iff_getElem?] at hin
  simp only at hin hkept hl
  rw [hl] at hin
  cases hin
  unfold kept at hkept
  simp [ht, hz] at hkept

/-- Of three rows of a time mesh the one of time 0 and the total are left out. -/
example : (convertToDf (fun w => if w = p!"Total" then none else some (some (1 : ℚ))) { (emptyMesh : RawMesh ℚ) with
    ctype := some .t6,
    data := [[p!"0.000E+00", p!"1", p!"1", p!"1", p!"7", p!"0.1"], [p!"1.000E+00", p!"1", p!"1", p!"1", p!"5", p!"0.1"],
      [p!"Total", p!"1", p!"1", p!"1", p!"12", p!"0.1"]] }).map (fun f => f.rows.map (·.1)) = .ok [1] := by decide +kernel

/-! ### C203: the array of a mesh read from a file -/

/-- A number that can be stored with 24 binary digits. `pd.to_numeric(…, downcast="float")` stores the columns of a mesh as such numbers
    (whenever that moves no entry by more than 5e-4), while the mid points are Python floats. -/
def Binary32 (x : K) : Prop := ∃ (m : ℤ) (e : ℤ), |m| < 2 ^ 24 ∧ x = (m : K) * (2 : K) ^ e

private theorem forall₂_mem_right {α β : Type} {R : α → β → Prop} {l : List α} {l' : List β} (h : List.Forall₂ R l l') {b : β} (hb : b ∈ l') :
    ∃ a ∈ l, R a b := by
  induction h with
  | nil => simp at hb
  | cons h _ ih =>
    rcases List.mem_cons.1 hb with rfl | hb
    · exact ⟨_, by simp, h⟩
    · obtain ⟨a, ha, hr⟩ := ih hb
      exact ⟨a, by simp [ha], hr⟩

private theorem rows_numeric {numeric : Str → Option (Option K)} {P : K → Prop} (hnum : ∀ s v, numeric s = some (some v) → P v) {m : RawMesh K}
    {f : Frame K} (h : convertToDf numeric m = .ok f) : ∀ r ∈ f.rows, ∀ v, (r.2.x = some v ∨ r.2.y = some v ∨ r.2.z = some v) → P v := by
  have hcell : ∀ {o : Option Str} {c : Option K}, toNumeric numeric o = .ok c → ∀ v, c = some v → P v := by
    intro o c hc v hv
    subst hv
    cases o with
    | none => cases hc
    | some s =>
      simp only [toNumeric] at hc
      cases hn : numeric s with
      | none => rw [hn] at hc; cases hc
      | some w => rw [hn] at hc; cases hc; exact hnum s v hn
  unfold convertToDf at h
  split at h
  · cases h
  · rename_i kind _
    split_ifs at h
    rw [ex_bind_ok] at h
    obtain ⟨rows, hrows, h⟩ := h
    cases h
    rw [mapM_except_ok_iff] at hrows
    intro r hr v hv
    simp only [List.mem_filterMap, Option.map_eq_some_iff] at hr
    obtain ⟨⟨o, n⟩, hin, r', hr', rfl⟩ := hr
    have hmem : o ∈ rows := by
      rw [List.mem_zipIdx_iff_getElem?] at hin
      exact List.mem_of_getElem? hin
    simp only at hr' hv
    subst hr'
    have : ∃ ws, toRow numeric kind ws = .ok (some r') := by
      clear hin hv
      obtain ⟨a, ha, hab⟩ := forall₂_mem_right hrows hmem
      exact ⟨_, hab⟩
    obtain ⟨ws, hws⟩ := this
    unfold toRow at hws
    simp only [ex_bind_ok] at hws
    obtain ⟨x, hx, y, hy, z, hz, _, _, _, _, hws⟩ := hws
    have hxyz : r'.x = x ∧ r'.y = y ∧ r'.z = z := by
      generalize hk5 : (if kind = CType.c5 then 0 else 1) = o at *
      split_ifs at hws
      · cases hws; exact ⟨rfl, rfl, rfl⟩
      · cases hws
      · rw [ex_bind_ok] at hws
        obtain ⟨et, _, hws⟩ := hws
        cases hws
        exact ⟨rfl, rfl, rfl⟩
    rcases hv with hv | hv | hv
    · exact hcell hx v (hxyz.1 ▸ hv)
    · exact hcell hy v (hxyz.2.1 ▸ hv)
    · exact hcell hz v (hxyz.2.2 ▸ hv)

private theorem read_rows {flt : Str → Option K} {numeric : Str → Option (Option K)} {P : K → Prop}
    (hnum : ∀ s v, numeric s = some (some v) → P v) {n : Option Int} {text : Str} {ms : List (Mesh K (Frame K))}
    (h : readMeshtallyText flt numeric n text = .ok (.all ms)) :
    ∀ m ∈ ms, ∀ r ∈ m.data.rows, ∀ v, (r.2.x = some v ∨ r.2.y = some v ∨ r.2.z = some v) → P v := by
  unfold readMeshtallyText at h
  split at h
  · cases h
  · cases h
  · split at h
    · rename_i ms' hms
      cases h
      rw [mapM_except_ok_iff] at hms
      intro m hm
      obtain ⟨a, _, hab⟩ := forall₂_mem_right hms hm
      cases hc : convertToDf numeric a with
      | error e => rw [hc] at hab; cases hab
      | ok f =>
        rw [hc] at hab
        cases hab
        exact rows_numeric hnum hc
    · cases h

/-- C203 (violated): the columns are stored with 24 binary digits and compared with mid points stored exactly. A mid point that needs
    more digits, such as 1.4, is met by no row, so its whole layer of the array stays 0 whatever the file holds. -/
theorem C203_layer_violated (flt : Str → Option K) (numeric : Str → Option (Option K)) (hnum : ∀ s v, numeric s = some (some v) → Binary32 v)
    (n : Option Int) (text : Str) (ms : List (Mesh K (Frame K))) (h : readMeshtallyText flt numeric n text = .ok (.all ms)) (m : Mesh K (Frame K))
    (hm : m ∈ ms) (h6 : m.data.kind ≠ .c5) (hx : m.xM.Nodup) (hy : m.yM.Nodup) (hz : m.zM.Nodup) :
    ∃ vals errs, convertTo3dArray m = .ok (vals, errs) ∧ ∀ i j k, ((∃ x, m.xM[i]? = some x ∧ ¬ Binary32 x) ∨ (∃ y, m.yM[j]? = some y ∧ ¬ Binary32 y) ∨
      (∃ z, m.zM[k]? = some z ∧ ¬ Binary32 z)) → vals i j k = some 0 ∧ errs i j k = some 0 := by
  classical
  obtain ⟨vals, errs, h1, h2⟩ := C61_array_partial m h6 hx hy hz
  refine ⟨vals, errs, h1, ?_⟩
  intro i j k hbad
  have hrows := read_rows hnum h m hm
  have hnil : m.data.rows.filter (fun r => decide (At m i j k r.2)) = [] := by
    rw [List.filter_eq_nil_iff]
    intro r hr
    rw [decide_eq_true_eq]
    rintro ⟨x, y, z, ex, ey, ez, rx, ry, rz⟩
    rcases hbad with ⟨w, hw, hb⟩ | ⟨w, hw, hb⟩ | ⟨w, hw, hb⟩
    · rw [ex] at hw; cases hw; exact hb (hrows r hr x (.inl rx))
    · rw [ey] at hw; cases hw; exact hb (hrows r hr y (.inr (.inl ry)))
    · rw [ez] at hw; cases hw; exact hb (hrows r hr z (.inr (.inr rz)))
  obtain ⟨h3, h4⟩ := h2 i j k
  rw [h3, h4]
  rw [show (m.data.rows.filter (fun r => decide (At m i j k r.2))) = [] from by convert hnil]
  exact ⟨rfl, rfl⟩

/-- C203 (part that holds): a row whose coordinates are stored exactly is found at its place. Missing: coordinates that are rounded. -/
theorem C203_exact_partial (m : Mesh K (Frame K)) (h6 : m.data.kind ≠ .c5) (hx : m.xM.Nodup) (hy : m.yM.Nodup) (hz : m.zM.Nodup) (n : Nat)
    (r : MRow K) (hr : (n, r) ∈ m.data.rows) {x y z : K} (rx : r.x = some x) (ry : r.y = some y) (rz : r.z = some z) (mx : x ∈ m.xM) (my : y ∈ m.yM)
    (mz : z ∈ m.zM) (honce : ∀ q ∈ m.data.rows, q.2.x = r.x ∧ q.2.y = r.y ∧ q.2.z = r.z → q = (n, r)) :
    ∃ vals errs i j k, convertTo3dArray m = .ok (vals, errs) ∧ m.xM[i]? = some x ∧ m.yM[j]? = some y ∧ m.zM[k]? = some z ∧ vals i j k = r.value ∧
      errs i j k = r.err := by
  obtain ⟨i, hi⟩ := List.mem_iff_getElem?.1 mx
  obtain ⟨j, hj⟩ := List.mem_iff_getElem?.1 my
  obtain ⟨k, hk⟩ := List.mem_iff_getElem?.1 mz
  obtain ⟨vals, errs, h1, h2, h3⟩ := C61_faithful_partial m h6 hx hy hz i j k n r hr ⟨x, y, z, hi, hj, hk, rx, ry, rz⟩ (by
    rintro q hq ⟨x', y', z', hi', hj', hk', qx, qy, qz⟩
    rw [hi] at hi'; rw [hj] at hj'; rw [hk] at hk'
    cases hi'; cases hj'; cases hk'
    exact honce q hq ⟨qx.trans rx.symm, qy.trans ry.symm, qz.trans rz.symm⟩)
  exact ⟨vals, errs, i, j, k, h1, hi, hj, hk, h2, h3⟩

/-- 1.4 cannot be stored with finitely many binary digits. -/
theorem C203_seven_fifths : ¬ Binary32 (7 / 5 : ℚ) := by
  rintro ⟨m, e, _, h⟩
  rcases le_total 0 e with he | he
  · obtain ⟨n, rfl⟩ := Int.eq_ofNat_of_zero_le he
    rw [zpow_natCast, div_eq_iff (by norm_num)] at h
    have : (7 : ℤ) = m * 2 ^ n * 5 := by exact_mod_cast h
    omega
  · obtain ⟨n, hn⟩ := Int.eq_ofNat_of_zero_le (show 0 ≤ -e by omega)
    have he' : e = -(n : ℤ) := by omega
    rw [he', zpow_neg, zpow_natCast, ← div_eq_mul_inv, div_eq_div_iff (by norm_num) (by positivity)] at h
    have h' : (7 : ℤ) * 2 ^ n = m * 5 := by exact_mod_cast h
    have h5 : ∀ n : ℕ, (2 : ℤ) ^ n % 5 ≠ 0 := by
      intro n
      induction n with
      | zero => decide
      | succ n ih => rw [pow_succ]; omega
    have := h5 n
    omega

/-- The mesh of a file with one voxel around 1.4 and the coordinate as pandas stores it: the array holds 0. -/
example : (convertTo3dArray (⟨none, none, [], [], [], [], [], ⟨.e6, [(0, ⟨some 1, some 0, some 0, some (11744051 / 8388608), some 3, some 1⟩)]⟩, [0], [0],
    [7 / 5], some .e6⟩ : Mesh ℚ (Frame ℚ))).map (fun p => p.1 0 0 0) = .ok (some 0) := by decide +kernel
example : Binary32 (11744051 / 8388608 : ℚ) := ⟨11744051, -23, by norm_num, by norm_num⟩
example : |(11744051 / 8388608 : ℚ) - 7 / 5| < 1 / 10000000 := by norm_num [abs_lt]

end Props
