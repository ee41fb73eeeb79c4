/- Property C220: blank lines among the data of a mesh tally file. -/
import Verif.Props.MeshtalReader
import Verif.Props.MeshtalAnalysis
import Verif.Proofs.MapM
import Verif.Proofs.Except

set_option linter.unusedSectionVars false

namespace Props
open Py Meshtal
variable {K : Type} [Field K] [LinearOrder K] [IsStrictOrderedRing K] [FloorRing K]

/-- A row without position and without value. -/
def EmptyRow (r : MRow K) : Prop := r.et = none ∧ r.x = none ∧ r.y = none ∧ r.z = none ∧ r.value = none ∧ r.err = none

instance (r : MRow K) : Decidable (EmptyRow r) := by unfold EmptyRow; infer_instance

/-- C220 (violated): every blank line after the titles of a mesh, such as the one MCNP writes before the next mesh, is a row of the table of the
    mesh, without position or value. -/
theorem C220_blank_violated (flt : Str → Option K) (numeric : Str → Option (Option K)) (pre : List Str) (secs : List Sec)
    (hne : secs ≠ []) (text : Str) (hf : FileOf flt pre secs text) (hd : ∀ s ∈ secs, DataWF numeric s)
    (hk : ∀ s ∈ secs.tail, s.kind ≠ .e6) {i : Nat} {s : Sec} (hs : secs[i]? = some s) {k : Nat} {l : Str}
    (hl : s.body[k]? = some l) (hb : splitWs l = []) :
    ∃ ms m r, readMeshtallyText flt numeric none text = .ok (.all ms) ∧ ms[i]? = some m ∧ (k, r) ∈ m.data.rows ∧ EmptyRow r := by
  obtain ⟨ms, h1, h2⟩ := C64_all_partial flt numeric pre secs hne text hf hd hk
  obtain ⟨m, hm, _, hdata⟩ : ∃ m, ms[i]? = some m ∧ MeshOf flt numeric s m := by
    obtain ⟨hi, rfl⟩ := List.getElem?_eq_some_iff.1 hs
    have hi' : i < ms.length := by rw [← h2.length_eq]; exact hi
    exact ⟨ms[i], List.getElem?_eq_getElem hi', h2.get hi hi'⟩
  refine ⟨ms, m, rowOf numeric s.kind (splitWs l), h1, hm, ?_, ?_⟩
  · rw [hdata]
    simp only [List.mem_map, List.mem_filter, Prod.exists, Prod.mk.injEq, List.mem_zipIdx_iff_getElem?]
    exact ⟨l, k, ⟨hl, by simp [kept, hb]⟩, rfl, rfl⟩
  · rw [hb]
    cases s.kind <;> simp [EmptyRow, rowOf, cellAt]

/-- C220: the table has a row for every line that is not left out, so one for each voxel only if no line is blank. -/
theorem C220_rows_partial (flt : Str → Option K) (numeric : Str → Option (Option K)) (pre : List Str) (secs : List Sec)
    (hne : secs ≠ []) (text : Str) (hf : FileOf flt pre secs text) (hd : ∀ s ∈ secs, DataWF numeric s)
    (hk : ∀ s ∈ secs.tail, s.kind ≠ .e6) :
    ∃ ms, readMeshtallyText flt numeric none text = .ok (.all ms) ∧ List.Forall₂ (fun s m => m.data.rows.length =
      s.body.countP (fun l => kept s.kind l && decide (splitWs l ≠ [])) + s.body.countP (fun l => decide (splitWs l = []))) secs ms := by
  obtain ⟨ms, h1, h2⟩ := C64_all_partial flt numeric pre secs hne text hf hd hk
  refine ⟨ms, h1, h2.imp ?_⟩
  rintro s m ⟨-, hm⟩
  rw [hm]
  simp only [List.length_map]
  rw [← List.countP_eq_length_filter]
  have hz : ∀ (b : List Str) (n : Nat), (b.zipIdx n).countP (fun e => kept s.kind e.1) = b.countP (kept s.kind) := by
    intro b
    induction b with
    | nil => intro n; rfl
    | cons l b ih => intro n; simp only [List.zipIdx_cons, List.countP_cons, ih]
  rw [hz]
  generalize s.body = b
  induction b with
  | nil => rfl
  | cons l b ih =>
    simp only [List.countP_cons, ih]
    by_cases hl : splitWs l = []
    · simp [hl, kept]
      omega
    · simp [hl]
      omega

/-- The mesh without its empty rows. -/
def filled (m : Mesh K (Frame K)) : Mesh K (Frame K) := m.withData (m.data.keep (fun r => decide (¬ EmptyRow r)))

private theorem keep_keep (f : Frame K) (p q : MRow K → Bool) : (f.keep p).keep q = (f.keep q).keep p := by
  unfold Frame.keep
  simp only [List.filter_filter]
  congr 1
  apply List.filter_congr
  intro r _
  rw [Bool.and_comm]

private theorem keep_sub (f : Frame K) {p q : MRow K → Bool} (h : ∀ r, q r = true → p r = true) : (f.keep p).keep q = f.keep q := by
  unfold Frame.keep
  simp only [List.filter_filter]
  congr 1
  apply List.filter_congr
  intro r _
  cases hq : q r.2 with
  | false => simp
  | true => simp [h _ hq]

private theorem filterOne_keep (kind : CType) (v : Option K) (f : Frame K) (p : MRow K → Bool) :
    filterOne kind v (f.keep p) = (filterOne kind v f).map (·.keep p) := by
  unfold filterOne
  cases v with
  | none => rfl
  | some v =>
    show (if v = 0 then _ else if f.kind = kind then _ else _) = _
    by_cases h0 : v = 0
    · simp [h0, Except.map]
    · by_cases h1 : f.kind = kind
      · simp [h0, h1, Except.map, keep_keep f p]
      · simp [h0, h1, Except.map]

private theorem filterEnergyTime_keep (f : Frame K) (erg time : Option K) (p : MRow K → Bool) :
    filterEnergyTime (f.keep p) erg time = (filterEnergyTime f erg time).map (·.keep p) := by
  unfold filterEnergyTime
  rw [filterOne_keep]
  cases filterOne .e6 erg f with
  | error e => rfl
  | ok g => exact filterOne_keep .t6 time g p

private theorem coord_filled {r : MRow K} {a : Axis} {c : K} (h : r.coord a = some c) : ¬ EmptyRow r := by
  rintro ⟨-, hx, hy, hz, -⟩
  cases a <;> simp_all [MRow.coord]

/-- C220: the empty rows do not show in slices. -/
theorem C220_slice (m : Mesh K (Frame K)) (value : K) (plane : Str) (erg time : Option K) :
    extractSlice m value plane erg time = extractSlice (filled m) value plane erg time := by
  unfold extractSlice
  have hd : (filled m).data = m.data.keep (fun r => decide (¬ EmptyRow r)) := rfl
  have hm : ∀ a, (filled m).mids a = m.mids a := by intro a; cases a <;> rfl
  rw [hd, filterEnergyTime_keep]
  cases filterEnergyTime m.data erg time with
  | error e => rfl
  | ok f =>
    simp only [Except.map, ex_ok_bind]
    cases planeAxes plane with
    | error e => rfl
    | ok ax =>
      obtain ⟨i, j, v⟩ := ax
      simp only [ex_ok_bind]
      simp only [hm]
      cases findNearestMid value (m.mids v) with
      | error e => rfl
      | ok at' =>
        simp only [ex_ok_bind]
        rw [keep_sub]
        intro r hr
        simpa using coord_filled (of_decide_eq_true hr)

/-- C220: nor do they show at points. -/
theorem C220_point (x y z : K) (m : Mesh K (Frame K)) (erg time : Option K) :
    pickPoint x y z m erg time = pickPoint x y z (filled m) erg time := by
  unfold pickPoint
  have hx : (filled m).xM = m.xM := rfl
  have hy : (filled m).yM = m.yM := rfl
  have hz : (filled m).zM = m.zM := rfl
  have hd : (filled m).data = m.data.keep (fun r => decide (¬ EmptyRow r)) := rfl
  rw [hx, hy, hz, hd]
  cases findNearestMid x m.xM with
  | error e => rfl
  | ok x =>
    simp only [ex_ok_bind]
    rw [keep_sub]
    intro r hr
    simpa using coord_filled (a := .x) (of_decide_eq_true hr)

private theorem keep_empty (f : Frame K) (a : Axis) (c : K) :
    (f.keep (fun r => decide (¬ EmptyRow r))).keep (fun r => decide (r.coord a = some c)) = f.keep (fun r => decide (r.coord a = some c)) :=
  keep_sub f (fun r hr => by simpa using coord_filled (of_decide_eq_true hr))

/-- C220: nor on lines along an axis or in one of the planes, that is with a coordinate in common. -/
theorem C220_line (m : Mesh K (Frame K)) (p1 p2 : K × K × K) (erg time : Option K)
    (h : p1.1 = p2.1 ∨ p1.2.1 = p2.2.1 ∨ p1.2.2 = p2.2.2) :
    extractLine m p1 p2 erg time = extractLine (filled m) p1 p2 erg time := by
  unfold extractLine
  have hx : (filled m).xM = m.xM := rfl
  have hy : (filled m).yM = m.yM := rfl
  have hz : (filled m).zM = m.zM := rfl
  have hd : (filled m).data = m.data.keep (fun r => decide (¬ EmptyRow r)) := rfl
  rw [hx, hy, hz, hd]
  have kx : ∀ (f : Frame K) c, (f.keep (fun r => decide (¬ EmptyRow r))).keep (fun r => decide (r.x = some c)) = f.keep (fun r => decide (r.x = some c)) :=
    fun f c => keep_empty f .x c
  have ky : ∀ (f : Frame K) c, (f.keep (fun r => decide (¬ EmptyRow r))).keep (fun r => decide (r.y = some c)) = f.keep (fun r => decide (r.y = some c)) :=
    fun f c => keep_empty f .y c
  have kz : ∀ (f : Frame K) c, (f.keep (fun r => decide (¬ EmptyRow r))).keep (fun r => decide (r.z = some c)) = f.keep (fun r => decide (r.z = some c)) :=
    fun f c => keep_empty f .z c
  by_cases h1 : p1.1 = p2.1
  · simp only [h1, if_true, kx]
  · by_cases h2 : p1.2.1 = p2.2.1
    · simp only [h1, if_false, h2, if_true, ex_pure, ex_ok_bind, ky]
    · have h3 : p1.2.2 = p2.2.2 := by tauto
      simp only [h1, h2, if_false, h3, if_true, ex_pure, ex_ok_bind, kz]

/-- C220: zeros are not counted among them. -/
theorem C220_zeros (m : Mesh K (Frame K)) : countZeros m.data = countZeros (filled m).data := by
  have : (filled m).data.rows.countP (fun r => decide (r.2.value = some 0)) = m.data.rows.countP (fun r => decide (r.2.value = some 0)) := by
    show (m.data.rows.filter _).countP _ = _
    rw [List.countP_filter]
    apply List.countP_congr
    intro r _
    simp only [Bool.and_eq_true, decide_eq_true_eq, and_iff_left_iff_imp]
    rintro hv ⟨-, -, -, -, h, -⟩
    rw [hv] at h
    cases h
  unfold countZeros
  rw [this]

/-- C220: the arrays of energy and time meshes are those of the other rows. -/
theorem C220_array (m : Mesh K (Frame K)) (h : m.data.kind ≠ .c5) : convertTo3dArray m = convertTo3dArray (filled m) := by
  unfold convertTo3dArray
  show _ = ((m.data.rows.filter _).map (fun r => r.2.cells m.data.kind)).foldlM (arrayStep m.xM m.yM m.zM) _
  generalize ((fun _ _ _ => some 0, fun _ _ _ => some 0) : Arr (Option K) × Arr (Option K)) = s
  generalize m.data.rows = rows
  induction rows generalizing s with
  | nil => rfl
  | cons r rows ih =>
    by_cases hr : EmptyRow r.2
    · have hstep : arrayStep m.xM m.yM m.zM s (r.2.cells m.data.kind) = .ok s := by
        obtain ⟨h0, h1, h2, h3, h4, h5⟩ := hr
        have hc : r.2.cells m.data.kind = [none, none, none, none, none, none] := by
          unfold MRow.cells
          cases hk : m.data.kind with
          | c5 => exact absurd hk h
          | _ => simp only [h0, h1, h2, h3, h4, h5]
        rw [hc]
        have hw : ∀ l : List K, whereEq l none = [] := by intro l; simp [whereEq]
        have hp : ∀ a : Arr (Option K), a.put [] none = a := by intro a; funext i j k; simp [Arr.put]
        simp [arrayStep, orErr, hw, broadcast3, ex_ok_bind, ex_pure, hp]
      simp only [List.map_cons, List.foldlM_cons, hstep, ex_ok_bind, List.filter_cons, hr, not_true_eq_false, decide_false, Bool.false_eq_true, if_false]
      exact ih s
    · simp only [List.map_cons, List.filter_cons, hr, not_false_eq_true, decide_true, if_true, List.foldlM_cons]
      congr 1
      funext s'
      exact ih s'

/-! ### Examples -/

/-- A file with two meshes and the blank line between them. -/
private def two : Str := p!" Mesh Tally Number 4\n X direction: 0 2\n Y direction: 0 2\n Z direction: 0 2\n X         Y         Z     Result\n 1 1 1 5 1\n\n Mesh Tally Number 14\n X direction: 0 2\n Y direction: 0 2\n Z direction: 0 2\n X         Y         Z     Result\n 1 1 1 7 1\n"

private def num (w : Str) : Option ℚ := (pyInt w).map (fun (i : Int) => (i : ℚ))

example : (readMeshtallyText num (fun w => (num w).map some) none two).toOption.map (fun
    | .one _ => []
    | .all ms => ms.map (fun m => m.data.rows)) =
    some [[(0, ⟨none, some 1, some 1, some 1, some 5, some 1⟩), (1, ⟨none, none, none, none, none, none⟩)],
      [(0, ⟨none, some 1, some 1, some 1, some 7, some 1⟩)]] := by decide +kernel

example : DataWF (fun _ => some (some (1 : ℚ))) { exSec with body := exSec.body ++ [p!"\n"] } := by
  refine ⟨fun _ => ⟨p!" 1.000 1.000 1.000 1.0E-02 0.1\n", by simp [exSec], by decide +kernel⟩, ?_⟩
  intro l hl
  simp only [exSec, List.mem_append, List.mem_singleton] at hl
  rcases hl with rfl | rfl
  · exact .inr ⟨by decide +kernel, by simp, by simp⟩
  · exact .inl (by decide +kernel)

example : ∃ m : Mesh ℚ (Frame ℚ), m.data.kind ≠ .c5 ∧ (∃ r ∈ m.data.rows, EmptyRow r.2) ∧ (filled m).data.rows.length = 1 ∧
    pickPoint 1 1 1 m none none = .ok [some 5] :=
  ⟨⟨none, none, [], [], [], [], [], ⟨.e6, [(0, ⟨some 1, some 1, some 1, some 1, some 5, some 1⟩), (1, ⟨none, none, none, none, none, none⟩)]⟩, [1], [1], [1], some .e6⟩,
    by decide, by decide +kernel, by decide +kernel, by decide +kernel⟩

end Props
