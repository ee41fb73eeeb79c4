/-
C272: the order of the voxels in the table of a mesh.
-/
import Verif.Props.LetterCase
import Verif.Proofs.Except
import Verif.Model.MeshtalAnalysis

set_option linter.unusedSectionVars false
set_option linter.unusedSimpArgs false

namespace Props
open Py Meshtal
variable {K : Type} [Field K] [LinearOrder K]

/-- Two tables with the same rows, maybe in another order. -/
structure SameRows (f g : Frame K) : Prop where
  kind : f.kind = g.kind
  rows : f.rows.Perm g.rows

private theorem rows_keep {f g : Frame K} (h : SameRows f g) (p : MRow K → Bool) : SameRows (f.keep p) (g.keep p) :=
  ⟨h.kind, h.rows.filter _⟩

private theorem rows_one {f g : Frame K} (h : SameRows f g) (kind : CType) (v : Option K) : BothOr SameRows (filterOne kind v f) (filterOne kind v g) := by
  unfold filterOne
  cases v with
  | none => exact .inl ⟨_, _, rfl, rfl, h⟩
  | some v =>
    simp only [h.kind]
    split_ifs
    · exact .inl ⟨_, _, rfl, rfl, h⟩
    · exact .inl ⟨_, _, rfl, rfl, rows_keep h _⟩
    · exact .inr ⟨_, rfl, rfl⟩

private theorem rows_filter {f g : Frame K} (h : SameRows f g) (erg time : Option K) :
    BothOr SameRows (filterEnergyTime f erg time) (filterEnergyTime g erg time) := by
  unfold filterEnergyTime
  exact both_bind (rows_one h _ _) (fun i j hij => rows_one hij _ _)

private theorem rows_values {f g : Frame K} (h : SameRows f g) : (f.rows.map (fun r => r.2.value)).Perm (g.rows.map (fun r => r.2.value)) :=
  h.rows.map _

/-- C272 (part that holds): the values at a point are the same, in the order of the table; so is a point with one value. -/
theorem C272_point_partial (x y z : K) (m : Mesh K (Frame K)) {g : Frame K} (h : SameRows m.data g) (erg time : Option K) :
    BothOr List.Perm (pickPoint x y z m erg time) (pickPoint x y z { m with data := g } erg time) := by
  unfold pickPoint
  refine both_same _ (fun a => both_same _ (fun b => both_same _ (fun c => both_bind (rows_filter ?_ erg time) (fun i j hij => ?_))))
  · exact rows_keep (rows_keep (rows_keep h _) _) _
  · exact .inl ⟨_, _, rfl, rfl, rows_values hij⟩

/-- C272 (part that holds): the values along a line are the same, in the order of the table. -/
theorem C272_line_partial (m : Mesh K (Frame K)) {g : Frame K} (h : SameRows m.data g) (p1 p2 : K × K × K) (erg time : Option K) :
    BothOr List.Perm (extractLine m p1 p2 erg time) (extractLine { m with data := g } p1 p2 erg time) := by
  unfold extractLine
  have one : ∀ {f f' : Frame K} (a b : K) (mids : List K) (get : MRow K → Option K), SameRows f f' →
      ∀ {k k' : Frame K → Except Err (List (Option K))}, (∀ f f', SameRows f f' → BothOr List.Perm (k f) (k' f')) →
      BothOr List.Perm (if a = b then do
          let x ← findNearestMid a mids
          let f ← pure (f.keep (fun r => decide (get r = some x)))
          k f
        else do
          let f ← pure f
          k f)
        (if a = b then do
          let x ← findNearestMid a mids
          let f ← pure (f'.keep (fun r => decide (get r = some x)))
          k' f
        else do
          let f ← pure f'
          k' f) := by
    intro f f' a b mids get hf k k' hk
    split_ifs
    · exact both_same _ (fun x => hk _ _ (rows_keep hf _))
    · exact hk _ _ hf
  refine one _ _ _ (·.x) h (fun f f' hf => one _ _ _ (·.y) hf (fun f f' hf => one _ _ _ (·.z) hf (fun f f' hf =>
    both_bind (rows_filter hf erg time) (fun i j hij => ?_))))
  exact .inl ⟨_, _, rfl, rfl, rows_values hij⟩

/-- C272 (part that holds): the number of zeros, and the upper and lower values, in the order of the table. -/
theorem C272_counts_partial {f g : Frame K} (h : SameRows f g) :
    countZeros f = countZeros g ∧ (upperVals f).Perm (upperVals g) ∧ (lowerVals f).Perm (lowerVals g) := by
  refine ⟨?_, h.rows.map _, h.rows.map _⟩
  unfold countZeros
  rw [h.rows.countP_eq]

/-! ### Arrays -/

private def place (xM yM zM : List K) (r : List (Option K)) : Except Err (List (Nat × Nat × Nat) × Option K × Option K) := do
  let cell := fun n => orErr Err.IndexError (r[n]?)
  let ps ← broadcast3 (whereEq xM (← cell 1)) (whereEq yM (← cell 2)) (whereEq zM (← cell 3))
  let v ← cell 4
  let e ← cell 5
  pure (ps, v, e)

private theorem step_place (xM yM zM : List K) (s : Arr (Option K) × Arr (Option K)) (r : List (Option K)) :
    arrayStep xM yM zM s r = (do
      let p ← place xM yM zM r
      pure (s.1.put p.1 p.2.1, s.2.put p.1 p.2.2)) := by
  unfold arrayStep place
  simp only [bind_assoc, pure_bind]

private theorem place_error {xM yM zM : List K} {r : List (Option K)} {e : Err} (h : place xM yM zM r = .error e) : e = .IndexError := by
  have hcell : ∀ {n : Nat} {e : Err}, orErr Err.IndexError (r[n]?) = .error e → e = .IndexError := by
    intro n e h
    cases hr : r[n]? with
    | none => rw [hr] at h; cases h; rfl
    | some v => rw [hr] at h; cases h
  have hb : ∀ {i j k : List Nat} {e : Err}, broadcast3 i j k = .error e → e = .IndexError := by
    intro i j k e h
    unfold broadcast3 at h
    simp only at h
    split at h
    · cases h
    · cases h; rfl
  unfold place at h
  simp only at h
  rcases ex_bind_err.1 h with h | ⟨_, _, h⟩
  · exact hcell h
  rcases ex_bind_err.1 h with h | ⟨_, _, h⟩
  · exact hcell h
  rcases ex_bind_err.1 h with h | ⟨_, _, h⟩
  · exact hcell h
  rcases ex_bind_err.1 h with h | ⟨_, _, h⟩
  · exact hb h
  rcases ex_bind_err.1 h with h | ⟨_, _, h⟩
  · exact hcell h
  rcases ex_bind_err.1 h with h | ⟨_, _, h⟩
  · exact hcell h
  cases h

private theorem mem_whereEq {mids : List K} {c : Option K} {i : Nat} (h : i ∈ whereEq mids c) : ∃ v, mids[i]? = some v ∧ c = some v := by
  unfold whereEq at h
  obtain ⟨⟨v, k⟩, hm, rfl⟩ := List.mem_map.1 h
  obtain ⟨hm, hd⟩ := List.mem_filter.1 hm
  exact ⟨v, (List.mem_zipIdx_iff_getElem?.1 hm), (of_decide_eq_true hd).symm⟩

private theorem mem_broadcast {i j k : List Nat} {ps : List (Nat × Nat × Nat)} (h : broadcast3 i j k = .ok ps) {a b c : Nat}
    (hm : (a, b, c) ∈ ps) : a ∈ i ∧ b ∈ j ∧ c ∈ k := by
  unfold broadcast3 at h
  simp only at h
  generalize (if i.length ≠ 1 then i.length else if j.length ≠ 1 then j.length else k.length) = n at h
  have ext : ∀ {l l' : List Nat}, (if l.length = 1 then some (List.replicate n (l.headD 0)) else if l.length = n then some l else none) = some l' →
      ∀ x ∈ l', x ∈ l := by
    intro l l' h x hx
    split_ifs at h with h1 h2
    · cases h
      obtain ⟨y, rfl⟩ := List.length_eq_one_iff.1 h1
      have := List.eq_of_mem_replicate hx
      simpa using this
    · cases h; exact hx
  split at h
  · rename_i x y z h1 h2 h3
    cases h
    have := List.of_mem_zip (show (a, (b, c)) ∈ List.zip x (List.zip y z) from hm)
    exact ⟨ext h1 _ this.1, ext h2 _ (List.of_mem_zip this.2).1, ext h3 _ (List.of_mem_zip this.2).2⟩
  · cases h

private theorem place_mem {xM yM zM : List K} {r : List (Option K)} {p : List (Nat × Nat × Nat) × Option K × Option K}
    (h : place xM yM zM r = .ok p) {a b c : Nat} (hm : (a, b, c) ∈ p.1) :
    r[1]? = some (xM[a]?) ∧ r[2]? = some (yM[b]?) ∧ r[3]? = some (zM[c]?) := by
  unfold place at h
  simp only at h
  obtain ⟨x, h1, h⟩ := ex_bind_ok.1 h
  obtain ⟨y, h2, h⟩ := ex_bind_ok.1 h
  obtain ⟨z, h3, h⟩ := ex_bind_ok.1 h
  obtain ⟨ps, h4, h⟩ := ex_bind_ok.1 h
  obtain ⟨v, h5, h⟩ := ex_bind_ok.1 h
  obtain ⟨e, h6, h⟩ := ex_bind_ok.1 h
  cases h
  have cell : ∀ {n : Nat} {x : Option K}, orErr Err.IndexError (r[n]?) = .ok x → r[n]? = some x := by
    intro n x h
    cases hr : r[n]? with
    | none => rw [hr] at h; cases h
    | some v => rw [hr] at h; cases h; rfl
  obtain ⟨ha, hb, hc⟩ := mem_broadcast h4 hm
  obtain ⟨_, e1, rfl⟩ := mem_whereEq ha
  obtain ⟨_, e2, rfl⟩ := mem_whereEq hb
  obtain ⟨_, e3, rfl⟩ := mem_whereEq hc
  exact ⟨by rw [cell h1, e1], by rw [cell h2, e2], by rw [cell h3, e3]⟩

private theorem put_comm {α : Type} (a : Arr α) {ps qs : List (Nat × Nat × Nat)} (h : ∀ t ∈ ps, t ∉ qs) (v w : α) :
    (a.put ps v).put qs w = (a.put qs w).put ps v := by
  funext i j k
  unfold Arr.put
  by_cases h1 : (i, j, k) ∈ ps
  · simp [h1, h _ h1]
  · simp [h1]

/-- Two rows of cells at different places. -/
private def Apart (r s : List (Option K)) : Prop := ¬ (r[1]? = s[1]? ∧ r[2]? = s[2]? ∧ r[3]? = s[3]?)

private theorem step_comm (xM yM zM : List K) {r q : List (Option K)} (h : Apart r q) (s : Arr (Option K) × Arr (Option K)) :
    (arrayStep xM yM zM s r >>= fun t => arrayStep xM yM zM t q) = (arrayStep xM yM zM s q >>= fun t => arrayStep xM yM zM t r) := by
  simp only [step_place]
  cases hr : place xM yM zM r with
  | error e =>
    cases hq : place xM yM zM q with
    | error e' => rw [place_error hr, place_error hq]
    | ok p => rfl
  | ok p =>
    cases hq : place xM yM zM q with
    | error e' => rfl
    | ok p' =>
      have hd : ∀ t ∈ p.1, t ∉ p'.1 := by
        rintro ⟨a, b, c⟩ h1 h2
        obtain ⟨x1, x2, x3⟩ := place_mem hr h1
        obtain ⟨y1, y2, y3⟩ := place_mem hq h2
        exact h ⟨x1.trans y1.symm, x2.trans y2.symm, x3.trans y3.symm⟩
      simp only [ex_ok_bind]
      show Except.ok _ = Except.ok _
      rw [put_comm _ hd, put_comm _ hd]

private theorem fold_perm (xM yM zM : List K) {l l' : List (List (Option K))} (hp : l.Perm l') (h : l.Pairwise Apart) :
    ∀ s, l.foldlM (arrayStep xM yM zM) s = l'.foldlM (arrayStep xM yM zM) s := by
  induction hp with
  | nil => intro s; rfl
  | cons x _ ih =>
    intro s
    rw [List.foldlM_cons, List.foldlM_cons]
    congr 1
    funext t
    exact ih (List.pairwise_cons.1 h).2 t
  | swap x y l =>
    intro s
    have hxy : Apart y x := (List.pairwise_cons.1 h).1 x (by simp)
    rw [List.foldlM_cons, List.foldlM_cons]
    simp only [List.foldlM_cons]
    rw [← bind_assoc, ← bind_assoc, step_comm xM yM zM hxy s]
  | trans h1 _ ih1 ih2 =>
    intro s
    rw [ih1 h s, ih2 (h1.pairwise h (fun {a b} hab => fun hc => hab ⟨hc.1.symm, hc.2.1.symm, hc.2.2.symm⟩)) s]

/-- C272 (part that holds): the arrays are the same when every voxel is listed once. Missing: voxels listed several times, for several energies or
    times (`C272_array_violated`), and slices (`C272_slice_violated`). -/
theorem C272_array_partial (m : Mesh K (Frame K)) {g : Frame K} (h : SameRows m.data g)
    (hn : (m.data.rows.map (fun r => (r.2.x, r.2.y, r.2.z))).Nodup) : convertTo3dArray m = convertTo3dArray { m with data := g } := by
  unfold convertTo3dArray
  simp only [← h.kind]
  have hp : (m.data.rows.map (fun r => r.2.cells m.data.kind)).Perm (g.rows.map (fun r => r.2.cells m.data.kind)) := h.rows.map _
  have six : (∀ r : MRow K, r.cells m.data.kind = [r.et, r.x, r.y, r.z, r.value, r.err]) →
      (m.data.rows.map (fun r => r.2.cells m.data.kind)).foldlM (arrayStep m.xM m.yM m.zM) (fun _ _ _ => some 0, fun _ _ _ => some 0) =
      (g.rows.map (fun r => r.2.cells m.data.kind)).foldlM (arrayStep m.xM m.yM m.zM) (fun _ _ _ => some 0, fun _ _ _ => some 0) := by
    intro hc
    refine fold_perm _ _ _ hp ?_ _
    rw [List.pairwise_map]
    have := List.pairwise_map.1 hn
    refine this.imp ?_
    intro r q hrq hh
    rw [hc, hc] at hh
    simp only [List.getElem?_cons_succ, List.getElem?_cons_zero, Option.some.injEq] at hh
    exact hrq (by rw [hh.1, hh.2.1, hh.2.2])
  cases hk : m.data.kind with
  | e6 => rw [hk] at six; exact six (fun _ => rfl)
  | t6 => rw [hk] at six; exact six (fun _ => rfl)
  | c5 =>
    rw [hk] at hp
    have bad : ∀ (r : MRow K) s, arrayStep m.xM m.yM m.zM s (r.cells .c5) = .error .IndexError := by
      intro r s
      rw [step_place]
      cases hr : place m.xM m.yM m.zM (r.cells .c5) with
      | error e => rw [place_error hr]; rfl
      | ok p =>
        exfalso
        unfold place at hr
        simp only at hr
        obtain ⟨_, _, hr⟩ := ex_bind_ok.1 hr
        obtain ⟨_, _, hr⟩ := ex_bind_ok.1 hr
        obtain ⟨_, _, hr⟩ := ex_bind_ok.1 hr
        obtain ⟨_, _, hr⟩ := ex_bind_ok.1 hr
        obtain ⟨_, _, hr⟩ := ex_bind_ok.1 hr
        obtain ⟨_, h6, _⟩ := ex_bind_ok.1 hr
        cases h6
    have all : ∀ (l : List (Nat × MRow K)) s, (l.map (fun r => r.2.cells CType.c5)).foldlM (arrayStep m.xM m.yM m.zM) s =
        if l = [] then .ok s else .error .IndexError := by
      intro l s
      cases l with
      | nil => rfl
      | cons r l => rw [List.map_cons, List.foldlM_cons, bad, if_neg (by simp)]; rfl
    rw [all, all]
    have : m.data.rows = [] ↔ g.rows = [] := ⟨fun e => by have := h.rows; rw [e] at this; exact List.nil_perm.1 this, fun e => by have := h.rows; rw [e] at this; exact List.perm_nil.1 this⟩
    simp only [this]

private def twoVoxels (rows : List (Nat × MRow ℚ)) : Mesh ℚ (Frame ℚ) :=
  ⟨none, none, [], [], [], [], [], ⟨.e6, rows⟩, [0], [0, 1], [0], some .e6⟩

/-- C272 is violated by slices: the values of a slice stand in the order of the table, whatever their coordinates are. -/
theorem C272_slice_violated : ∃ (m : Mesh ℚ (Frame ℚ)) (g : Frame ℚ) (s s' : Slice ℚ), SameRows m.data g ∧
    (m.data.rows.map (fun r => (r.2.x, r.2.y, r.2.z))).Nodup ∧ extractSlice m 0 p!"XY" none none = .ok s ∧
    extractSlice { m with data := g } 0 p!"XY" none none = .ok s' ∧ s.values = [[some 1], [some 2]] ∧ s'.values = [[some 2], [some 1]] := by
  refine ⟨twoVoxels [(0, ⟨some 1, some 0, some 0, some 0, some 1, none⟩), (1, ⟨some 1, some 0, some 1, some 0, some 2, none⟩)],
    ⟨.e6, [(1, ⟨some 1, some 0, some 1, some 0, some 2, none⟩), (0, ⟨some 1, some 0, some 0, some 0, some 1, none⟩)]⟩,
    ⟨[0], [0, 1], 0, [[some 1], [some 2]], [[none]]⟩, ⟨[0], [0, 1], 0, [[some 2], [some 1]], [[none]]⟩, ⟨rfl, .swap _ _ _⟩, ?_, ?_, ?_, rfl, rfl⟩ <;>
    decide +kernel

/-- C272 is violated by arrays: of a voxel listed for two energies the array has the value that is listed last. -/
theorem C272_array_violated : ∃ (m : Mesh ℚ (Frame ℚ)) (g : Frame ℚ), SameRows m.data g ∧
    (convertTo3dArray m).map (fun a => a.1 0 0 0) = .ok (some 2) ∧ (convertTo3dArray { m with data := g }).map (fun a => a.1 0 0 0) = .ok (some 1) := by
  refine ⟨twoVoxels [(0, ⟨some 1, some 0, some 0, some 0, some 1, none⟩), (1, ⟨some 2, some 0, some 0, some 0, some 2, none⟩)],
    ⟨.e6, [(1, ⟨some 2, some 0, some 0, some 0, some 2, none⟩), (0, ⟨some 1, some 0, some 0, some 0, some 1, none⟩)]⟩, ⟨rfl, .swap _ _ _⟩, ?_, ?_⟩ <;>
    decide +kernel

example : (convertTo3dArray (twoVoxels [(0, ⟨some 1, some 0, some 0, some 0, some 1, none⟩),
    (1, ⟨some 1, some 0, some 1, some 0, some 2, none⟩)])).map (fun a => (a.1 0 0 0, a.1 0 1 0)) = .ok (some 1, some 2) := by decide +kernel

end Props
