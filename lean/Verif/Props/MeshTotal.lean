/-
C289: several meshes can be added in any order.
-/
import Verif.Props.MeshSum
import Mathlib.Analysis.Real.Sqrt

namespace Props
open Py Meshtal
variable {K : Type} [Field K] [LinearOrder K] [FloorRing K]

/-- Spec: the sum of several meshes, one after the other. -/
def totalMesh (flt : Str → Option K) (sqrt : K → K) : List (Mesh K (Frame K)) → Except Err (Mesh K (Frame K))
  | [] => .error .ValueError
  | m :: ms => ms.foldlM (addMesh flt sqrt) m

/-- Spec: `sqrt` takes square roots. -/
def IsRoot (sqrt : K → K) : Prop := ∀ x, 0 ≤ x → sqrt x ^ 2 = x

private def addRow (sqrt : K → K) (a b : Nat × MRow K) : Nat × MRow K :=
  (a.1, { a.2 with value := cellSum a.2.value b.2.value, err := cellErr sqrt a.2.err b.2.err })

private def plus (sqrt : K → K) (m1 m2 : Mesh K (Frame K)) : Mesh K (Frame K) :=
  { m1 with
    idnum := none, ptype := none
    eB := if m1.ctype = some .e6 then m1.eB else []
    tB := if m1.ctype = some .t6 then m1.tB else []
    data := ⟨m1.data.kind, List.zipWith (addRow sqrt) m1.data.rows m2.data.rows⟩ }

private theorem find_row {α : Type} {l : List (Nat × α)} (hnd : (l.map (·.1)).Nodup) {i : Nat} (hi : i < l.length) :
    lookup l l[i].1 = some l[i].2 := by
  unfold lookup
  induction l generalizing i with
  | nil => simp at hi
  | cons a l ih =>
    cases i with
    | zero => simp
    | succ i =>
      rw [List.map_cons, List.nodup_cons] at hnd
      have hi' : i < l.length := by simpa using hi
      have hne : a.1 ≠ l[i].1 := fun h => hnd.1 (h ▸ List.mem_map.2 ⟨_, List.getElem_mem hi', rfl⟩)
      simp only [List.getElem_cons_succ, List.find?_cons, hne, decide_false]
      exact ih hnd.2 hi'

omit [Field K] [LinearOrder K] [FloorRing K] in
private theorem ids_eq {a b : List (Nat × MRow K)} (h : List.Forall₂ SameVoxel a b) : a.map (·.1) = b.map (·.1) := by
  induction h with
  | nil => rfl
  | cons h1 _ ih => simp only [List.map_cons, ih, h1.1]

private theorem add_eq {flt : Str → Option K} (sqrt : K → K) {m1 m2 : Mesh K (Frame K)} (h : Aligned flt m1 m2) :
    addMesh flt sqrt m1 m2 = .ok (plus sqrt m1 m2) := by
  obtain ⟨h1, h2, h3, h4, h5, h6⟩ := h.shape
  have hids := ids_eq h.rows
  have hnd := h.nodup
  have hlen : m1.data.rows.length = m2.data.rows.length := h.rows.length_eq
  unfold addMesh
  rw [if_neg (by simp [h1, h2, h3]), if_neg (by rintro ⟨a, b⟩; exact b (h5 a)), if_neg (by rintro ⟨a, b⟩; exact b (h6 a)), if_neg (by simp [h4]),
    if_neg (by rcases h.six with h' | h' <;> simp [h'])]
  rw [h.mids1.1, h.mids1.2.1, h.mids1.2.2]
  simp only [← hids, joinIndex, if_true]
  unfold plus
  show Except.ok _ = Except.ok _
  congr 3
  apply List.ext_getElem
  · simp [hlen]
  · intro i ha hb
    have hi1 : i < m1.data.rows.length := by simpa using ha
    have hi2 : i < m2.data.rows.length := hlen ▸ hi1
    have e1 := find_row hnd hi1
    have e2 := find_row (l := m2.data.rows) (hids ▸ hnd) hi2
    have hid : m1.data.rows[i].1 = m2.data.rows[i].1 := (List.Forall₂.get h.rows hi1 hi2).1
    rw [← hid] at e2
    simp only [List.getElem_map, List.getElem_zipWith, addRow, e1, e2, Option.bind_some]
    refine Prod.ext rfl ?_
    simp only [MRow.mk.injEq, true_and]
    constructor
    · cases m1.data.rows[i].2.value <;> cases m2.data.rows[i].2.value <;> rfl
    · cases m1.data.rows[i].2.err <;> cases m2.data.rows[i].2.err <;> rfl

private theorem plus_aligned {flt : Str → Option K} (sqrt : K → K) {m1 m2 m3 : Mesh K (Frame K)} (h12 : Aligned flt m1 m2) (h13 : Aligned flt m1 m3) :
    Aligned flt (plus sqrt m1 m2) m3 := by
  obtain ⟨h1, h2, h3, h4, h5, h6⟩ := h13.shape
  have hlen : m1.data.rows.length = m2.data.rows.length := h12.rows.length_eq
  have hmap : (List.zipWith (addRow sqrt) m1.data.rows m2.data.rows).map (·.1) = m1.data.rows.map (·.1) := by
    apply List.ext_getElem
    · simp [hlen]
    · intro i ha hb
      simp [addRow]
  refine ⟨⟨h1, h2, h3, h4, fun he => ?_, fun ht => ?_⟩, h13.six, h13.kind, ?_, ?_, h13.mids1, h13.mids2⟩
  · show (if m1.ctype = some .e6 then m1.eB else []) = _
    rw [if_pos (show m1.ctype = some .e6 from he)]; exact h5 he
  · show (if m1.ctype = some .t6 then m1.tB else []) = _
    rw [if_pos (show m1.ctype = some .t6 from ht)]; exact h6 ht
  · show List.Forall₂ SameVoxel (List.zipWith (addRow sqrt) m1.data.rows m2.data.rows) m3.data.rows
    rw [List.forall₂_iff_get]
    have hl3 := h13.rows.length_eq
    refine ⟨by simp [← hlen, hl3], fun i ha hb => ?_⟩
    have hi1 : i < m1.data.rows.length := by rw [hl3]; exact hb
    have := List.Forall₂.get h13.rows hi1 hb
    simpa [addRow, SameVoxel] using this
  · show ((List.zipWith (addRow sqrt) m1.data.rows m2.data.rows).map (·.1)).Nodup
    rw [hmap]; exact h13.nodup

omit [FloorRing K] in
private theorem row_right [IsStrictOrderedRing K] {sqrt : K → K} (hs : IsRoot sqrt) (z x y : Nat × MRow K) :
    addRow sqrt (addRow sqrt z x) y = addRow sqrt (addRow sqrt z y) x := by
  unfold addRow
  refine Prod.ext rfl ?_
  simp only [MRow.mk.injEq, true_and]
  constructor
  · cases z.2.value <;> cases x.2.value <;> cases y.2.value <;> simp [cellSum, add_right_comm]
  · cases z.2.err <;> cases x.2.err <;> cases y.2.err <;> simp only [cellErr]
    rw [hs _ (by positivity), hs _ (by positivity), add_right_comm]

omit [FloorRing K] in
private theorem plus_right [IsStrictOrderedRing K] {sqrt : K → K} (hs : IsRoot sqrt) (z x y : Mesh K (Frame K)) :
    plus sqrt (plus sqrt z x) y = plus sqrt (plus sqrt z y) x := by
  unfold plus
  simp only [Mesh.mk.injEq, Frame.mk.injEq, true_and, and_true]
  apply List.ext_getElem
  · simp only [List.length_zipWith]; omega
  · intro i ha hb
    simp only [List.getElem_zipWith]
    exact row_right hs _ _ _

private theorem plus_comm {flt : Str → Option K} (sqrt : K → K) {m1 m2 : Mesh K (Frame K)} (h : Aligned flt m1 m2) :
    plus sqrt m1 m2 = plus sqrt m2 m1 := by
  obtain ⟨h1, h2, h3, h4, h5, h6⟩ := h.shape
  have hx := h.mids1.1
  rw [h1, h.mids2.1, Except.ok.injEq] at hx
  have hy := h.mids1.2.1
  rw [h2, h.mids2.2.1, Except.ok.injEq] at hy
  have hz := h.mids1.2.2
  rw [h3, h.mids2.2.2, Except.ok.injEq] at hz
  unfold plus
  simp only [Mesh.mk.injEq, Frame.mk.injEq, true_and]
  have he : (if m1.ctype = some .e6 then m1.eB else []) = (if m2.ctype = some .e6 then m2.eB else []) := by
    by_cases hc : m1.ctype = some .e6
    · rw [if_pos hc, if_pos (h4 ▸ hc), h5 hc]
    · rw [if_neg hc, if_neg (h4 ▸ hc)]
  have ht : (if m1.ctype = some .t6 then m1.tB else []) = (if m2.ctype = some .t6 then m2.tB else []) := by
    by_cases hc : m1.ctype = some .t6
    · rw [if_pos hc, if_pos (h4 ▸ hc), h6 hc]
    · rw [if_neg hc, if_neg (h4 ▸ hc)]
  refine ⟨h1, h2, h3, he, ht, ⟨h.kind, ?_⟩, hx.symm, hy.symm, hz.symm, h4⟩
  have hlen := h.rows.length_eq
  apply List.ext_getElem
  · simp [hlen]
  · intro i ha hb
    have hi1 : i < m1.data.rows.length := by simp at ha; omega
    have hi2 : i < m2.data.rows.length := hlen ▸ hi1
    have hv : SameVoxel m1.data.rows[i] m2.data.rows[i] := List.Forall₂.get h.rows hi1 hi2
    simp only [List.getElem_zipWith, addRow]
    refine Prod.ext hv.1 ?_
    simp only [MRow.mk.injEq]
    refine ⟨hv.2.1, hv.2.2.1, hv.2.2.2.1, hv.2.2.2.2, ?_, ?_⟩
    · cases m1.data.rows[i].2.value <;> cases m2.data.rows[i].2.value <;> simp [cellSum, add_comm]
    · cases m1.data.rows[i].2.err <;> cases m2.data.rows[i].2.err <;> simp [cellErr, add_comm]

private theorem total_eq {flt : Str → Option K} (sqrt : K → K) {m : Mesh K (Frame K)} {ms : List (Mesh K (Frame K))} (h : ∀ x ∈ ms, Aligned flt m x) :
    totalMesh flt sqrt (m :: ms) = .ok (ms.foldl (plus sqrt) m) := by
  show ms.foldlM (addMesh flt sqrt) m = _
  induction ms generalizing m with
  | nil => rfl
  | cons x ms ih =>
    rw [List.foldlM_cons, add_eq sqrt (h x (by simp))]
    exact ih (fun y hy => plus_aligned sqrt (h x (by simp)) (h y (by simp [hy])))

/-- C289 (part that holds): the sum of two meshes with the same voxels in the same rows does not depend on their order, with all its attributes. -/
theorem C289_swap_partial {flt : Str → Option K} (sqrt : K → K) {m1 m2 : Mesh K (Frame K)} (h : Aligned flt m1 m2) (h' : Aligned flt m2 m1) :
    addMesh flt sqrt m1 m2 = addMesh flt sqrt m2 m1 := by
  rw [add_eq sqrt h, add_eq sqrt h', plus_comm sqrt h]

/-- C289 (part that holds): it does not matter which two of three meshes are added first. -/
theorem C289_three_partial [IsStrictOrderedRing K] {flt : Str → Option K} {sqrt : K → K} (hs : IsRoot sqrt) {m1 m2 m3 : Mesh K (Frame K)}
    (h12 : Aligned flt m1 m2) (h13 : Aligned flt m1 m3) (h23 : Aligned flt m2 m3) (h21 : Aligned flt m2 m1) :
    ∃ s, (addMesh flt sqrt m1 m2 >>= fun a => addMesh flt sqrt a m3) = .ok s ∧ (addMesh flt sqrt m2 m3 >>= fun b => addMesh flt sqrt b m1) = .ok s := by
  refine ⟨plus sqrt (plus sqrt m1 m2) m3, ?_, ?_⟩
  · rw [add_eq sqrt h12]
    exact add_eq sqrt (plus_aligned sqrt h12 h13)
  · rw [add_eq sqrt h23]
    refine (add_eq sqrt (plus_aligned sqrt h23 h21)).trans ?_
    rw [plus_right hs m2 m3 m1, plus_comm sqrt h21]

/-- C289 (part that holds): any number of meshes with the same voxels in the same rows can be added, and the sum is the same in every order: values, errors and all attributes.
    Missing: meshes with their rows in different order (`C289_rows_violated`). -/
theorem C289_order_partial [IsStrictOrderedRing K] {flt : Str → Option K} {sqrt : K → K} (hs : IsRoot sqrt) {l l' : List (Mesh K (Frame K))} (hne : l ≠ [])
    (ha : ∀ a ∈ l, ∀ b ∈ l, Aligned flt a b) (hp : l.Perm l') :
    ∃ s, totalMesh flt sqrt l = .ok s ∧ totalMesh flt sqrt l' = .ok s := by
  have key : totalMesh flt sqrt l = totalMesh flt sqrt l' := by
    induction hp with
    | nil => rfl
    | @cons x l1 l2 hp _ =>
      rw [total_eq sqrt (fun y hy => ha x (by simp) y (by simp [hy])),
        total_eq sqrt (fun y hy => ha x (by simp) y (by simp [hp.mem_iff.2 hy]))]
      rw [hp.foldl_eq' (fun a _ b _ z => plus_right hs z a b)]
    | swap x y l =>
      rw [total_eq sqrt (fun z hz => ha y (by simp) z (by simp at hz ⊢; tauto)),
        total_eq sqrt (fun z hz => ha x (by simp) z (by simp at hz ⊢; tauto)), List.foldl_cons, List.foldl_cons,
        plus_comm sqrt (ha y (by simp) x (by simp))]
    | trans h1 _ ih1 ih2 =>
      rw [ih1 hne ha, ih2 (fun h => hne (by rw [h] at h1; exact h1.eq_nil)) (fun a h b h' => ha a (h1.mem_iff.2 h) b (h1.mem_iff.2 h'))]
  rw [← key]
  cases l with
  | nil => exact absurd rfl hne
  | cons m ms => exact ⟨_, total_eq sqrt (fun y hy => ha m (by simp) y (by simp [hy])), total_eq sqrt (fun y hy => ha m (by simp) y (by simp [hy]))⟩

/-- C289: the square root of the reals is one. -/
theorem C289_real : IsRoot Real.sqrt := fun _ hx => Real.sq_sqrt hx

/-- C289 (part that holds): the sum of several meshes has in each voxel the sum of their values and the root of the sum of the squares of the errors written. -/
theorem C289_values_partial [IsStrictOrderedRing K] {flt : Str → Option K} {sqrt : K → K} (hs : IsRoot sqrt) {m : Mesh K (Frame K)} {ms : List (Mesh K (Frame K))}
    (ha : ∀ x ∈ ms, Aligned flt m x) {s : Mesh K (Frame K)} (h : totalMesh flt sqrt (m :: ms) = .ok s) {i : Nat} {r : Nat × MRow K}
    (hr : m.data.rows[i]? = some r) {v e : K} (hv : r.2.value = some v) (he : r.2.err = some e) {vs es : List K}
    (hvs : List.Forall₂ (fun x v => (x.data.rows[i]?).bind (fun r => r.2.value) = some v) ms vs)
    (hes : List.Forall₂ (fun x e => (x.data.rows[i]?).bind (fun r => r.2.err) = some e) ms es) :
    ∃ r' e', s.data.rows[i]? = some r' ∧ r'.1 = r.1 ∧ r'.2.value = some (v + vs.sum) ∧ r'.2.err = some e' ∧
      e' ^ 2 = e ^ 2 + (es.map (· ^ 2)).sum := by
  rw [total_eq sqrt ha] at h
  cases h
  clear ha
  induction hvs generalizing m r v e es with
  | nil =>
    cases hes
    exact ⟨r, e, hr, rfl, by simp [hv], he, by simp⟩
  | @cons x w ms vs hx _ ih =>
    cases hes with
    | @cons _ f _ es hf hes =>
      cases hxr : x.data.rows[i]? with
      | none => rw [hxr] at hx; cases hx
      | some rx =>
        rw [hxr, Option.bind_some] at hx hf
        have hr1 : (plus sqrt m x).data.rows[i]? = some (addRow sqrt r rx) := by
          show (List.zipWith (addRow sqrt) m.data.rows x.data.rows)[i]? = _
          rw [List.getElem?_zipWith, hr, hxr]
        obtain ⟨r', e', g1, g2, g3, g4, g5⟩ := ih (m := plus sqrt m x) (r := addRow sqrt r rx) (v := v + w) (e := sqrt (e ^ 2 + f ^ 2)) hr1
          (by simp [addRow, hv, hx, cellSum]) (by simp [addRow, he, hf, cellErr]) hes
        refine ⟨r', e', g1, g2, ?_, g4, ?_⟩
        · rw [g3, List.sum_cons, add_assoc]
        · rw [g5, hs _ (by positivity), List.map_cons, List.sum_cons, add_assoc]

private def exTwo (rows : List (Nat × MRow ℚ)) : Mesh ℚ (Frame ℚ) :=
  ⟨none, none, [.num 0, .num 1, .num 2], [.num 0, .num 1], [.num 0, .num 1], [], [],
    ⟨.e6, rows⟩, [1 / 2, 3 / 2], [1 / 2], [1 / 2], some .e6⟩

private def exRow (x v : ℚ) : MRow ℚ := ⟨some 1, some x, some (1 / 2), some (1 / 2), some v, some 0⟩

private def exFirst : Mesh ℚ (Frame ℚ) := exTwo [(0, exRow (1 / 2) 1), (1, exRow (3 / 2) 2)]
private def exSecond : Mesh ℚ (Frame ℚ) := exTwo [(0, exRow (1 / 2) 10), (1, exRow (3 / 2) 20)]
private def exTurned : Mesh ℚ (Frame ℚ) := exTwo [(0, exRow (3 / 2) 20), (1, exRow (1 / 2) 10)]

/-- C289 is violated for the same voxels in another order: the value of the sum at a point depends on which mesh comes first. -/
theorem C289_rows_violated : ∃ m1 m2 : Mesh ℚ (Frame ℚ), SameShape m1 m2 ∧
    (addMesh (fun _ => none) id m1 m2 >>= fun s => pickPoint (1 / 2) (1 / 2) (1 / 2) s none none) = .ok [some 21] ∧
    (addMesh (fun _ => none) id m2 m1 >>= fun s => pickPoint (1 / 2) (1 / 2) (1 / 2) s none none) = .ok [some 12] :=
  ⟨exFirst, exTurned, ⟨rfl, rfl, rfl, rfl, fun _ => rfl, fun _ => rfl⟩, by decide +kernel, by decide +kernel⟩

example : ∀ a ∈ [exFirst, exSecond], ∀ b ∈ [exFirst, exSecond], Aligned (fun _ => none) a b := by
  have hx : calcMidPoints (K := ℚ) (fun _ => none) [.num 0, .num 1, .num 2] = .ok [1 / 2, 3 / 2] := by decide +kernel
  have hy : calcMidPoints (K := ℚ) (fun _ => none) [.num 0, .num 1] = .ok [1 / 2] := by decide +kernel
  have h : ∀ v w v' w', Aligned (fun _ => none) (exTwo [(0, exRow (1 / 2) v), (1, exRow (3 / 2) w)])
      (exTwo [(0, exRow (1 / 2) v'), (1, exRow (3 / 2) w')]) := fun v w v' w' =>
    ⟨⟨rfl, rfl, rfl, rfl, fun _ => rfl, fun _ => rfl⟩, Or.inl rfl, rfl,
      .cons ⟨rfl, rfl, rfl, rfl, rfl⟩ (.cons ⟨rfl, rfl, rfl, rfl, rfl⟩ .nil), show ([0, 1] : List Nat).Nodup by decide,
      ⟨hx, hy, hy⟩, hx, hy, hy⟩
  intro a ha b hb
  simp only [List.mem_cons, List.not_mem_nil, or_false] at ha hb
  rcases ha with rfl | rfl <;> rcases hb with rfl | rfl <;> exact h _ _ _ _

end Props
