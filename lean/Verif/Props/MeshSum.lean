/-
C246: selections of a sum of meshes.
-/
import Verif.Props.MeshtalAnalysis

namespace Props
open Py Meshtal
variable {K : Type} [Field K] [LinearOrder K] [FloorRing K]

/-- The sum of two cells; a missing number makes the sum missing. -/
def cellSum (a b : Option K) : Option K :=
  match a, b with
  | some a, some b => some (a + b)
  | _, _ => none

/-- The error written for the sum of two cells. -/
def cellErr (sqrt : K → K) (a b : Option K) : Option K :=
  match a, b with
  | some a, some b => some (sqrt (a ^ 2 + b ^ 2))
  | _, _ => none

/-- Two rows of the same voxel and bin. -/
def SameVoxel (a b : Nat × MRow K) : Prop :=
  a.1 = b.1 ∧ a.2.et = b.2.et ∧ a.2.x = b.2.x ∧ a.2.y = b.2.y ∧ a.2.z = b.2.z

/-- Two meshes with the same voxels in the same order, mid points as calculated from the bounds. -/
structure Aligned (flt : Str → Option K) (m1 m2 : Mesh K (Frame K)) : Prop where
  shape : SameShape m1 m2
  six : m1.ctype = some .e6 ∨ m1.ctype = some .t6
  kind : m1.data.kind = m2.data.kind
  rows : List.Forall₂ SameVoxel m1.data.rows m2.data.rows
  nodup : (m1.data.rows.map (·.1)).Nodup
  mids1 : calcMidPoints flt m1.xB = .ok m1.xM ∧ calcMidPoints flt m1.yB = .ok m1.yM ∧ calcMidPoints flt m1.zB = .ok m1.zM
  mids2 : calcMidPoints flt m2.xB = .ok m2.xM ∧ calcMidPoints flt m2.yB = .ok m2.yM ∧ calcMidPoints flt m2.zB = .ok m2.zM

/-- The rows `c` are the sums of the rows `a` and `b`. -/
private inductive Adds (sqrt : K → K) :
    List (Nat × MRow K) → List (Nat × MRow K) → List (Nat × MRow K) → Prop
  | nil : Adds sqrt [] [] []
  | cons {a b c as bs cs} (h1 : SameVoxel a b) (h2 : SameVoxel a c) (h3 : c.2.value = cellSum a.2.value b.2.value)
      (h4 : c.2.err = cellErr sqrt a.2.err b.2.err) (h : Adds sqrt as bs cs) :
      Adds sqrt (a :: as) (b :: bs) (c :: cs)

omit [LinearOrder K] [FloorRing K] in
private theorem adds_filter {sqrt : K → K} {as bs cs : List (Nat × MRow K)} (h : Adds sqrt as bs cs) (p : MRow K → Bool)
    (hp : ∀ r r' : MRow K, r.et = r'.et → r.x = r'.x → r.y = r'.y → r.z = r'.z → p r = p r') :
    Adds sqrt (as.filter (fun r => p r.2)) (bs.filter (fun r => p r.2)) (cs.filter (fun r => p r.2)) := by
  induction h with
  | nil => exact .nil
  | @cons a b c as bs cs h1 h2 h3 h4 _ ih =>
    have e1 := hp a.2 b.2 h1.2.1 h1.2.2.1 h1.2.2.2.1 h1.2.2.2.2
    have e2 := hp a.2 c.2 h2.2.1 h2.2.2.1 h2.2.2.2.1 h2.2.2.2.2
    by_cases hpa : p a.2 = true
    · simp only [List.filter_cons, ← e1, ← e2, hpa, if_true]
      exact .cons h1 h2 h3 h4 ih
    · simp only [List.filter_cons, ← e1, ← e2, hpa]
      exact ih

omit [LinearOrder K] [FloorRing K] in
private theorem adds_values {sqrt : K → K} {as bs cs : List (Nat × MRow K)} (h : Adds sqrt as bs cs) :
    cs.map (fun r => r.2.value) = List.zipWith cellSum (as.map (fun r => r.2.value)) (bs.map (fun r => r.2.value)) ∧
    cs.map (fun r => r.2.err) = List.zipWith (cellErr sqrt) (as.map (fun r => r.2.err)) (bs.map (fun r => r.2.err)) ∧
    as.length = bs.length := by
  induction h with
  | nil => simp
  | cons h1 h2 h3 h4 _ ih => simp [h3, h4, ih]

private theorem mem_snd {α β : Type} {R : α → β → Prop} {l : List α} {m : List β} (h : List.Forall₂ R l m) {a : α}
    (ha : a ∈ l) : ∃ b ∈ m, R a b := by
  induction h with
  | nil => simp at ha
  | cons hr _ ih =>
    rcases List.mem_cons.1 ha with rfl | ha
    · exact ⟨_, List.mem_cons_self, hr⟩
    · obtain ⟨b, hb, hr⟩ := ih ha
      exact ⟨b, List.mem_cons_of_mem _ hb, hr⟩

private theorem lookup_of_mem {α : Type} {l : List (Nat × α)} (hnd : (l.map (·.1)).Nodup) {k : Nat} {r : α}
    (h : (k, r) ∈ l) : lookup l k = some r := by
  unfold lookup
  induction l with
  | nil => simp at h
  | cons a l ih =>
    rw [List.map_cons, List.nodup_cons] at hnd
    rw [List.find?_cons]
    rcases List.mem_cons.1 h with rfl | h
    · simp
    · have : a.1 ≠ k := by
        rintro rfl
        exact hnd.1 (List.mem_map.2 ⟨(a.1, r), h, rfl⟩)
      simp only [this, decide_false]
      exact ih hnd.2 h

/-- The rows of the sum as written in the model. -/
private def sumRow (sqrt : K → K) (l1 l2 : List (Nat × MRow K)) (k : Nat) : Nat × MRow K :=
  let r1 := lookup l1 k
  let r2 := lookup l2 k
  (k, { et := r1.bind (·.et), x := r1.bind (·.x), y := r1.bind (·.y), z := r1.bind (·.z)
        value := do
          let a ← r1.bind (·.value)
          let b ← r2.bind (·.value)
          pure (a + b)
        err := do
          let a ← r1.bind (·.err)
          let b ← r2.bind (·.err)
          pure (sqrt (a ^ 2 + b ^ 2)) : MRow K })

omit [LinearOrder K] [FloorRing K] in
private theorem sumRow_adds (sqrt : K → K) (l1 l2 : List (Nat × MRow K)) (hn1 : (l1.map (·.1)).Nodup)
    (hn2 : (l2.map (·.1)).Nodup) (as bs : List (Nat × MRow K)) (h : List.Forall₂ SameVoxel as bs)
    (ha : ∀ a ∈ as, a ∈ l1) (hb : ∀ b ∈ bs, b ∈ l2) :
    Adds sqrt as bs ((as.map (·.1)).map (sumRow sqrt l1 l2)) := by
  induction h with
  | nil => exact .nil
  | @cons a b as bs hab _ ih =>
    rw [List.map_cons, List.map_cons]
    have k1 : lookup l1 a.1 = some a.2 := lookup_of_mem hn1 (ha a List.mem_cons_self)
    have k2 : lookup l2 a.1 = some b.2 := by
      rw [hab.1]; exact lookup_of_mem hn2 (hb b List.mem_cons_self)
    refine .cons hab ?_ ?_ ?_ (ih (fun x hx => ha x (List.mem_cons_of_mem _ hx))
      (fun x hx => hb x (List.mem_cons_of_mem _ hx)))
    · simp [SameVoxel, sumRow, k1]
    · simp only [sumRow, k1, k2, Option.bind_some]
      cases a.2.value <;> cases b.2.value <;> rfl
    · simp only [sumRow, k1, k2, Option.bind_some]
      cases a.2.err <;> cases b.2.err <;> rfl

omit [Field K] [LinearOrder K] [FloorRing K] in
private theorem forall2_labels {as bs : List (Nat × MRow K)} (h : List.Forall₂ SameVoxel as bs) :
    as.map (·.1) = bs.map (·.1) := by
  induction h with
  | nil => rfl
  | cons hab _ ih => simp [hab.1, ih]

/-- The sum of aligned meshes. -/
private theorem sum_ok (flt : Str → Option K) (sqrt : K → K) (m1 m2 : Mesh K (Frame K)) (h : Aligned flt m1 m2) :
    ∃ s, addMesh flt sqrt m1 m2 = .ok s ∧ s.xM = m1.xM ∧ s.yM = m1.yM ∧ s.zM = m1.zM ∧ s.data.kind = m1.data.kind ∧
      Adds sqrt m1.data.rows m2.data.rows s.data.rows := by
  obtain ⟨⟨h1, h2, h3, h4, h5, h7⟩, h6, hk, hr, hn, ⟨hx, hy, hz⟩, -⟩ := h
  have hl := forall2_labels hr
  unfold addMesh
  rw [if_neg (by simp [h1, h2, h3]), if_neg (by rintro ⟨a, b⟩; exact b (h5 a)), if_neg (by rintro ⟨a, b⟩; exact b (h7 a)),
    if_neg (by simp [h4]), if_neg (by rintro ⟨a, b⟩; rcases h6 with h | h; exact a h; exact b h), hx, hy, hz]
  refine ⟨_, rfl, rfl, rfl, rfl, rfl, ?_⟩
  show Adds sqrt _ _ ((joinIndex _ _).map (sumRow sqrt m1.data.rows m2.data.rows))
  rw [joinIndex, if_pos hl]
  exact sumRow_adds sqrt _ _ hn (hl ▸ hn) _ _ hr (fun _ h => h) (fun _ h => h)

private theorem mids_eq (flt : Str → Option K) (m1 m2 : Mesh K (Frame K)) (h : Aligned flt m1 m2) :
    m1.xM = m2.xM ∧ m1.yM = m2.yM ∧ m1.zM = m2.zM := by
  obtain ⟨⟨h1, h2, h3, -⟩, -, -, -, -, ⟨hx, hy, hz⟩, ⟨gx, gy, gz⟩⟩ := h
  rw [h1] at hx; rw [h2] at hy; rw [h3] at hz
  refine ⟨?_, ?_, ?_⟩
  · exact Except.ok.inj (hx.symm.trans gx)
  · exact Except.ok.inj (hy.symm.trans gy)
  · exact Except.ok.inj (hz.symm.trans gz)

/-- Frames of which the third is the sum of the others. -/
private structure FAdds (sqrt : K → K) (f g t : Frame K) : Prop where
  k1 : t.kind = f.kind
  k2 : t.kind = g.kind
  rows : Adds sqrt f.rows g.rows t.rows

/-- Three outcomes of which the third is the sum of the others. -/
private def Triple {α : Type} (R : α → α → α → Prop) (a b c : Except Err α) : Prop :=
  (∃ x y z, a = .ok x ∧ b = .ok y ∧ c = .ok z ∧ R x y z) ∨ ∃ e, a = .error e ∧ b = .error e ∧ c = .error e

private theorem triple_bind {α β : Type} {R : α → α → α → Prop} {S : β → β → β → Prop} {a b c : Except Err α}
    {f g t : α → Except Err β} (h : Triple R a b c) (hf : ∀ x y z, R x y z → Triple S (f x) (g y) (t z)) :
    Triple S (a >>= f) (b >>= g) (c >>= t) := by
  rcases h with ⟨x, y, z, rfl, rfl, rfl, hr⟩ | ⟨e, rfl, rfl, rfl⟩
  · exact hf x y z hr
  · exact .inr ⟨e, rfl, rfl, rfl⟩

private theorem triple_same {α β : Type} {S : β → β → β → Prop} (a : Except Err α)
    {f g t : α → Except Err β} (hf : ∀ x, Triple S (f x) (g x) (t x)) :
    Triple S (a >>= f) (a >>= g) (a >>= t) := by
  cases a with
  | ok x => exact hf x
  | error e => exact .inr ⟨e, rfl, rfl, rfl⟩

omit [LinearOrder K] [FloorRing K] in
private theorem fadds_keep {sqrt : K → K} {f g t : Frame K} (h : FAdds sqrt f g t) (p : MRow K → Bool)
    (hp : ∀ r r' : MRow K, r.et = r'.et → r.x = r'.x → r.y = r'.y → r.z = r'.z → p r = p r') :
    FAdds sqrt (f.keep p) (g.keep p) (t.keep p) :=
  ⟨h.k1, h.k2, adds_filter h.rows p hp⟩

omit [FloorRing K] in
private theorem filterOne_triple {sqrt : K → K} {f g t : Frame K} (h : FAdds sqrt f g t) (kind : CType) (v : Option K) :
    Triple (FAdds sqrt) (filterOne kind v f) (filterOne kind v g) (filterOne kind v t) := by
  unfold filterOne
  cases v with
  | none => exact .inl ⟨_, _, _, rfl, rfl, rfl, h⟩
  | some v =>
    simp only []
    by_cases hv : v = 0
    · simp only [hv, if_true]
      exact .inl ⟨_, _, _, rfl, rfl, rfl, h⟩
    · simp only [hv, if_false]
      by_cases hk : t.kind = kind
      · have e1 : f.kind = kind := h.k1 ▸ hk
        have e2 : g.kind = kind := h.k2 ▸ hk
        rw [if_pos hk, if_pos e1, if_pos e2]
        exact .inl ⟨_, _, _, rfl, rfl, rfl, fadds_keep h _ (fun r r' h _ _ _ => by rw [h])⟩
      · have e1 : f.kind ≠ kind := fun e => hk (h.k1.trans e)
        have e2 : g.kind ≠ kind := fun e => hk (h.k2.trans e)
        rw [if_neg hk, if_neg e1, if_neg e2]
        exact .inr ⟨_, rfl, rfl, rfl⟩

omit [FloorRing K] in
private theorem filterET_triple {sqrt : K → K} {f g t : Frame K} (h : FAdds sqrt f g t) (erg time : Option K) :
    Triple (FAdds sqrt) (filterEnergyTime f erg time) (filterEnergyTime g erg time) (filterEnergyTime t erg time) := by
  unfold filterEnergyTime
  exact triple_bind (filterOne_triple h _ _) (fun _ _ _ h => filterOne_triple h _ _)

private theorem sum_fadds (flt : Str → Option K) (sqrt : K → K) (m1 m2 : Mesh K (Frame K)) (h : Aligned flt m1 m2) :
    ∃ s, addMesh flt sqrt m1 m2 = .ok s ∧ (s.xM = m1.xM ∧ s.yM = m1.yM ∧ s.zM = m1.zM) ∧
      FAdds sqrt m1.data m2.data s.data := by
  obtain ⟨s, h1, hx, hy, hz, hk, ha⟩ := sum_ok flt sqrt m1 m2 h
  exact ⟨s, h1, ⟨hx, hy, hz⟩, hk, hk.trans h.kind, ha⟩

/-- The outcome of an operation on the sum: the sum of the outcomes, or the error that both raise. -/
def SumOutcome {α : Type} (plus : α → α → α) (a b c : Except Err α) : Prop :=
  (∃ x y, a = .ok x ∧ b = .ok y ∧ c = .ok (plus x y)) ∨ ∃ e, a = .error e ∧ b = .error e ∧ c = .error e

/-- C246 (part that holds): the value at a point of the sum of two meshes with the same voxels in the same order is the sum of
    the values at the point, in every bin, and fails only as the meshes do. Missing: meshes of the same bounds with rows in
    another order (`C246_order_violated`). -/
theorem C246_point_partial (flt : Str → Option K) (sqrt : K → K) (m1 m2 : Mesh K (Frame K)) (h : Aligned flt m1 m2)
    (x y z : K) (erg time : Option K) :
    ∃ s, addMesh flt sqrt m1 m2 = .ok s ∧
      SumOutcome (List.zipWith cellSum) (pickPoint x y z m1 erg time) (pickPoint x y z m2 erg time)
        (pickPoint x y z s erg time) := by
  obtain ⟨s, h1, ⟨hx, hy, hz⟩, hf⟩ := sum_fadds flt sqrt m1 m2 h
  obtain ⟨gx, gy, gz⟩ := mids_eq flt m1 m2 h
  refine ⟨s, h1, ?_⟩
  have key : Triple (fun a b c => c = List.zipWith cellSum a b) (pickPoint x y z m1 erg time)
      (pickPoint x y z m2 erg time) (pickPoint x y z s erg time) := by
    unfold pickPoint
    rw [← gx, ← gy, ← gz, hx, hy, hz]
    refine triple_same _ (fun u => triple_same _ (fun v => triple_same _ (fun w => ?_)))
    refine triple_bind (filterET_triple (sqrt := sqrt) ?_ erg time) (fun f g t ht =>
      .inl ⟨_, _, _, rfl, rfl, rfl, (adds_values ht.rows).1⟩)
    refine fadds_keep (fadds_keep (fadds_keep hf _ ?_) _ ?_) _ ?_ <;> intro r r' _ h1 h2 h3 <;> simp [h1, h2, h3]
  rcases key with ⟨a, b, c, e1, e2, e3, e4⟩ | ⟨e, e1, e2, e3⟩
  · exact .inl ⟨a, b, e1, e2, e4 ▸ e3⟩
  · exact .inr ⟨e, e1, e2, e3⟩

private theorem outcome_of_triple {α : Type} {plus : α → α → α} {a b c : Except Err α}
    (h : Triple (fun a b c => c = plus a b) a b c) : SumOutcome plus a b c := by
  rcases h with ⟨a, b, c, e1, e2, e3, e4⟩ | ⟨e, e1, e2, e3⟩
  · exact .inl ⟨a, b, e1, e2, e4 ▸ e3⟩
  · exact .inr ⟨e, e1, e2, e3⟩

private theorem triple_ite {α : Type} {R : α → α → α → Prop} (p : Prop) [Decidable p] {a b c a' b' c' : Except Err α}
    (h1 : p → Triple R a b c) (h2 : ¬ p → Triple R a' b' c') :
    Triple R (if p then a else a') (if p then b else b') (if p then c else c') := by
  by_cases hp : p
  · simp only [hp, if_true]; exact h1 hp
  · simp only [hp, if_false]; exact h2 hp

/-- One selection of `extract_line`. -/
private def lineStep (c : Prop) [Decidable c] (v : K) (mids : List K) (p : K → MRow K → Bool) (f : Frame K) :
    Except Err (Frame K) :=
  if c then findNearestMid v mids >>= fun x => pure (f.keep (p x)) else pure f

omit [FloorRing K] in
private theorem lineStep_triple {sqrt : K → K} (c : Prop) [Decidable c] (v : K) (mids : List K) (p : K → MRow K → Bool)
    (hp : ∀ x, ∀ r r' : MRow K, r.et = r'.et → r.x = r'.x → r.y = r'.y → r.z = r'.z → p x r = p x r')
    {f g t : Frame K} (h : FAdds sqrt f g t) :
    Triple (FAdds sqrt) (lineStep c v mids p f) (lineStep c v mids p g) (lineStep c v mids p t) := by
  unfold lineStep
  refine triple_ite c (fun _ => triple_same _ (fun x => .inl ⟨_, _, _, rfl, rfl, rfl, fadds_keep h _ (hp x)⟩))
    (fun _ => .inl ⟨_, _, _, rfl, rfl, rfl, h⟩)

omit [FloorRing K] in
private theorem extractLine_steps (m : Mesh K (Frame K)) (p1 p2 : K × K × K) (erg time : Option K) :
    extractLine m p1 p2 erg time =
      (lineStep (p1.1 = p2.1) p1.1 m.xM (fun x r => decide (r.x = some x)) m.data >>= fun f =>
        lineStep (p1.2.1 = p2.2.1) p1.2.1 m.yM (fun y r => decide (r.y = some y)) f >>= fun f =>
          lineStep (p1.2.2 = p2.2.2) p1.2.2 m.zM (fun z r => decide (r.z = some z)) f >>= fun f =>
            filterEnergyTime f erg time >>= fun f => pure (f.rows.map (fun r => r.2.value))) := by
  unfold extractLine lineStep
  split_ifs <;> simp only [bind_assoc, pure_bind]

/-- C246 (part that holds): the values along a line of the sum are the sums of the values along the line. Missing: rows in
    another order (`C246_order_violated`). -/
theorem C246_line_partial (flt : Str → Option K) (sqrt : K → K) (m1 m2 : Mesh K (Frame K)) (h : Aligned flt m1 m2)
    (p1 p2 : K × K × K) (erg time : Option K) :
    ∃ s, addMesh flt sqrt m1 m2 = .ok s ∧
      SumOutcome (List.zipWith cellSum) (extractLine m1 p1 p2 erg time) (extractLine m2 p1 p2 erg time)
        (extractLine s p1 p2 erg time) := by
  obtain ⟨s, h1, ⟨hx, hy, hz⟩, hf⟩ := sum_fadds flt sqrt m1 m2 h
  obtain ⟨gx, gy, gz⟩ := mids_eq flt m1 m2 h
  refine ⟨s, h1, outcome_of_triple ?_⟩
  rw [extractLine_steps, extractLine_steps, extractLine_steps, ← gx, ← gy, ← gz, hx, hy, hz]
  refine triple_bind (lineStep_triple _ _ _ _ ?_ hf) (fun _ _ _ hf => triple_bind (lineStep_triple _ _ _ _ ?_ hf)
    (fun _ _ _ hf => triple_bind (lineStep_triple _ _ _ _ ?_ hf) (fun _ _ _ hf => triple_bind
      (filterET_triple (sqrt := sqrt) hf erg time) (fun f g t ht => .inl ⟨_, _, _, rfl, rfl, rfl, (adds_values ht.rows).1⟩)))) <;>
  intro u r r' _ h1 h2 h3 <;> simp [h1, h2, h3]

/-- Columns of which the third ones are made from the others cell by cell. -/
private inductive Cols {α : Type} (f : α → α → α) : List (List α) → List (List α) → List (List α) → Prop
  | nil : Cols f [] [] []
  | cons {a b as bs cs} (h : a.length = b.length) (h' : Cols f as bs cs) :
      Cols f (a :: as) (b :: bs) (List.zipWith f a b :: cs)

private theorem cols_at {α : Type} {f : α → α → α} {as bs cs : List (List α)} (h : Cols f as bs cs) (k : Nat) :
    cs.filterMap (fun d => d[k]?) = List.zipWith f (as.filterMap (fun d => d[k]?)) (bs.filterMap (fun d => d[k]?)) := by
  induction h with
  | nil => rfl
  | @cons a b as bs cs hl _ ih =>
    by_cases hk : k < a.length
    · have hk' : k < b.length := hl ▸ hk
      simp [List.getElem?_zipWith, List.getElem?_eq_getElem hk, List.getElem?_eq_getElem hk', ih]
    · have hk1 : a[k]? = none := List.getElem?_eq_none (not_lt.1 hk)
      have hk2 : b[k]? = none := List.getElem?_eq_none (hl ▸ not_lt.1 hk)
      simp [List.getElem?_zipWith, hk1, hk2, ih]

private theorem cols_all {α : Type} {f : α → α → α} {as bs cs : List (List α)} (h : Cols f as bs cs) (n : Nat) :
    as.all (fun d => d.length = n) = bs.all (fun d => d.length = n) ∧
    as.all (fun d => d.length = n) = cs.all (fun d => d.length = n) := by
  induction h with
  | nil => exact ⟨rfl, rfl⟩
  | @cons a b as bs cs hl _ ih =>
    have h2 : (List.zipWith f a b).length = a.length := by rw [List.length_zipWith, hl, min_self]
    simp only [List.all_cons, ← ih.1, ← ih.2, h2, hl, and_self]

private theorem arrayT_triple {α : Type} {f : α → α → α} {as bs cs : List (List α)} (h : Cols f as bs cs) :
    Triple (fun a b c => c = List.zipWith (List.zipWith f) a b) (arrayT as) (arrayT bs) (arrayT cs) := by
  cases h with
  | nil => exact .inl ⟨_, _, _, rfl, rfl, rfl, rfl⟩
  | @cons a b as bs cs hl h' =>
    have h2 : (List.zipWith f a b).length = a.length := by rw [List.length_zipWith, hl, min_self]
    obtain ⟨e1, e2⟩ := cols_all h' a.length
    simp only [arrayT, h2, ← hl, ← e1, ← e2]
    refine triple_ite _ (fun _ => .inl ⟨_, _, _, rfl, rfl, rfl, ?_⟩) (fun _ => .inr ⟨_, rfl, rfl, rfl⟩)
    show _ = List.zipWith (List.zipWith f) _ _
    rw [List.zipWith_map, List.zipWith_self]
    apply List.map_congr_left
    intro k _
    exact cols_at (.cons hl h') k

omit [FloorRing K] in
private theorem cols_of_adds {sqrt : K → K} {as bs cs : List (Nat × MRow K)} (h : Adds sqrt as bs cs) (ax : Axis)
    (mids : List K) :
    Cols cellSum
      (mids.map (fun c => ((as.map (·.2)).filter (fun r => decide (r.coord ax = some c))).map (·.value)))
      (mids.map (fun c => ((bs.map (·.2)).filter (fun r => decide (r.coord ax = some c))).map (·.value)))
      (mids.map (fun c => ((cs.map (·.2)).filter (fun r => decide (r.coord ax = some c))).map (·.value))) ∧
    Cols (cellErr sqrt)
      (mids.map (fun c => ((as.map (·.2)).filter (fun r => decide (r.coord ax = some c))).map (·.err)))
      (mids.map (fun c => ((bs.map (·.2)).filter (fun r => decide (r.coord ax = some c))).map (·.err)))
      (mids.map (fun c => ((cs.map (·.2)).filter (fun r => decide (r.coord ax = some c))).map (·.err))) := by
  induction mids with
  | nil => exact ⟨.nil, .nil⟩
  | cons c mids ih =>
    have := adds_values (adds_filter h (fun r => decide (r.coord ax = some c)) (fun r r' _ h1 h2 h3 => decide_eq_decide.2 (by
      cases ax <;> simp [MRow.coord, h1, h2, h3])))
    obtain ⟨g1, g2, g3⟩ := this
    have conv : ∀ (l : List (Nat × MRow K)) (g : MRow K → Option K),
        ((l.map (·.2)).filter (fun r => decide (r.coord ax = some c))).map g =
          (l.filter (fun r => decide (r.2.coord ax = some c))).map (fun r => g r.2) := by
      intro l g
      rw [List.filter_map, List.map_map]
      rfl
    constructor
    · simp only [List.map_cons]
      rw [conv, conv, conv, g1]
      exact .cons (by simpa using g3) ih.1
    · simp only [List.map_cons]
      rw [conv, conv, conv, g2]
      exact .cons (by simpa using g3) ih.2

/-- The sum of two slices: values and errors cell by cell. -/
def sliceSum (sqrt : K → K) (a b : Slice K) : Slice K :=
  ⟨a.sliceI, a.sliceJ, a.value, List.zipWith (List.zipWith cellSum) a.values b.values,
    List.zipWith (List.zipWith (cellErr sqrt)) a.errors b.errors⟩

/-- C246 (part that holds): a slice of the sum has the sums of the values of the slices, and errors combined cell by cell.
    Missing: rows in another order (`C246_order_violated`). -/
theorem C246_slice_partial (flt : Str → Option K) (sqrt : K → K) (m1 m2 : Mesh K (Frame K)) (h : Aligned flt m1 m2)
    (value : K) (plane : Str) (erg time : Option K) :
    ∃ s, addMesh flt sqrt m1 m2 = .ok s ∧
      SumOutcome (sliceSum sqrt) (extractSlice m1 value plane erg time) (extractSlice m2 value plane erg time)
        (extractSlice s value plane erg time) := by
  obtain ⟨s, h1, ⟨hx, hy, hz⟩, hf⟩ := sum_fadds flt sqrt m1 m2 h
  obtain ⟨gx, gy, gz⟩ := mids_eq flt m1 m2 h
  have e1 : ∀ a, m2.mids a = m1.mids a := by intro a; cases a <;> simp [Mesh.mids, gx, gy, gz]
  have e2 : ∀ a, s.mids a = m1.mids a := by intro a; cases a <;> simp [Mesh.mids, hx, hy, hz]
  refine ⟨s, h1, outcome_of_triple ?_⟩
  unfold extractSlice
  simp only [e1, e2]
  refine triple_bind (filterET_triple (sqrt := sqrt) hf erg time) (fun f g t ht => triple_same _ (fun axes =>
    triple_same _ (fun w => ?_)))
  have hk := fadds_keep ht (fun r => decide (r.coord axes.2.2 = some w)) (fun r r' _ h1 h2 h3 => decide_eq_decide.2 (by
    cases axes.2.2 <;> simp [MRow.coord, h1, h2, h3]))
  refine triple_bind (arrayT_triple (cols_of_adds hk.rows axes.1 _).1) (fun a b c e =>
    triple_bind (arrayT_triple (cols_of_adds hk.rows axes.2.1 _).2) (fun a' b' c' e' => .inl ⟨_, _, _, rfl, rfl, rfl, ?_⟩))
  simp only [sliceSum, e, e']

/-- Arrays of which the third ones hold the sums. -/
private def ArrAdds (sqrt : K → K) (a b c : Arr (Option K) × Arr (Option K)) : Prop :=
  (∀ i j k, c.1 i j k = cellSum (a.1 i j k) (b.1 i j k)) ∧ ∀ i j k, c.2 i j k = cellErr sqrt (a.2 i j k) (b.2 i j k)

omit [FloorRing K] in
private theorem foldlM_triple {sqrt : K → K} (kind : CType) (hk : kind ≠ .c5) (xM yM zM : List K)
    {as bs cs : List (Nat × MRow K)} (h : Adds sqrt as bs cs) :
    ∀ a b c : Arr (Option K) × Arr (Option K), ArrAdds sqrt a b c →
      Triple (ArrAdds sqrt) ((as.map (fun r => r.2.cells kind)).foldlM (arrayStep xM yM zM) a)
        ((bs.map (fun r => r.2.cells kind)).foldlM (arrayStep xM yM zM) b)
        ((cs.map (fun r => r.2.cells kind)).foldlM (arrayStep xM yM zM) c) := by
  induction h with
  | nil => exact fun a b c h => .inl ⟨a, b, c, rfl, rfl, rfl, h⟩
  | @cons ra rb rc as bs cs h1 h2 h3 h4 _ ih =>
    intro a b c hab
    have hcells : ∀ r : MRow K, r.cells kind = [r.et, r.x, r.y, r.z, r.value, r.err] := by
      intro r
      unfold MRow.cells
      cases kind <;> simp_all
    simp only [List.map_cons, List.foldlM_cons]
    refine triple_bind ?_ ih
    rw [hcells, hcells, hcells, ← h1.2.1, ← h1.2.2.1, ← h1.2.2.2.1, ← h1.2.2.2.2, ← h2.2.1, ← h2.2.2.1, ← h2.2.2.2.1,
      ← h2.2.2.2.2]
    have hstep : ∀ (s : Arr (Option K) × Arr (Option K)) (e x y z v w : Option K),
        arrayStep xM yM zM s [e, x, y, z, v, w] =
          (broadcast3 (whereEq xM x) (whereEq yM y) (whereEq zM z) >>= fun ps => pure (s.1.put ps v, s.2.put ps w)) :=
      fun _ _ _ _ _ _ _ => rfl
    rw [hstep, hstep, hstep]
    refine triple_same _ (fun ps => .inl ⟨_, _, _, rfl, rfl, rfl, ?_, ?_⟩)
    · intro i j k
      simp only [Arr.put]
      split
      · exact h3
      · exact hab.1 i j k
    · intro i j k
      simp only [Arr.put]
      split
      · exact h4
      · exact hab.2 i j k

/-- C246 (part that holds): the array of the sum holds the sum of the arrays in every voxel. Missing: rows in another order
    (`C246_order_violated`). -/
theorem C246_array_partial (flt : Str → Option K) (sqrt : K → K) (h0 : sqrt 0 = 0) (m1 m2 : Mesh K (Frame K))
    (h : Aligned flt m1 m2) (h6 : m1.data.kind ≠ .c5) :
    ∃ s, addMesh flt sqrt m1 m2 = .ok s ∧
      SumOutcome (fun a b : Arr (Option K) × Arr (Option K) => (fun i j k => cellSum (a.1 i j k) (b.1 i j k), fun i j k => cellErr sqrt (a.2 i j k) (b.2 i j k)))
        (convertTo3dArray m1) (convertTo3dArray m2) (convertTo3dArray s) := by
  obtain ⟨s, h1, ⟨hx, hy, hz⟩, hf⟩ := sum_fadds flt sqrt m1 m2 h
  obtain ⟨gx, gy, gz⟩ := mids_eq flt m1 m2 h
  refine ⟨s, h1, ?_⟩
  have key : Triple (ArrAdds sqrt) (convertTo3dArray m1) (convertTo3dArray m2) (convertTo3dArray s) := by
    unfold convertTo3dArray
    rw [← gx, ← gy, ← gz, hx, hy, hz, hf.k1, ← h.kind]
    refine foldlM_triple _ h6 _ _ _ hf.rows _ _ _ ⟨fun _ _ _ => ?_, fun _ _ _ => ?_⟩
    · simp [cellSum]
    · simp [cellErr, h0]
  rcases key with ⟨a, b, c, e1, e2, e3, e4, e5⟩ | ⟨e, e1, e2, e3⟩
  · refine .inl ⟨a, b, e1, e2, ?_⟩
    rw [e3]
    congr 1
    exact Prod.ext (by funext i j k; exact e4 i j k) (by funext i j k; exact e5 i j k)
  · exact .inr ⟨e, e1, e2, e3⟩

/-- Two voxels along x, in the order given. -/
private def exTwo (rows : List (Nat × MRow ℚ)) : Mesh ℚ (Frame ℚ) :=
  ⟨none, none, [.num 0, .num 1, .num 2], [.num 0, .num 1], [.num 0, .num 1], [], [],
    ⟨.e6, rows⟩, [1 / 2, 3 / 2], [1 / 2], [1 / 2], some .e6⟩

private def exRow (x v : ℚ) : MRow ℚ := ⟨some 1, some x, some (1 / 2), some (1 / 2), some v, some 0⟩

private def exFirst : Mesh ℚ (Frame ℚ) := exTwo [(0, exRow (1 / 2) 1), (1, exRow (3 / 2) 2)]
private def exSecond : Mesh ℚ (Frame ℚ) := exTwo [(0, exRow (1 / 2) 10), (1, exRow (3 / 2) 20)]
private def exTurned : Mesh ℚ (Frame ℚ) := exTwo [(0, exRow (3 / 2) 20), (1, exRow (1 / 2) 10)]

/-- C246 is violated for rows in another order: both meshes have the same bounds and the values 1 and 10 at the first voxel,
    and the sum reports 21 there. -/
theorem C246_order_violated : ∃ m1 m2 : Mesh ℚ (Frame ℚ), SameShape m1 m2 ∧
    pickPoint (1 / 2) (1 / 2) (1 / 2) m1 none none = .ok [some 1] ∧
    pickPoint (1 / 2) (1 / 2) (1 / 2) m2 none none = .ok [some 10] ∧
    (addMesh (fun _ => none) id m1 m2 >>= fun s => pickPoint (1 / 2) (1 / 2) (1 / 2) s none none) = .ok [some 21] :=
  ⟨exFirst, exTurned, ⟨rfl, rfl, rfl, rfl, fun _ => rfl, fun _ => rfl⟩, by decide +kernel, by decide +kernel,
    by decide +kernel⟩

example : Aligned (fun _ => none) exFirst exSecond :=
  ⟨⟨rfl, rfl, rfl, rfl, fun _ => rfl, fun _ => rfl⟩, Or.inl rfl, rfl,
    .cons ⟨rfl, rfl, rfl, rfl, rfl⟩ (.cons ⟨rfl, rfl, rfl, rfl, rfl⟩ .nil), by decide +kernel,
    ⟨by decide +kernel, by decide +kernel, by decide +kernel⟩, by decide +kernel, by decide +kernel, by decide +kernel⟩

example : (addMesh (fun _ => none) id exFirst exSecond >>= fun s => pickPoint (1 / 2) (1 / 2) (1 / 2) s none none) =
    .ok [some 11] := by decide +kernel

example : (addMesh (fun _ => none) id exFirst exSecond >>= fun s =>
    extractLine s (0, 1 / 2, 1 / 2) (2, 1 / 2, 1 / 2) none none) = .ok [some 11, some 22] := by decide +kernel

example : (addMesh (fun _ => none) id exFirst exSecond >>= fun s =>
    extractSlice s (3 / 2) p!"YZ" none none >>= fun t => pure t.values) = .ok [[some 22]] := by decide +kernel

end Props
