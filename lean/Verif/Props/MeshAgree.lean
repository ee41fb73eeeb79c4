/-
C299: the functions that take points, lines, slices and arrays out of a mesh agree with each other.
-/
import Verif.Props.MeshtalAnalysis
import Verif.Proofs.Except

set_option linter.unusedSectionVars false

namespace Props
open Py Meshtal
variable {K : Type} [Field K] [LinearOrder K] [IsStrictOrderedRing K] [FloorRing K]

/-- The point with the coordinates `f`. -/
def pointOf (f : Axis → K) : K × K × K := (f .x, f .y, f .z)

/-- The axis across, the axis upwards and the axis at a right angle to the plane. -/
inductive PlaneIs : Str → Axis → Axis → Axis → Prop
  | xz : PlaneIs p!"XZ" .x .z .y
  | xy : PlaneIs p!"XY" .x .y .z
  | yz : PlaneIs p!"YZ" .y .z .x

private theorem nearest_self {c : K} {mids : List K} (h : c ∈ mids) : findNearestMid c mids = .ok c := by
  have key : ∀ (l : List K) (b : K), (b = c ∨ c ∈ l) → nearestAux c b l = c := by
    intro l
    induction l with
    | nil => intro b hb; simpa [nearestAux] using hb
    | cons a l ih =>
      intro b hb
      unfold nearestAux
      split
      · rename_i hlt
        refine ih a ?_
        rcases hb with rfl | hb
        · simp only [sub_self, abs_zero] at hlt; exact absurd hlt (not_lt.2 (abs_nonneg _))
        · rcases List.mem_cons.1 hb with rfl | hb
          · exact .inl rfl
          · exact .inr hb
      · rename_i hlt
        refine ih b ?_
        rcases hb with rfl | hb
        · exact .inl rfl
        · rcases List.mem_cons.1 hb with rfl | hb
          · left
            simp only [sub_self, abs_zero, abs_pos, ne_eq, not_not, sub_eq_zero] at hlt
            exact hlt
          · exact .inr hb
  cases mids with
  | nil => cases h
  | cons m ms =>
    show Except.ok (nearestAux c m ms) = _
    rw [key ms m (by rcases List.mem_cons.1 h with rfl | h; exacts [.inl rfl, .inr h])]

private theorem keep_keep (f : Frame K) (p q : MRow K → Bool) : (f.keep p).keep q = f.keep (fun r => p r && q r) := by
  simp only [Frame.keep, List.filter_filter]
  congr 2
  funext r
  exact Bool.and_comm _ _

private theorem filterOne_keep (k : CType) (v : Option K) (f : Frame K) (p : MRow K → Bool) :
    filterOne k v (f.keep p) = (filterOne k v f).map (·.keep p) := by
  unfold filterOne
  cases v with
  | none => rfl
  | some v =>
    dsimp only
    by_cases hv : v = 0
    · rw [if_pos hv, if_pos hv]; rfl
    · rw [if_neg hv, if_neg hv]
      by_cases hk : f.kind = k
      · rw [if_pos (show (f.keep p).kind = k from hk), if_pos hk]
        simp only [Except.map, keep_keep]
        congr 2
        funext r
        exact Bool.and_comm _ _
      · rw [if_neg (show ¬ (f.keep p).kind = k from hk), if_neg hk]; rfl

private theorem filter_keep (f : Frame K) (p : MRow K → Bool) (e t : Option K) :
    filterEnergyTime (f.keep p) e t = (filterEnergyTime f e t).map (·.keep p) := by
  unfold filterEnergyTime
  rw [filterOne_keep]
  cases filterOne .e6 e f with
  | error e => rfl
  | ok g =>
    simp only [Except.map, bind, Except.bind]
    rw [filterOne_keep]
    rfl

/-- Values of the rows of `g` that satisfy `p`. -/
private def vals (g : Frame K) (p : MRow K → Bool) : List (Option K) := (g.keep p).rows.map (fun r => r.2.value)

private theorem pick_eq {m : Mesh K (Frame K)} {f : Axis → K} {cx cy cz : K} {erg time : Option K} {g : Frame K}
    (hg : filterEnergyTime m.data erg time = .ok g) (hx : findNearestMid (f .x) m.xM = .ok cx)
    (hy : findNearestMid (f .y) m.yM = .ok cy) (hz : findNearestMid (f .z) m.zM = .ok cz) :
    pickPoint (f .x) (f .y) (f .z) m erg time =
      .ok (vals g (fun r => decide (r.x = some cx) && decide (r.y = some cy) && decide (r.z = some cz))) := by
  unfold pickPoint
  simp only [hx, hy, hz, bind, Except.bind, keep_keep, filter_keep, hg, Except.map]
  rfl

private theorem line_eq {m : Mesh K (Frame K)} {p q : K × K × K} {cx cy cz : K} {erg time : Option K} {g : Frame K}
    (hg : filterEnergyTime m.data erg time = .ok g) (hx : p.1 = q.1 → findNearestMid p.1 m.xM = .ok cx)
    (hy : p.2.1 = q.2.1 → findNearestMid p.2.1 m.yM = .ok cy) (hz : p.2.2 = q.2.2 → findNearestMid p.2.2 m.zM = .ok cz) :
    extractLine m p q erg time =
      .ok (vals g (fun r => (!decide (p.1 = q.1) || decide (r.x = some cx)) && (!decide (p.2.1 = q.2.1) || decide (r.y = some cy)) &&
        (!decide (p.2.2 = q.2.2) || decide (r.z = some cz)))) := by
  have all : ∀ f : Frame K, f.keep (fun _ => true) = f := fun f => by simp [Frame.keep]
  have fin : ∀ (F : Frame K) (P : MRow K → Bool), F = m.data.keep P →
      (do let f ← filterEnergyTime F erg time; pure (f.rows.map (fun r => r.2.value)) : Except Err (List (Option K))) = .ok (vals g P) := by
    intro F P e
    rw [e, filter_keep, hg]; rfl
  unfold extractLine
  by_cases h1 : p.1 = q.1 <;> by_cases h2 : p.2.1 = q.2.1 <;> by_cases h3 : p.2.2 = q.2.2 <;>
    simp only [h1, h2, h3, if_true, if_false] <;>
    simp only [h1, h2, h3, forall_const] at hx hy hz <;>
    (try rw [hx]) <;> (try rw [hy]) <;> (try rw [hz]) <;>
    refine fin _ _ ?_ <;> simp [keep_keep, all, Bool.and_assoc]

private theorem line_parts {m : Mesh K (Frame K)} {p q : K × K × K} {erg time : Option K} {l : List (Option K)}
    (h : extractLine m p q erg time = .ok l) : (p.1 = q.1 → ∃ c, findNearestMid p.1 m.xM = .ok c) ∧
      (p.2.1 = q.2.1 → ∃ c, findNearestMid p.2.1 m.yM = .ok c) ∧ (p.2.2 = q.2.2 → ∃ c, findNearestMid p.2.2 m.zM = .ok c) ∧
      ∃ g, filterEnergyTime m.data erg time = .ok g := by
  have all : ∀ f : Frame K, f.keep (fun _ => true) = f := fun f => by simp [Frame.keep]
  have bins : ∀ (P : MRow K → Bool) (F : Frame K), F = m.data.keep P → ∀ x,
      (do let f ← filterEnergyTime F erg time; pure (f.rows.map (fun r => r.2.value)) : Except Err (List (Option K))) = .ok x →
      ∃ g, filterEnergyTime m.data erg time = .ok g := by
    intro P F e x hx
    obtain ⟨g, hg, -⟩ := ex_bind_ok.1 hx
    rw [e, filter_keep] at hg
    cases hd : filterEnergyTime m.data erg time with
    | ok g => exact ⟨g, rfl⟩
    | error e => rw [hd] at hg; cases hg
  unfold extractLine at h
  by_cases h1 : p.1 = q.1 <;> by_cases h2 : p.2.1 = q.2.1 <;> by_cases h3 : p.2.2 = q.2.2 <;>
    simp only [h1, h2, h3, if_true, if_false, ex_pure, ex_ok_bind] at h <;>
    simp only [h1, h2, h3, forall_const, false_implies, true_and] <;>
    first
      | (obtain ⟨a, ha, h⟩ := ex_bind_ok.1 h
         obtain ⟨b, hb, h⟩ := ex_bind_ok.1 h
         obtain ⟨c, hc, h⟩ := ex_bind_ok.1 h
         exact ⟨⟨a, ha⟩, ⟨b, hb⟩, ⟨c, hc⟩, bins _ _ (by rw [keep_keep, keep_keep]) _ h⟩)
      | (obtain ⟨a, ha, h⟩ := ex_bind_ok.1 h
         obtain ⟨b, hb, h⟩ := ex_bind_ok.1 h
         exact ⟨⟨a, ha⟩, ⟨b, hb⟩, bins _ _ (by rw [keep_keep]) _ h⟩)
      | (obtain ⟨a, ha, h⟩ := ex_bind_ok.1 h
         exact ⟨⟨a, ha⟩, bins _ _ rfl _ h⟩)
      | exact bins _ _ (all _).symm _ h

private theorem arrayT_column {α : Type} {cols vs : List (List α)} (h : arrayT cols = .ok vs) {n : Nat} {c : List α}
    (hc : cols[n]? = some c) : vs.filterMap (·[n]?) = c := by
  cases cols with
  | nil => simp at hc
  | cons d ds =>
    unfold arrayT at h
    dsimp only at h
    split at h
    · rename_i hall
      cases h
      have hlen : ∀ e ∈ d :: ds, e.length = d.length := by
        intro e he
        rcases List.mem_cons.1 he with rfl | he
        · rfl
        · simpa using List.all_eq_true.1 hall e he
      have hcl := hlen c (List.mem_of_getElem? hc)
      rw [List.filterMap_map]
      have row : ∀ k, k < d.length → ((d :: ds).filterMap (fun e => e[k]?))[n]? = c[k]? := by
        intro k hk
        have : (d :: ds).filterMap (fun e => e[k]?) = (d :: ds).pmap (fun e (he : k < e.length) => e[k]) (fun e he => (hlen e he).symm ▸ hk) := by
          generalize hL : d :: ds = L at hlen
          clear hL hc hall
          induction L with
          | nil => rfl
          | cons a L ih =>
            have ha : k < a.length := by rw [hlen a (by simp)]; exact hk
            rw [List.filterMap_cons_some (b := a[k]) (by simp [ha]), List.pmap_cons, ih (fun e he => hlen e (by simp [he]))]
        rw [this, List.getElem?_pmap]
        have hk' : k < c.length := by omega
        simp [hc, hk']
      have : (List.range d.length).filterMap ((fun x => x[n]?) ∘ fun k => (d :: ds).filterMap (fun e => e[k]?)) =
          (List.range d.length).filterMap (fun k => c[k]?) := by
        apply List.filterMap_congr
        intro k hk
        exact row k (List.mem_range.1 hk)
      rw [this, ← hcl]
      clear this row hcl hc hlen hall
      induction c using List.reverseRecOn with
      | nil => rfl
      | append_singleton l a ih =>
        rw [List.length_append, List.length_singleton, List.range_succ, List.filterMap_append]
        have : (List.range l.length).filterMap (fun k => (l ++ [a])[k]?) = (List.range l.length).filterMap (fun k => l[k]?) := by
          apply List.filterMap_congr
          intro k hk
          rw [List.getElem?_append_left (List.mem_range.1 hk)]
        rw [this, ih]
        simp
    · cases h

/-- C299: every column of a slice is the line through the mid point of the column, in the plane of the slice. -/
theorem C299_column {m : Mesh K (Frame K)} {value : K} {plane : Str} {erg time : Option K} {s : Slice K} {i j v : Axis}
    (hp : PlaneIs plane i j v) (h : extractSlice m value plane erg time = .ok s) {n : Nat} {c : K} (hc : s.sliceI[n]? = some c)
    {f f' : Axis → K} (hi : f i = c ∧ f' i = c) (hv : f v = value ∧ f' v = value) (hj : f j ≠ f' j) :
    extractLine m (pointOf f) (pointOf f') erg time = .ok (s.values.filterMap (·[n]?)) := by
  unfold extractSlice at h
  obtain ⟨g, hg, h⟩ := ex_bind_ok.1 h
  obtain ⟨⟨i', j', v'⟩, hax, h⟩ := ex_bind_ok.1 h
  have hij : i' = i ∧ j' = j ∧ v' = v := by
    have ax : planeAxes plane = .ok (i, j, v) := by cases hp <;> rfl
    rw [ax] at hax
    cases hax
    exact ⟨rfl, rfl, rfl⟩
  obtain ⟨rfl, rfl, rfl⟩ := hij
  obtain ⟨a, ha, h⟩ := ex_bind_ok.1 h
  obtain ⟨vs, hvs, h⟩ := ex_bind_ok.1 h
  obtain ⟨es, -, h⟩ := ex_bind_ok.1 h
  cases h
  dsimp only at hc ⊢
  have hmem := List.mem_of_getElem? hc
  have hcol : ((m.mids i').map (fun c => (((g.keep (fun r => decide (r.coord v' = some a))).rows.map (·.2)).filter
      (fun r => decide (r.coord i' = some c))).map (·.value)))[n]? =
      some ((((g.keep (fun r => decide (r.coord v' = some a))).rows.map (·.2)).filter (fun r => decide (r.coord i' = some c))).map (·.value)) := by
    rw [List.getElem?_map, hc]; rfl
  rw [arrayT_column hvs hcol]
  have e : (((g.keep (fun r => decide (r.coord v' = some a))).rows.map (·.2)).filter (fun r => decide (r.coord i' = some c))).map (·.value) =
      vals g (fun r => decide (r.coord v' = some a) && decide (r.coord i' = some c)) := by
    unfold vals
    rw [← keep_keep]
    generalize g.keep (fun r => decide (r.coord v' = some a)) = G
    simp only [Frame.keep, List.filter_map, List.map_map]
    rfl
  rw [e]
  obtain ⟨hi1, hi2⟩ := hi
  obtain ⟨hv1, hv2⟩ := hv
  have hself := nearest_self hmem
  cases hp
  · rw [line_eq (cx := c) (cy := a) (cz := 0) hg (fun _ => by simpa [pointOf, hi1, Mesh.mids] using hself)
      (fun _ => by simpa [pointOf, hv1, Mesh.mids] using ha) (fun hh => absurd hh hj)]
    congr 2
    funext r
    simp only [pointOf, hi1, hi2, hv1, hv2, hj, decide_true, decide_false, Bool.not_true, Bool.not_false, Bool.true_or, Bool.false_or,
      Bool.and_true, MRow.coord]
    exact Bool.and_comm _ _
  · rw [line_eq (cx := c) (cy := 0) (cz := a) hg (fun _ => by simpa [pointOf, hi1, Mesh.mids] using hself)
      (fun hh => absurd hh hj) (fun _ => by simpa [pointOf, hv1, Mesh.mids] using ha)]
    congr 2
    funext r
    simp only [pointOf, hi1, hi2, hv1, hv2, hj, decide_true, decide_false, Bool.not_true, Bool.not_false, Bool.true_or, Bool.false_or,
      Bool.and_true, MRow.coord]
    exact Bool.and_comm _ _
  · rw [line_eq (cx := a) (cy := c) (cz := 0) hg (fun _ => by simpa [pointOf, hv1, Mesh.mids] using ha)
      (fun _ => by simpa [pointOf, hi1, Mesh.mids] using hself) (fun hh => absurd hh hj)]
    congr 2
    funext r
    simp only [pointOf, hi1, hi2, hv1, hv2, hj, decide_true, decide_false, Bool.not_true, Bool.not_false, Bool.true_or, Bool.false_or,
      Bool.and_true, MRow.coord]
    rfl

private theorem perm_flatMap {α β : Type} [DecidableEq β] (col : α → Option β) : ∀ (mids : List β) (l : List α), mids.Nodup →
    (∀ r ∈ l, ∃ c ∈ mids, col r = some c) → l.Perm (mids.flatMap (fun c => l.filter (fun r => decide (col r = some c))))
  | [], l, _, h => by
    cases l with
    | nil => rfl
    | cons r l => obtain ⟨c, hc, -⟩ := h r (by simp); cases hc
  | c :: mids, l, hn, h => by
    rw [List.flatMap_cons]
    have hn' := List.nodup_cons.1 hn
    refine (List.filter_append_perm (fun r => decide (col r = some c)) l).symm.trans (List.Perm.append_left _ ?_)
    refine (perm_flatMap col mids (l.filter (fun r => !decide (col r = some c))) hn'.2 ?_).trans (List.Perm.of_eq ?_)
    · intro r hr
      obtain ⟨hr, hne⟩ := List.mem_filter.1 hr
      obtain ⟨d, hd, he⟩ := h r hr
      rcases List.mem_cons.1 hd with rfl | hd
      · simp [he] at hne
      · exact ⟨d, hd, he⟩
    · apply List.flatMap_congr
      intro d hd
      rw [List.filter_filter]
      apply List.filter_congr
      intro r _
      by_cases hr : col r = some d
      · have : d ≠ c := fun e => hn'.1 (e ▸ hd)
        simp [hr, this]
      · simp [hr]

/-- C299: a line consists of the values at the points with the mid points of its direction as coordinates, if every row of the table
    belongs to one of these mid points. -/
theorem C299_points {m : Mesh K (Frame K)} {erg time : Option K} {j : Axis} {f f' : Axis → K} {l : List (Option K)}
    (hj : f j ≠ f' j) (hf : ∀ k, k ≠ j → f k = f' k) (h : extractLine m (pointOf f) (pointOf f') erg time = .ok l)
    (hn : (m.mids j).Nodup) (hr : ∀ r ∈ m.data.rows, ∃ c ∈ m.mids j, r.2.coord j = some c) :
    ∃ at' : K → List (Option K), (∀ c ∈ m.mids j, ∀ p : Axis → K, p j = c → (∀ k, k ≠ j → p k = f k) →
      pickPoint (p .x) (p .y) (p .z) m erg time = .ok (at' c)) ∧ l.Perm ((m.mids j).flatMap at') := by
  have sub : ∀ g, filterEnergyTime m.data erg time = .ok g → ∀ r ∈ g.rows, r ∈ m.data.rows := by
    have one : ∀ (k : CType) (v : Option K) (a b : Frame K), filterOne k v a = .ok b → ∀ r ∈ b.rows, r ∈ a.rows := by
      intro k v a b hab r hr
      unfold filterOne at hab
      split at hab
      · cases hab; exact hr
      · split at hab
        · cases hab; exact hr
        · split at hab
          · cases hab; exact List.mem_of_mem_filter hr
          · cases hab
    intro g hg r hr
    unfold filterEnergyTime at hg
    obtain ⟨g1, h1, h2⟩ := ex_bind_ok.1 hg
    exact one _ _ _ _ h1 _ (one _ _ _ _ h2 _ hr)
  obtain ⟨hx, hy, hz, g, hg⟩ := line_parts h
  have hrows : ∀ r ∈ g.rows, ∃ c ∈ m.mids j, r.2.coord j = some c := fun r hrr => hr r (sub g hg r hrr)
  have split : ∀ (P : MRow K → Bool) (Q : K → MRow K → Bool), (∀ r c, Q c r = (P r && decide (r.coord j = some c))) →
      (vals g P).Perm ((m.mids j).flatMap (fun c => vals g (Q c))) := by
    intro P Q hQ
    have := perm_flatMap (fun r : Nat × MRow K => r.2.coord j) (m.mids j) (g.keep P).rows hn
      (fun r hrr => hrows r (List.mem_of_mem_filter hrr))
    refine (this.map (fun r => r.2.value)).trans (List.Perm.of_eq ?_)
    rw [List.map_flatMap]
    apply List.flatMap_congr
    intro c _
    unfold vals
    rw [show g.keep (Q c) = (g.keep P).keep (fun r => decide (r.coord j = some c)) by
      rw [keep_keep]; congr 1; funext r; exact hQ r c]
    rfl
  cases j
  · obtain ⟨cy, hcy⟩ := hy (hf .y (by decide))
    obtain ⟨cz, hcz⟩ := hz (hf .z (by decide))
    rw [line_eq (q := pointOf f') (cx := 0) (cy := cy) (cz := cz) hg (fun e => absurd e hj) (fun _ => hcy) (fun _ => hcz)] at h
    cases h
    refine ⟨fun c => vals g (fun r => decide (r.x = some c) && decide (r.y = some cy) && decide (r.z = some cz)), ?_, ?_⟩
    · intro c hc p hp hpk
      exact pick_eq hg (by rw [hp]; exact nearest_self hc) (by rw [hpk .y (by decide)]; exact hcy) (by rw [hpk .z (by decide)]; exact hcz)
    · refine split _ _ (fun r c => ?_)
      have e1 : ¬ (pointOf f).1 = (pointOf f').1 := hj
      have e2 : (pointOf f).2.1 = (pointOf f').2.1 := hf .y (by decide)
      have e3 : (pointOf f).2.2 = (pointOf f').2.2 := hf .z (by decide)
      simp only [e1, e2, e3, decide_true, decide_false, Bool.not_false, Bool.not_true, Bool.true_or, Bool.false_or, Bool.true_and, MRow.coord]
      rw [Bool.and_assoc, Bool.and_comm]
      rfl
  · obtain ⟨cx, hcx⟩ := hx (hf .x (by decide))
    obtain ⟨cz, hcz⟩ := hz (hf .z (by decide))
    rw [line_eq (q := pointOf f') (cx := cx) (cy := 0) (cz := cz) hg (fun _ => hcx) (fun e => absurd e hj) (fun _ => hcz)] at h
    cases h
    refine ⟨fun c => vals g (fun r => decide (r.x = some cx) && decide (r.y = some c) && decide (r.z = some cz)), ?_, ?_⟩
    · intro c hc p hp hpk
      exact pick_eq hg (by rw [hpk .x (by decide)]; exact hcx) (by rw [hp]; exact nearest_self hc) (by rw [hpk .z (by decide)]; exact hcz)
    · refine split _ _ (fun r c => ?_)
      have e1 : (pointOf f).1 = (pointOf f').1 := hf .x (by decide)
      have e2 : ¬ (pointOf f).2.1 = (pointOf f').2.1 := hj
      have e3 : (pointOf f).2.2 = (pointOf f').2.2 := hf .z (by decide)
      simp only [e1, e2, e3, decide_true, decide_false, Bool.not_false, Bool.not_true, Bool.true_or, Bool.false_or, Bool.and_true, MRow.coord]
      rw [Bool.and_assoc, Bool.and_comm (decide (r.y = some c)), ← Bool.and_assoc]
      rfl
  · obtain ⟨cx, hcx⟩ := hx (hf .x (by decide))
    obtain ⟨cy, hcy⟩ := hy (hf .y (by decide))
    rw [line_eq (q := pointOf f') (cx := cx) (cy := cy) (cz := 0) hg (fun _ => hcx) (fun _ => hcy) (fun e => absurd e hj)] at h
    cases h
    refine ⟨fun c => vals g (fun r => decide (r.x = some cx) && decide (r.y = some cy) && decide (r.z = some c)), ?_, ?_⟩
    · intro c hc p hp hpk
      exact pick_eq hg (by rw [hpk .x (by decide)]; exact hcx) (by rw [hpk .y (by decide)]; exact hcy) (by rw [hp]; exact nearest_self hc)
    · refine split _ _ (fun r c => ?_)
      have e1 : (pointOf f).1 = (pointOf f').1 := hf .x (by decide)
      have e2 : (pointOf f).2.1 = (pointOf f').2.1 := hf .y (by decide)
      have e3 : ¬ (pointOf f).2.2 = (pointOf f').2.2 := hj
      simp only [e1, e2, e3, decide_true, decide_false, Bool.not_false, Bool.not_true, Bool.true_or, Bool.false_or, Bool.and_true, MRow.coord]
      rfl

/-- C299 (part that holds): the array has at every place the value at the point with these mid points, if there is one. Missing: meshes
    with five columns (`C299_array_violated`). -/
theorem C299_array_partial {m : Mesh K (Frame K)} (h6 : m.data.kind ≠ .c5) (hx : m.xM.Nodup) (hy : m.yM.Nodup) (hz : m.zM.Nodup)
    {i j k : Nat} {x y z : K} (hi : m.xM[i]? = some x) (hj : m.yM[j]? = some y) (hk : m.zM[k]? = some z) :
    ∃ a e l, convertTo3dArray m = .ok (a, e) ∧ pickPoint x y z m none none = .ok l ∧ a i j k = l.getLast?.getD (some 0) := by
  classical
  obtain ⟨a, e, h1, h2⟩ := C61_array_partial m h6 hx hy hz
  have hp := pick_eq (f := fun ax => match ax with | .x => x | .y => y | .z => z) (m := m) (erg := none) (time := none) (g := m.data) rfl
    (nearest_self (List.mem_of_getElem? hi)) (nearest_self (List.mem_of_getElem? hj)) (nearest_self (List.mem_of_getElem? hk))
  refine ⟨a, e, _, h1, hp, ?_⟩
  rw [(h2 i j k).1]
  unfold vals Frame.keep
  dsimp only
  rw [List.getLast?_map]
  congr 3
  apply List.filter_congr
  intro r _
  have : At m i j k r.2 ↔ r.2.x = some x ∧ r.2.y = some y ∧ r.2.z = some z := by
    constructor
    · rintro ⟨x', y', z', a1, a2, a3, b1, b2, b3⟩
      rw [hi] at a1; rw [hj] at a2; rw [hk] at a3
      cases a1; cases a2; cases a3
      exact ⟨b1, b2, b3⟩
    · rintro ⟨b1, b2, b3⟩
      exact ⟨x, y, z, hi, hj, hk, b1, b2, b3⟩
  simp only [this, Bool.decide_and, Bool.and_assoc]

/-- C299 is violated by meshes with five columns: points can be looked up, but there is no array. -/
theorem C299_array_violated {m : Mesh K (Frame K)} (h5 : m.data.kind = .c5) (hne : m.data.rows ≠ []) (hx : m.xM.Nodup) (hy : m.yM.Nodup)
    (hz : m.zM.Nodup) {x y z : K} (hi : x ∈ m.xM) (hj : y ∈ m.yM) (hk : z ∈ m.zM) :
    (∃ l, pickPoint x y z m none none = .ok l) ∧ convertTo3dArray m = .error .IndexError :=
  ⟨⟨_, pick_eq (f := fun ax => match ax with | .x => x | .y => y | .z => z) (m := m) (erg := none) (time := none) (g := m.data) rfl
    (nearest_self hi) (nearest_self hj) (nearest_self hk)⟩, C61_violated m h5 hne hx hy hz⟩

private def cross (y z : ℚ) : Axis → ℚ
  | .x => 0
  | .y => y
  | .z => z

example : ∃ s, extractSlice exGrid 5 p!"XZ" none none = .ok s ∧ s.sliceI[0]? = some (0 : ℚ) :=
  ⟨⟨[0, 1], [0, 1], 5, [[some 0, some 10], [some 1, some 11]], [[some 0, some 2], [some 1, some 3]]⟩, by decide +kernel, rfl⟩
example : PlaneIs p!"XZ" .x .z .y := .xz
example : extractLine exGrid (pointOf (cross 5 0)) (pointOf (cross 5 1)) none none = .ok [some 0, some 1] := by decide +kernel
example : (exGrid.mids .z).Nodup ∧ ∀ r ∈ exGrid.data.rows, ∃ c ∈ exGrid.mids .z, r.2.coord .z = some c := by decide +kernel
example : cross 5 0 .z ≠ cross 5 1 .z ∧ ∀ k, k ≠ Axis.z → cross 5 0 k = cross 5 1 k :=
  ⟨by simp [cross], by intro k hk; cases k <;> first | rfl | exact absurd rfl hk⟩
example : exGrid.data.kind ≠ .c5 ∧ exGrid.xM.Nodup ∧ exGrid.yM.Nodup ∧ exGrid.zM.Nodup ∧ exGrid.xM[1]? = some 1 := by decide +kernel
example : ({ exGrid with data := { exGrid.data with kind := .c5 } } : Mesh ℚ (Frame ℚ)).data.rows ≠ [] := by decide +kernel

end Props
