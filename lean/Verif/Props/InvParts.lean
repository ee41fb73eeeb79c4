/-
C283: an inventory put together from two.
-/
import Verif.Props.FispactAnalysis
import Verif.Props.FispactOutput3
import Verif.Props.ChartOrder

set_option linter.unusedSectionVars false
set_option linter.unusedSimpArgs false

namespace Props
open Py FispactAnalysis
variable {K : Type} [Field K] [LinearOrder K] [IsStrictOrderedRing K]

private theorem mapM_app {α β : Type} {f : α → Except Err β} {l l' : List α} {r r' : List β} (h : l.mapM f = .ok r) (h' : l'.mapM f = .ok r') :
    (l ++ l').mapM f = .ok (r ++ r') := by
  rw [mapM_except_ok_iff] at *
  exact List.rel_append h h'

private theorem mapM_split {α β : Type} {f : α → Except Err β} {l l' : List α} {r : List β} (h : (l ++ l').mapM f = .ok r) :
    ∃ a b, l.mapM f = .ok a ∧ l'.mapM f = .ok b ∧ r = a ++ b := by
  induction l generalizing r with
  | nil => exact ⟨[], r, rfl, h, rfl⟩
  | cons x l ih =>
    rw [List.cons_append, mapM_except_ok_iff] at h
    cases h with
    | @cons _ y _ ys h1 h2 =>
      obtain ⟨a, b, ha, hb, rfl⟩ := ih (mapM_except_ok_iff.2 h2)
      exact ⟨y :: a, b, mapM_except_ok_iff.2 (.cons h1 (mapM_except_ok_iff.1 ha)), hb, rfl⟩

/-- C283: a selection from the whole is the selection from the first part followed by that from the second. -/
theorem C283_filters {cols : List Str} {xs ys a b : List (Row K)} {f : Arg K → Except Err (List (Row K))}
    (hf : f ∈ [removeStable, filterEmitsGamma, filterEmitsBeta, filterEmitsAlpha])
    (ha : f (.frame cols xs) = .ok a) (hb : f (.frame cols ys) = .ok b) : f (.frame cols (xs ++ ys)) = .ok (a ++ b) := by
  have key : ∀ (col : Str) (get : Row K → Option K), filterBy col get (.frame cols xs) = .ok a → filterBy col get (.frame cols ys) = .ok b →
      filterBy col get (.frame cols (xs ++ ys)) = .ok (a ++ b) := by
    intro col get h h'
    unfold filterBy at h h' ⊢
    simp only at h h' ⊢
    split_ifs at h h' ⊢ with hc
    cases h
    cases h'
    rw [List.filter_append]
  simp only [List.mem_cons, List.not_mem_nil, or_false] at hf
  rcases hf with rfl | rfl | rfl | rfl <;> exact key _ _ ha hb

/-- C283: a nuclide is in the whole when it is in one of the parts. -/
theorem C283_present {cols : List Str} {xs ys : List (Row K)} {nuc : Str} {a b : Bool} (ha : isNucPresent (.frame cols xs) nuc = .ok a)
    (hb : isNucPresent (.frame cols ys) nuc = .ok b) : isNucPresent (.frame cols (xs ++ ys)) nuc = .ok (a || b) := by
  unfold isNucPresent at ha hb ⊢
  simp only at ha hb ⊢
  split_ifs at ha hb ⊢ with hc
  cases ha
  cases hb
  congr 1
  rw [Bool.eq_iff_iff]
  simp

private theorem apply_app {onEmpty : Except Err Unit} {oos : Limits K} {xs ys : List (Row K)} {a b : List Bool}
    (ha : applyOos onEmpty oos xs = .ok a) (hb : applyOos onEmpty oos ys = .ok b) :
    applyOos onEmpty oos (xs ++ ys) = .ok (a ++ b) ∧ a.length = xs.length := by
  have one : ∀ {zs : List (Row K)} {c : List Bool}, applyOos onEmpty oos zs = .ok c →
      zs.mapM (fun r => checkNuclideOos r.nuclide r.act oos 1000) = .ok c := by
    intro zs c h
    cases zs with
    | nil =>
      cases onEmpty with
      | ok u => cases h; rfl
      | error e => cases h
    | cons z zs => exact h
  have h := mapM_app (one ha) (one hb)
  refine ⟨?_, (mapM_except_ok_iff.1 (one ha)).length_eq.symm⟩
  cases xs with
  | nil =>
    have : a = [] := by
      have h2 := one ha
      cases h2
      rfl
    subst this
    exact hb
  | cons x xs => exact h

/-- C283: the whole is out of scope when both parts are. -/
theorem C283_scope {onEmpty : Except Err Unit} {readOOS : Str → Except Err (Limits K)} {cols : List Str} {xs ys : List (Row K)} {path : Str} {a b : Bool}
    (ha : checkInventoryOos onEmpty readOOS (.frame cols xs) path = .ok a) (hb : checkInventoryOos onEmpty readOOS (.frame cols ys) path = .ok b) :
    checkInventoryOos onEmpty readOOS (.frame cols (xs ++ ys)) path = .ok (a && b) := by
  unfold checkInventoryOos at ha hb ⊢
  cases hr : readOOS path with
  | error e => rw [hr] at ha; cases ha
  | ok oos =>
    rw [hr] at ha hb
    unfold removeStable filterBy at ha hb ⊢
    simp only at ha hb ⊢
    split_ifs at ha hb ⊢ with hc
    simp only [List.filter_append] at ha hb ⊢
    cases h1 : applyOos onEmpty oos (xs.filter (fun r => pos r.act)) with
    | error e => rw [h1] at ha; cases ha
    | ok r =>
      cases h2 : applyOos onEmpty oos (ys.filter (fun r => pos r.act)) with
      | error e => rw [h2] at hb; cases hb
      | ok s =>
        rw [h1] at ha
        rw [h2] at hb
        rw [(apply_app h1 h2).1]
        simp only [List.all_append] at ha hb ⊢
        cases hra : r.all id <;> cases hsa : s.all id <;> simp_all

/-- C283: the nuclides of the whole above their limit are those of the parts. -/
theorem C283_above {onEmpty : Except Err Unit} {readOOS : Str → Except Err (Limits K)} {cols : List Str} {xs ys a b : List (Row K)} {path : Str}
    (ha : getNotOosNuclides onEmpty readOOS (.frame cols xs) path = .ok a) (hb : getNotOosNuclides onEmpty readOOS (.frame cols ys) path = .ok b) :
    getNotOosNuclides onEmpty readOOS (.frame cols (xs ++ ys)) path = .ok (a ++ b) := by
  unfold getNotOosNuclides at ha hb ⊢
  cases hr : readOOS path with
  | error e => rw [hr] at ha; cases ha
  | ok oos =>
    rw [hr] at ha hb
    unfold removeStable filterBy at ha hb ⊢
    simp only at ha hb ⊢
    split_ifs at ha hb ⊢ with hc
    simp only [List.filter_append] at ha hb ⊢
    cases h1 : applyOos onEmpty oos (xs.filter (fun r => pos r.act)) with
    | error e => rw [h1] at ha; cases ha
    | ok r =>
      cases h2 : applyOos onEmpty oos (ys.filter (fun r => pos r.act)) with
      | error e => rw [h2] at hb; cases hb
      | ok s =>
        rw [h1] at ha
        rw [h2] at hb
        obtain ⟨h3, hl⟩ := apply_app h1 h2
        rw [h3]
        cases ha
        cases hb
        simp only
        rw [List.zip_append hl.symm, List.filter_append, List.map_append]

/-- C283: the curve of a nuclide that is in one of the parts only at each time is the sum of its curves in the parts. -/
theorem C283_curve_partial {get : Row K → K} {nuc : Str} {cols : List Str} {steps : List (List (Row K) × List (Row K))} {us ws : List K}
    (hu : nucValues get nuc (steps.map (fun s => .frame cols s.1)) = .ok us) (hw : nucValues get nuc (steps.map (fun s => .frame cols s.2)) = .ok ws)
    (h1 : ∀ s ∈ steps, ¬ ((∃ r ∈ s.1, r.nuclide = nuc) ∧ ∃ r ∈ s.2, r.nuclide = nuc)) :
    nucValues get nuc (steps.map (fun s => .frame cols (s.1 ++ s.2))) = .ok (List.zipWith (· + ·) us ws) := by
  unfold nucValues at hu hw ⊢
  induction steps generalizing us ws with
  | nil => cases hu; cases hw; rfl
  | cons s steps ih =>
    rw [List.map_cons, mapM_except_ok_iff] at hu hw ⊢
    cases hu with
    | @cons _ u _ us hu1 hu2 =>
      cases hw with
      | @cons _ w _ ws hw1 hw2 =>
        refine .cons ?_ (mapM_except_ok_iff.1 (ih (mapM_except_ok_iff.2 hu2) (mapM_except_ok_iff.2 hw2) (fun s hs => h1 s (by simp [hs]))))
        have hs := h1 s (by simp)
        by_cases hc : p!"nuclide" ∈ cols
        · simp only [(C44_presence cols _ nuc hc).1] at hu1 hw1 ⊢
          have none : ∀ {l : List (Row K)}, (¬ ∃ r ∈ l, r.nuclide = nuc) → l.filter (fun r => r.nuclide = nuc) = [] := by
            intro l hl
            rw [List.filter_eq_nil_iff]
            intro r hr hn
            exact hl ⟨r, hr, of_decide_eq_true hn⟩
          by_cases hx : ∃ r ∈ s.1, r.nuclide = nuc
          · have hy : ¬ ∃ r ∈ s.2, r.nuclide = nuc := fun hy => hs ⟨hx, hy⟩
            have hxy : ∃ r ∈ s.1 ++ s.2, r.nuclide = nuc := by
              obtain ⟨r, hr, hn⟩ := hx
              exact ⟨r, by simp [hr], hn⟩
            simp only [hx, hy, hxy, decide_true, decide_false] at hu1 hw1 ⊢
            cases hw1
            rw [List.filter_append, none hy, List.append_nil, add_zero]
            exact hu1
          · by_cases hy : ∃ r ∈ s.2, r.nuclide = nuc
            · have hxy : ∃ r ∈ s.1 ++ s.2, r.nuclide = nuc := by
                obtain ⟨r, hr, hn⟩ := hy
                exact ⟨r, by simp [hr], hn⟩
              simp only [hx, hy, hxy, decide_true, decide_false] at hu1 hw1 ⊢
              cases hu1
              rw [List.filter_append, none hx, List.nil_append, zero_add]
              exact hw1
            · have hxy : ¬ ∃ r ∈ s.1 ++ s.2, r.nuclide = nuc := by
                rintro ⟨r, hr, hn⟩
                rcases List.mem_append.1 hr with hr | hr
                · exact hx ⟨r, hr, hn⟩
                · exact hy ⟨r, hr, hn⟩
              simp only [hx, hy, hxy, decide_false] at hu1 hw1 ⊢
              cases hu1
              cases hw1
              rw [add_zero]
        · exfalso
          simp only [isNucPresent, if_pos hc] at hu1
          cases hu1

/-- C283: the chart of the whole is the sum of the charts of the parts, if no two nuclides stand at the same place. -/
theorem C283_chart_partial {num : AVal → Nat} {get : Row K → K} {xs ys : List (Row K)} (h : OnePlace num (xs ++ ys)) {arange zrange : Nat × Nat}
    (ha : arange.2 ≤ 294) (hz : zrange.2 ≤ 118) :
    ∃ d d' e, nucChart num get xs (some arange) (some zrange) = .ok d ∧ nucChart num get ys (some arange) (some zrange) = .ok d' ∧
      nucChart num get (xs ++ ys) (some arange) (some zrange) = .ok e ∧ ∀ a z, e a z = d a z + d' a z := by
  obtain ⟨d, hd, hd1⟩ := C50_chart_partial num get xs arange zrange ha hz
  obtain ⟨d', hd', hd1'⟩ := C50_chart_partial num get ys arange zrange ha hz
  obtain ⟨e, he, he1⟩ := C50_chart_partial num get (xs ++ ys) arange zrange ha hz
  refine ⟨d, d', e, hd, hd', he, ?_⟩
  intro a z
  rw [hd1, hd1', he1]
  split_ifs
  · rw [List.filter_append]
    by_cases hx : ∃ r ∈ xs, Shows num r a z
    · obtain ⟨r, hr, hs⟩ := hx
      have hy : ∀ s ∈ ys, ¬ Shows num s a z := fun s hs' hs2 => (List.pairwise_append.1 h).2.2 r hr s hs' a z ⟨hs, hs2⟩
      rw [(List.filter_eq_nil_iff (l := ys)).2 (fun s hs => by simpa using hy s hs)]
      simp
    · rw [(List.filter_eq_nil_iff (l := xs)).2 (fun s hs => by simpa using fun h => hx ⟨s, hs, h⟩)]
      simp
  · rw [add_zero]

/-- C283: the material of the whole has the nuclides of the parts in order, each fraction multiplied by the share of its part in the atoms. -/
theorem C283_material {fmtZ : Option Nat → Str} {fmtN : Option K → Str} {xs ys : List (Row K)} {lib : Str} {out : List (MatRow K)}
    (h : outputMcnpMat fmtZ fmtN (xs ++ ys) lib = .ok out) {s t : K} (hs : (xs.filterMap (·.atoms)).sum = s) (ht : (ys.filterMap (·.atoms)).sum = t)
    (hs0 : s ≠ 0) (ht0 : t ≠ 0) (hst : s + t ≠ 0) :
    ∃ a b, outputMcnpMat fmtZ fmtN xs lib = .ok a ∧ outputMcnpMat fmtZ fmtN ys lib = .ok b ∧
      out.map (·.zaid) = a.map (·.zaid) ++ b.map (·.zaid) ∧
      out.map (·.norm) = a.map (fun r => r.norm.map (· * (s / (s + t)))) ++ b.map (fun r => r.norm.map (· * (t / (s + t)))) := by
  have key : ∀ (zs : List (Row K)) (w : K) (c : List (MatRow K)), (zs.filterMap (·.atoms)).sum = w → w ≠ 0 →
      zs.mapM (m := Except Err) (fun r => match r.a with
        | .str _ => .error .TypeError
        | .int a =>
          let z := (Constants.zDict.get r.element).map (fun z => z * 1000 + a)
          let n := if s + t = 0 then none else r.atoms.map (fun x => x / (s + t))
          .ok (⟨z, n, p!"     " ++ fmtZ z ++ p!"  " ++ fmtN n⟩ : MatRow K)) = .ok c →
      ∃ a, outputMcnpMat fmtZ fmtN zs lib = .ok a ∧ c.map (·.zaid) = a.map (·.zaid) ∧
        c.map (·.norm) = a.map (fun r => r.norm.map (· * (w / (s + t)))) := by
    intro zs w c hw hw0 hc
    unfold outputMcnpMat
    rw [hw]
    clear hw
    induction zs generalizing c with
    | nil => cases hc; exact ⟨[], rfl, rfl, rfl⟩
    | cons r zs ih =>
      rw [mapM_except_ok_iff] at hc
      cases hc with
      | @cons _ m _ ms h1 h2 =>
        obtain ⟨a, ha, hz, hn⟩ := ih ms (mapM_except_ok_iff.2 h2)
        cases hra : r.a with
        | str x => rw [hra] at h1; cases h1
        | int x =>
          rw [hra] at h1
          cases h1
          refine ⟨_ :: a, mapM_except_ok_iff.2 (.cons (by rw [hra]) (mapM_except_ok_iff.1 ha)), ?_, ?_⟩
          · simp only [List.map_cons, hz]
          · simp only [List.map_cons, hn, if_neg hw0, if_neg hst, Option.map_map]
            congr 2
            funext v
            simp only [Function.comp]
            field_simp
  unfold outputMcnpMat at h
  simp only [List.filterMap_append, List.sum_append, hs, ht] at h
  obtain ⟨c, d, hc, hd, rfl⟩ := mapM_split h
  obtain ⟨a, ha, ha1, ha2⟩ := key xs s c hs hs0 hc
  obtain ⟨b, hb, hb1, hb2⟩ := key ys t d ht ht0 hd
  exact ⟨a, b, ha, hb, by rw [List.map_append, ha1, hb1], by rw [List.map_append, ha2, hb2]⟩

/-- C283: the rows of a list of inventory lines are those of its parts. -/
theorem C283_lines {flt : Str → Option K} {xs ys : List Str} {a b : List (FispactOutput.InvRow K)} (ha : xs.mapM (FispactOutput.invRow flt) = .ok a)
    (hb : ys.mapM (FispactOutput.invRow flt) = .ok b) : (xs ++ ys).mapM (FispactOutput.invRow flt) = .ok (a ++ b) := mapM_app ha hb

/-- C283 is violated when a nuclide is in both parts: its curve is that of the first part, whatever there is of it in the second. -/
theorem C283_both_violated {get : Row K → K} {nuc : Str} {cols : List Str} {xs ys : List (Row K)} {u w : K}
    (hx : ∃ r ∈ xs, r.nuclide = nuc) (hu : nucValues get nuc [.frame cols xs] = .ok [u]) (_hw : nucValues get nuc [.frame cols ys] = .ok [w]) (hw0 : w ≠ 0) :
    nucValues get nuc [.frame cols (xs ++ ys)] = .ok [u] ∧ nucValues get nuc [.frame cols (xs ++ ys)] ≠ .ok [u + w] := by
  have hval : nucValues get nuc [.frame cols (xs ++ ys)] = .ok [u] := by
    unfold nucValues at hu ⊢
    rw [mapM_except_ok_iff] at hu ⊢
    cases hu with
    | cons h1 _ =>
      refine .cons ?_ .nil
      by_cases hc : p!"nuclide" ∈ cols
      · simp only [(C44_presence cols _ nuc hc).1] at h1 ⊢
        have hxy : ∃ r ∈ xs ++ ys, r.nuclide = nuc := by
          obtain ⟨r, hr, hn⟩ := hx
          exact ⟨r, by simp [hr], hn⟩
        simp only [hx, hxy, decide_true] at h1 ⊢
        rw [List.filter_append]
        cases hf : xs.filter (fun r => r.nuclide = nuc) with
        | nil => rw [hf] at h1; cases h1
        | cons r rs => rw [hf] at h1; exact h1
      · simp only [isNucPresent, if_pos hc] at h1
        cases h1
  refine ⟨hval, ?_⟩
  rw [hval]
  intro h
  have := (List.cons.inj (Except.ok.inj h)).1
  exact hw0 (by linear_combination -this)

private def invA : List (Row ℚ) := [exRow p!"H" 3 5 1, exRow p!"O" 16 0 1]
private def invB : List (Row ℚ) := [exRow p!"Fe" 55 7 2]
private def invCols' : List Str := [p!"nuclide", p!"act", p!"element", p!"A", p!"atoms"]
example : (removeStable (.frame invCols' invA)).map List.length = .ok 1 ∧ (removeStable (.frame invCols' invB)).map List.length = .ok 1 := by decide +kernel
example : nucValues (fun r => r.act.getD 0) p!"H3" [.frame invCols' invA] = .ok [5] ∧ nucValues (fun r => r.act.getD 0) p!"H3" [.frame invCols' invB] = .ok [0] := by
  decide +kernel
example : checkInventoryOos (K := ℚ) (.ok ()) (fun _ => .ok [(p!"Other", some 1)]) (.frame invCols' invA) [] = .ok true ∧
    checkInventoryOos (K := ℚ) (.ok ()) (fun _ => .ok [(p!"Other", some (1 / 1000))]) (.frame invCols' invB) [] = .ok false := by decide +kernel
example : ((outputMcnpMat (fun _ => []) (fun _ => []) (invA ++ invB) p!".70c").map (fun o => o.map (fun r => (r.zaid, r.norm)))) =
    .ok [(some 1003, some (1 / 4)), (some 8016, some (1 / 4)), (some 26055, some (1 / 2))] := by decide +kernel

end Props
