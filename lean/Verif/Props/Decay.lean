/-
C284: less activity never brings an inventory back into scope.
-/
import Verif.Props.FispactAnalysis

set_option linter.unusedSectionVars false

namespace Props
open Py FispactAnalysis
variable {K : Type} [Field K] [LinearOrder K] [IsStrictOrderedRing K]

/-- Spec: the second table has the nuclides of the first, none of them with more activity. -/
def Decayed (rows rows' : List (Row K)) : Prop :=
  List.Forall₂ (fun r r' => r'.nuclide = r.nuclide ∧ ∀ v', r'.act = some v' → ∃ v, r.act = some v ∧ v' ≤ v) rows rows'

/-- Spec: the second table of limits has the names of the first, none of them with a lower limit. -/
def Raised (oos oos' : Limits K) : Prop :=
  List.Forall₂ (fun l l' => l'.1 = l.1 ∧ ∀ v', l'.2 = some v' → ∃ v, l.2 = some v ∧ v ≤ v') oos oos'

private theorem check_iff {onEmpty : Except Err Unit} {readOOS : Str → Except Err (Limits K)} {cols : List Str} {rows : List (Row K)} {path : Str}
    {oos : Limits K} (hr : readOOS path = .ok oos) {b : Bool} (h : checkInventoryOos onEmpty readOOS (.frame cols rows) path = .ok b) :
    b = true ↔ ∀ r ∈ rows, pos r.act = true → checkNuclideOos r.nuclide r.act oos 1000 = .ok true := by
  unfold checkInventoryOos at h
  rw [hr] at h
  unfold removeStable filterBy at h
  simp only at h
  split_ifs at h with hc
  simp only at h
  cases hl : rows.filter (fun r => pos r.act) with
  | nil =>
    rw [hl] at h
    have hno : ∀ r ∈ rows, pos r.act = true → checkNuclideOos r.nuclide r.act oos 1000 = .ok true := by
      intro r hr hp
      rw [List.filter_eq_nil_iff] at hl
      exact absurd hp (by simpa using hl r hr)
    cases onEmpty with
    | error e => cases h
    | ok u =>
      cases h
      exact ⟨fun _ => hno, fun _ => rfl⟩
  | cons x xs =>
    rw [hl] at h
    cases hm : applyOos onEmpty oos (x :: xs) with
    | error e => rw [hm] at h; cases h
    | ok res =>
      rw [hm] at h
      have hb : b = res.all id := by
        simp only at h
        cases ha : res.all id <;> simp_all
      have hm' : (rows.filter (fun r => pos r.act)).mapM (fun r => checkNuclideOos r.nuclide r.act oos 1000) = .ok res := by rw [hl]; exact hm
      rw [mapM_except_ok_iff] at hm'
      rw [hb, List.all_eq_true]
      constructor
      · intro hall r hr hp
        obtain ⟨i, hi, he⟩ := List.mem_iff_getElem.1 (List.mem_filter (p := fun r : Row K => pos r.act) |>.2 ⟨hr, hp⟩)
        have hi' : i < res.length := hm'.length_eq ▸ hi
        have := (List.forall₂_iff_get.1 hm').2 i hi hi'
        simp only [List.get_eq_getElem, he] at this
        have h2 := hall _ (List.getElem_mem hi')
        simp only [id] at h2
        rw [this, h2]
      · intro hall c hcm
        obtain ⟨i, hi, he⟩ := List.mem_iff_getElem.1 hcm
        have hi' : i < (rows.filter (fun r => pos r.act)).length := hm'.length_eq ▸ hi
        have := (List.forall₂_iff_get.1 hm').2 i hi' hi
        simp only [List.get_eq_getElem] at this
        have hmem := List.mem_filter.1 (List.getElem_mem hi')
        rw [hall _ hmem.1 hmem.2, he, Except.ok.injEq] at this
        exact this.symm

/-- C284: an inventory out of scope stays so when no nuclide has more activity. -/
theorem C284_decay {onEmpty : Except Err Unit} {readOOS : Str → Except Err (Limits K)} {cols : List Str} {rows rows' : List (Row K)} {path : Str}
    (hd : Decayed rows rows') (h : checkInventoryOos onEmpty readOOS (.frame cols rows) path = .ok true) {b : Bool}
    (h' : checkInventoryOos onEmpty readOOS (.frame cols rows') path = .ok b) : b = true := by
  cases hr : readOOS path with
  | error e =>
    unfold checkInventoryOos at h
    rw [hr] at h
    cases h
  | ok oos =>
    rw [check_iff hr h']
    have hold := (check_iff hr h).1 rfl
    intro r' hr' hp'
    obtain ⟨i, hi', he⟩ := List.mem_iff_getElem.1 hr'
    have hi : i < rows.length := hd.length_eq ▸ hi'
    have := (List.forall₂_iff_get.1 hd).2 i hi hi'
    simp only [List.get_eq_getElem, he] at this
    obtain ⟨hn, hv⟩ := this
    cases ha' : r'.act with
    | none => rw [ha'] at hp'; cases hp'
    | some v' =>
      rw [ha'] at hp'
      have hv0 : 0 < v' := of_decide_eq_true hp'
      obtain ⟨v, ha, hle⟩ := hv v' ha'
      have hq := hold _ (List.getElem_mem hi) (by rw [ha]; exact decide_eq_true (lt_of_lt_of_le hv0 hle))
      rw [ha] at hq
      rw [hn]
      exact C47_monotone oos _ v v' 1000 1000 (by norm_num) le_rfl hv0.le hle hq

private theorem raised_first {oos oos' : Limits K} (h : Raised oos oos') (n : Str) :
    Raised (oos.filter (fun r => r.1 = n)) (oos'.filter (fun r => r.1 = n)) := by
  unfold Raised at h ⊢
  induction h with
  | nil => exact .nil
  | @cons a b l l' h1 h2 ih =>
    simp only [List.filter_cons, h1.1]
    split
    · exact .cons h1 ih
    · exact ih

private theorem nuclide_raised {oos oos' : Limits K} (h : Raised oos oos') {n : Str} {act : Option K}
    (hc : checkNuclideOos n act oos 1000 = .ok true) : checkNuclideOos n act oos' 1000 = .ok true := by
  have h0 : (1000 : K) ≠ 0 := by norm_num
  have hg : ∀ {x : Option K} {l l' : Option K}, (∀ v', l' = some v' → ∃ v, l = some v ∧ v ≤ v') → gt x l = false → gt x l' = false := by
    intro x l l' hl hx
    cases l' with
    | none => cases x <;> rfl
    | some v' =>
      obtain ⟨v, rfl, hle⟩ := hl v' rfl
      cases x with
      | none => rfl
      | some a =>
        simp only [gt, decide_eq_false_iff_not, not_lt] at hx ⊢
        exact hx.trans hle
  unfold checkNuclideOos at hc ⊢
  simp only [h0, if_false] at hc ⊢
  have h1 := raised_first h n
  have h2 := raised_first h p!"Other"
  generalize oos.filter (fun r => r.1 = n) = a at *
  generalize oos'.filter (fun r => r.1 = n) = a' at *
  generalize oos.filter (fun r => r.1 = p!"Other") = c at *
  generalize oos'.filter (fun r => r.1 = p!"Other") = c' at *
  cases h1 with
  | nil =>
    cases h2 with
    | nil => cases hc
    | @cons x x' _ _ hx _ =>
      simp only [List.map_cons, List.map_nil] at hc ⊢
      split_ifs at hc with hgt <;> try cases hc
      rw [hg hx.2 (by simpa using hgt)]
      rfl
  | @cons x x' _ _ hx _ =>
    simp only [List.map_cons] at hc ⊢
    split_ifs at hc with hgt <;> try cases hc
    rw [hg hx.2 (by simpa using hgt)]
    rfl

/-- C284: an inventory out of scope stays so when no limit is lowered. -/
theorem C284_limits {onEmpty : Except Err Unit} {readOOS : Str → Except Err (Limits K)} {cols : List Str} {rows : List (Row K)} {path path' : Str}
    {oos oos' : Limits K} (hr : readOOS path = .ok oos) (hr' : readOOS path' = .ok oos') (hd : Raised oos oos')
    (h : checkInventoryOos onEmpty readOOS (.frame cols rows) path = .ok true) {b : Bool}
    (h' : checkInventoryOos onEmpty readOOS (.frame cols rows) path' = .ok b) : b = true := by
  rw [check_iff hr' h']
  intro r hm hp
  exact nuclide_raised hd ((check_iff hr h).1 rfl r hm hp)

/-- C284: from the step that is found on, all time steps of an inventory in which no activity grows are out of scope. -/
theorem C284_steps {onEmpty : Except Err Unit} {readOOS : Str → Except Err (Limits K)} {cols : List Str} {path : Str} {steps : List (Nat × List (Row K))}
    (hd : steps.Pairwise (fun s s' => Decayed s.2 s'.2)) {n : Nat}
    (h : findWhenOos onEmpty readOOS path (steps.map (fun s => (s.1, .frame cols s.2))) = .ok (some n)) :
    ∃ pre s post, steps = pre ++ s :: post ∧ s.1 = n ∧
      (∀ p ∈ pre, checkInventoryOos onEmpty readOOS (.frame cols p.2) p!"data/t1.txt" = .ok false) ∧
      checkInventoryOos onEmpty readOOS (.frame cols s.2) p!"data/t1.txt" = .ok true ∧
      ∀ q ∈ post, ∀ b, checkInventoryOos onEmpty readOOS (.frame cols q.2) p!"data/t1.txt" = .ok b → b = true := by
  induction steps with
  | nil => cases h
  | cons s steps ih =>
    rw [List.map_cons, findWhenOos, defaultOos] at h
    cases hs : checkInventoryOos onEmpty readOOS (.frame cols s.2) p!"data/t1.txt" with
    | error e => rw [hs] at h; cases h
    | ok b =>
      rw [hs] at h
      cases b with
      | true =>
        cases h
        exact ⟨[], s, steps, rfl, rfl, by simp, hs, fun q hq b hb => C284_decay ((List.pairwise_cons.1 hd).1 q hq) hs hb⟩
      | false =>
        obtain ⟨pre, t, post, rfl, h1, h2, h3, h4⟩ := ih (List.pairwise_cons.1 hd).2 h
        refine ⟨s :: pre, t, post, rfl, h1, ?_, h3, h4⟩
        intro p hp
        rcases List.mem_cons.1 hp with rfl | hp
        · exact hs
        · exact h2 p hp

private def youngRow : Row ℚ := exRow p!"H" 3 500 1
private def oldRow : Row ℚ := exRow p!"H" 3 50 1
private def goneRow : Row ℚ := exRow p!"H" 3 0 1
example : Decayed [youngRow] [oldRow] := .cons ⟨rfl, fun v' h => ⟨500, rfl, by cases h; norm_num⟩⟩ .nil
example : Raised (K := ℚ) [(p!"H3", some 1), (p!"Other", none)] [(p!"H3", some 2), (p!"Other", none)] :=
  .cons ⟨rfl, fun v' h => ⟨1, rfl, by cases h; norm_num⟩⟩ (.cons ⟨rfl, fun v' h => by cases h⟩ .nil)
example : findWhenOos (K := ℚ) (.ok ()) (fun _ => .ok [(p!"Other", some (1 / 10))]) [] ([(1, [youngRow]), (2, [oldRow]), (3, [goneRow])].map (fun s => (s.1, .frame [p!"act"] s.2))) =
    .ok (some 2) := by decide +kernel

end Props
