/- Helper lemmas for fispact_analysis.py. -/
import Verif.Model.FispactAnalysis
import Mathlib.Algebra.Order.Field.Basic

set_option linter.unusedSectionVars false

namespace FispactAnalysis
open Py
variable {K : Type} [Field K] [LinearOrder K] [IsStrictOrderedRing K]

theorem filter_first (n : Str) (l : Option K) (a b : Limits K) (h : ∀ r ∈ a, r.1 ≠ n) :
    (a ++ (n, l) :: b).filter (fun r => decide (r.1 = n)) = (n, l) :: b.filter (fun r => decide (r.1 = n)) := by
  rw [List.filter_append, List.filter_eq_nil_iff.2 (by intro x hx; simpa using h x hx), List.filter_cons]
  simp

theorem filter_none (n : Str) (a : Limits K) (h : ∀ r ∈ a, r.1 ≠ n) : a.filter (fun r => decide (r.1 = n)) = [] := by
  rw [List.filter_eq_nil_iff]
  intro x hx
  simpa using h x hx

theorem exists_first {n : Str} {oos : Limits K} (h : ∃ r ∈ oos, r.1 = n) :
    ∃ l a b, oos = a ++ (n, l) :: b ∧ ∀ r ∈ a, r.1 ≠ n := by
  induction oos with
  | nil => simp at h
  | cons x xs ih =>
    by_cases hx : x.1 = n
    · exact ⟨x.2, [], xs, by rw [← hx]; rfl, by simp⟩
    · obtain ⟨r, hr, hn⟩ := h
      rcases List.mem_cons.1 hr with rfl | hr
      · exact absurd hn hx
      · obtain ⟨l, a, b, h1, h2⟩ := ih ⟨r, hr, hn⟩
        refine ⟨l, x :: a, b, by rw [h1]; rfl, ?_⟩
        intro r hr
        rcases List.mem_cons.1 hr with rfl | hr
        · exact hx
        · exact h2 r hr

theorem exists_first_row {nuc : Str} {rows : List (Row K)} (h : ∃ r ∈ rows, r.nuclide = nuc) :
    ∃ a r b, rows = a ++ r :: b ∧ (∀ x ∈ a, x.nuclide ≠ nuc) ∧ r.nuclide = nuc := by
  induction rows with
  | nil => simp at h
  | cons x xs ih =>
    by_cases hx : x.nuclide = nuc
    · exact ⟨[], x, xs, rfl, by simp, hx⟩
    · obtain ⟨r, hr, hn⟩ := h
      rcases List.mem_cons.1 hr with rfl | hr
      · exact absurd hn hx
      · obtain ⟨a, r', b, h1, h2, h3⟩ := ih ⟨r, hr, hn⟩
        refine ⟨x :: a, r', b, by rw [h1]; rfl, ?_, h3⟩
        intro y hy
        rcases List.mem_cons.1 hy with rfl | hy
        · exact hx
        · exact h2 y hy

open Classical in
/-- The element-wise application, when every single decision is made. -/
theorem apply_spec (onEmpty : Except Err Unit) (oos : Limits K) (rows : List (Row K)) (P : Row K → Prop)
    (h : ∀ r ∈ rows, ∃ b, checkNuclideOos r.nuclide r.act oos 1000 = .ok b ∧ (b = false ↔ P r))
    (hne : rows ≠ [] ∨ onEmpty = .ok ()) :
    ∃ res, applyOos onEmpty oos rows = .ok res ∧
      ((rows.zip res).filter (fun p => !p.2)).map (·.1) = rows.filter (fun r => decide (P r)) ∧
      (res.all id = true ↔ ∀ r ∈ rows, ¬ P r) := by
  have key : ∀ rows : List (Row K),
      (∀ r ∈ rows, ∃ b, checkNuclideOos r.nuclide r.act oos 1000 = .ok b ∧ (b = false ↔ P r)) →
      ∃ res, rows.mapM (fun r => checkNuclideOos r.nuclide r.act oos 1000) = .ok res ∧
        ((rows.zip res).filter (fun p => !p.2)).map (·.1) = rows.filter (fun r => decide (P r)) ∧
        (res.all id = true ↔ ∀ r ∈ rows, ¬ P r) := by
    intro rows
    induction rows with
    | nil => intro _; exact ⟨[], rfl, rfl, by simp⟩
    | cons r rs ih =>
      intro h
      obtain ⟨res, h1, h2, h3⟩ := ih (fun r hr => h r (by simp [hr]))
      obtain ⟨b, hb, hbi⟩ := h r (by simp)
      refine ⟨b :: res, ?_, ?_, ?_⟩
      · rw [List.mapM_cons, hb, h1]; rfl
      · rw [List.zip_cons_cons, List.filter_cons, List.filter_cons]
        cases b with
        | true => 
          have : ¬ P r := by intro hp; simpa using hbi.2 hp
          simp [this, h2]
        | false =>
          have : P r := hbi.1 rfl
          simp [this, h2]
      · rw [List.all_cons, Bool.and_eq_true, h3]
        simp only [id, List.mem_cons, forall_eq_or_imp]
        have : b = true ↔ ¬ P r := by rw [← hbi]; simp
        rw [this]
  cases rows with
  | nil =>
    rcases hne with h | h
    · exact absurd rfl h
    · exact ⟨[], by rw [applyOos, h]; rfl, rfl, by simp⟩
  | cons r rs => exact key (r :: rs) h

theorem chart_spec (num : AVal → Nat) (get : Row K → K) (inv : List (Row K)) (ar zr : Nat × Nat)
    (ha : ar.2 ≤ 294) (hz : zr.2 ≤ 118) :
    ∃ d, nucChart num get inv (some ar) (some zr) = .ok d ∧
      ∀ a z, d a z = if ar.1 ≤ a ∧ a < ar.2 ∧ zr.1 ≤ z ∧ z < zr.2 then
        (((inv.filter (fun r => decide (num r.a = a) && decide (Constants.zDict.get r.element = some z))).getLast?).map
          get).getD 0 else 0 := by
  unfold nucChart
  simp only [Option.getD_some]
  have key : ∀ (inv : List (Row K)) (d0 : Chart K), ∃ d, inv.foldlM (fun (d : Chart K) r =>
      match Constants.zDict.get r.element with
      | none => (.ok d : Except Err (Chart K))
      | some z =>
        if ar.1 ≤ num r.a ∧ num r.a < ar.2 ∧ zr.1 ≤ z ∧ z < zr.2 then
          if num r.a < 294 ∧ z < 118 then .ok (fun a' z' => if a' = num r.a ∧ z' = z then get r else d a' z')
          else .error .IndexError
        else .ok d) d0 = .ok d ∧
      ∀ a z, d a z = if ar.1 ≤ a ∧ a < ar.2 ∧ zr.1 ≤ z ∧ z < zr.2 then
        (((inv.filter (fun r => decide (num r.a = a) && decide (Constants.zDict.get r.element = some z))).getLast?).map
          get).getD (d0 a z) else d0 a z := by
    intro inv
    induction inv with
    | nil => intro d0; exact ⟨d0, rfl, fun a z => by simp⟩
    | cons r rs ih =>
      intro d0
      rw [List.foldlM_cons]
      cases hel : Constants.zDict.get r.element with
      | none =>
        obtain ⟨d, h1, h2⟩ := ih d0
        refine ⟨d, h1, ?_⟩
        intro a z
        rw [h2 a z, List.filter_cons]
        simp [hel]
      | some z0 =>
        simp only
        by_cases hv : ar.1 ≤ num r.a ∧ num r.a < ar.2 ∧ zr.1 ≤ z0 ∧ z0 < zr.2
        · rw [if_pos hv, if_pos (by omega)]
          obtain ⟨d, h1, h2⟩ := ih (fun a' z' => if a' = num r.a ∧ z' = z0 then get r else d0 a' z')
          refine ⟨d, h1, ?_⟩
          intro a z
          rw [h2 a z, List.filter_cons]
          by_cases hc : a = num r.a ∧ z = z0
          · obtain ⟨rfl, rfl⟩ := hc
            simp only [hv, and_self, if_true, hel, decide_true, Bool.and_self]
            rw [List.getLast?_cons]
            cases (rs.filter _).getLast? <;> simp
          · have hd : (decide (num r.a = a) && decide (Constants.zDict.get r.element = some z)) = false := by
              rw [hel, Bool.and_eq_false_iff]
              simp only [decide_eq_false_iff_not, Option.some.injEq]
              by_cases h : num r.a = a
              · right; intro h'; exact hc ⟨h.symm, h'.symm⟩
              · exact Or.inl h
            rw [hd]
            simp [hc]
        · rw [if_neg hv]
          obtain ⟨d, h1, h2⟩ := ih d0
          refine ⟨d, h1, ?_⟩
          intro a z
          rw [h2 a z, List.filter_cons]
          by_cases hc : a = num r.a ∧ z = z0
          · obtain ⟨rfl, rfl⟩ := hc
            rw [if_neg hv, if_neg hv]
          · have hd : (decide (num r.a = a) && decide (Constants.zDict.get r.element = some z)) = false := by
              rw [hel, Bool.and_eq_false_iff]
              simp only [decide_eq_false_iff_not, Option.some.injEq]
              by_cases h : num r.a = a
              · right; intro h'; exact hc ⟨h.symm, h'.symm⟩
              · exact Or.inl h
            rw [hd]
            simp
  exact key inv (fun _ _ => 0)

end FispactAnalysis
