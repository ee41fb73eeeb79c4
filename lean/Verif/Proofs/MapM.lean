/- `mapM` in `Except`. -/
import Verif.Py.Base
import Mathlib.Data.List.Forall2

namespace Py
variable {α β : Type} {f : α → Except Err β}

theorem mapM_except_nil : ([] : List α).mapM f = .ok [] := rfl

theorem mapM_except_cons_ok {a : α} {b : β} {l : List α} (h : f a = .ok b) :
    (a :: l).mapM f = (l.mapM f).map (b :: ·) := by
  rw [List.mapM_cons, h]
  cases l.mapM f <;> rfl

theorem mapM_except_cons_err {a : α} {e : Err} {l : List α} (h : f a = .error e) :
    (a :: l).mapM f = .error e := by
  rw [List.mapM_cons, h]; rfl

theorem mapM_except_ok_iff {l : List α} {r : List β} :
    l.mapM f = .ok r ↔ List.Forall₂ (fun a b => f a = .ok b) l r := by
  induction l generalizing r with
  | nil =>
    rw [mapM_except_nil]
    constructor
    · intro h; simp only [Except.ok.injEq] at h; subst h; exact .nil
    · intro h; cases h; rfl
  | cons a l ih =>
    cases hf : f a with
    | error e =>
      rw [mapM_except_cons_err hf]
      constructor
      · intro h; simp at h
      · intro h; cases h with
        | cons h1 _ => rw [hf] at h1; simp at h1
    | ok b =>
      rw [mapM_except_cons_ok hf]
      constructor
      · intro h
        cases hl : l.mapM f with
        | error e => rw [hl] at h; simp [Except.map] at h
        | ok r' =>
          rw [hl] at h
          simp only [Except.map, Except.ok.injEq] at h
          subst h
          exact .cons hf (ih.1 hl)
      · intro h
        cases h with
        | cons h1 h2 =>
          rw [hf] at h1
          simp only [Except.ok.injEq] at h1
          subst h1
          rw [ih.2 h2]; rfl

theorem mapM_except_err {l : List α} {e : Err} (h : l.mapM f = .error e) : ∃ a ∈ l, f a = .error e := by
  induction l with
  | nil => rw [mapM_except_nil] at h; simp at h
  | cons a l ih =>
    cases hf : f a with
    | error e' =>
      rw [mapM_except_cons_err hf] at h
      simp only [Except.error.injEq] at h
      subst h
      exact ⟨a, by simp, hf⟩
    | ok b =>
      rw [mapM_except_cons_ok hf] at h
      cases hl : l.mapM f with
      | error e' =>
        rw [hl] at h
        simp only [Except.map, Except.error.injEq] at h
        subst h
        obtain ⟨x, hx, hfx⟩ := ih hl
        exact ⟨x, by simp [hx], hfx⟩
      | ok r => rw [hl] at h; simp [Except.map] at h

theorem mapM_except_ok_of {l : List α} {g : α → β} (h : ∀ a ∈ l, f a = .ok (g a)) : l.mapM f = .ok (l.map g) := by
  rw [mapM_except_ok_iff, List.forall₂_map_right_iff]
  exact List.forall₂_same.2 h

/-- All single steps raise only `e`, and one of them does. -/
theorem mapM_except_err_of {l : List α} {e : Err} (hall : ∀ a ∈ l, ∀ e', f a = .error e' → e' = e)
    (h : ∃ a ∈ l, ∃ e', f a = .error e') : l.mapM f = .error e := by
  cases hl : l.mapM f with
  | error e' =>
    obtain ⟨a, ha, he⟩ := mapM_except_err hl
    rw [hall a ha e' he]
  | ok r =>
    exfalso
    rw [mapM_except_ok_iff] at hl
    obtain ⟨a, ha, e', he⟩ := h
    obtain ⟨i, hi, rfl⟩ := List.mem_iff_getElem.1 ha
    have := hl.get hi (hl.length_eq ▸ hi)
    simp only [List.get_eq_getElem] at this
    rw [he] at this
    simp at this

end Py
