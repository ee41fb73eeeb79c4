/- Lemmas about argmin and argmax. -/
import Verif.Py.Numpy
import Verif.Spec.Common
import Mathlib.Order.Basic

namespace Py
variable {K : Type} [LinearOrder K]

/-- `i` is the first index of a minimal entry. -/
def IsArgmin (l : List K) (i : Nat) : Prop :=
  ∃ a, l[i]? = some a ∧ (∀ x ∈ l, a ≤ x) ∧ ∀ j b, j < i → l[j]? = some b → a < b

/-- `i` is the first index of a maximal entry. -/
def IsArgmax (l : List K) (i : Nat) : Prop :=
  ∃ a, l[i]? = some a ∧ (∀ x ∈ l, x ≤ a) ∧ ∀ j b, j < i → l[j]? = some b → b < a

theorem argminAux_spec (xs : List K) : ∀ (pre : List K) (best : K) (bi : Nat), pre[bi]? = some best →
    (∀ x ∈ pre, best ≤ x) → (∀ j b, j < bi → pre[j]? = some b → best < b) →
    IsArgmin (pre ++ xs) (argminAux best bi pre.length xs) := by
  induction xs with
  | nil =>
    intro pre best bi h1 h2 h3
    rw [List.append_nil, argminAux]
    exact ⟨best, h1, h2, h3⟩
  | cons x xs ih =>
    intro pre best bi h1 h2 h3
    rw [argminAux]
    have hlen : pre.length + 1 = (pre ++ [x]).length := by simp
    rw [show pre ++ x :: xs = (pre ++ [x]) ++ xs by simp, hlen]
    have hbi : bi < pre.length := (List.getElem?_eq_some_iff.1 h1).1
    split
    · next h =>
      apply ih
      · simp
      · intro y hy
        rw [List.mem_append] at hy
        rcases hy with hy | hy
        · exact le_trans (le_of_lt h) (h2 y hy)
        · simp at hy; rw [hy]
      · intro j b hj hb
        rw [List.getElem?_append_left hj] at hb
        exact lt_of_lt_of_le h (h2 b (List.mem_of_getElem? hb))
    · next h =>
      apply ih
      · rw [List.getElem?_append_left hbi]; exact h1
      · intro y hy
        rw [List.mem_append] at hy
        rcases hy with hy | hy
        · exact h2 y hy
        · simp at hy; rw [hy]; exact not_lt.1 h
      · intro j b hj hb
        rw [List.getElem?_append_left (by omega)] at hb
        exact h3 j b hj hb

theorem argmin_spec {l : List K} (h : l ≠ []) : ∃ i, argmin l = .ok i ∧ IsArgmin l i := by
  cases l with
  | nil => exact absurd rfl h
  | cons x xs => exact ⟨_, rfl, argminAux_spec xs [x] x 0 rfl (by simp) (by simp)⟩

theorem argmin_nil : argmin ([] : List K) = .error .ValueError := rfl

theorem argmaxAux_spec (xs : List K) : ∀ (pre : List K) (best : K) (bi : Nat), pre[bi]? = some best →
    (∀ x ∈ pre, x ≤ best) → (∀ j b, j < bi → pre[j]? = some b → b < best) →
    IsArgmax (pre ++ xs) (argmaxAux best bi pre.length xs) := by
  induction xs with
  | nil =>
    intro pre best bi h1 h2 h3
    rw [List.append_nil, argmaxAux]
    exact ⟨best, h1, h2, h3⟩
  | cons x xs ih =>
    intro pre best bi h1 h2 h3
    rw [argmaxAux]
    have hlen : pre.length + 1 = (pre ++ [x]).length := by simp
    rw [show pre ++ x :: xs = (pre ++ [x]) ++ xs by simp, hlen]
    have hbi : bi < pre.length := (List.getElem?_eq_some_iff.1 h1).1
    split
    · next h =>
      apply ih
      · simp
      · intro y hy
        rw [List.mem_append] at hy
        rcases hy with hy | hy
        · exact le_trans (h2 y hy) (le_of_lt h)
        · simp at hy; rw [hy]
      · intro j b hj hb
        rw [List.getElem?_append_left hj] at hb
        exact lt_of_le_of_lt (h2 b (List.mem_of_getElem? hb)) h
    · next h =>
      apply ih
      · rw [List.getElem?_append_left hbi]; exact h1
      · intro y hy
        rw [List.mem_append] at hy
        rcases hy with hy | hy
        · exact h2 y hy
        · simp at hy; rw [hy]; exact not_lt.1 h
      · intro j b hj hb
        rw [List.getElem?_append_left (by omega)] at hb
        exact h3 j b hj hb

theorem argmax_spec {l : List K} (h : l ≠ []) : ∃ i, argmax l = .ok i ∧ IsArgmax l i := by
  cases l with
  | nil => exact absurd rfl h
  | cons x xs => exact ⟨_, rfl, argmaxAux_spec xs [x] x 0 rfl (by simp) (by simp)⟩

theorem argmax_nil : argmax ([] : List K) = .error .ValueError := rfl

end Py
