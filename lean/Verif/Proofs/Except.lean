/- Sequencing in `Except`. -/
import Verif.Py.Base
import Verif.Proofs.Str

namespace Py
variable {α β : Type} {e : Err}

theorem ex_bind_ok {x : Except Err α} {f : α → Except Err β} {b : β} :
    (x >>= f) = .ok b ↔ ∃ a, x = .ok a ∧ f a = .ok b := by
  cases x <;> simp [bind, Except.bind]

theorem ex_bind_err {x : Except Err α} {f : α → Except Err β} :
    (x >>= f) = .error e ↔ x = .error e ∨ ∃ a, x = .ok a ∧ f a = .error e := by
  cases x <;> simp [bind, Except.bind]

theorem ex_ok_bind {a : α} {f : α → Except Err β} : ((.ok a : Except Err α) >>= f) = f a := rfl
theorem ex_err_bind {f : α → Except Err β} : ((.error e : Except Err α) >>= f) = .error e := rfl
theorem ex_pure {a : α} : (pure a : Except Err α) = .ok a := rfl

/-- The first piece of a text cut at `c`. -/
def FirstPiece (c : Char) (s w : Str) : Prop := c ∉ w ∧ (s = w ∨ ∃ t, s = w ++ c :: t)

theorem splitOn_zero {c : Char} {s w : Str} : (splitOn c s)[0]? = some w ↔ FirstPiece c s w := by
  unfold splitOn FirstPiece
  constructor
  · intro h
    have hj := join_splitOn c s
    unfold splitOn at hj
    cases hs : splitP (· == c) s with
    | nil => rw [hs] at h; simp at h
    | cons x xs =>
      rw [hs] at h hj
      simp only [List.getElem?_cons_zero, Option.some.injEq] at h
      subst h
      refine ⟨fun hc => ?_, ?_⟩
      · have := mem_splitP (p := (· == c)) (s := s) (w := x) (by rw [hs]; simp) c hc
        simp at this
      · by_cases hx : xs = []
        · subst hx; left; simpa [join] using hj.symm
        · right
          rw [join_cons hx] at hj
          exact ⟨join [c] xs, by rw [← hj]; simp⟩
  · rintro ⟨hw, rfl | ⟨t, rfl⟩⟩
    · rw [splitP_of_not_mem]; · rfl
      intro d hd
      simp only [beq_eq_false_iff_ne, ne_eq]
      rintro rfl; exact hw hd
    · rw [splitP_append_sep (by simp), splitP_of_not_mem]; · rfl
      intro d hd
      simp only [beq_eq_false_iff_ne, ne_eq]
      rintro rfl; exact hw hd

theorem splitOn_one {c : Char} {s w : Str} : (splitOn c s)[1]? = some w ↔
    ∃ a b, s = a ++ c :: b ∧ c ∉ a ∧ FirstPiece c b w := by
  constructor
  · intro h
    obtain ⟨x, hx⟩ : ∃ x, (splitOn c s)[0]? = some x := by
      cases hs : splitOn c s with
      | nil => rw [hs] at h; simp at h
      | cons x xs => exact ⟨x, by simp⟩
    obtain ⟨h1, rfl | ⟨t, rfl⟩⟩ := splitOn_zero.1 hx
    · exfalso
      rw [splitOn, splitP_of_not_mem] at h
      · simp at h
      · intro d hd
        simp only [beq_eq_false_iff_ne, ne_eq]
        rintro rfl; exact h1 hd
    · refine ⟨x, t, rfl, h1, ?_⟩
      rw [← splitOn_zero]
      rw [splitOn, splitP_append_sep (by simp), splitP_of_not_mem] at h
      · simpa [splitOn] using h
      · intro d hd
        simp only [beq_eq_false_iff_ne, ne_eq]
        rintro rfl; exact h1 hd
  · rintro ⟨a, b, rfl, ha, hw⟩
    rw [← splitOn_zero] at hw
    rw [splitOn, splitP_append_sep (by simp), splitP_of_not_mem]
    · simpa [splitOn] using hw
    · intro d hd
      simp only [beq_eq_false_iff_ne, ne_eq]
      rintro rfl; exact ha hd

theorem splitOn_length_lt_two {c : Char} {s : Str} : (splitOn c s).length < 2 ↔ c ∉ s := by
  constructor
  · intro h hc
    obtain ⟨a, b, rfl, ha⟩ := List.eq_append_cons_of_mem hc
    have : (splitOn c (a ++ c :: b))[1]? ≠ none := by
      rw [splitOn, splitP_append_sep (by simp), splitP_of_not_mem]
      · have := splitP_ne_nil (· == c) b
        cases hb : splitP (· == c) b <;> simp_all
      · intro d hd
        simp only [beq_eq_false_iff_ne, ne_eq]
        rintro rfl; exact ha hd
    rw [ne_eq, List.getElem?_eq_none_iff] at this
    omega
  · intro h
    rw [splitOn, splitP_of_not_mem]
    · simp
    · intro d hd
      simp only [beq_eq_false_iff_ne, ne_eq]
      rintro rfl; exact h hd

end Py
