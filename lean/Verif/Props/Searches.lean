/-
C319: the functions that search in lists agree with each other.
-/
import Verif.Props.NeutUtilities

namespace Props
open Py NeutUtilities

private theorem least_mono {P Q : Nat → Prop} (h : ∀ j, P j → Q j) {i : Nat} (hi : Spec.IsLeast P i) : ∃ j, j ≤ i ∧ Spec.IsLeast Q j := by
  classical
  have hq : ∃ j, Q j := ⟨i, h i hi.1⟩
  exact ⟨Nat.find hq, Nat.find_min' hq (h i hi.1), Nat.find_spec hq, fun j hj => Nat.find_min hq hj⟩

/-- C319: a line that starts with the text is not before the first line that has the text anywhere. -/
theorem C319_line_ind {text : Str} {lines : List Str} {i : Nat} (h : findLine text lines text.length = .ok i) :
    ∃ j, j ≤ i ∧ findInd lines text = .ok j := by
  rw [(C03_find_line_cases text lines text.length).1 rfl] at h
  obtain ⟨j, hj, h'⟩ := least_mono (Q := fun j => ∃ s, lines[j]? = some s ∧ text <:+: s) (fun j ⟨l, h1, h2⟩ => ⟨l, h1, h2.isInfix⟩) h
  exact ⟨j, hj, (C05_find_ind_ok lines text j).2 h'⟩

/-- C319: if there is no line with the text, there is none that starts with it. -/
theorem C319_missing {text : Str} {lines : List Str} (h : findInd lines text = .error .ValueError) (num : Nat) :
    findLine text lines num = .error .ValueError := by
  rw [C03_find_line_error]
  refine ⟨rfl, fun l hl ht => ?_⟩
  have := ((C05_find_ind_error lines text _).1 h).2 l hl
  exact this (ht ▸ (List.take_prefix num l).isInfix)

/-- C319: a longer text is not found earlier than its beginning or any part of it. -/
theorem C319_longer_line {text more : Str} {lines : List Str} {i : Nat} (h : findLine (text ++ more) lines (text ++ more).length = .ok i) :
    ∃ j, j ≤ i ∧ findLine text lines text.length = .ok j := by
  rw [(C03_find_line_cases _ lines _).1 rfl] at h
  obtain ⟨j, hj, h'⟩ := least_mono (Q := fun j => ∃ s, lines[j]? = some s ∧ text <+: s)
    (fun j ⟨l, h1, h2⟩ => ⟨l, h1, (List.prefix_append text more).trans h2⟩) h
  exact ⟨j, hj, ((C03_find_line_cases text lines text.length).1 rfl j).2 h'⟩

theorem C319_longer_ind {a sub b : Str} {data : List Str} {i : Nat} (h : findInd data (a ++ sub ++ b) = .ok i) :
    ∃ j, j ≤ i ∧ findInd data sub = .ok j := by
  rw [C05_find_ind_ok] at h
  obtain ⟨j, hj, h'⟩ := least_mono (Q := fun j => ∃ s, data[j]? = some s ∧ sub <:+: s)
    (fun j ⟨l, h1, h2⟩ => ⟨l, h1, List.IsInfix.trans ⟨a, b, rfl⟩ h2⟩) h
  exact ⟨j, hj, (C05_find_ind_ok data sub j).2 h'⟩

private theorem least_after {α : Type} {p : α → Prop} {pre l : List α} (hp : ∀ x ∈ pre, ¬ p x) (i : Nat) :
    Spec.IsLeast (fun j => ∃ x, (pre ++ l)[j]? = some x ∧ p x) (pre.length + i) ↔ Spec.IsLeast (fun j => ∃ x, l[j]? = some x ∧ p x) i := by
  have sh : ∀ j, (pre ++ l)[pre.length + j]? = l[j]? := fun j => by rw [List.getElem?_append_right (by omega)]; simp
  have lo : ∀ j, j < pre.length → ¬ ∃ x, (pre ++ l)[j]? = some x ∧ p x := by
    rintro j hj ⟨x, hx, h⟩
    rw [List.getElem?_append_left hj] at hx
    exact hp x (List.mem_of_getElem? hx) h
  constructor
  · rintro ⟨h1, h2⟩
    refine ⟨by simpa only [sh] using h1, fun j hj h => h2 (pre.length + j) (by omega) (by simpa only [sh] using h)⟩
  · rintro ⟨h1, h2⟩
    refine ⟨by simpa only [sh] using h1, fun j hj h => ?_⟩
    by_cases hl : j < pre.length
    · exact lo j hl h
    · obtain ⟨k, rfl⟩ : ∃ k, j = pre.length + k := ⟨j - pre.length, by omega⟩
      exact h2 k (by omega) (by simpa only [sh] using h)

/-- C319: lines in front that are not searched for only shift what is found. -/
theorem C319_shift {text : Str} {pre lines : List Str} {num : Nat} (i : Nat) :
    ((∀ l ∈ pre, l.take num ≠ text) → (findLine text (pre ++ lines) num = .ok (pre.length + i) ↔ findLine text lines num = .ok i)) ∧
    ((∀ l ∈ pre, ¬ text <:+: l) → (findInd (pre ++ lines) text = .ok (pre.length + i) ↔ findInd lines text = .ok i)) := by
  constructor
  · intro h
    rw [C03_find_line_ok, C03_find_line_ok]
    exact least_after h i
  · intro h
    rw [C05_find_ind_ok, C05_find_ind_ok]
    exact least_after h i

/-- C319: in a list that is not empty, exactly one of the first zero and the first other value is at the start, and the other one ends the run
    that starts there. -/
theorem C319_zeros {K : Type} [Zero K] [DecidableEq K] {v : K} {vals : List K} :
    (v = 0 → findFirstZero (v :: vals) = some 0 ∧ findFirstNonZero (v :: vals) = (findFirstNonZero vals).map (· + 1)) ∧
    (v ≠ 0 → findFirstNonZero (v :: vals) = some 0 ∧ findFirstZero (v :: vals) = (findFirstZero vals).map (· + 1)) := by
  have step : ∀ (f : List K → Option Nat) (p : K → Prop) (hf : ∀ l i, f l = some i ↔ Spec.IsLeast (fun j => ∃ x, l[j]? = some x ∧ p x) i),
      ¬ p v → f (v :: vals) = (f vals).map (· + 1) := by
    intro f p hf hv
    have h : ∀ i, f (v :: vals) = some (1 + i) ↔ f vals = some i := fun i => by
      rw [hf, hf]; exact least_after (pre := [v]) (l := vals) (p := p) (by simpa using hv) i
    apply Option.ext
    intro i
    cases i with
    | zero =>
      simp only [Option.map_eq_some_iff]
      constructor
      · intro h0
        obtain ⟨⟨x, hx, hp⟩, -⟩ := (hf _ _).1 h0
        simp at hx; subst hx; exact absurd hp hv
      · rintro ⟨a, -, h⟩; omega
    | succ i =>
      rw [Nat.add_comm i 1, h i, Option.map_eq_some_iff]
      constructor
      · intro h; exact ⟨i, h, by omega⟩
      · rintro ⟨a, ha, h⟩; rw [ha]; congr 1; omega
  constructor
  · intro hv
    exact ⟨((C06_first_positions (v :: vals) 0).2).2 ⟨⟨v, rfl, hv⟩, by intro j hj; omega⟩,
      step findFirstNonZero (fun x => x ≠ 0) (fun l i => (C06_first_positions l i).1) (by simpa using hv)⟩
  · intro hv
    exact ⟨((C06_first_positions (v :: vals) 0).1).2 ⟨⟨v, rfl, hv⟩, by intro j hj; omega⟩,
      step findFirstZero (fun x => x = 0) (fun l i => (C06_first_positions l i).2) hv⟩

example : findLine p!"ab" [p!"xab", p!"x", p!"abc"] 2 = .ok 2 ∧ findInd [p!"xab", p!"x", p!"abc"] p!"ab" = .ok 0 := by decide +kernel
example : findFirstZero [3, 0, 1] = some 1 ∧ findFirstNonZero [3, 0, 1] = some 0 := by decide +kernel

end Props
