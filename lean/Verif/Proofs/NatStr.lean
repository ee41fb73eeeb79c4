/- Decimal representation of numbers. -/
import Verif.Proofs.Str
import Verif.Py.Str
import Mathlib.Tactic.IntervalCases

namespace Py

theorem natStr_ne_nil (n : Nat) : natStr n ≠ [] := Nat.toDigits_ne_nil

theorem natStr_isDigit {n : Nat} {c : Char} (h : c ∈ natStr n) : c.isDigit = true :=
  Nat.isDigit_of_mem_toDigits (by decide) (by decide) h

theorem isDigit_toNat {c : Char} : c.isDigit = true ↔ 48 ≤ c.toNat ∧ c.toNat ≤ 57 := by
  unfold Char.isDigit
  simp only [Bool.and_eq_true, decide_eq_true_eq, ge_iff_le, UInt32.le_iff_toNat_le]
  rfl

theorem isDigit_not_space {c : Char} (h : c.isDigit = true) : isSpace c = false := by
  rw [isDigit_toNat] at h
  unfold isSpace
  rw [Bool.eq_false_iff]
  simp only [ne_eq, Bool.or_eq_true, Bool.and_eq_true, decide_eq_true_eq, beq_iff_eq]
  omega

theorem toNat_toLower (c : Char) : c.toLower.toNat = if 65 ≤ c.toNat ∧ c.toNat ≤ 90 then c.toNat + 32 else c.toNat := by
  unfold Char.toLower
  have h1 : c.val ≥ 'A'.val ↔ 65 ≤ c.toNat := Iff.rfl
  have h2 : c.val ≤ 'Z'.val ↔ c.toNat ≤ 90 := Iff.rfl
  split
  · rename_i h
    rw [h1, h2] at h
    rw [if_pos h]
    show (c.val + ('a'.val - 'A'.val)).toNat = c.val.toNat + 32
    have : ('a'.val - 'A'.val) = 32 := by decide
    rw [this, UInt32.toNat_add]
    have : c.val.toNat ≤ 90 := h.2
    simp
    omega
  · rename_i h
    rw [h1, h2] at h
    rw [if_neg h]

theorem isDigit_toLower {c : Char} : c.toLower.isDigit = c.isDigit := by
  rw [Bool.eq_iff_iff, isDigit_toNat, isDigit_toNat, toNat_toLower]
  split <;> omega

theorem digit_toLower_self {c : Char} (h : c.isDigit = true) : c.toLower = c := by
  rw [isDigit_toNat] at h
  unfold Char.toLower
  rw [dif_neg]
  rintro ⟨h1, _⟩
  simp only [ge_iff_le, UInt32.le_iff_toNat_le] at h1
  have e1 : ('A'.val).toNat = 65 := rfl
  have e5 : c.toNat = c.val.toNat := rfl
  omega

theorem natDigits_cons {acc : Nat} {c : Char} {cs : Str} (h : c.isDigit = true) :
    natDigits acc (c :: cs) = natDigits (acc * 10 + (c.toNat - 48)) cs := by
  cases cs with
  | nil => simp [natDigits, h]
  | cons d ds =>
    have hu : c ≠ '_' := by rintro rfl; exact absurd h (by decide)
    rw [natDigits.eq_3 _ _ _ (fun _ _ h1 _ => hu h1), if_pos h]

/-- Value of a digit text. -/
def digitsVal (acc : Nat) (s : Str) : Nat := s.foldl (fun a c => a * 10 + (c.toNat - 48)) acc

theorem natDigits_digits {acc : Nat} {s : Str} (h : ∀ c ∈ s, c.isDigit = true) : natDigits acc s = some (digitsVal acc s) := by
  induction s generalizing acc with
  | nil => simp [natDigits, digitsVal]
  | cons c cs ih =>
    rw [natDigits_cons (h c (by simp)), ih (fun d hd => h d (by simp [hd]))]
    rfl

theorem pyNat_digits {s : Str} (hne : s ≠ []) (h : ∀ c ∈ s, c.isDigit = true) : pyNat s = some (digitsVal 0 s) := by
  cases s with
  | nil => exact absurd rfl hne
  | cons c cs =>
    rw [pyNat, if_pos (h c (by simp)), natDigits_digits (fun d hd => h d (by simp [hd]))]
    simp [digitsVal]

theorem digitChar_val {d : Nat} (h : d < 10) : d.digitChar.toNat - 48 = d := by
  interval_cases d <;> rfl

theorem digitsVal_natStr (n : Nat) : digitsVal 0 (natStr n) = n := by
  induction n using Nat.strong_induction_on with
  | _ n ih =>
    unfold natStr
    rw [Nat.toDigits_eq_if (by decide)]
    split
    · rename_i h
      simp [digitsVal, digitChar_val h]
    · rename_i h
      have := ih (n / 10) (by omega)
      unfold natStr at this
      unfold digitsVal at this ⊢
      rw [List.foldl_append, this]
      simp only [List.foldl_cons, List.foldl_nil]
      rw [digitChar_val (by omega)]
      omega

theorem pyNat_natStr (n : Nat) : pyNat (natStr n) = some n := by
  rw [pyNat_digits (natStr_ne_nil n) (fun _ h => natStr_isDigit h), digitsVal_natStr]

theorem natStr_inj {m n : Nat} (h : natStr m = natStr n) : m = n := by
  have := congrArg pyNat h
  rw [pyNat_natStr, pyNat_natStr] at this
  simpa using this

/-- Text without white space is unchanged by `strip`. -/
theorem strip_word {s : Str} (h : ∀ c ∈ s, isSpace c = false) : strip s = s := by
  have h1 : lstrip s = s := by
    unfold lstrip
    cases s with
    | nil => rfl
    | cons c cs => rw [List.dropWhile_cons_of_neg]; simp [h c (by simp)]
  unfold strip
  rw [h1, rstrip_eq_self_iff]
  intro hne
  exact h _ (List.getLast_mem hne)

theorem pyInt_digits {s : Str} (hne : s ≠ []) (h : ∀ c ∈ s, c.isDigit = true) : pyInt s = some (digitsVal 0 s : Int) := by
  have hs : strip s = s := strip_word (fun c hc => isDigit_not_space (h c hc))
  rw [pyInt.eq_def, hs]
  split
  · exact absurd (h '-' (by simp)) (by decide)
  · exact absurd (h '+' (by simp)) (by decide)
  · rw [pyNat_digits hne h]; rfl

theorem pyInt_natStr (n : Nat) : pyInt (natStr n) = some (n : Int) := by
  rw [pyInt_digits (natStr_ne_nil n) (fun _ h => natStr_isDigit h), digitsVal_natStr]

theorem intStr_natCast (n : Nat) : intStr (n : Int) = natStr n := rfl

theorem natStr_lower (n : Nat) : lower (natStr n) = natStr n := by
  unfold lower
  conv_rhs => rw [← List.map_id (natStr n)]
  apply List.map_congr_left
  intro c hc
  exact digit_toLower_self (natStr_isDigit hc)

theorem natDigits_some (acc : Nat) (s : Str) : ∀ {n : Nat}, natDigits acc s = some n → ∀ c ∈ s, c.isDigit = true ∨ c = '_' := by
  fun_induction natDigits acc s with
  | case1 => simp
  | case2 acc c cs hd ih =>
    intro n h
    simp only [List.mem_cons, forall_eq_or_imp]
    exact ⟨.inr trivial, .inl hd, ih h⟩
  | case3 => intro n h; cases h
  | case4 acc d ds _ hd ih =>
    intro n h
    simp only [List.mem_cons, forall_eq_or_imp]
    exact ⟨.inl hd, ih h⟩
  | case5 => intro n h; cases h

theorem pyNat_some {s : Str} {n : Nat} (h : pyNat s = some n) : ∀ c ∈ s, c.isDigit = true ∨ c = '_' := by
  cases s with
  | nil => simp
  | cons d ds =>
    simp only [pyNat] at h
    split at h
    · rename_i hd
      simp only [List.mem_cons, forall_eq_or_imp]
      exact ⟨.inl hd, natDigits_some _ _ h⟩
    · cases h

end Py
