/- Complete descriptions behind earlier properties: the rounding of the mid points (C51). -/
import Verif.Props.MeshtalAnalysis

set_option linter.unusedSectionVars false

namespace Props
open Py
variable {K : Type} [Field K] [LinearOrder K] [IsStrictOrderedRing K] [FloorRing K]

/-- `r` is `x` rounded to five decimals: the nearest multiple of 10⁻⁵, of two nearest ones the even one. -/
def RoundedTo5 (x r : K) : Prop :=
  ∃ n : Int, r * 10 ^ 5 = n ∧ |(n : K) - x * 10 ^ 5| ≤ 1 / 2 ∧ (|(n : K) - x * 10 ^ 5| = 1 / 2 → Even n)

omit [FloorRing K] in
/-- A number has one rounding only. -/
theorem C51_rounding_unique {x r s : K} (hr : RoundedTo5 x r) (hs : RoundedTo5 x s) : r = s := by
  obtain ⟨n, h1, h2, h3⟩ := hr
  obtain ⟨m, k1, k2, k3⟩ := hs
  have h5 : (10 : K) ^ 5 ≠ 0 := by norm_num
  generalize x * 10 ^ 5 = y at h2 h3 k2 k3
  suffices h : n = m by
    subst h
    exact mul_right_cancel₀ h5 (h1.trans k1.symm)
  by_contra hne
  have hd : (1 : K) ≤ |(n : K) - m| := by
    have : (1 : Int) ≤ |n - m| := Int.one_le_abs (by omega)
    exact_mod_cast this
  have htri : |(n : K) - m| ≤ |(n : K) - y| + |(m : K) - y| := by
    have := abs_sub_le (n : K) y m
    rwa [abs_sub_comm y (m : K)] at this
  have e1 : |(n : K) - y| = 1 / 2 := le_antisymm h2 (by linarith)
  have e2 : |(m : K) - y| = 1 / 2 := le_antisymm k2 (by linarith)
  have hd1 : |(n : K) - m| ≤ 1 := by linarith
  have hi : |n - m| ≤ 1 := by exact_mod_cast hd1
  obtain ⟨a, ha⟩ := h3 e1
  obtain ⟨b, hb⟩ := k3 e2
  rw [abs_le] at hi
  omega

private theorem denotes_iff (flt : Str → Option K) (bounds : List (Meshtal.Bnd K)) (b : List K) :
    Denotes flt bounds b ↔ bounds.mapM (Meshtal.Bnd.toF flt) = .ok b := by
  rw [mapM_except_ok_iff]
  unfold Denotes
  constructor <;> intro h <;> refine List.Forall₂.imp ?_ h <;> intro t x ht <;> cases t with
    | str s => cases hs : flt s <;> simp_all [Meshtal.Bnd.toF, orErr]
    | num y => simpa [Meshtal.Bnd.toF] using ht

private theorem rint_spec (x : K) : |(Meshtal.rint x : K) - x| = 1 / 2 → Even (Meshtal.rint x) := by
  have h1 := Int.fract_nonneg x
  have h2 := Int.fract_lt_one x
  have h3 := Int.floor_add_fract x
  intro h
  unfold Meshtal.rint at h ⊢
  simp only at h ⊢
  split_ifs at h ⊢ with ha hb hc
  · exfalso
    rw [abs_of_nonpos (by linarith)] at h
    linarith
  · exfalso
    push_cast at h
    rw [abs_of_nonneg (by linarith)] at h
    linarith
  · exact Int.even_iff.2 hc
  · exact Int.even_add_one.2 (by rw [Int.even_iff]; exact hc)

/-- The mid points are the means of consecutive bounds, rounded to five decimals. -/
theorem C51_rounding (flt : Str → Option K) (bounds : List (Meshtal.Bnd K)) (b ms : List K) (hb : Denotes flt bounds b)
    (h : Meshtal.calcMidPoints flt bounds = .ok ms) (i : Nat) (m lo hi : K) (hm : ms[i]? = some m) (hlo : b[i]? = some lo) (hhi : b[i + 1]? = some hi) :
    RoundedTo5 ((lo + hi) / 2) m := by
  rw [denotes_iff] at hb
  unfold Meshtal.calcMidPoints at h
  rw [hb] at h
  simp only [Except.ok.injEq, bind, Except.bind, pure, Except.pure] at h
  subst h
  rw [List.getElem?_zipWith] at hm
  rw [List.getElem?_tail, hhi, hlo] at hm
  simp only [Option.some.injEq] at hm
  subst hm
  have he : (hi + lo) * (1 / 2) = (lo + hi) / 2 := by ring
  rw [he]
  refine ⟨Meshtal.rint ((lo + hi) / 2 * 100000), ?_, ?_, ?_⟩
  · unfold Meshtal.round5
    norm_num
  · have := Meshtal.rint_close ((lo + hi) / 2 * 100000)
    norm_num at this ⊢
    exact this
  · have := rint_spec ((lo + hi) / 2 * 100000)
    norm_num at this ⊢
    exact this

example : RoundedTo5 (1 / 200000 : ℚ) 0 := ⟨0, by norm_num, by norm_num, fun _ => by decide⟩
example : RoundedTo5 (3 / 200000 : ℚ) (2 / 100000) := ⟨2, by norm_num, by norm_num [abs_of_pos], fun _ => by decide⟩

end Props
